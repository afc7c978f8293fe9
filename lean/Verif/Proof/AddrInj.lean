import Verif.Proof.Address
import Verif.Proof.Digits
import Verif.Proof.Shipped
import Verif.Spec.Position
/-! Different fields, different address bytes. -/

namespace Spx
open Spec

theorem toBE_length' (k x : Nat) : (toBE k x).length = k := by
  induction k generalizing x with
  | zero => rfl
  | succ k ih => simp [toBE, ih]

theorem toBE_inj {k x y : Nat} (hx : x < 256 ^ k) (hy : y < 256 ^ k) (h : toBE k x = toBE k y) : x = y := by
  have := congrArg beNat h
  rwa [beNat_toBE, beNat_toBE, Nat.mod_eq_of_lt hx, Nat.mod_eq_of_lt hy] at this

/-- Number of bytes the hash functions read from an address: SPX_SHA256_ADDR_BYTES (ref/sha2.h:16) or
SPX_ADDR_BYTES (params header 27). -/
def addrBytes : Family → Nat
  | .sha2 => 22
  | _ => 32

theorem enc_inj {f : Family} {a b : ADRS} (ha : a.OK) (hb : b.OK)
    (h : (enc f a).take (addrBytes f) = (enc f b).take (addrBytes f)) : a = b := by
  have key : ∀ {k1 k2 k3 : Nat}, 1 ≤ k1 → 8 ≤ k2 → 1 ≤ k3 →
      toBE k1 a.layer ++ toBE k2 a.tree ++ toBE k3 a.typ ++ toBE 4 a.w1 ++ toBE 4 a.w2 ++ toBE 4 a.w3 =
      toBE k1 b.layer ++ toBE k2 b.tree ++ toBE k3 b.typ ++ toBE 4 b.w1 ++ toBE 4 b.w2 ++ toBE 4 b.w3 → a = b := by
    intro k1 k2 k3 h1 h2 h3 h
    have p1 : 256 ^ 1 ≤ 256 ^ k1 := Nat.pow_le_pow_right (by omega) h1
    have p2 : 256 ^ 8 ≤ 256 ^ k2 := Nat.pow_le_pow_right (by omega) h2
    have p3 : 256 ^ 1 ≤ 256 ^ k3 := Nat.pow_le_pow_right (by omega) h3
    obtain ⟨a1, a2, a3, a4, a5, a6⟩ := ha
    obtain ⟨b1, b2, b3, b4, b5, b6⟩ := hb
    obtain ⟨h, e6⟩ := List.append_inj' h (by simp [toBE_length'])
    obtain ⟨h, e5⟩ := List.append_inj' h (by simp [toBE_length'])
    obtain ⟨h, e4⟩ := List.append_inj' h (by simp [toBE_length'])
    obtain ⟨h, e3⟩ := List.append_inj' h (by simp [toBE_length'])
    obtain ⟨e1, e2⟩ := List.append_inj' h (by simp [toBE_length'])
    have q1 := toBE_inj (by omega) (by omega) e1
    have q2 := toBE_inj (by omega) (by omega) e2
    have q3 := toBE_inj (by omega) (by omega) e3
    have q4 := toBE_inj (by omega) (by omega) e4
    have q5 := toBE_inj (by omega) (by omega) e5
    have q6 := toBE_inj (by omega) (by omega) e6
    cases a; cases b; simp_all
  have l22 : ∀ a : ADRS, a.enc22.length = 22 := fun a => by simp [ADRS.enc22, toBE_length']
  have l32 : ∀ a : ADRS, a.enc32.length = 32 := fun a => by simp [ADRS.enc32, toBE_length']
  cases f
  · simp only [enc, addrBytes] at h
    rw [List.take_left' (l22 a), List.take_left' (l22 b)] at h
    exact key (by omega) (by omega) (by omega) h
  · simp only [enc, addrBytes] at h
    rw [List.take_of_length_le (by rw [l32]), List.take_of_length_le (by rw [l32])] at h
    exact key (by omega) (by omega) (by omega) h
  · simp only [enc, addrBytes] at h
    rw [List.take_of_length_le (by rw [l32]), List.take_of_length_le (by rw [l32])] at h
    exact key (by omega) (by omega) (by omega) h

/-- Positions of an admissible parameter set have addresses in range. -/
theorem Position.adrs_ok {P : Params} (hP : P.Valid) {p : Position} (h : p.Valid P.toSpec) : p.adrs.OK := by
  have hd := hP.d_le
  have hth : P.treeHeight ≤ 30 := hP.th_le
  have hl := hP.len_le
  have hw : P.toSpec.w ≤ 256 := by rw [toSpec_w hP.w]; rcases hP.w with h | h <;> omega
  have hlen := toSpec_len hP.wots
  have hfh := hP.fh_le
  have hdvd := hP.dvd
  have htb : P.treeHeight * (P.d - 1) ≤ 64 := hP.tree_bits
  rw [Nat.mul_sub_one, hdvd] at htb
  have e1 : P.toSpec.h' = P.treeHeight := rfl
  have e2 : P.toSpec.h = P.fullHeight := rfl
  have e3 : P.toSpec.d = P.d := rfl
  have e4 : P.toSpec.a = P.forsHeight := rfl
  have e5 : P.toSpec.k = P.forsTrees := rfl
  have pk : ∀ {k e : Nat}, e ≤ 30 → k < 2 ^ e → k < 2 ^ 32 := fun he hk =>
    Nat.lt_of_lt_of_le hk (Nat.pow_le_pow_right (by omega) (by omega))
  have pt : ∀ {t l : Nat}, t < 2 ^ (P.fullHeight - (l + 1) * P.treeHeight) → t < 2 ^ 64 := fun {t l} ht =>
    Nat.lt_of_lt_of_le ht (Nat.pow_le_pow_right (by omega) (by
      have : 1 * P.treeHeight ≤ (l + 1) * P.treeHeight := Nat.mul_le_mul_right _ (by omega)
      omega))
  have pt0 : ∀ {t : Nat}, t < 2 ^ (P.fullHeight - P.treeHeight) → t < 2 ^ 64 := fun {t} ht =>
    Nat.lt_of_lt_of_le ht (Nat.pow_le_pow_right (by omega) htb)
  have pf : ∀ {i : Nat}, i < P.forsTrees * 2 ^ P.forsHeight → i < 2 ^ 32 := fun hi =>
    Nat.lt_of_lt_of_le hi hP.fors_idx
  have pfh : ∀ {i h : Nat}, i < P.forsTrees * 2 ^ (P.forsHeight - h) → i < 2 ^ 32 := fun hi =>
    pf (Nat.lt_of_lt_of_le hi (Nat.mul_le_mul_left _ (Nat.pow_le_pow_right (by omega) (by omega))))
  cases p <;> simp only [Position.Valid, e1, e2, e3, e4, e5, hlen] at h
  · obtain ⟨h1, h2, h3, h4⟩ := h
    exact ⟨by show _ < 256; simp [Position.adrs]; omega, pt h2, by simp [Position.adrs, WOTS_HASH, WOTS_PK, TREE, FORS_TREE, FORS_ROOTS, WOTS_PRF, FORS_PRF], pk hth h3,
      by simp [Position.adrs]; omega, by simp [Position.adrs]⟩
  · obtain ⟨h1, h2, h3, h4, h5⟩ := h
    exact ⟨by simp [Position.adrs]; omega, pt h2, by simp [Position.adrs, WOTS_HASH, WOTS_PK, TREE, FORS_TREE, FORS_ROOTS, WOTS_PRF, FORS_PRF], pk hth h3,
      by simp [Position.adrs]; omega, by simp [Position.adrs]; omega⟩
  · obtain ⟨h1, h2, h3⟩ := h
    exact ⟨by simp [Position.adrs]; omega, pt h2, by simp [Position.adrs, WOTS_HASH, WOTS_PK, TREE, FORS_TREE, FORS_ROOTS, WOTS_PRF, FORS_PRF], pk hth h3, by simp [Position.adrs], by simp [Position.adrs]⟩
  · obtain ⟨h1, h2, h3, h4, h5⟩ := h
    exact ⟨by simp [Position.adrs]; omega, pt h2, by simp [Position.adrs, WOTS_HASH, WOTS_PK, TREE, FORS_TREE, FORS_ROOTS, WOTS_PRF, FORS_PRF], by simp [Position.adrs], by simp [Position.adrs]; omega,
      pk (by omega) h5⟩
  · obtain ⟨h1, h2, h3⟩ := h
    exact ⟨by simp [Position.adrs], pt0 h1, by simp [Position.adrs, WOTS_HASH, WOTS_PK, TREE, FORS_TREE, FORS_ROOTS, WOTS_PRF, FORS_PRF], pk hth h2, by simp [Position.adrs], pf h3⟩
  · obtain ⟨h1, h2, h3⟩ := h
    exact ⟨by simp [Position.adrs], pt0 h1, by simp [Position.adrs, WOTS_HASH, WOTS_PK, TREE, FORS_TREE, FORS_ROOTS, WOTS_PRF, FORS_PRF], pk hth h2, by simp [Position.adrs], pf h3⟩
  · obtain ⟨h1, h2, h3, h4, h5⟩ := h
    exact ⟨by simp [Position.adrs], pt0 h1, by simp [Position.adrs, WOTS_HASH, WOTS_PK, TREE, FORS_TREE, FORS_ROOTS, WOTS_PRF, FORS_PRF], pk hth h2, by simp [Position.adrs]; omega, pfh h5⟩
  · obtain ⟨h1, h2⟩ := h
    exact ⟨by simp [Position.adrs], pt0 h1, by simp [Position.adrs, WOTS_HASH, WOTS_PK, TREE, FORS_TREE, FORS_ROOTS, WOTS_PRF, FORS_PRF], pk hth h2, by simp [Position.adrs], by simp [Position.adrs]⟩

theorem Position.adrs_inj {P : Params} {p q : Position} (hp : p.Valid P.toSpec) (hq : q.Valid P.toSpec)
    (h : p.adrs = q.adrs) : p = q := by
  cases p <;> cases q <;>
    simp only [Position.adrs, WOTS_HASH, WOTS_PK, TREE, FORS_TREE, FORS_ROOTS, WOTS_PRF, FORS_PRF, Position.Valid,
      ADRS.mk.injEq] at hp hq h <;>
    first
      | (exfalso; omega)
      | (obtain ⟨h1, h2, h3, h4, h5, h6⟩ := h; subst_vars; rfl)

end Spx
