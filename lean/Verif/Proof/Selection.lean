import Verif.Spec.Coverage
import Verif.Proof.Coverage
import Verif.Proof.Fors
/-! # What digests select -/

namespace Spx
open Spec

theorem leNat_inj {a b : Bytes} (hl : a.length = b.length) (h : leNat a = leNat b) : a = b := by
  rw [← toLE_leNat a, ← toLE_leNat b, hl, h]

/-- Numbers with the same digits -/
theorem mod_eq_of_digits {a x y : Nat} : ∀ k, (∀ i, i < k → x / 2 ^ (a * i) % 2 ^ a = y / 2 ^ (a * i) % 2 ^ a) →
    x % 2 ^ (a * k) = y % 2 ^ (a * k)
  | 0, _ => by simp [Nat.mod_one]
  | k + 1, h => by
    rw [Nat.mul_succ, Nat.pow_add, Nat.mod_mul, Nat.mod_mul, mod_eq_of_digits k fun i hi => h i (by omega), h k (by omega)]

theorem eq_of_mod_div {m x y : Nat} (h1 : x % m = y % m) (h2 : x / m = y / m) : x = y := by
  rw [← Nat.div_add_mod x m, ← Nat.div_add_mod y m, h1, h2]

namespace Spec.Digest
variable {p : Par}

theorem length_bytes (d : Digest p) : d.bytes.length = digestBytes p := by
  unfold bytes
  rw [List.length_ofFn]

theorem bytes_inj {d d' : Digest p} (h : d.bytes = d'.bytes) : d = d' := by
  have h := List.ofFn_injective h
  funext i
  exact congrArg BitVec.toFin (congrFun h i)

/-- Every byte string of the right length is a digest. -/
theorem exists_bytes {b : Bytes} (h : b.length = digestBytes p) : ∃ d : Digest p, d.bytes = b := by
  refine ⟨fun i => (b[i.1]'(by rw [h]; exact i.2)).toFin, ?_⟩
  apply List.ext_getElem
  · rw [length_bytes, h]
  · intro i h1 h2
    exact List.getElem_ofFn _

/-- The three parts of a digest -/
def part1 (d : Digest p) : Bytes := d.bytes.take (mdBytes p)
def part2 (d : Digest p) : Bytes := (d.bytes.drop (mdBytes p)).take (treeBytes p)
def part3 (d : Digest p) : Bytes := (d.bytes.drop (mdBytes p + treeBytes p)).take (leafBytes p)

theorem length_part1 (d : Digest p) : d.part1.length = mdBytes p := by
  unfold part1; rw [List.length_take, length_bytes]; unfold digestBytes; omega
theorem length_part2 (d : Digest p) : d.part2.length = treeBytes p := by
  unfold part2; rw [List.length_take, List.length_drop, length_bytes]; unfold digestBytes; omega
theorem length_part3 (d : Digest p) : d.part3.length = leafBytes p := by
  unfold part3; rw [List.length_take, List.length_drop, length_bytes]; unfold digestBytes; omega

theorem ext_parts {d d' : Digest p} (h1 : d.part1 = d'.part1) (h2 : d.part2 = d'.part2) (h3 : d.part3 = d'.part3) :
    d = d' := by
  have e : ∀ d : Digest p, d.bytes = d.part1 ++ (d.part2 ++ d.part3) := by
    intro d
    have e3 : d.part3 = (d.bytes.drop (mdBytes p)).drop (treeBytes p) := by
      unfold part3
      rw [List.drop_drop, List.take_of_length_le]
      rw [List.length_drop, length_bytes]
      unfold digestBytes
      omega
    rw [e3]
    unfold part1 part2
    rw [List.take_append_drop, List.take_append_drop]
  apply bytes_inj
  rw [e, e, h1, h2, h3]

/-- Key and leaves as elements of finite types -/
def keyF (d : Digest p) : Fin (2 ^ (p.h' * (p.d - 1))) × Fin (2 ^ p.h') :=
  (⟨beNat d.part2 % _, Nat.mod_lt _ (Nat.two_pow_pos _)⟩, ⟨beNat d.part3 % _, Nat.mod_lt _ (Nat.two_pow_pos _)⟩)
def pickF (d : Digest p) (i : Fin p.k) : Fin (2 ^ p.a) := ⟨d.pick i, Nat.mod_lt _ (Nat.two_pow_pos _)⟩

theorem key_eq (d : Digest p) : d.key = (d.keyF.1.1, d.keyF.2.1) := rfl

theorem key_iff {d d' : Digest p} : d.key = d'.key ↔ d.keyF = d'.keyF := by
  rw [key_eq, key_eq, Prod.ext_iff, Prod.ext_iff, Fin.ext_iff, Fin.ext_iff]

/-- The bits of the three parts which select nothing -/
abbrev Rest (p : Par) : Type :=
  Fin (2 ^ (8 * mdBytes p - p.a * p.k)) × Fin (2 ^ (8 * treeBytes p - p.h' * (p.d - 1))) ×
    Fin (2 ^ (8 * leafBytes p - p.h'))

theorem div_lt {x m b : Nat} (h : x < 256 ^ m) (hb : b ≤ 8 * m) : x / 2 ^ b < 2 ^ (8 * m - b) := by
  apply Nat.div_lt_of_lt_mul
  rw [← Nat.pow_add, Nat.add_sub_cancel' hb, Nat.pow_mul]
  exact h

def rest (d : Digest p) : Rest p :=
  (⟨leNat d.part1 / 2 ^ (p.a * p.k), div_lt (d.length_part1 ▸ leNat_lt _)
      (by rw [Nat.mul_comm]; unfold mdBytes; omega)⟩,
    ⟨beNat d.part2 / 2 ^ (p.h' * (p.d - 1)), div_lt (d.length_part2 ▸ beNat_lt _) (by unfold treeBytes; omega)⟩,
    ⟨beNat d.part3 / 2 ^ p.h', div_lt (d.length_part3 ▸ beNat_lt _) (by unfold leafBytes; omega)⟩)

theorem split_injective : Function.Injective fun d : Digest p => (d.keyF, d.pickF, d.rest) := by
  intro d d' h
  obtain ⟨hk, h⟩ := Prod.ext_iff.mp h
  obtain ⟨hp, hr⟩ := Prod.ext_iff.mp h
  obtain ⟨k1, k2⟩ := Prod.ext_iff.mp hk
  obtain ⟨r1, h⟩ := Prod.ext_iff.mp hr
  obtain ⟨r2, r3⟩ := Prod.ext_iff.mp h
  refine ext_parts (leNat_inj (d.length_part1.trans d'.length_part1.symm) (eq_of_mod_div (m := 2 ^ (p.a * p.k)) ?_ ?_))
    (beNat_inj (d.length_part2.trans d'.length_part2.symm) (eq_of_mod_div (Fin.ext_iff.mp k1) (Fin.ext_iff.mp r2)))
    (beNat_inj (d.length_part3.trans d'.length_part3.symm) (eq_of_mod_div (Fin.ext_iff.mp k2) (Fin.ext_iff.mp r3)))
  · exact mod_eq_of_digits p.k fun i hi => Fin.ext_iff.mp (congrFun hp ⟨i, hi⟩)
  · exact Fin.ext_iff.mp r1

theorem card_digest (p : Par) : Fintype.card (Digest p) = 2 ^ (8 * digestBytes p) := by
  rw [Fintype.card_fun, Fintype.card_fin, Fintype.card_fin, Nat.pow_mul]

/-- The number of digests with given selection -/
def perSelection (p : Par) : Nat :=
  2 ^ (8 * mdBytes p - p.a * p.k) * (2 ^ (8 * treeBytes p - p.h' * (p.d - 1)) * 2 ^ (8 * leafBytes p - p.h'))

theorem card_rest (p : Par) : Fintype.card (Rest p) = perSelection p := by
  rw [Fintype.card_prod, Fintype.card_prod, Fintype.card_fin, Fintype.card_fin, Fintype.card_fin]
  rfl

theorem card_key (p : Par) : Fintype.card (Fin (2 ^ (p.h' * (p.d - 1))) × Fin (2 ^ p.h')) =
    2 ^ (p.h' * (p.d - 1)) * 2 ^ p.h' := by
  rw [Fintype.card_prod, Fintype.card_fin, Fintype.card_fin]

theorem perSelection_mul (p : Par) :
    2 ^ (p.h' * (p.d - 1)) * 2 ^ p.h' * ((2 ^ p.a) ^ p.k * perSelection p) = 2 ^ (8 * digestBytes p) := by
  unfold perSelection
  rw [← Nat.pow_mul]
  simp only [← Nat.pow_add]
  congr 1
  have h1 : p.a * p.k ≤ 8 * mdBytes p := by rw [Nat.mul_comm]; unfold mdBytes; omega
  have h2 : p.h' * (p.d - 1) ≤ 8 * treeBytes p := by unfold treeBytes; omega
  have h3 : p.h' ≤ 8 * leafBytes p := by unfold leafBytes; omega
  unfold digestBytes
  omega

theorem split_bijective : Function.Bijective fun d : Digest p => (d.keyF, d.pickF, d.rest) := by
  rw [Fintype.bijective_iff_injective_and_card]
  refine ⟨split_injective, ?_⟩
  rw [card_digest, Fintype.card_prod, card_key, Fintype.card_prod, card_rest, Fintype.card_fun, Fintype.card_fin,
    Fintype.card_fin, perSelection_mul]

theorem card_selection (κ : Fin (2 ^ (p.h' * (p.d - 1))) × Fin (2 ^ p.h')) (c : Fin p.k → Fin (2 ^ p.a)) :
    (Finset.univ.filter fun d : Digest p => d.keyF = κ ∧ d.pickF = c).card = perSelection p := by
  rw [← card_rest, ← Finset.card_univ]
  refine Finset.card_bij (fun d _ => d.rest) (fun _ _ => Finset.mem_univ _) ?_ ?_
  · intro d hd d' hd' h
    simp only [Finset.mem_filter, Finset.mem_univ, true_and] at hd hd'
    apply split_injective
    show (d.keyF, d.pickF, d.rest) = (d'.keyF, d'.pickF, d'.rest)
    rw [hd.1, hd.2, hd'.1, hd'.2, h]
  · intro r _
    obtain ⟨d, hd⟩ := split_bijective.2 (κ, c, r)
    obtain ⟨h1, h⟩ := Prod.ext_iff.mp hd
    obtain ⟨h2, h3⟩ := Prod.ext_iff.mp h
    exact ⟨d, by simp only [Finset.mem_filter, Finset.mem_univ, true_and]; exact ⟨h1, h2⟩, h3⟩

theorem covered_iff {q : Nat} {x : Fin q → Digest p} {d : Digest p} :
    Covered x d ↔ ∀ i, ∃ j, (x j).keyF = d.keyF ∧ (x j).pickF i = d.pickF i := by
  unfold Covered
  simp only [key_iff]
  constructor
  · intro h i
    obtain ⟨j, h1, h2⟩ := h i.1 i.2
    exact ⟨j, h1, Fin.ext h2⟩
  · intro h i hi
    obtain ⟨j, h1, h2⟩ := h ⟨i, hi⟩
    exact ⟨j, h1, Fin.ext_iff.mp h2⟩

end Spec.Digest
end Spx
