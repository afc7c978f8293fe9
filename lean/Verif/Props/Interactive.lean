import Verif.Proof.SharpCover
import Verif.Spec.Game
import Verif.Props.Coverage
/-! # C82: attackers who choose messages depending on the answers

C81 is about digests that are simply there.  Here an attacker asks for signatures of messages of its choice and
computes digests of its choice, in any order and depending on all the answers.  The message hash is a random
function and the randomisers of the signatures are random. -/

namespace Spx
open Spec

/-- C82 for any parameters and any set of randomisers: the probability that the attacker ends with a pair of randomiser
and message that was not signed but has a covered digest.  Pairs which are signed after they have been hashed count as
`q * t / N` more signatures, if `N` is the number of randomisers. -/
theorem C82_any_parameters (p : Par) {ρ M : Type} [Fintype ρ] [Nonempty ρ] [DecidableEq ρ] [Fintype M] [DecidableEq M]
    (A : Attacker ρ M (Digest p)) {q t : Nat} (hA : A.Within q t) :
    chance (fun w : (ρ × M → Digest p) × (Fin q → ρ) => Won w.1 (A.run w.1 (List.ofFn w.2) [])) ≤
    t * (coverings (q * (1 + t / Fintype.card ρ) / 2 ^ (p.h' * (p.d - 1) + p.h')) p.k 0 / 2 ^ (p.a * p.k)) := by
  classical
  have hD : Fintype.card (Digest p) = Fintype.card (Fin (2 ^ (p.h' * (p.d - 1))) × Fin (2 ^ p.h')) *
      (Digest.perSelection p * Fintype.card (Fin (2 ^ p.a)) ^ p.k) := Cov.card_all (Digest.card_selection (p := p))
  have h := Rom.covered_bound (Digest.keyF (p := p)) (Digest.pickF (p := p)) (Digest.card_selection (p := p)) hD A hA
  have e : ∀ w : (ρ × M → Digest p) × (Fin q → ρ), Rom.WonBy (fun (X : Set (Digest p)) d =>
      ∀ i, ∃ x ∈ X, x.keyF = d.keyF ∧ x.pickF i = d.pickF i) w.1 (A.run w.1 (List.ofFn w.2) []) ↔
      Won w.1 (A.run w.1 (List.ofFn w.2) []) := by
    intro w
    unfold Rom.WonBy Won
    refine exists_congr fun S => exists_congr fun z => and_congr Iff.rfl (and_congr Iff.rfl ⟨fun h i hi => ?_, fun h i => ?_⟩)
    · obtain ⟨x, ⟨y, hy, rfl⟩, h1, h2⟩ := h ⟨i, hi⟩
      exact ⟨y, hy, Digest.key_iff.mpr h1, congrArg Fin.val h2⟩
    · obtain ⟨y, hy, h1, h2⟩ := h i.1 i.2
      exact ⟨_, ⟨y, hy, rfl⟩, Digest.key_iff.mp h1, Fin.ext h2⟩
  simp only [e] at h
  refine h.trans (mul_le_mul_of_nonneg_left ?_ (Nat.cast_nonneg _))
  rw [Digest.card_key, Fintype.card_fin, ← pow_add]
  have hN : (0 : ℚ) < Fintype.card ρ := Nat.cast_pos.mpr Fintype.card_pos
  have h1 := Cone.coverings_mono (a := 1 / ((2 ^ (p.h' * (p.d - 1) + p.h') : ℕ) : ℚ) *
      (q + (t - 1 : ℕ) * (q / Fintype.card ρ))) (a' := q * (1 + t / Fintype.card ρ) / 2 ^ (p.h' * (p.d - 1) + p.h'))
    (c := 1) (by positivity) (by positivity) (by
      have h2 : ((t - 1 : ℕ) : ℚ) ≤ t := by exact_mod_cast Nat.sub_le _ _
      have h3 := mul_le_mul_of_nonneg_right h2 (show (0 : ℚ) ≤ q / Fintype.card ρ by positivity)
      rw [one_mul, one_div_mul_eq_div]
      push_cast
      refine div_le_div_of_nonneg_right ?_ (by positivity)
      have e4 : (q : ℚ) * (1 + t / Fintype.card ρ) = q + t * (q / Fintype.card ρ) := by ring
      rw [e4]
      linarith) (le_refl _) p.k 0
  rw [one_pow, one_mul] at h1
  rw [← Cone.coverings_eq]
  refine le_trans (mul_le_mul_of_nonneg_left h1 (by positivity)) (le_of_eq ?_)
  rw [pow_mul]
  push_cast
  rw [one_div, inv_pow]
  ring

theorem shipped_coverings {P : Params} (hP : P ∈ shipped) :
    ((Cone.row (65 * 2 ^ 58) (2 ^ (P.toSpec.h' * (P.toSpec.d - 1) + P.toSpec.h')) 0)^[P.toSpec.k]
      (List.replicate (P.toSpec.k + 1) 1)).headD 0 * 2 ^ bitSecurity P.toSpec ≤
    (2 ^ (P.toSpec.h' * (P.toSpec.d - 1) + P.toSpec.h')) ^ P.toSpec.k * 2 ^ (P.toSpec.a * P.toSpec.k) := by
  revert P
  decide +kernel

/-- `2 ^ 64` signatures and a 64th more -/
theorem coverings_bits {P : Params} (hP : P ∈ shipped) :
    coverings (65 * 2 ^ 58 / 2 ^ (P.toSpec.h' * (P.toSpec.d - 1) + P.toSpec.h')) P.toSpec.k 0 /
      2 ^ (P.toSpec.a * P.toSpec.k) ≤ 1 / 2 ^ bitSecurity P.toSpec := by
  have h := shipped_coverings hP
  generalize P.toSpec = p at h ⊢
  have e := Cone.coverings_row (65 * 2 ^ 58) (c := 2 ^ (p.h' * (p.d - 1) + p.h')) (Nat.two_pow_pos _) p.k
  have hc : (0 : ℚ) < ((2 ^ (p.h' * (p.d - 1) + p.h') : ℕ) : ℚ) ^ p.k := by positivity
  rw [div_le_div_iff₀ (by positivity) (by positivity), one_mul]
  refine le_of_mul_le_mul_left ?_ hc
  have h' : ((((Cone.row (65 * 2 ^ 58) (2 ^ (p.h' * (p.d - 1) + p.h')) 0)^[p.k]
      (List.replicate (p.k + 1) 1)).headD 0 * 2 ^ bitSecurity p : ℕ) : ℚ) ≤
    ((2 ^ (p.h' * (p.d - 1) + p.h')) ^ p.k * 2 ^ (p.a * p.k) : ℕ) := Nat.cast_le.mpr h
  rw [Nat.cast_mul, ← e] at h'
  push_cast at h' ⊢
  rw [← mul_assoc, show (65 * 2 ^ 58 : ℚ) = 18734974449861263360 by norm_num]
  exact h'

/-- C82: if the attacker computes at most `2 ^ (8 * n - 6)` digests, the probability that it ends with a pair of randomiser
and message that was not signed but has a covered digest is at most `t / 2 ^ b`, where `b` is the bit security stated in
README.md. -/
theorem C82_bit_security {P : Params} (hP : P ∈ shipped) {M : Type} [Fintype M] [DecidableEq M]
    (A : Attacker (Fin P.n → Fin (2 ^ 8)) M (Digest P.toSpec)) {q t : Nat} (hA : A.Within q t) (hq : q ≤ 2 ^ 64)
    (ht : t * 2 ^ 6 ≤ 2 ^ (8 * P.n)) :
    chance (fun w : ((Fin P.n → Fin (2 ^ 8)) × M → Digest P.toSpec) × (Fin q → Fin P.n → Fin (2 ^ 8)) =>
      Won w.1 (A.run w.1 (List.ofFn w.2) [])) ≤ t / 2 ^ bitSecurity P.toSpec := by
  have hb := coverings_bits hP
  refine (C82_any_parameters P.toSpec A hA).trans ?_
  rw [div_eq_mul_one_div (t : ℚ) (2 ^ bitSecurity P.toSpec)]
  refine mul_le_mul_of_nonneg_left (le_trans ?_ hb) (Nat.cast_nonneg _)
  refine div_le_div_of_nonneg_right ?_ (by positivity)
  have e : Fintype.card (Fin P.n → Fin (2 ^ 8)) = 2 ^ (8 * P.n) := by
    rw [Fintype.card_fun, Fintype.card_fin, Fintype.card_fin, ← pow_mul]
  rw [e]
  have h1 : (t : ℚ) / (2 ^ (8 * P.n) : ℕ) ≤ 1 / 64 := by
    rw [div_le_div_iff₀ (by positivity) (by norm_num), one_mul]
    exact_mod_cast ht
  have h2 : (q : ℚ) ≤ 2 ^ 64 := by exact_mod_cast hq
  have h3 := Cone.coverings_mono (a := q * (1 + t / (2 ^ (8 * P.n) : ℕ)) / 2 ^ (P.toSpec.h' * (P.toSpec.d - 1) + P.toSpec.h'))
    (a' := 65 * 2 ^ 58 / 2 ^ (P.toSpec.h' * (P.toSpec.d - 1) + P.toSpec.h')) (c := 1) (by positivity) (by positivity) (by
      rw [one_mul]
      refine div_le_div_of_nonneg_right ?_ (by positivity)
      have h4 : (q : ℚ) * (1 + t / (2 ^ (8 * P.n) : ℕ)) ≤ 2 ^ 64 * (1 + 1 / 64) :=
        mul_le_mul h2 (by linarith) (by positivity) (by positivity)
      refine h4.trans (le_of_eq ?_)
      norm_num) (le_refl _) P.toSpec.k 0
  rw [one_pow, one_mul] at h3
  exact h3

/-- C82 without a bound for `t`. -/
theorem C82_interactive {P : Params} (hP : P ∈ shipped) {M : Type} [Fintype M] [DecidableEq M]
    (A : Attacker (Fin P.n → Fin (2 ^ 8)) M (Digest P.toSpec)) {q t : Nat} (hA : A.Within q t) (hq : q ≤ 2 ^ 64) :
    chance (fun w : ((Fin P.n → Fin (2 ^ 8)) × M → Digest P.toSpec) × (Fin q → Fin P.n → Fin (2 ^ 8)) =>
      Won w.1 (A.run w.1 (List.ofFn w.2) [])) ≤
    t / 2 ^ bitSecurity P.toSpec * (1 + t / 2 ^ (8 * P.n)) ^ P.toSpec.k := by
  have hb := coverings_bits hP
  refine (C82_any_parameters P.toSpec A hA).trans ?_
  have e : Fintype.card (Fin P.n → Fin (2 ^ 8)) = 2 ^ (8 * P.n) := by
    rw [Fintype.card_fun, Fintype.card_fin, Fintype.card_fin, ← pow_mul]
  rw [e, div_eq_mul_one_div (t : ℚ) (2 ^ bitSecurity P.toSpec), mul_assoc]
  refine mul_le_mul_of_nonneg_left ?_ (Nat.cast_nonneg _)
  have h2 : (q : ℚ) ≤ 65 * 2 ^ 58 := by
    have : (q : ℚ) ≤ 2 ^ 64 := by exact_mod_cast hq
    refine this.trans ?_
    norm_num
  have h3 := Cone.coverings_mono (a := q * (1 + t / (2 ^ (8 * P.n) : ℕ)) / 2 ^ (P.toSpec.h' * (P.toSpec.d - 1) + P.toSpec.h'))
    (a' := 65 * 2 ^ 58 / 2 ^ (P.toSpec.h' * (P.toSpec.d - 1) + P.toSpec.h')) (c := 1 + t / 2 ^ (8 * P.n))
    (by positivity) (by positivity) (by
      push_cast
      rw [mul_comm (q : ℚ), mul_div_assoc]
      refine mul_le_mul_of_nonneg_left (div_le_div_of_nonneg_right h2 (by positivity)) (by positivity))
    (le_add_of_nonneg_right (by positivity)) P.toSpec.k 0
  have h5 := mul_le_mul_of_nonneg_right hb (show (0 : ℚ) ≤ (1 + t / 2 ^ (8 * P.n)) ^ P.toSpec.k by positivity)
  refine le_trans ?_ h5
  rw [div_mul_eq_mul_div, mul_comm (coverings _ _ _)]
  exact div_le_div_of_nonneg_right h3 (by positivity)

/-- If `H` is the digest of the scheme under the public key `pk`, and the pairs of randomiser and message of `Q` are `Y` and
those of `m` and `sig` are `z`, a covered digest is what the attacker needs. -/
theorem won_of_covered {p : Par} {S : Spec.Hash} {pk : Bytes} {M : Type} {text : M → Bytes}
    {H : (Fin p.n → Fin (2 ^ 8)) × M → Digest p} (hH : ∀ r μ, (H (r, μ)).bytes =
      S.Hmsg (randomiserBytes r) (pk.take p.n) ((pk.drop p.n).take p.n) (text μ) (digestBytes p))
    {Q : List (Bytes × Bytes)} {m sig : Bytes} {Y : List ((Fin p.n → Fin (2 ^ 8)) × M)} {z : (Fin p.n → Fin (2 ^ 8)) × M}
    (hQ : Y.map (fun y => (randomiserBytes y.1, text y.2)) = Q.map (fun c => (c.2.take p.n, c.1)))
    (hz : (randomiserBytes z.1, text z.2) = (sig.take p.n, m)) (hc : CoveredDigest p S pk Q m sig) :
    Won H (some (Y, z)) := by
  refine ⟨Y, z, rfl, fun hzY => ?_, fun i hi => ?_⟩
  · have h1 : (randomiserBytes z.1, text z.2) ∈ Q.map (fun c => (c.2.take p.n, c.1)) := by
      rw [← hQ]
      exact List.mem_map.mpr ⟨z, hzY, rfl⟩
    obtain ⟨c, hcQ, e⟩ := List.mem_map.mp h1
    exact hc.1 c hcQ (e.trans hz)
  · obtain ⟨c, hcQ, h1, h2⟩ := hc.2 i hi
    have h3 : (c.2.take p.n, c.1) ∈ Y.map (fun y => (randomiserBytes y.1, text y.2)) := by
      rw [hQ]
      exact List.mem_map.mpr ⟨c, hcQ, rfl⟩
    obtain ⟨y, hy, e⟩ := List.mem_map.mp h3
    have ey : (H y).bytes = S.Hmsg (c.2.take p.n) (pk.take p.n) ((pk.drop p.n).take p.n) c.1 (digestBytes p) := by
      rw [hH y.1 y.2, show randomiserBytes y.1 = _ from (Prod.ext_iff.mp e).1, show text y.2 = _ from (Prod.ext_iff.mp e).2]
    have ez : (H z).bytes = S.Hmsg (sig.take p.n) (pk.take p.n) ((pk.drop p.n).take p.n) m (digestBytes p) := by
      rw [hH z.1 z.2, show randomiserBytes z.1 = _ from (Prod.ext_iff.mp hz).1, show text z.2 = _ from (Prod.ext_iff.mp hz).2]
    refine ⟨y, hy, ?_, ?_⟩
    · unfold Digest.key
      rw [ey, ez]
      exact h1
    · unfold Digest.pick
      rw [ey, ez]
      exact h2

/-- C82, the connection with C62: let `H` be the digest of the scheme under the public key `pk`.  If an attack has made
the pairs of randomiser and message of the signatures in `Q` and ends with those of `m` and `sig`, the last outcome of
C62 is what the attacker of C82 needs. -/
theorem C82_forgery {p : Par} {S : Spec.Hash} (L : HashLen p.n S) (pk : Bytes) {M : Type} (text : M → Bytes) :
    ∃ H : (Fin p.n → Fin (2 ^ 8)) × M → Digest p,
      (∀ r μ, (H (r, μ)).bytes =
        S.Hmsg (randomiserBytes r) (pk.take p.n) ((pk.drop p.n).take p.n) (text μ) (digestBytes p)) ∧
      ∀ (Q : List (Bytes × Bytes)) (m sig : Bytes) (Y : List ((Fin p.n → Fin (2 ^ 8)) × M)) (z : (Fin p.n → Fin (2 ^ 8)) × M),
        Y.map (fun y => (randomiserBytes y.1, text y.2)) = Q.map (fun c => (c.2.take p.n, c.1)) →
        (randomiserBytes z.1, text z.2) = (sig.take p.n, m) →
        CoveredDigest p S pk Q m sig → Won H (some (Y, z)) := by
  obtain ⟨H, hH⟩ := Classical.axiomOfChoice fun y : (Fin p.n → Fin (2 ^ 8)) × M => Digest.exists_bytes (p := p)
    (L.Hmsg (randomiserBytes y.1) (pk.take p.n) ((pk.drop p.n).take p.n) (text y.2) (digestBytes p))
  exact ⟨H, fun r μ => hH (r, μ), fun Q m sig Y z hQ hz hc => won_of_covered (fun r μ => hH (r, μ)) hQ hz hc⟩

/-! ## Concrete cases -/

/-- An attacker who asks for the signature of message 0, hashes message 1 with the randomiser it has got, and tries
another randomiser if the digest is not that of the signature. -/
def reuser (p : Par) (n : Nat) : Attacker (Fin n → Fin (2 ^ 8)) (Fin 2) (Digest p) :=
  .sign 0 fun r d => .hash r 1 fun d' => if d' = d then .forge r 1 else .forge (fun _ => 0) 1

theorem reuser_within (p : Par) (n : Nat) : (reuser p n).Within 1 2 := by
  refine ⟨Nat.one_pos, fun r d => ⟨by decide, fun d' => ?_⟩⟩
  by_cases h : d' = d
  · simp only [if_pos h]; exact (by decide : 0 < 1)
  · simp only [if_neg h]; exact (by decide : 0 < 1)

/-- The bound for this attacker and SPHINCS+-128s: 2 / 2^133. -/
example : chance (fun w : ((Fin 16 → Fin (2 ^ 8)) × Fin 2 → Digest (shake_128s true).toSpec) ×
      (Fin 1 → Fin 16 → Fin (2 ^ 8)) => Won w.1 ((reuser (shake_128s true).toSpec 16).run w.1 (List.ofFn w.2) [])) ≤
    2 / 2 ^ 133 := by
  have hb : bitSecurity (shake_128s true).toSpec = 133 := by decide
  have h := C82_bit_security (P := shake_128s true) (by decide) (reuser (shake_128s true).toSpec 16)
    (reuser_within _ _) (by decide) (by decide)
  rw [hb] at h
  exact h

/-- Three trees: all covered by one digest, by two in three ways, or by three. -/
example : coverings 10 3 0 = 10 + 3 * 10 ^ 2 + 10 ^ 3 := by
  norm_num [coverings]

/-- It can succeed: if all digests are the same, they are covered. -/
example (p : Par) (n : Nat) : Won (p := p) (fun _ => fun _ => 0)
    ((reuser p n).run (fun _ => fun _ => 0) (List.ofFn fun _ : Fin 1 => fun _ => 0) []) := by
  refine ⟨[(fun _ => 0, 0)], (fun _ => 0, 1), ?_, ?_, fun i _ => ⟨_, List.mem_singleton.mpr rfl, rfl, rfl⟩⟩
  · simp [reuser, Attacker.run]
  · simp

end Spx
