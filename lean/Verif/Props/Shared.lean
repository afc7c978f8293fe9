import Verif.Props.Many
import Verif.Proof.SharedBound
/-! # C89: a common limit for the tweakable hash when many keys are attacked

In C87 the computations of the tweakable hash are limited for each key, and each key contributes the calls of a
verification.  Here they are limited for all keys together, and the number of keys does not matter for this part of the
bound. -/

namespace Spx
open Spec

section
variable {P : Params} (hP : P ∈ shipped) {ι : Type} [Fintype ι] [DecidableEq ι] {seed : ι → Bytes}
    (hseed : ∀ i, (seed i).length = 3 * P.n) {M : Type} [Fintype M] [DecidableEq M]
    {text : M → Bytes} (inj : ∀ x y, text x = text y → x = y)
    (F : (ι → Bytes) → ManyForger ι (Value P.toSpec) (Fin P.toSpec.n → Fin (2 ^ 8)) M (Digest P.toSpec)) {q t : ι → Nat}
    {u : Nat} (hF : ∀ pk, (F pk).WithinShared q t u) (hq : ∀ i, q i ≤ 2 ^ 64)
include hP hseed inj hF hq

/-- C89: with random hash functions, a forger who is given the public keys of all owners, asks each owner `i` for at most
`q i ≤ 2 ^ 64` signatures of messages and with optional randomness of its choice, computes at most
`t i ≤ 2 ^ (8 * n - 6)` digests for this key, and computes the tweakable hash at most `u` times for all keys together, forges
for any of the keys with probability at most the sum of `t i / 2 ^ b`, plus `2 * (u + v) / 2 ^ (8 * n)`. -/
theorem C89_shared_limit (ht : ∀ i, t i * 2 ^ 6 ≤ 2 ^ (8 * P.n)) :
    chance (SucceedsMany P.toSpec seed text F) ≤
      ∑ i, (t i : ℚ) / 2 ^ bitSecurity P.toSpec + 2 * (u + maxCalls P.toSpec) / 2 ^ (8 * P.n) :=
  Rom.shared_bound hP hseed inj hF fun j A hA => C82_bit_security hP A hA (hq j) (ht j)

/-- C89 without a bound for the numbers `t i`. -/
theorem C89_any_number :
    chance (SucceedsMany P.toSpec seed text F) ≤
      ∑ i, (t i : ℚ) / 2 ^ bitSecurity P.toSpec * (1 + t i / 2 ^ (8 * P.n)) ^ P.toSpec.k +
        2 * (u + maxCalls P.toSpec) / 2 ^ (8 * P.n) :=
  Rom.shared_bound hP hseed inj hF fun j A hA => C82_interactive hP A hA (hq j)

end

/-- C89 implies C87 with a better bound: limits for each key are a limit for all together. -/
theorem C89_sum_of_limits {ι β ρ M D : Type} [Fintype ι] [DecidableEq ι] (F : ManyForger ι β ρ M D) :
    ∀ {q t u : ι → Nat}, F.Within q t u → F.WithinShared q t (∑ i, u i) := by
  induction F with
  | output i m sig => exact fun h => h
  | hash i r m next ih => exact fun h => ⟨h.1, fun d => ih d (h.2 d)⟩
  | tweak i a x next ih =>
    intro q t u h
    have e : ∑ j, u j = ∑ j, Function.update u i (u i - 1) j + 1 := by
      rw [Finset.sum_update_of_mem (Finset.mem_univ i), ← Finset.add_sum_erase Finset.univ u (Finset.mem_univ i),
        Finset.sdiff_singleton_eq_erase]
      have := h.1
      omega
    refine ⟨by omega, fun y => ?_⟩
    rw [e, Nat.add_sub_cancel]
    exact ih y (h.2 y)
  | sign i o m next ih => exact fun h => ⟨h.1, fun y => ih y (h.2 y)⟩

/-! ## Concrete cases -/

/-- A forger who computes the tweakable hash twice; the first answer decides for which key the second time.  It has owner 0
sign a message and gives the signature back for owner 1. -/
def wanderer (p : Par) (pk : Fin 2 → Bytes) : ManyForger (Fin 2) (Value p) (Fin p.n → Fin (2 ^ 8)) (Fin 2) (Digest p) :=
  .tweak 0 (Position.forsLeaf 0 0 0).adrs ((pk 0).take p.n) fun y =>
    .tweak (if y.headD 0 = 0 then 0 else 1) (Position.forsLeaf 0 0 0).adrs y fun _ => passer p pk

/-- The bound for this forger and SPHINCS+-SHA2-128s: two computations of the tweakable hash and one verification -/
example : chance (SucceedsMany (sha2_128s true).toSpec (fun i : Fin 2 => List.replicate 48 (BitVec.ofNat 8 i)) oneByte
      (wanderer (sha2_128s true).toSpec)) ≤
    ∑ _ : Fin 2, ((1 : Nat) : ℚ) / 2 ^ bitSecurity (sha2_128s true).toSpec +
      2 * ((2 : Nat) + maxCalls (sha2_128s true).toSpec) / 2 ^ (8 * (sha2_128s true).n) :=
  C89_shared_limit (P := sha2_128s true) (by decide) (fun _ => List.length_replicate) (text := oneByte) (by decide)
    (wanderer (sha2_128s true).toSpec) (q := fun i => if i = 0 then 1 else 0) (t := fun _ => 1) (u := 2)
    (fun _ => ⟨Nat.two_pos, fun _ => ⟨Nat.one_pos, fun _ => ⟨Nat.one_pos, fun _ _ => Nat.one_pos⟩⟩⟩)
    (fun i => by split <;> decide) fun _ => by decide

/-- Limits for each key would have to add up to 3 at least. -/
example {p : Par} {pk : Fin 2 → Bytes} {q t u : Fin 2 → Nat} (h : (wanderer p pk).Within q t u) : 3 ≤ u 0 + u 1 := by
  obtain ⟨h1, h2⟩ := h
  have h3 := (h2 []).1
  have h4 := (h2 [1]).1
  simp [Function.update] at h3 h4
  omega

/-- The event is possible: if both owners have the same functions and the same seed, the forger succeeds. -/
example {p : Par} (hd : 1 ≤ p.d) {seed : Bytes} (hs : seed.length = 3 * p.n) (ω : Functions p (Fin 2)) :
    SucceedsMany p (fun _ : Fin 2 => seed) oneByte (wanderer p) fun _ => ω := by
  have L : HashLen p.n ((Hash.random ω.1).withRandomisers oneByte ω.2.1 ω.2.2) := Chosen.hashLen _ _ (Rom.random_len ω.1)
  refine ⟨?_, ?_, ?_⟩
  · simp
  · unfold Spec.sign
    simp only [List.length_append]
    rw [forsSig_len L, htSig_len L, L.PRFmsg, Nat.add_assoc]
  · have h := spec_correct L hd (seed := seed) (optrand := randomiserBytes (n := p.n) fun _ => 0) (m := oneByte 0)
      (rest := []) hs
    rw [List.append_nil] at h
    exact h

/-- The limits of C87 for `passer` are a common limit. -/
example {p : Par} (pk : Fin 2 → Bytes) :
    (passer p pk).WithinShared (fun i => if i = 0 then 1 else 0) (fun _ => 1) (∑ _ : Fin 2, 0) :=
  C89_sum_of_limits (passer p pk) ⟨Nat.one_pos, fun _ _ => Nat.one_pos⟩

end Spx
