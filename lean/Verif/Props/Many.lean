import Verif.Props.Chosen
import Verif.Proof.Many
/-! # C87: forgers who attack many keys at once

The chance of a forgery for any of the keys is at most the sum of the bounds of C85 for each key.  That the library with
random functions is the scheme of an owner is `C85_code`. -/

namespace Spx
open Spec

section
variable {P : Params} (hP : P ∈ shipped) {ι : Type} [Fintype ι] [DecidableEq ι] {seed : ι → Bytes}
    (hseed : ∀ i, (seed i).length = 3 * P.n) {M : Type} [Fintype M] [DecidableEq M]
    {text : M → Bytes} (inj : ∀ x y, text x = text y → x = y)
    (F : (ι → Bytes) → ManyForger ι (Value P.toSpec) (Fin P.toSpec.n → Fin (2 ^ 8)) M (Digest P.toSpec)) {q t u : ι → Nat}
    (hF : ∀ pk, (F pk).Within q t u) (hq : ∀ i, q i ≤ 2 ^ 64)
include hP hseed inj hF hq

/-- C87: with random hash functions, a forger who is given the public keys of all owners, asks each owner `i` for at most
`q i ≤ 2 ^ 64` signatures of messages and with optional randomness of its choice, computes at most
`t i ≤ 2 ^ (8 * n - 6)` digests and the tweakable hash at most `u i` times for this key, forges for any of the keys with
probability at most the sum of `t i / 2 ^ b + 2 * (u i + v) / 2 ^ (8 * n)`. -/
theorem C87_many_keys (ht : ∀ i, t i * 2 ^ 6 ≤ 2 ^ (8 * P.n)) :
    chance (SucceedsMany P.toSpec seed text F) ≤
      ∑ i, ((t i : ℚ) / 2 ^ bitSecurity P.toSpec + 2 * (u i + maxCalls P.toSpec) / 2 ^ (8 * P.n)) :=
  Many.many_bound seed F fun j w =>
    C85_chosen_randomness hP (hseed j) inj (Many.single seed text F w j) (fun _ => Many.only_within _ _ _ _ _ (hF _)) (hq j) (ht j)

/-- C87 without a bound for the numbers `t i`. -/
theorem C87_any_number :
    chance (SucceedsMany P.toSpec seed text F) ≤
      ∑ i, ((t i : ℚ) / 2 ^ bitSecurity P.toSpec * (1 + t i / 2 ^ (8 * P.n)) ^ P.toSpec.k +
        2 * (u i + maxCalls P.toSpec) / 2 ^ (8 * P.n)) :=
  Many.many_bound seed F fun j w =>
    C85_any_number hP (hseed j) inj (Many.single seed text F w j) (fun _ => Many.only_within _ _ _ _ _ (hF _)) (hq j)

end

/-- C87 with the same limits for all of `N` keys: `N` times the bound for one key. -/
theorem C87_same_limits {P : Params} (hP : P ∈ shipped) {N : Nat} {seed : Fin N → Bytes}
    (hseed : ∀ i, (seed i).length = 3 * P.n) {M : Type} [Fintype M] [DecidableEq M] {text : M → Bytes}
    (inj : ∀ x y, text x = text y → x = y)
    (F : (Fin N → Bytes) → ManyForger (Fin N) (Value P.toSpec) (Fin P.toSpec.n → Fin (2 ^ 8)) M (Digest P.toSpec))
    {q t u : Nat} (hF : ∀ pk, (F pk).Within (fun _ => q) (fun _ => t) fun _ => u) (hq : q ≤ 2 ^ 64)
    (ht : t * 2 ^ 6 ≤ 2 ^ (8 * P.n)) :
    chance (SucceedsMany P.toSpec seed text F) ≤
      N * ((t : ℚ) / 2 ^ bitSecurity P.toSpec + 2 * (u + maxCalls P.toSpec) / 2 ^ (8 * P.n)) := by
  refine le_trans (C87_many_keys hP hseed inj F hF (fun _ => hq) fun _ => ht) (le_of_eq ?_)
  rw [Finset.sum_const, Finset.card_univ, Fintype.card_fin, nsmul_eq_mul]

/-! ## Concrete cases -/

/-- A forger who has owner 0 sign a message and gives the signature back for owner 1. -/
def passer (p : Par) (_ : Fin 2 → Bytes) : ManyForger (Fin 2) (Value p) (Fin p.n → Fin (2 ^ 8)) (Fin 2) (Digest p) :=
  .sign 0 (fun _ => 0) 0 fun sig => .output 1 0 sig

/-- The bound for this forger and SPHINCS+-SHA2-128s: each key has its own share. -/
example : chance (SucceedsMany (sha2_128s true).toSpec (fun i : Fin 2 => List.replicate 48 (BitVec.ofNat 8 i)) oneByte
      (passer (sha2_128s true).toSpec)) ≤
    ∑ _ : Fin 2, (((1 : Nat) : ℚ) / 2 ^ bitSecurity (sha2_128s true).toSpec +
      2 * ((0 : Nat) + maxCalls (sha2_128s true).toSpec) / 2 ^ (8 * (sha2_128s true).n)) :=
  C87_many_keys (P := sha2_128s true) (by decide) (fun _ => List.length_replicate) (text := oneByte) (by decide)
    (passer (sha2_128s true).toSpec) (q := fun i => if i = 0 then 1 else 0) (t := fun _ => 1) (u := fun _ => 0)
    (fun _ => ⟨Nat.one_pos, fun _ _ => Nat.one_pos⟩) (fun i => by split <;> decide) fun _ => by decide

/-- The event is possible: if both owners have the same functions and the same seed, the forger succeeds. -/
example {p : Par} (hd : 1 ≤ p.d) {seed : Bytes} (hs : seed.length = 3 * p.n) (ω : Functions p (Fin 2)) :
    SucceedsMany p (fun _ : Fin 2 => seed) oneByte (passer p) fun _ => ω := by
  have L : HashLen p.n ((Hash.random ω.1).withRandomisers oneByte ω.2.1 ω.2.2) := Chosen.hashLen _ _ (Rom.random_len ω.1)
  refine ⟨?_, ?_, ?_⟩
  · simp
  · unfold Spec.sign
    simp only [List.length_append]
    rw [forsSig_len L, htSig_len L, L.PRFmsg, Nat.add_assoc]
  · have h := spec_correct L hd (seed := seed) (optrand := randomiserBytes (n := p.n) fun _ => 0) (m := oneByte 0)
      (rest := []) hs
    rw [List.append_nil] at h
    exact h

end Spx
