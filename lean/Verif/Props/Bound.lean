import Verif.Proof.Bound
import Verif.Props.Forgery
/-! # C77: one signature for two messages

Under any public key, also one made by somebody who wants to dispute what they signed, two messages with
the same signature show a collision of the tweakable hash, a chain that returns to its start, or two
messages whose digests select the same leaves.  The outcomes are defined in `Spec/Bound.lean`. -/

namespace Spx
open Spec

/-- What acceptance says of the hypertree. -/
theorem verify_root {p : Par} {S : Spec.Hash} {pk m sig : Bytes} (h : verify p S pk m sig = true) :
    let sel := selected p S pk m sig
    htRoot p S (pk.take p.n) sel.2.1 sel.2.2 (sig.drop (p.n + forsBytes p))
      (forsPkFromSig p S (pk.take p.n) sel.2.1 sel.2.2 (sig.drop p.n) sel.1) p.d = (pk.drop p.n).take p.n := by
  unfold verify at h
  exact eq_of_beq h

/-- C77 for the scheme over any hash functions with `n`-byte outputs.  The two signatures may differ in
`R`. -/
theorem C77_scheme {P : Params} (hP : P.WotsValid) (hd : 1 ≤ P.d) {S : Spec.Hash} (L : HashLen P.n S)
    {pk m m' sig sig' : Bytes} (hsig : sig.length = P.n + (forsBytes P.toSpec + P.d * xmssBytes P.toSpec))
    (hrest : sig'.drop P.n = sig.drop P.n)
    (h : verify P.toSpec S pk m sig = true) (h' : verify P.toSpec S pk m' sig' = true) :
    let p := P.toSpec
    (∃ c ∈ verifyCalls p S pk m sig, ∃ c' ∈ verifyCalls p S pk m' sig', Collide S (pk.take P.n) c c') ∨
    (∃ j i, j < P.d ∧ i < p.len ∧ wotsKey p S pk m sig j = wotsKey p S pk m' sig' j ∧
      ChainReturns p S pk m sig m' sig' j i) ∨
    SameSelection p S pk m sig m' sig' := by
  intro p
  change sig.length = p.n + (forsBytes p + p.d * xmssBytes p) at hsig
  by_cases hc : ∃ c ∈ verifyCalls p S pk m sig, ∃ c' ∈ verifyCalls p S pk m' sig', Collide S (pk.take P.n) c c'
  · exact Or.inl hc
  refine Or.inr ?_
  have ha : Apart S (pk.take P.n) (verifyCalls p S pk m sig) (verifyCalls p S pk m' sig') :=
    fun c h1 c' h2 h3 => hc ⟨c, h1, c', h2, h3⟩
  have e := (verify_root (p := p) h).trans (verify_root (p := p) h').symm
  have hr2 : sig'.drop (p.n + forsBytes p) = sig.drop (p.n + forsBytes p) := by
    rw [← List.drop_drop, ← List.drop_drop]
    exact congrArg _ hrest
  change sig'.drop p.n = sig.drop p.n at hrest
  have t1 : (selected p S pk m sig).2.1 < 2 ^ (p.h' * (p.d - 1)) := splitDigest_tree_lt ..
  have t2 : (selected p S pk m' sig').2.1 < 2 ^ (p.h' * (p.d - 1)) := splitDigest_tree_lt ..
  have l1 : (selected p S pk m sig).2.2 < 2 ^ p.h' := splitDigest_leaf_lt ..
  have l2 : (selected p S pk m' sig').2.2 < 2 ^ p.h' := splitDigest_leaf_lt ..
  obtain ⟨k, hk⟩ : ∃ k, p.d = k + 1 := ⟨p.d - 1, by show P.d = P.d - 1 + 1; omega⟩
  have hfl : ∀ tree leaf s md, (forsPkFromSig p S (pk.take p.n) tree leaf s md).length = p.n := fun _ _ _ _ => L.T ..
  have hA1 : Apart S (pk.take p.n)
      (forsCalls p S (pk.take p.n) (selected p S pk m sig).2.1 (selected p S pk m sig).2.2 (sig.drop p.n)
        (selected p S pk m sig).1)
      (forsCalls p S (pk.take p.n) (selected p S pk m' sig').2.1 (selected p S pk m' sig').2.2 (sig.drop p.n)
        (selected p S pk m' sig').1) :=
    ha.mono (fun c hc => List.mem_append_left _ hc)
      (fun c hc => List.mem_append_left _ (by rw [hrest]; exact hc))
  have hA2 : Apart S (pk.take p.n)
      (htCalls p S (pk.take p.n) (selected p S pk m sig).2.1 (selected p S pk m sig).2.2
        (sig.drop (p.n + forsBytes p)) (forsPkFromSig p S (pk.take p.n) (selected p S pk m sig).2.1
          (selected p S pk m sig).2.2 (sig.drop p.n) (selected p S pk m sig).1))
      (htCalls p S (pk.take p.n) (selected p S pk m' sig').2.1 (selected p S pk m' sig').2.2
        (sig.drop (p.n + forsBytes p)) (forsPkFromSig p S (pk.take p.n) (selected p S pk m' sig').2.1
          (selected p S pk m' sig').2.2 (sig.drop p.n) (selected p S pk m' sig').1)) :=
    ha.mono (fun c hc => List.mem_append_right _ hc)
      (fun c hc => List.mem_append_right _ (by rw [hrest, hr2]; exact hc))
  rw [hrest, hr2] at e
  have hlen : p.d * xmssBytes p ≤ (sig.drop (p.n + forsBytes p)).length := by
    rw [List.length_drop, hsig]
    omega
  have hz : ∀ t, t < 2 ^ (p.h' * (p.d - 1)) → treeAt p t k = 0 := by
    intro t ht
    unfold treeAt
    rw [show k = p.d - 1 by omega]
    exact Nat.div_eq_of_lt ht
  have hh := ht_same L (lengths_protect hP) l1 l2 hlen (hfl ..) (hfl ..) hA2 k (by omega)
    (by rw [hz _ t1, hz _ t2]) (by rw [← hk]; exact e)
  rcases hh with ⟨j, i, hj, hi, hkey, hlt, hret⟩ | ⟨e1, e2, e3⟩
  · refine Or.inl ⟨j, i, by show j < p.d; omega, hi, hkey, ?_⟩
    have hb : ∀ m sig, (lengths p (htRoot p S (pk.take p.n) (selected p S pk m sig).2.1 (selected p S pk m sig).2.2
        (sig.drop (p.n + forsBytes p)) (forsPkFromSig p S (pk.take p.n) (selected p S pk m sig).2.1
          (selected p S pk m sig).2.2 (sig.drop p.n) (selected p S pk m sig).1) j)).getD i 0 =
        shownStep p S pk m sig j i := fun _ _ => rfl
    have hb' := hb m' sig'
    rw [hrest, hr2] at hb'
    rw [hb, hb'] at hlt hret
    refine ⟨hlt, ?_, ?_⟩
    · exact digit_le ..
    · show chain _ (shownChain p sig j i) _ _ = shownChain p sig j i
      rw [shownChain_eq]
      exact hret
  · refine Or.inr ⟨Prod.ext e1 e2, fun i hi => ?_⟩
    rw [← e1, ← e2] at hA1 e3
    refine fors_same L ?_ hA1 e3 i hi
    rw [List.length_drop, hsig]
    omega

/-- C77: signatures that agree after their first `n` bytes and are accepted by `crypto_sign_verify` for
messages `m` and `m'` under the same public key, which may be any string. -/
theorem C77_two_messages {P : Params} (hP : P ∈ shipped) (G g G' g' : Nat → Nat → Byte)
    {pk m m' sig sig' : Bytes} (hpk : pk.length = P.pkBytes) (hm : m.length < 2 ^ 60) (hm' : m'.length < 2 ^ 60)
    (hsig : sig.length = P.spxBytes) (hsig' : sig'.length = P.spxBytes) (hrest : sig'.drop P.n = sig.drop P.n)
    (hv : crypto_sign_verify (build P G g) sig P.spxBytes m pk = .ok 0)
    (hv' : crypto_sign_verify (build P G' g') sig' P.spxBytes m' pk = .ok 0) :
    let p := P.toSpec
    let S := specHash P
    (∃ c ∈ verifyCalls p S pk m sig, ∃ c' ∈ verifyCalls p S pk m' sig', Collide S (pk.take P.n) c c') ∨
    (∃ j i, j < P.d ∧ i < p.len ∧ wotsKey p S pk m sig j = wotsKey p S pk m' sig' j ∧
      ChainReturns p S pk m sig m' sig' j i) ∨
    SameSelection p S pk m sig m' sig' := by
  have acc : ∀ {x : Bool}, (Except.ok (if x = true then (0 : Int) else -1) : C Int) = .ok 0 → x = true := by
    intro x hx
    cases x
    · exact absurd (Except.ok.inj hx) (by decide)
    · rfl
  rw [ship_verify hP G g hpk hm hsig] at hv
  rw [ship_verify hP G' g' hpk hm' hsig'] at hv'
  exact C77_scheme (shipped_valid hP).wots (shipped_d hP) (shipped_len hP) (hsig.trans (ship_sig_parts hP)) hrest
    (acc hv) (acc hv')

/-! ### Concrete cases -/

/-- The hypotheses of `C77_two_messages` hold for the owner's signature of the empty message with
SPHINCS+-SHA2-128f-simple, given twice. -/
example : ∃ pk sig, pk.length = (sha2_128f false).pkBytes ∧ sig.length = (sha2_128f false).spxBytes ∧
    crypto_sign_verify (build (sha2_128f false) (fun _ _ => 5) (fun _ _ => 6)) sig (sha2_128f false).spxBytes [] pk =
      .ok 0 := by
  have hP : sha2_128f false ∈ shipped := by decide
  have hl := ship_sign_len hP (skOf (sha2_128f false).toSpec (specHash (sha2_128f false)) (List.replicate 48 7))
    (List.replicate 16 9) []
  refine ⟨_, _, ship_pkOf_len hP (seed := List.replicate 48 7) (by decide), hl, ?_⟩
  rw [ship_verify hP _ _ (ship_pkOf_len hP (by decide)) (by decide) hl, if_pos (ship_correct hP (by decide) _ _)]

/-- A tweakable hash with constant outputs and digests that repeat the first byte of the message. -/
def toyM : Spec.Hash :=
  ⟨fun _ _ _ => [0], fun _ _ _ => [7], fun _ _ _ _ => [0], fun _ _ _ m k => List.replicate k (m.getD 0 0)⟩

/-- One signature for two messages under a public key that nobody generated: the hypotheses of
`C77_scheme` hold. -/
example : toyP.WotsValid ∧ HashLen toyP.n toyM ∧
    (List.replicate 13 (5 : Byte)).length = toyP.n + (forsBytes toyP.toSpec + toyP.d * xmssBytes toyP.toSpec) ∧
    verify toyP.toSpec toyM [9, 0] [0] (List.replicate 13 5) = true ∧
    verify toyP.toSpec toyM [9, 0] [1] (List.replicate 13 5) = true :=
  ⟨⟨Or.inl rfl, by decide, by decide⟩,
    ⟨fun _ _ _ => rfl, fun _ _ _ => rfl, fun _ _ _ _ => rfl, fun _ _ _ _ _ => List.length_replicate⟩, by decide,
    by decide, by decide⟩

/-- The two messages do not select the same leaves, no chain starts at different steps, and two of the calls
collide. -/
example : ¬ SameSelection toyP.toSpec toyM [9, 0] [0] (List.replicate 13 5) [1] (List.replicate 13 5) ∧
    (∀ j, j < 2 → ∀ i, i < toyP.toSpec.len →
      ¬ ChainReturns toyP.toSpec toyM [9, 0] [0] (List.replicate 13 5) [1] (List.replicate 13 5) j i) ∧
    Collide toyM [9] (.forsLeaf 0 0 0, [5]) (.forsLeaf 1 1 1, [5]) ∧
    (.forsLeaf 0 0 0, [5]) ∈ verifyCalls toyP.toSpec toyM [9, 0] [0] (List.replicate 13 5) ∧
    (.forsLeaf 1 1 1, [5]) ∈ verifyCalls toyP.toSpec toyM [9, 0] [1] (List.replicate 13 5) := by
  refine ⟨fun h => absurd h.1 (by decide), ?_, ⟨by decide, by decide, by decide⟩, by decide, by decide⟩
  intro j hj i hi h
  have h1 : shownStep toyP.toSpec toyM [9, 0] [0] (List.replicate 13 5) j i =
      shownStep toyP.toSpec toyM [9, 0] [1] (List.replicate 13 5) j i := by
    clear h
    revert i
    revert j
    decide
  exact absurd h.1 (by rw [h1]; exact Nat.lt_irrefl _)

/-- Chains that stand still, FORS leaves that show their index, and digests that select the same key for
every message. -/
def toyR : Spec.Hash :=
  ⟨fun _ a x => if a.typ = FORS_TREE ∧ a.w2 = 0 then [BitVec.ofNat 8 a.w3]
      else if a.typ = WOTS_PK ∨ a.typ = TREE then [0] else [x.foldl (· + ·) 0],
    fun _ _ _ => [7], fun _ _ _ _ => [0], fun _ _ _ m k => (m.getD 0 0 :: List.replicate k 0).take k⟩

/-- The second outcome: the two messages lead to the FORS public keys 5 and 6 under the same WOTS+ key, and its
second chain, which starts at steps 5 and 6, returns. -/
example : HashLen toyP.n toyR ∧
    verify toyP.toSpec toyR [9, 0] [0] (List.replicate 13 5) = true ∧
    verify toyP.toSpec toyR [9, 0] [1] (List.replicate 13 5) = true ∧
    wotsKey toyP.toSpec toyR [9, 0] [0] (List.replicate 13 5) 0 =
      wotsKey toyP.toSpec toyR [9, 0] [1] (List.replicate 13 5) 0 ∧
    ChainReturns toyP.toSpec toyR [9, 0] [0] (List.replicate 13 5) [1] (List.replicate 13 5) 0 1 ∧
    ¬ SameSelection toyP.toSpec toyR [9, 0] [0] (List.replicate 13 5) [1] (List.replicate 13 5) := by
  refine ⟨⟨fun _ a x => ?_, fun _ _ _ => rfl, fun _ _ _ _ => rfl, fun _ _ _ m k => ?_⟩, by decide, by decide, by decide,
    ⟨by decide, by decide, by decide⟩, fun h => absurd (h.2 0 (by decide)) (by decide)⟩
  · show (if _ then _ else _ : Bytes).length = 1
    split
    · rfl
    · split <;> rfl
  · show ((m.getD 0 0 :: List.replicate k 0).take k).length = k
    rw [List.length_take, List.length_cons, List.length_replicate]
    omega

end Spx
