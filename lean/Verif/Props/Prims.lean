import Verif.Proof.CountSha2
import Verif.Proof.CountHaraka
import Verif.Props.Count
/-!
# C78: how many compression functions and permutations key generation, signing and verification compute
-/

namespace Spx
open Spec Leak

theorem hash_cost {P : Params} (hP : P ∈ shipped) (g : Nat → Nat → Byte) (f : Fn) (ml : Nat) :
    HashCost f (Leak.implOf P g) (fun h => total (specPrims P ml h) f) ml := by
  simp only [total_eq]
  unfold specPrims Leak.implOf
  cases hf : P.fam with
  | sha2 => exact Sha2.sha2_cost f P (by have := shipped_n hP; omega) (shipped_sha512 hP hf) g ml
  | shake => exact shake_cost f P g ml
  | haraka => exact Haraka.haraka_cost Haraka.refLib_cost P g ml

section
variable {P : Params} (hP : P ∈ shipped)
include hP

/-- C78, the functions of the hash library: each computes as many primitives as the padding of its input and the length of
its output require, whatever the bytes are. -/
theorem C78_hash_prims (g : Nat → Nat → Byte) (f : Fn) :
    (∀ c r, ((Leak.implOf P g).initialize_hash_function c).res = .ok r →
      calls f ((Leak.implOf P g).initialize_hash_function c).tr = total (specPrims P 0 .init) f) ∧
    (∀ c a r, ((Leak.implOf P g).prf_addr c a).res = .ok r →
      calls f ((Leak.implOf P g).prf_addr c a).tr = total (specPrims P 0 .prf) f) ∧
    (∀ i b c a r, ((Leak.implOf P g).thash i b c a).res = .ok r →
      calls f ((Leak.implOf P g).thash i b c a).tr = total (specPrims P 0 (.thash b)) f) ∧
    (∀ s o m c r, ((Leak.implOf P g).gen_message_random s o m c).res = .ok r →
      calls f ((Leak.implOf P g).gen_message_random s o m c).tr = total (specPrims P m.length .rand) f) ∧
    (∀ R pk m c r, ((Leak.implOf P g).hash_message R pk m c).res = .ok r →
      calls f ((Leak.implOf P g).hash_message R pk m c).tr = total (specPrims P m.length .msg) f) :=
  ⟨fun c r h => (hash_cost hP g f 0).init c r h, fun c a r h => (hash_cost hP g f 0).prf c a r h,
    fun i b c a r h => (hash_cost hP g f 0).thash i b c a r h,
    fun s o m c r h => (hash_cost hP g f m.length).rand s o m c rfl r h,
    fun R pk m c r h => (hash_cost hP g f m.length).msg R pk m c rfl r h⟩

/-- C78, key generation -/
theorem C78_keypair_prims (G g : Nat → Nat → Byte) {pk0 sk0 seed : Bytes} (hpk0 : P.pkBytes ≤ pk0.length)
    (hsk0 : P.skBytes ≤ sk0.length) (hseed : P.seedBytes ≤ seed.length) (f : Fn) :
    keypairPrims (Leak.build P G g) pk0 sk0 seed f =
      weigh (fun h => total (specPrims P 0 h) f) (keygenCost P.toSpec) := by
  have hV := shipped_valid hP
  have e := erase_crypto_sign_seed_keypair (Leak.build P G g) pk0 sk0 seed
  rw [Leak.erase_build, crypto_sign_seed_keypair_spec (buildRefines hP G g) hV hpk0 hsk0 hseed] at e
  rw [weigh_keygen hV]
  exact (count_keypair (E := Leak.build P G g) (hash_cost hP g f 0) (refCode_cost (hash_cost hP g f 0))).calls_eq e

/-- C78, signing: the number depends on the length of the message and on nothing else. -/
theorem C78_sign_prims (G g : Nat → Nat → Byte) {sig0 m sk optrand : Bytes} (hsk : P.skBytes ≤ sk.length)
    (hm : m.length < 2 ^ 60) (hopt : P.n ≤ optrand.length) (hsig0 : P.spxBytes ≤ sig0.length) (f : Fn) :
    signPrims (Leak.build P G g) sig0 m sk optrand f =
      weigh (fun h => total (specPrims P m.length h) f) (signCost P.toSpec) := by
  have hV := shipped_valid hP
  have e := erase_crypto_sign_signature (Leak.build P G g) sig0 m sk optrand
  rw [Leak.erase_build, crypto_sign_signature_spec (buildRefines hP G g) hV hsk hm hopt hsig0] at e
  rw [weigh_sign hV]
  exact (count_sign (E := Leak.build P G g) (hash_cost hP g f m.length) (refCode_cost (hash_cost hP g f m.length))
    rfl).calls_eq e

/-- C78, verification: the number depends on the length of the message and the chain positions which the signature and the
message prescribe. -/
theorem C78_verify_prims (G g : Nat → Nat → Byte) {sig m pk : Bytes} (hpk : P.pkBytes ≤ pk.length)
    (hm : m.length < 2 ^ 60) (hsig : P.spxBytes ≤ sig.length) (f : Fn) :
    verifyPrims (Leak.build P G g) sig P.spxBytes m pk f =
      weigh (fun h => total (specPrims P m.length h) f) (verifyCost P.toSpec (specHash P) pk m sig) := by
  have hV := shipped_valid hP
  have R := buildRefines hP G g
  have e := erase_crypto_sign_verify (Leak.build P G g) sig P.spxBytes m pk
  rw [Leak.erase_build] at e
  have e := e.trans (crypto_sign_verify_spec R hV hpk hm hsig)
  have hκ := hash_cost hP g f m.length
  have hW := ref_wotsCost (E := Leak.build P G g) hκ hV
  have hT := refCode_ok R hV
  have hw := erase_wots_pk_from_sig (Leak.build P G g)
  rw [Leak.erase_build] at hw
  exact (count_verify (E := Spx.build P G g) (H := Leak.implOf P g) hκ (Leak.erase_implOf P g) R hV hT hw
    (chains := fun m => [(chainRest P.toSpec m, .thash 1)])
    (by simp only [weigh_cons, weigh_nil, Nat.add_zero]; exact hW) hpk hm rfl hsig).calls_eq e

/-- C78, the most expensive verification: all chains from end to end. -/
theorem C78_verify_bound (G g : Nat → Nat → Byte) {sig m pk : Bytes} (hpk : P.pkBytes ≤ pk.length)
    (hm : m.length < 2 ^ 60) (hsig : P.spxBytes ≤ sig.length) (f : Fn) :
    verifyPrims (Leak.build P G g) sig P.spxBytes m pk f ≤
      weigh (fun h => total (specPrims P m.length h) f)
        ([(1, .init), (1, .msg), (P.forsTrees, .thash 1), (P.forsTrees * P.forsHeight, .thash 2), (1, .thash P.forsTrees)] ++
          times P.d [(P.wotsLen * (P.w - 1), .thash 1), (1, .thash P.wotsLen), (P.treeHeight, .thash 2)]) := by
  have hV := shipped_valid hP
  rw [C78_verify_prims hP G g hpk hm hsig f]
  unfold verifyCost
  generalize (fun h => total (specPrims P m.length h) f) = κ
  have ht := fun md tree leaf fpk => weigh_verify (κ := κ) hV (S := specHash P) (pk := pk) (m := m) (sig := sig) (md := md)
    (tree := tree) (leaf := leaf) (fpk := fpk) fun m => [(chainRest P.toSpec m, .thash 1)]
  generalize splitDigest P.toSpec
    ((specHash P).Hmsg (sig.take P.n) (pk.take P.n) ((pk.drop P.n).take P.n) m (digestBytes P.toSpec)) = sd at ht
  obtain ⟨md, tree, leaf⟩ := sd
  rw [ht md tree leaf _ rfl rfl]
  generalize forsPkFromSig P.toSpec (specHash P) (pk.take P.n) tree leaf (sig.drop P.n) md = fpk
  have hs := sum_le (n := P.d) (b := P.wotsLen * (P.w - 1) * κ (.thash 1) +
      (κ (.thash P.wotsLen) + P.treeHeight * κ (.thash 2))) fun i => Nat.add_le_add_right (Nat.mul_le_mul_right (κ (.thash 1))
    (chainRest_le hV (htRoot P.toSpec (specHash P) (pk.take P.n) tree leaf (sig.drop (P.n + P.forsBytes)) fpk i)))
      (κ (.thash P.wotsLen) + P.treeHeight * κ (.thash 2))
  simp only [weigh_append, weigh_times, weigh_cons, weigh_nil, Nat.add_zero, Nat.one_mul, Nat.mul_add] at hs ⊢
  simp only [Nat.mul_assoc] at hs ⊢
  omega

end

/-! ## Concrete cases -/

/-- Signing 1000 bytes with SHA2-128f-simple takes 106861 compressions, whatever the bytes are. -/
example (m sk : Bytes) (hm : m.length = 1000) (hsk : sk.length = 64) :
    signPrims (Leak.build (sha2_128f false) (fun _ _ => 0) (fun _ _ => 0)) (List.replicate 17088 0) m sk
      (List.replicate 16 0) .sha256 = 106861 := by
  rw [C78_sign_prims (P := sha2_128f false) (by decide) _ _ (by rw [hsk]; decide) (by rw [hm]; decide) (by decide)
    (by rw [List.length_replicate]; decide), hm]
  decide +kernel

/-- Key generation for SHAKE-192f-robust takes 12814 permutations. -/
example (seed : Bytes) (h : seed.length = 72) :
    keypairPrims (Leak.build (shake_192f true) (fun _ _ => 0) (fun _ _ => 0)) (List.replicate 48 0) (List.replicate 96 0)
      seed .keccak = 12814 := by
  rw [C78_keypair_prims (P := shake_192f true) (by decide) _ _ (by decide) (by decide) (by rw [h]; decide)]
  decide +kernel

/-- SHA2-192 uses both compression functions. -/
example : weigh (fun h => total (specPrims (sha2_192f false) 1000 h) .sha256) (signCost (sha2_192f false).toSpec) = 160546 ∧
    weigh (fun h => total (specPrims (sha2_192f false) 1000 h) .sha512) (signCost (sha2_192f false).toSpec) = 10360 := by
  decide +kernel

/-- Verifying a short message with Haraka-128f-simple takes at most 12834 permutations. -/
example : verifyPrims (Leak.build (haraka_128f false) (fun _ _ => 0) (fun _ _ => 0)) (List.replicate 17088 0) 17088 [1, 2, 3]
    (List.replicate 32 9) .haraka512 ≤ 12834 :=
  (C78_verify_bound (P := haraka_128f false) (by decide) _ _ (by decide) (by decide) (by rw [List.length_replicate]; decide)
    _).trans (by decide +kernel)

end Spx
