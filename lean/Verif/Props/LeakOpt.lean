import Verif.Proof.LeakOpt
import Verif.Props.Leak
/-!
# C64–C67: memory accesses and branches of the optimised implementations do not depend on secrets

The properties C58–C61 of the reference implementation, for shake-a64, shake-avx2, haraka-aesni and sha2-avx2.
-/

namespace Spx.Leak
open Spec

/-! ## What the traces are traces of -/

/-- Without the traces the programs are those of the model of the optimised implementations. -/
theorem C64_same_programs (o : Opt) (P : Params) (G g : Nat → Nat → Byte) :
    (∀ c, ((o.hash P g).initialize_hash_function c).res = (o.plain P G g).H.initialize_hash_function c) ∧
    (∀ c a, ((o.hash P g).prf_addr c a).res = (o.plain P G g).H.prf_addr c a) ∧
    (∀ i b c a, ((o.hash P g).thash i b c a).res = (o.plain P G g).H.thash i b c a) ∧
    (∀ k r m c, ((o.hash P g).gen_message_random k r m c).res = (o.plain P G g).H.gen_message_random k r m c) ∧
    (∀ R pk m c, ((o.hash P g).hash_message R pk m c).res = (o.plain P G g).H.hash_message R pk m c) ∧
    (∀ c a, ((o.lanes P g).prf_addrx c a).res = (o.plain P G g).X.prf_addrx c a) ∧
    (∀ i b c a, ((o.lanes P g).thashx i b c a).res = (o.plain P G g).X.thashx i b c a) ∧
    (∀ sig m c a, (fors_signx (o.build P G g) sig m c a).res = Spx.fors_signx (o.plain P G g) sig m c a) ∧
    (∀ sig r c w t i, (merkle_signx (o.build P G g) sig r c w t i).res =
      Spx.merkle_signx (o.plain P G g) sig r c w t i) ∧
    (∀ r c, (merkle_gen_rootx (o.build P G g) r c).res = Spx.merkle_gen_rootx (o.plain P G g) r c) ∧
    (∀ pk sk seed, (o.keypair P G g pk sk seed).res =
      Spx.crypto_sign_seed_keypairT (o.plain P G g).toEnv (Spx.parCode (o.plain P G g)) pk sk seed) ∧
    (∀ sig m sk r, (o.sign P G g sig m sk r).res =
      Spx.crypto_sign_signatureT (o.plain P G g).toEnv (Spx.parCode (o.plain P G g)) sig m sk r) := by
  rw [← Opt.erase_build]
  exact ⟨fun _ => rfl, fun _ _ => rfl, fun _ _ _ _ => rfl, fun _ _ _ _ => rfl, fun _ _ _ _ => rfl, fun _ _ => rfl,
    fun _ _ _ _ => rfl, erase_fors_signx _, erase_merkle_signx _, erase_merkle_gen_rootx _,
    erase_crypto_sign_seed_keypairT _ (erase_parCode _), erase_crypto_sign_signatureT _ (erase_parCode _)⟩

/-- The builds are the four of the repository. -/
example (P : Params) (G g : Nat → Nat → Byte) :
    Opt.plain .shakeA64 P G g = optBuild P (Spx.A64.impl P g) 1 (Spx.A64.lanes P g) G ∧
    Opt.plain .shakeAvx2 P G g = optBuild P (Spx.Shake.impl P g) 2 (Spx.Avx2.lanes P g) G ∧
    Opt.plain .harakaAesni P G g = optBuild P (Spx.AesNi.impl P g) 2 (Spx.AesNi.lanes P g) G ∧
    Opt.plain .sha2Avx2 P G g = optBuild P (Spx.Sha2.impl P g) 3 (Spx.Sha2X.lanes P g) G := ⟨rfl, rfl, rfl, rfl⟩

/-! ## The hash functions -/

/-- The one-way hash functions of the optimised implementations access the same memory and take the same branches
for all inputs of the same lengths. -/
theorem C64_hash_trace (o : Opt) (P : Params) (g g' : Nat → Nat → Byte) {c c' : Ctx} (h : Sized P c) (h' : Sized P c') :
    ((o.hash P g).initialize_hash_function c).tr = ((o.hash P g').initialize_hash_function c').tr ∧
    (∀ a a' : Addr, a.length = 32 → a'.length = 32 →
      ((o.hash P g).prf_addr c a).tr = ((o.hash P g').prf_addr c' a').tr) ∧
    (∀ (a a' : Addr) (blocks : Nat) (i i' : Bytes), a.length = 32 → a'.length = 32 → i.length = i'.length →
      ((o.hash P g).thash i blocks c a).tr = ((o.hash P g').thash i' blocks c' a').tr) ∧
    (∀ k k' r r' m m' : Bytes, k.length = k'.length → r.length = r'.length → m.length = m'.length →
      ((o.hash P g).gen_message_random k r m c).tr = ((o.hash P g').gen_message_random k' r' m' c').tr) ∧
    (∀ R R' pk pk' m m' : Bytes, R.length = R'.length → pk.length = pk'.length → m.length = m'.length →
      ((o.hash P g).hash_message R pk m c).tr = ((o.hash P g').hash_message R' pk' m' c').tr) := by
  have hl := o.low_hash P g g'
  exact ⟨(hl.init c c' (h.low h')).1, fun a a' ha ha' => (hl.prf c c' a a' (h.low h') (ha.trans ha'.symm)).1,
    fun a a' b i i' ha ha' hi => (hl.thash i i' b c c' a a' hi (h.low h') (ha.trans ha'.symm)).1,
    fun k k' r r' m m' hk hr hm => (hl.genR k k' r r' m m' c c' hk hr hm (h.low h')).1,
    fun R R' pk pk' m m' hR hpk hm => (hl.hmsg R R' pk pk' m m' c c' hR hpk hm (h.low h')).1⟩

/-- The vectorised hash functions access the same memory and take the same branches for all inputs of the same
lengths in each lane. -/
theorem C64_lanes_trace (o : Opt) (P : Params) (g g' : Nat → Nat → Byte) {c c' : Ctx} (h : Sized P c) (h' : Sized P c')
    {a a' : List Addr} (ha : a.map List.length = a'.map List.length) :
    ((o.lanes P g).prf_addrx c a).tr = ((o.lanes P g').prf_addrx c' a').tr ∧
    (∀ (blocks : Nat) (i i' : List Bytes), i.map List.length = i'.map List.length →
      ((o.lanes P g).thashx i blocks c a).tr = ((o.lanes P g').thashx i' blocks c' a').tr) := by
  have hl := o.low_lanes P g g'
  exact ⟨(hl.prf c c' a a' (h.low h') ha).1, fun b i i' hi => (hl.thash i i' b c c' a a' hi (h.low h') ha).1⟩

/-- Lanes with different contents. -/
example : (List.replicate (2 ^ Opt.sha2Avx2.lg) (List.replicate 32 0#8)).map List.length =
    (List.replicate (2 ^ Opt.sha2Avx2.lg) (List.replicate 32 1#8)).map List.length ∧
    List.replicate (2 ^ Opt.sha2Avx2.lg) (List.replicate 32 0#8) ≠
    List.replicate (2 ^ Opt.sha2Avx2.lg) (List.replicate 32 1#8) := by decide

/-! ## Key generation -/

/-- `crypto_sign_seed_keypair` of an optimised implementation accesses the same memory and takes the same branches
for all seeds, whatever the buffers and uninitialised memory contained. -/
theorem C65_keypair_trace (o : Opt) {P : Params} (hP : P ∈ shipped) (G G' g g' : Nat → Nat → Byte)
    {pk pk' sk sk' seed seed' : Bytes} (hpk : pk.length = pk'.length) (hsk : sk.length = sk'.length)
    (hseed : seed.length = P.seedBytes) (hseed' : seed'.length = P.seedBytes) :
    (o.keypair P G g pk sk seed).tr = (o.keypair P G' g' pk' sk' seed').tr :=
  (low_seed_keypair (o.low_hash P g g') (o.low_parCode (shipped_valid hP) G G' g g') hpk hsk
    (hseed.trans hseed'.symm)).1

example : ∃ seed seed' : Bytes, seed.length = (haraka_128f true).seedBytes ∧
    seed'.length = (haraka_128f true).seedBytes ∧ seed ≠ seed' ∧ (haraka_128f true).fam = Opt.harakaAesni.fam :=
  ⟨List.replicate 48 0, List.replicate 48 1, rfl, rfl, by decide, rfl⟩

/-! ## FORS and Merkle trees -/

/-- What the parallel `fors_sign` accesses and the branches it takes depend on the digest it signs and on nothing
else. -/
theorem C66_fors_sign_trace (o : Opt) {P : Params} (hP : P ∈ shipped) (G G' g g' : Nat → Nat → Byte) {c c' : Ctx}
    (h : Sized P c) (h' : Sized P c') {a a' : Addr} (ha : a.length = 32) (ha' : a'.length = 32)
    {sig sig' md : Bytes} (hs : sig.length = sig'.length) (hmd : md.length = P.forsMsgBytes) :
    (fors_signx (o.build P G g) sig md c a).tr = (fors_signx (o.build P G' g') sig' md c' a').tr := by
  have hv := shipped_valid hP
  refine (low_fors_signx (o.low_hash P g g') (o.low_lanes P g g') (h.low h') hv.fh_le
    (by have := o.lg_le; omega) hs ?_ (ha.trans ha'.symm)).1
  rw [hmd]
  unfold Params.forsMsgBytes
  rw [Nat.mul_comm]
  omega

/-- What the parallel `merkle_sign` accesses and the branches it takes depend on the value it signs and the index
of the leaf and on nothing else. -/
theorem C66_merkle_sign_trace (o : Opt) {P : Params} (hP : P ∈ shipped) (G G' g g' : Nat → Nat → Byte) {c c' : Ctx}
    (h : Sized P c) (h' : Sized P c') {wa wa' ta ta' : Addr} (hw : wa.length = 32) (hw' : wa'.length = 32)
    (ht : ta.length = 32) (ht' : ta'.length = 32) {sig sig' root : Bytes} (hs : sig.length = sig'.length)
    (hr : root.length = P.n) (idx : Nat) :
    (merkle_signx (o.build P G g) sig root c wa ta idx).tr =
      (merkle_signx (o.build P G' g') sig' root c' wa' ta' idx).tr :=
  (low_merkle_signx (o.low_lanes P g g') (h.low h') (shipped_w hP) (shipped_valid hP).th_le
    (by have := o.lg_le; omega) hs ⟨hr, hr⟩ (.inl ⟨(shipped_valid hP).wots, rfl⟩) (hw.trans hw'.symm)
    (ht.trans ht'.symm)).1

/-- The parallel `merkle_gen_root` accesses the same memory and takes the same branches for all seeds. -/
theorem C66_merkle_gen_root_trace (o : Opt) {P : Params} (hP : P ∈ shipped) (G G' g g' : Nat → Nat → Byte)
    {c c' : Ctx} (h : Sized P c) (h' : Sized P c') {root root' : Bytes} (hr : root.length = P.n)
    (hr' : root'.length = P.n) :
    (merkle_gen_rootx (o.build P G g) root c).tr = (merkle_gen_rootx (o.build P G' g') root' c').tr :=
  (low_merkle_gen_rootx (o.low_lanes P g g') (h.low h') (shipped_w hP) (shipped_valid hP).th_le
    (by have := o.lg_le; omega) ⟨hr, hr'⟩).1

example : (List.replicate (sha2_256s true).n 0#8).length = (sha2_256s true).n ∧
    (List.replicate (sha2_256s true).forsMsgBytes 0#8).length = (sha2_256s true).forsMsgBytes ∧
    (zeroAddr).length = 32 ∧ (sha2_256s true).fam = Opt.sha2Avx2.fam := by decide

/-! ## Signing -/

/-- What `crypto_sign_signature` of an optimised implementation accesses and the branches it takes can be computed
from the public key, the message and the signature it makes, which is the one the scheme prescribes. -/
theorem C67_sign_trace (o : Opt) {P : Params} (hP : P ∈ shipped) (hf : P.fam = o.fam) (G g : Nat → Nat → Byte)
    {sig0 m sk optrand : Bytes} (hsk : sk.length = P.skBytes) (hm : m.length < 2 ^ 60) (hopt : optrand.length = P.n)
    (hsig : P.spxBytes ≤ sig0.length) :
    ∃ sig, sig.length = P.spxBytes ∧ sig = Spec.sign P.toSpec (specHash P) sk optrand m ∧
      (o.sign P G g sig0 m sk optrand).res = .ok (sig ++ sig0.drop P.spxBytes, P.spxBytes) ∧
      (o.sign P G g sig0 m sk optrand).tr = o.simulate P (specHash P) (sk.drop (2 * P.n)) m sig sig0.length := by
  obtain ⟨R, hT⟩ := o.erase_refines hP hf G g
  obtain ⟨R', -⟩ := o.erase_refines hP hf (fun _ _ => 0) (fun _ _ => 0)
  refine ⟨Spec.sign P.toSpec (specHash P) sk optrand m, ship_sign_len hP .., rfl, ?_, ?_⟩
  · refine (erase_crypto_sign_signatureT _ (erase_parCode _) ..).trans ?_
    have e := crypto_sign_signatureT_spec (E := Env.erase ⟨P, o.hash P g, G⟩) R (shipped_valid hP) hT
      (Nat.le_of_eq hsk.symm) hm (Nat.le_of_eq hopt.symm) hsig
    rw [show optrand.take (Env.erase ⟨P, o.hash P g, G⟩).P.n = optrand from
      List.take_of_length_le (Nat.le_of_eq hopt)] at e
    exact e
  · exact (low_sign (G := G) (G' := fun _ _ => 0) (o.low_hash P g (fun _ _ => 0)) R R' (shipped_valid hP)
      (o.low_parCode (shipped_valid hP) G (fun _ _ => 0) g (fun _ _ => 0)) (erase_parCode _) hT hsk hm hopt hsig).1

/-- Two runs of an optimised implementation which make the same signature of the same message for the same public
key access the same memory and take the same branches. -/
theorem C67_same_signature_same_trace (o : Opt) {P : Params} (hP : P ∈ shipped) (hf : P.fam = o.fam)
    (G G' g g' : Nat → Nat → Byte) {sig0 sig0' m sk sk' optrand optrand' sig : Bytes} (hsk : sk.length = P.skBytes)
    (hsk' : sk'.length = P.skBytes) (hm : m.length < 2 ^ 60) (hopt : optrand.length = P.n)
    (hopt' : optrand'.length = P.n) (hsig : sig0.length = P.spxBytes) (hsig' : sig0'.length = P.spxBytes)
    (hpk : sk.drop (2 * P.n) = sk'.drop (2 * P.n))
    (h : (o.sign P G g sig0 m sk optrand).res = .ok (sig, P.spxBytes))
    (h' : (o.sign P G' g' sig0' m sk' optrand').res = .ok (sig, P.spxBytes)) :
    (o.sign P G g sig0 m sk optrand).tr = (o.sign P G' g' sig0' m sk' optrand').tr := by
  obtain ⟨s, _, _, e, t⟩ := C67_sign_trace o hP hf G g hsk hm hopt (Nat.le_of_eq hsig.symm)
  obtain ⟨s', _, _, e', t'⟩ := C67_sign_trace o hP hf G' g' hsk' hm hopt' (Nat.le_of_eq hsig'.symm)
  rw [h, List.drop_of_length_le (Nat.le_of_eq hsig), List.append_nil] at e
  rw [h', List.drop_of_length_le (Nat.le_of_eq hsig'), List.append_nil] at e'
  cases e
  cases e'
  rw [t, t', hpk, hsig, hsig']

/-- A secret key, a message, randomness and a buffer of the sizes assumed, for each of the implementations. -/
example (o : Opt) : ∃ (P : Params) (sig0 m sk optrand : Bytes), P ∈ shipped ∧ P.fam = o.fam ∧ sk.length = P.skBytes ∧
    m.length < 2 ^ 60 ∧ optrand.length = P.n ∧ P.spxBytes ≤ sig0.length := by
  have h : ∃ P, P ∈ shipped ∧ P.fam = o.fam := by
    cases o with
    | shakeA64 => exact ⟨shake_128f true, by decide, rfl⟩
    | shakeAvx2 => exact ⟨shake_192s false, by decide, rfl⟩
    | harakaAesni => exact ⟨haraka_256f true, by decide, rfl⟩
    | sha2Avx2 => exact ⟨sha2_256s false, by decide, rfl⟩
  obtain ⟨P, hP, hf⟩ := h
  exact ⟨P, List.replicate P.spxBytes 0, [1, 2, 3], List.replicate P.skBytes 7, List.replicate P.n 9, hP, hf,
    by rw [List.length_replicate], by decide, by rw [List.length_replicate], by rw [List.length_replicate]⟩

end Spx.Leak
