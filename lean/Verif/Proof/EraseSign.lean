import Verif.Model.LeakSign
import Verif.Proof.EraseTree
import Verif.Proof.EraseShake
import Verif.Proof.EraseSha2
import Verif.Proof.EraseHaraka
/-! # The definitions of Model/LeakSign.lean without the traces are those of the model -/

namespace Spx.Leak

/-- Tree code which is `K` without the traces. -/
structure TreeCode.Erases (T : TreeCode) (K : Spx.TreeCode) : Prop where
  merkle_sign : ∀ sig root c wa ta i, (T.merkle_sign sig root c wa ta i).res = K.merkle_sign sig root c wa ta i
  merkle_gen_root : ∀ root c, (T.merkle_gen_root root c).res = K.merkle_gen_root root c
  fors_sign : ∀ sig m c a, (T.fors_sign sig m c a).res = K.fors_sign sig m c a

theorem erase_refCode (E : Env) : (refCode E).Erases (Spx.refCode E.erase) :=
  ⟨erase_merkle_sign E, erase_merkle_gen_root E, erase_fors_sign E⟩

section
variable (E : Env) {T : TreeCode} {K : Spx.TreeCode} (hT : T.Erases K)

include hT in
theorem erase_crypto_sign_seed_keypairT (pk0 sk0 seed : Bytes) :
    (crypto_sign_seed_keypairT E T pk0 sk0 seed).res = Spx.crypto_sign_seed_keypairT E.erase K pk0 sk0 seed := by
  unfold crypto_sign_seed_keypairT Spx.crypto_sign_seed_keypairT
  erase
  all_goals first
    | exact hT.merkle_gen_root ..
    | erase

include hT in
theorem erase_sign_layerT (ctx : Ctx) (i : Nat) (s : Bytes × Nat × Bytes × Addr × Addr × Nat × Nat) :
    (sign_layerT E T ctx i s).res = Spx.sign_layerT E.erase K ctx i s := by
  unfold sign_layerT Spx.sign_layerT
  erase
  all_goals first
    | exact hT.merkle_sign ..
    | erase

include hT in
theorem erase_sign_restT (sig : Bytes) (ctx : Ctx) (mhash : Bytes) (tree idx_leaf : Nat) :
    (sign_restT E T sig ctx mhash tree idx_leaf).res =
      Spx.sign_restT E.erase K sig ctx mhash tree idx_leaf := by
  unfold sign_restT Spx.sign_restT
  erase
  all_goals first
    | exact hT.fors_sign ..
    | exact erase_sign_layerT E hT ..
    | erase

include hT in
theorem erase_crypto_sign_signatureT (sig0 m sk optrand : Bytes) :
    (crypto_sign_signatureT E T sig0 m sk optrand).res = Spx.crypto_sign_signatureT E.erase K sig0 m sk optrand := by
  unfold crypto_sign_signatureT Spx.crypto_sign_signatureT
  erase
  all_goals first
    | exact erase_sign_restT E hT ..
    | erase

end

theorem erase_crypto_sign_seed_keypair (E : Env) (pk0 sk0 seed : Bytes) :
    (crypto_sign_seed_keypair E pk0 sk0 seed).res = Spx.crypto_sign_seed_keypair E.erase pk0 sk0 seed :=
  erase_crypto_sign_seed_keypairT E (erase_refCode E) ..

theorem erase_crypto_sign_signature (E : Env) (sig0 m sk optrand : Bytes) :
    (crypto_sign_signature E sig0 m sk optrand).res = Spx.crypto_sign_signature E.erase sig0 m sk optrand :=
  erase_crypto_sign_signatureT E (erase_refCode E) ..

theorem HashImpl.erase_ext {H : HashImpl} {K : Spx.HashImpl}
    (h1 : ∀ c, (H.initialize_hash_function c).res = K.initialize_hash_function c)
    (h2 : ∀ c a, (H.prf_addr c a).res = K.prf_addr c a)
    (h3 : ∀ i b c a, (H.thash i b c a).res = K.thash i b c a)
    (h4 : ∀ k o m c, (H.gen_message_random k o m c).res = K.gen_message_random k o m c)
    (h5 : ∀ R pk m c, (H.hash_message R pk m c).res = K.hash_message R pk m c) : H.erase = K := by
  unfold HashImpl.erase
  cases K
  congr 1
  · exact funext h1
  · exact funext fun c => funext fun a => h2 c a
  · exact funext fun i => funext fun b => funext fun c => funext fun a => h3 i b c a
  · exact funext fun k => funext fun o => funext fun m => funext fun c => h4 k o m c
  · exact funext fun R => funext fun pk => funext fun m => funext fun c => h5 R pk m c

theorem erase_shake (P : Params) (g : Nat → Nat → Byte) : (Shake.impl P g).erase = Spx.Shake.impl P g := by
  apply HashImpl.erase_ext
  · exact Shake.erase_initialize_hash_function
  · exact Shake.erase_prf_addr P g
  · intro i b c a
    simp only [Shake.impl, Spx.Shake.impl]
    split
    · exact Shake.erase_thash_robust P g i b c a
    · exact Shake.erase_thash_simple P g i b c a
  · exact Shake.erase_gen_message_random P g
  · exact Shake.erase_hash_message P g

theorem erase_sha2 (P : Params) (g : Nat → Nat → Byte) : (Sha2.impl P g).erase = Spx.Sha2.impl P g := by
  apply HashImpl.erase_ext
  · exact Sha2.erase_initialize_hash_function P g
  · exact Sha2.erase_prf_addr P g
  · intro i b c a
    simp only [Sha2.impl, Spx.Sha2.impl]
    split
    · exact Sha2.erase_thash_robust P g i b c a
    · exact Sha2.erase_thash_simple P g i b c a
  · exact Sha2.erase_gen_message_random P g
  · exact Sha2.erase_hash_message P g

theorem Haraka.erase_implWith (K : Haraka.Lib) (P : Params) (g : Nat → Nat → Byte) :
    (Haraka.implWith K P g).erase = Spx.Haraka.implWith K.erase P g := by
  apply HashImpl.erase_ext
  · exact Haraka.erase_initialize_hash_function K P g
  · exact Haraka.erase_prf_addr K P
  · intro i b c a
    simp only [Haraka.implWith, Spx.Haraka.implWith]
    split
    · exact Haraka.erase_thash_robust K P g i b c a
    · exact Haraka.erase_thash_simple K P g i b c a
  · exact Haraka.erase_gen_message_random K P g
  · exact Haraka.erase_hash_message K P g

theorem Haraka.erase_impl (P : Params) (g : Nat → Nat → Byte) :
    (Haraka.impl P g).erase = Spx.Haraka.impl P g := by
  unfold Haraka.impl Spx.Haraka.impl
  rw [Haraka.erase_implWith, Haraka.erase_refLib]

theorem erase_implOf (P : Params) (g : Nat → Nat → Byte) : (implOf P g).erase = Spx.implOf P g := by
  unfold implOf Spx.implOf
  cases P.fam
  · exact erase_sha2 P g
  · exact erase_shake P g
  · exact Haraka.erase_impl P g

/-- The builds with traces are the builds of the model. -/
theorem erase_build (P : Params) (G g : Nat → Nat → Byte) : (build P G g).erase = Spx.build P G g := by
  unfold build Spx.build Env.erase
  rw [erase_implOf]

end Spx.Leak
