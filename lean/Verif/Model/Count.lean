import Verif.Model.LeakVerifyX
import Verif.Model.LeakOpt
import Verif.Spec.Prims
/-! # Counting the calls of the hash library

The programs of Model/LeakSign.lean, Model/LeakVerify.lean, Model/LeakParallel.lean
and Model/LeakVerifyX.lean with hash functions which record
that they are called and nothing else. -/

namespace Spx.Leak

/-- The functions declared in ref/hash.h and ref/thash.h, each recording its call. -/
def counted (H : Spx.HashImpl) : HashImpl where
  initialize_hash_function ctx := ⟨[.call .init], H.initialize_hash_function ctx⟩
  prf_addr ctx addr := ⟨[.call .prf], H.prf_addr ctx addr⟩
  thash inp inblocks ctx addr := ⟨[.call (.thash inblocks)], H.thash inp inblocks ctx addr⟩
  gen_message_random sk_prf optrand m ctx := ⟨[.call .rand], H.gen_message_random sk_prf optrand m ctx⟩
  hash_message R pk m ctx := ⟨[.call .msg], H.hash_message R pk m ctx⟩

/-- The functions for several lanes (hashx4.h, thashx4.h and so on), each recording its call. -/
def countedX (X : Spx.LaneHash) : LaneHash where
  prf_addrx ctx addrs := ⟨[.call .prfx], X.prf_addrx ctx addrs⟩
  thashx ins inblocks ctx addrs := ⟨[.call (.thashx inblocks)], X.thashx ins inblocks ctx addrs⟩

/-- A build of the reference implementation which records calls -/
def countedEnv (E : Spx.Env) : Env := ⟨E.P, counted E.H, E.G⟩

/-- A build of an optimised implementation which records calls -/
def countedEnvX (E : Spx.EnvX) : EnvX := ⟨countedEnv E.toEnv, E.lg, countedX E.X⟩

/-- How often a trace calls a function. -/
def calls (f : Fn) (t : List Ev) : Nat := t.count (.call f)

end Spx.Leak

namespace Spx

open Leak

/-- The calls made by `crypto_sign_seed_keypair`, ref/sign.c:53-76 -/
def keypairCalls (E : Env) (pk0 sk0 seed : Bytes) (f : Fn) : Nat :=
  calls f (Leak.crypto_sign_seed_keypair (countedEnv E) pk0 sk0 seed).tr

/-- The calls made by `crypto_sign_signature`, ref/sign.c:95-158 -/
def signCalls (E : Env) (sig0 m sk optrand : Bytes) (f : Fn) : Nat :=
  calls f (Leak.crypto_sign_signature (countedEnv E) sig0 m sk optrand).tr

/-- The calls made by `crypto_sign_verify`, ref/sign.c:163-240 -/
def verifyCalls (E : Env) (sig : Bytes) (siglen : Nat) (m pk : Bytes) (f : Fn) : Nat :=
  calls f (Leak.crypto_sign_verify (countedEnv E) sig siglen m pk).tr

/-- The calls made by `crypto_sign_seed_keypair` of an optimised implementation -/
def keypairCallsX (E : EnvX) (pk0 sk0 seed : Bytes) (f : Fn) : Nat :=
  calls f (Leak.crypto_sign_seed_keypairT (countedEnvX E).toEnv (Leak.parCode (countedEnvX E)) pk0 sk0 seed).tr

/-- The calls made by `crypto_sign_signature` of an optimised implementation -/
def signCallsX (E : EnvX) (sig0 m sk optrand : Bytes) (f : Fn) : Nat :=
  calls f (Leak.crypto_sign_signatureT (countedEnvX E).toEnv (Leak.parCode (countedEnvX E)) sig0 m sk optrand).tr

/-- The calls made by `crypto_sign_verify` of an optimised implementation -/
def verifyCallsX (E : EnvX) (sig : Bytes) (siglen : Nat) (m pk : Bytes) (f : Fn) : Nat :=
  calls f (Leak.crypto_sign_verifyT (countedEnvX E).toEnv (Leak.wots_pk_from_sigx (countedEnvX E)) sig siglen m pk).tr

/-! ### Calls of the primitives

The primitives record their calls in every trace, so nothing has to be replaced. -/

/-- The primitives computed by `crypto_sign_seed_keypair`, ref/sign.c:53-76 -/
def keypairPrims (E : Leak.Env) (pk0 sk0 seed : Bytes) (f : Fn) : Nat :=
  calls f (Leak.crypto_sign_seed_keypair E pk0 sk0 seed).tr

/-- The primitives computed by `crypto_sign_signature`, ref/sign.c:95-158 -/
def signPrims (E : Leak.Env) (sig0 m sk optrand : Bytes) (f : Fn) : Nat :=
  calls f (Leak.crypto_sign_signature E sig0 m sk optrand).tr

/-- The primitives computed by `crypto_sign_verify`, ref/sign.c:163-240 -/
def verifyPrims (E : Leak.Env) (sig : Bytes) (siglen : Nat) (m pk : Bytes) (f : Fn) : Nat :=
  calls f (Leak.crypto_sign_verify E sig siglen m pk).tr

/-- The primitives which the functions of a parameter set need, for a message of `mlen` bytes. -/
def specPrims (P : Params) (mlen : Nat) : Fn → List (Nat × Fn) :=
  match P.fam with
  | .sha2 => Spec.sha2Prims P.toSpec P.robust mlen
  | .shake => Spec.shakePrims P.toSpec P.robust mlen
  | .haraka => Spec.harakaPrims P.toSpec P.robust mlen

/-- The primitives computed by `crypto_sign_verify` of an optimised implementation -/
def Leak.Opt.verifyPrims (o : Opt) (P : Params) (G g : Nat → Nat → Byte) (sig : Bytes) (siglen : Nat) (m pk : Bytes)
    (f : Fn) : Nat :=
  calls f (Leak.crypto_sign_verifyT (o.build P G g).toEnv (Leak.wots_pk_from_sigx (o.build P G g)) sig siglen m pk).tr

/-- The primitives computed by `crypto_sign_seed_keypair` of an optimised implementation -/
def Leak.Opt.keypairPrims (o : Opt) (P : Params) (G g : Nat → Nat → Byte) (pk0 sk0 seed : Bytes) (f : Fn) : Nat :=
  calls f (o.keypair P G g pk0 sk0 seed).tr

/-- The primitives computed by `crypto_sign_signature` of an optimised implementation -/
def Leak.Opt.signPrims (o : Opt) (P : Params) (G g : Nat → Nat → Byte) (sig0 m sk optrand : Bytes) (f : Fn) : Nat :=
  calls f (o.sign P G g sig0 m sk optrand).tr

/-- The primitives which the functions of an optimised implementation need, for a message of `mlen` bytes: shake-a64
computes also a single `thash` with two lanes. -/
def Leak.Opt.specPrims (o : Opt) (P : Params) (mlen : Nat) : Fn → List (Nat × Fn) :=
  match o with
  | .shakeA64 => Spec.shakePrimsXX P.toSpec P.robust mlen
  | .shakeAvx2 => Spec.shakePrimsX P.toSpec P.robust mlen
  | .harakaAesni => Spec.harakaPrimsX P.toSpec P.robust mlen
  | .sha2Avx2 => Spec.sha2PrimsX P.toSpec P.robust mlen

end Spx
