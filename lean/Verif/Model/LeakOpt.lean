import Verif.Model.LeakParallel
import Verif.Model.LeakAesNi
import Verif.Model.LeakShakeX
import Verif.Model.LeakSha2X
import Verif.Model.Simulate
/-!
# The four optimised implementations with traces
-/

namespace Spx.Leak

/-- shake-a64, shake-avx2, haraka-aesni and sha2-avx2. -/
inductive Opt where
  | shakeA64
  | shakeAvx2
  | harakaAesni
  | sha2Avx2

/-- The hash family an implementation is for. -/
def Opt.fam : Opt → Family
  | .shakeA64 => .shake
  | .shakeAvx2 => .shake
  | .harakaAesni => .haraka
  | .sha2Avx2 => .sha2

/-- The logarithm of the number of lanes: 2 in shake-a64, 4 in shake-avx2 and haraka-aesni, 8 in sha2-avx2. -/
def Opt.lg : Opt → Nat
  | .shakeA64 => 1
  | .shakeAvx2 => 2
  | .harakaAesni => 2
  | .sha2Avx2 => 3

/-- The one-way hash functions; shake-avx2 and sha2-avx2 use those of the reference implementation. -/
def Opt.hash (P : Params) (g : Nat → Nat → Byte) : Opt → HashImpl
  | .shakeA64 => A64.impl P g
  | .shakeAvx2 => Shake.impl P g
  | .harakaAesni => AesNi.impl P g
  | .sha2Avx2 => Sha2.impl P g

/-- The hash functions on lanes. -/
def Opt.lanes (P : Params) (g : Nat → Nat → Byte) : Opt → LaneHash
  | .shakeA64 => A64.lanes P g
  | .shakeAvx2 => Avx2.lanes P g
  | .harakaAesni => AesNi.lanes P g
  | .sha2Avx2 => Sha2X.lanes P g

/-- A build of an optimised implementation with traces. -/
def Opt.build (o : Opt) (P : Params) (G g : Nat → Nat → Byte) : EnvX := ⟨⟨P, o.hash P g, G⟩, o.lg, o.lanes P g⟩

/-- The same build without traces. -/
def Opt.plain (o : Opt) (P : Params) (G g : Nat → Nat → Byte) : Spx.EnvX :=
  match o with
  | .shakeA64 => optBuild P (Spx.A64.impl P g) 1 (Spx.A64.lanes P g) G
  | .shakeAvx2 => optBuild P (Spx.Shake.impl P g) 2 (Spx.Avx2.lanes P g) G
  | .harakaAesni => optBuild P (Spx.AesNi.impl P g) 2 (Spx.AesNi.lanes P g) G
  | .sha2Avx2 => optBuild P (Spx.Sha2.impl P g) 3 (Spx.Sha2X.lanes P g) G

/-- `crypto_sign_seed_keypair` of an optimised implementation. -/
def Opt.keypair (o : Opt) (P : Params) (G g : Nat → Nat → Byte) (pk0 sk0 seed : Bytes) :=
  crypto_sign_seed_keypairT (o.build P G g).toEnv (parCode (o.build P G g)) pk0 sk0 seed

/-- `crypto_sign_signature` of an optimised implementation. -/
def Opt.sign (o : Opt) (P : Params) (G g : Nat → Nat → Byte) (sig0 m sk optrand : Bytes) :=
  crypto_sign_signatureT (o.build P G g).toEnv (parCode (o.build P G g)) sig0 m sk optrand

/-- The trace of `crypto_sign_signature` of an optimised implementation, from the public key, the message, the
signature and the size of the buffer for the signature. -/
def Opt.simulate (o : Opt) (P : Params) (S : Spec.Hash) (pk m sig : Bytes) (siglen : Nat) : List Ev :=
  (simulateWith (o.build P (fun _ _ => 0) (fun _ _ => 0)).toEnv (parCode (o.build P (fun _ _ => 0) (fun _ _ => 0)))
    S pk m sig siglen).tr

end Spx.Leak
