import Verif.Spec.Aes256
import Verif.Spec.Rng
/-! # Known answers for the specification of AES-256 and CTR_DRBG

These pin the specification used by C34 and C35 to published values; they are tests of the
specification, not claims about the code. -/

namespace Spx.Rng
open Spec Spec.Rng

/-- FIPS 197, C.3. -/
theorem aes256_vector :
    Aes.aes256 ((List.range 32).map (BitVec.ofNat 8)) ((List.range 16).map fun i => BitVec.ofNat 8 (17 * i)) =
      [0x8e, 0xa2, 0xb7, 0xca, 0x51, 0x67, 0x45, 0xbf, 0xea, 0xfc, 0x49, 0x90, 0x4b, 0x49, 0x60, 0x89] := by
  decide +kernel

/-- Key and counter after initialisation with the bytes `00 01 … 2f`. -/
def katKey : Bytes × Bytes :=
  drbgUpdate Aes.aes256 ((List.range 48).map (BitVec.ofNat 8)) (List.replicate 32 0) 0

/-- The first bytes of the first `seed` of every NIST known-answer file. -/
theorem drbg_vector : drbgOut Aes.aes256 katKey.1 (beNat katKey.2) 16 =
      [0x06, 0x15, 0x50, 0x23, 0x4D, 0x15, 0x8C, 0x5E, 0xC9, 0x55, 0x95, 0xFE, 0x04, 0xEF, 0x7A, 0x25] := by
  decide +kernel

end Spx.Rng
