import Verif.Spec.Keccak
/-! SHAKE128, FIPS 202. -/

namespace Spx.Spec.Keccak

/-- SHAKE128 (FIPS 202, 6.2): capacity 256, domain bits 1111. -/
def shake128 (m : Bytes) (outlen : Nat) : Bytes := sponge keccakF 200 168 0x1F#8 m outlen

end Spx.Spec.Keccak
