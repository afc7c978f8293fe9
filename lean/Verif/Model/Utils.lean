import Verif.Base
/-! # Model of the byte conversions in ref/utils.c -/

namespace Spx

/-- `ull_to_bytes`, ref/utils.c:12-22.  `inv < 2^64` in C. -/
def ull_to_bytes (out : Bytes) (outlen inv : Nat) : C Bytes := do
  let r ← forRange outlen (fun j (s : Bytes × Nat) => do
    -- i runs from outlen - 1 down to 0
    let i := outlen - 1 - j
    let out ← wr1 s.1 i (BitVec.ofNat 8 (s.2 &&& 0xff))
    .ok (out, s.2 >>> 8)) (out, inv)
  .ok r.1

/-- `u32_to_bytes`, ref/utils.c:24-30. -/
def u32_to_bytes (out : Bytes) (inv : Nat) : C Bytes := do
  let out ← wr1 out 0 (BitVec.ofNat 8 (inv >>> 24))
  let out ← wr1 out 1 (BitVec.ofNat 8 (inv >>> 16))
  let out ← wr1 out 2 (BitVec.ofNat 8 (inv >>> 8))
  wr1 out 3 (BitVec.ofNat 8 inv)

/-- `bytes_to_ull`, ref/utils.c:35-44.  A shift by 64 or more is undefined. -/
def bytes_to_ull (inp : Bytes) (inlen : Nat) : C Nat :=
  forRange inlen (fun i retval => do
    let b ← rd1 inp i
    let k := 8 * (inlen - 1 - i)
    if k < 64 then .ok (retval ||| (b.toNat <<< k) % 2 ^ 64) else .error .shift) 0

end Spx
