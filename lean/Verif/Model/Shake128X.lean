import Verif.Model.HashShakeX
/-! `shake128x2` of shake-a64 and `shake128x4` of shake-avx2.  No other file of the two directories calls
them, but both libraries export them. -/

namespace Spx

/-- `SHAKE128_RATE`, shake-a64/fips202.h:7, shake-avx2/fips202.h:7 (both links to ref/fips202.h) -/
def SHAKE128_RATE : Nat := 168

/-- `shake128x2`, shake-a64/fips202x2.c:102-132, and `shake128x4`, shake-avx2/fips202x4.c:138-180, from
the zeroed state `s` on.  `g` supplies the uninitialised locals. -/
def shake128x (L : Nat) (perm : List (BitVec 64) → C (List (BitVec 64))) (g : Nat → Nat → Byte)
    (s : List (BitVec 64)) (outs : List Bytes) (outlen : Nat) (ins : List Bytes) (inlen : Nat) :
    C (List Bytes) := do
  let s ← keccak_absorbx L perm (fun j => g (30 + j)) s SHAKE128_RATE ins inlen 0x1F#8
  let (outs, s) ← keccak_squeezeblocksx L perm outs (outlen / SHAKE128_RATE) s SHAKE128_RATE
  let off := outlen / SHAKE128_RATE * SHAKE128_RATE
  if outlen % SHAKE128_RATE ≠ 0 then
    let ts := (List.range L).map fun j => uninit (g (40 + j)) SHAKE128_RATE
    let (ts, _) ← keccak_squeezeblocksx L perm ts 1 s SHAKE128_RATE
    tabulate L fun j => do
      let t ← rd1 ts j
      forRange (outlen % SHAKE128_RATE) (fun i out => do wr1 out (off + i) (← rd1 t i)) (← rd1 outs j)
  else .ok outs

/-- `shake128x2`, shake-a64/fips202x2.c:102-132: `uint64_t s[50] = {0}`. -/
def shake128x2 (g : Nat → Nat → Byte) : List Bytes → Nat → List Bytes → Nat → C (List Bytes) :=
  shake128x 2 f1600x2 g (List.replicate 50 0#64)

/-- `shake128x4`, shake-avx2/fips202x4.c:138-180; the state is zeroed by
`s[i] = _mm256_xor_si256(s[i], s[i])` (lines 154-156) from uninitialised contents. -/
def shake128x4 (g : Nat → Nat → Byte) (outs : List Bytes) (outlen : Nat) (ins : List Bytes) (inlen : Nat) :
    C (List Bytes) := do
  let s ← forRange 25 (fun i s => do
    let v ← getw 4 s i
    setw 4 s i (vxor v v)) (uninit (fun i => (g 50 i).zeroExtend 64) 100)
  shake128x 4 KeccakP1600times4_PermuteAll_24rounds g s outs outlen ins inlen

end Spx
