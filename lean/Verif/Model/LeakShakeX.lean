import Verif.Model.LeakShake
import Verif.Model.LeakParallel
import Verif.Model.HashShakeX
/-! # The SHAKE hash functions of several lanes, with traces

The definitions of Model/KeccakX.lean and Model/HashShakeX.lean over the monad of Model/LeakBase.lean, for `ln`
lanes.  The vector instructions compute on registers and leave no trace. -/

namespace Spx.Leak

/-- Load vector `i` of `ln` words: LD1, `_mm256_load_si256(&state[i])`. -/
def getw (ln : Nat) (s : List (BitVec 64)) (i : Nat) : L VReg := do
  let x ← rd s (ln * i) ln
  .ok fun j => x.getD j 0

/-- Store vector `i` of `ln` words: ST1, `_mm256_store_si256(&state[i], w)`; also the `ln` assignments
`state[ln*i + j] = w(j)`. -/
def setw (ln : Nat) (s : List (BitVec 64)) (i : Nat) (w : VReg) : L (List (BitVec 64)) :=
  wr s (ln * i) ((List.range ln).map w)

/-- shake-a64/f1600x2.s:115-121 (LD1 of consecutive vectors), `copyFromState`,
KeccakP-1600-times4-SIMD256.c:714-739 -/
def VLanes.load (ln : Nat) (s : List (BitVec 64)) : L VLanes := do
  let ba ← getw ln s 0
  let be ← getw ln s 1
  let bi ← getw ln s 2
  let bo ← getw ln s 3
  let bu ← getw ln s 4
  let ga ← getw ln s 5
  let ge ← getw ln s 6
  let gi ← getw ln s 7
  let go ← getw ln s 8
  let gu ← getw ln s 9
  let ka ← getw ln s 10
  let ke ← getw ln s 11
  let ki ← getw ln s 12
  let ko ← getw ln s 13
  let ku ← getw ln s 14
  let ma ← getw ln s 15
  let me ← getw ln s 16
  let mi ← getw ln s 17
  let mo ← getw ln s 18
  let mu ← getw ln s 19
  let sa ← getw ln s 20
  let se ← getw ln s 21
  let si ← getw ln s 22
  let so ← getw ln s 23
  let su ← getw ln s 24
  .ok ⟨ba, be, bi, bo, bu, ga, ge, gi, go, gu, ka, ke, ki, ko, ku, ma, me, mi, mo, mu, sa, se, si, so, su⟩

/-- shake-a64/f1600x2.s:130-136, `copyToState`, KeccakP-1600-times4-SIMD256.c:741-766 -/
def VLanes.store (ln : Nat) (A : VLanes) (s : List (BitVec 64)) : L (List (BitVec 64)) :=
  forRange 25 (fun i s => do setw ln s i (← rd1 A.toList i)) s

/-- `f1600x2(s)`, shake-a64/f1600x2.h:9 and f1600x2.s:106-143.  (The saved registers d8…d15 and the
stack are not modelled; all of v25…v31 are written in a round before they are read.) -/
def f1600x2 (s : List (BitVec 64)) : L (List (BitVec 64)) := prim .keccakx do
  let V ← VLanes.load 2 s
  let V ← forRange 24 (fun i V => do .ok (a64_round (← rd1 f1600_RC i) V)) V
  VLanes.store 2 V s

/-- `KeccakP1600times4_PermuteAll_24rounds`, KeccakP-1600-times4-SIMD256.c:802-813 with `rounds24`,
KeccakP-1600-unrolling.macros:15-41: the macros are used for rounds 0 … 22 (alternating the roles of
`A` and `E`) and round 23. -/
def KeccakP1600times4_PermuteAll_24rounds (s : List (BitVec 64)) : L (List (BitVec 64)) := prim .keccakx do
  let A ← VLanes.load 4 s
  let (Cs, A) ← forRange 23 (fun i (st : VCols × VLanes) => do
    .ok (thetaRhoPiChiIotaPrepareTheta (← rd1 KeccakF1600RoundConstants i) st.1 st.2)) (prepareTheta A, A)
  let A := thetaRhoPiChiIota (← rd1 KeccakF1600RoundConstants 23) Cs A
  VLanes.store 4 A s

/-- `load64(m0 + 8*i)`, `load64(m1 + 8*i)`, …: one word from each lane.
`_mm256_set_epi64x(((int64_t*)in3)[i], …, ((int64_t*)in0)[i])`. -/
def ldLanes (ln : Nat) (ms : List Bytes) (i : Nat) : L VReg := do
  let xs ← tabulate ln fun j => do load64 (← sub (← rd1 ms j) (8 * i))
  .ok fun j => xs.getD j 0

/-- `addr[k]`: word `k` of an address. -/
def addrWord (addr : Addr) (k : Nat) : L (BitVec 32) := do
  forRange 4 (fun i r => do .ok (r ||| ((← rd1 addr (4 * k + i)).zeroExtend 32 <<< (8 * i)))) 0#32

/-- `(((uint64_t)addr[1+2*i]) << 32) | (uint64_t)addr[2*i]` in each lane, shake-a64/hash_shakex2.c:27-30;
the `_mm256_set_epi32` of shake-avx2/hash_shakex4.c:28-37 puts `addr[1+2*i]` into the upper and
`addr[2*i]` into the lower half of each 64-bit lane. -/
def addrLanes (ln : Nat) (addrs : List Addr) (i : Nat) : L VReg := do
  let xs ← tabulate ln fun j => do
    let a ← rd1 addrs j
    let hi ← addrWord a (1 + 2 * i)
    let lo ← addrWord a (2 * i)
    .ok ((hi.zeroExtend 64 <<< 32) ||| lo.zeroExtend 64)
  .ok fun j => xs.getD j 0

/-- `s[ln*i+0] ^= load64(m0 + 8*i); s[ln*i+1] ^= load64(m1 + 8*i); …` for `i < r/8`,
fips202x2.c:41-45 and 70-74, fips202x4.c:55-61 and 96-102 -/
def xorLanes (ln r : Nat) (s : List (BitVec 64)) (ms : List Bytes) : L (List (BitVec 64)) :=
  forRange (r / 8) (fun i s => do
    let w ← ldLanes ln ms i
    let v ← getw ln s i
    setw ln s i (fun j => v j ^^^ w j)) s

/-- Body of the `while` loop, fips202x2.c:39-51, fips202x4.c:53-69.  State: s, the pointers m, mlen. -/
def keccak_absorbx_block (ln : Nat) (perm : List (BitVec 64) → L (List (BitVec 64))) (r : Nat)
    (st : List (BitVec 64) × List Bytes × Nat) :
    L ((List (BitVec 64) × List Bytes × Nat) ⊕ (List (BitVec 64) × List Bytes × Nat)) := do
  let (s, ms, mlen) := st
  cif mlen ≥ r then do
    let s ← xorLanes ln r s ms
    let s ← perm s
    let ms ← tabulate ln fun j => do sub (← rd1 ms j) r
    .ok (.inl (s, ms, mlen - r))
  else .ok (.inr (s, ms, mlen))

/-- The last block of one lane: `t` of fips202x2.c:53-68, fips202x4.c:71-94. -/
def keccak_absorbx_last (g : Nat → Byte) (r : Nat) (m : Bytes) (mlen : Nat) (p : Byte) : L Bytes := do
  let t ← forRange r (fun i t => wr1 t i 0#8) (uninit g 200)
  let t ← forRange mlen (fun i t => do wr1 t i (← rd1 m i)) t
  let t ← wr1 t mlen p
  wr1 t (r - 1) ((← rd1 t (r - 1)) ||| 128#8)

/-- `keccak_absorb2x`, shake-a64/fips202x2.c:28-75; `keccak_absorb4x`, shake-avx2/fips202x4.c:35-103 -/
def keccak_absorbx (ln : Nat) (perm : List (BitVec 64) → L (List (BitVec 64))) (g : Nat → Nat → Byte)
    (s : List (BitVec 64)) (r : Nat) (ms : List Bytes) (mlen : Nat) (p : Byte) : L (List (BitVec 64)) := do
  let (s, ms, mlen) ← loop (mlen + 1) (keccak_absorbx_block ln perm r) (s, ms, mlen)
  let ts ← tabulate ln fun j => do keccak_absorbx_last (g j) r (← rd1 ms j) mlen p
  xorLanes ln r s ts

/-- `store64(h + 8*i, s[ln*i+j])` for `i < k`, into the object behind `h`. -/
def storeLane (ln : Nat) (s : List (BitVec 64)) (j k : Nat) (h : Bytes) : L Bytes :=
  forRange k (fun i hh => do
    let v ← getw ln s i
    let (hh, _) ← withSub hh (8 * i) (fun x => do .ok (← store64 x (v j), ()))
    .ok hh) h

/-- `keccak_squeezeblocks2x`, shake-a64/fips202x2.c:78-98; `keccak_squeezeblocks4x`,
shake-avx2/fips202x4.c:106-134.  State: output buffers, offset of the moving pointers, s. -/
def keccak_squeezeblocksx (ln : Nat) (perm : List (BitVec 64) → L (List (BitVec 64)))
    (hs : List Bytes) (nblocks : Nat) (s : List (BitVec 64)) (r : Nat) :
    L (List Bytes × List (BitVec 64)) := do
  let (hs, _, s) ← forRange nblocks (fun _ (st : List Bytes × Nat × List (BitVec 64)) => do
    let (hs, off, s) := st
    let s ← perm s
    let hs ← tabulate ln fun j => do
      let (h, _) ← withSub (← rd1 hs j) off (fun hh => do .ok (← storeLane ln s j (r >>> 3) hh, ()))
      .ok h
    .ok (hs, off + r, s)) (hs, 0, s)
  .ok (hs, s)

/-- `shake256x2`, shake-a64/fips202x2.c:135-165, and `shake256x4`, shake-avx2/fips202x4.c:183-225, from
the zeroed state `s` on.  `g` supplies the uninitialised locals. -/
def shake256x (ln : Nat) (perm : List (BitVec 64) → L (List (BitVec 64))) (g : Nat → Nat → Byte)
    (s : List (BitVec 64)) (outs : List Bytes) (outlen : Nat) (ins : List Bytes) (inlen : Nat) :
    L (List Bytes) := do
  let s ← keccak_absorbx ln perm (fun j => g (30 + j)) s SHAKE256_RATE ins inlen 0x1F#8
  let (outs, s) ← keccak_squeezeblocksx ln perm outs (outlen / SHAKE256_RATE) s SHAKE256_RATE
  let off := outlen / SHAKE256_RATE * SHAKE256_RATE
  cif outlen % SHAKE256_RATE ≠ 0 then do
    let ts := (List.range ln).map fun j => uninit (g (40 + j)) SHAKE256_RATE
    let (ts, _) ← keccak_squeezeblocksx ln perm ts 1 s SHAKE256_RATE
    tabulate ln fun j => do
      let t ← rd1 ts j
      forRange (outlen % SHAKE256_RATE) (fun i out => do wr1 out (off + i) (← rd1 t i)) (← rd1 outs j)
  else .ok outs

/-- `shake256x2`, shake-a64/fips202x2.c:135-165: `uint64_t s[50] = {0}`. -/
def shake256x2 (g : Nat → Nat → Byte) : List Bytes → Nat → List Bytes → Nat → L (List Bytes) :=
  shake256x 2 f1600x2 g (List.replicate 50 0#64)

/-- `shake256x4`, shake-avx2/fips202x4.c:183-225; the state is zeroed by
`s[i] = _mm256_xor_si256(s[i], s[i])` (lines 199-201) from uninitialised contents. -/
def shake256x4 (g : Nat → Nat → Byte) (outs : List Bytes) (outlen : Nat) (ins : List Bytes) (inlen : Nat) :
    L (List Bytes) := do
  let s ← forRange 25 (fun i s => do
    let v ← getw 4 s i
    setw 4 s i (vxor v v)) (uninit (fun i => (g 50 i).zeroExtend 64) 100)
  shake256x 4 KeccakP1600times4_PermuteAll_24rounds g s outs outlen ins inlen

/-- The `else` branch of `thashx2`/`thashx4`, simple: shake-a64/thash_shake_simplex2.c:70-81,
shake-avx2/thash_shake_simplex4.c:77-96.  `shk` is `shake256x2`/`shake256x4`. -/
def thashx_simple_long (ln : Nat) (shk : List Bytes → Nat → List Bytes → Nat → L (List Bytes))
    (P : Params) (g : Nat → Nat → Byte) (ins : List Bytes) (inblocks : Nat) (ctx : Ctx) (addrs : List Addr) :
    L (List Bytes) := do
  let bufs ← tabulate ln fun j => do
    let buf := uninit (g (60 + j)) (P.n + SPX_ADDR_BYTES + inblocks * P.n)
    let buf ← wr buf 0 (← rd ctx.pub_seed 0 P.n)
    let buf ← wr buf P.n (← rd (← rd1 addrs j) 0 SPX_ADDR_BYTES)
    wr buf (P.n + SPX_ADDR_BYTES) (← rd (← rd1 ins j) 0 (inblocks * P.n))
  shk ((List.range ln).map fun j => uninit (g (70 + j)) P.n) P.n bufs (P.n + SPX_ADDR_BYTES + inblocks * P.n)

/-- The `else` branch of `thashx2`/`thashx4`, robust: shake-a64/thash_shake_robustx2.c:90-110,
shake-avx2/thash_shake_robustx4.c:99-129. -/
def thashx_robust_long (ln : Nat) (shk : List Bytes → Nat → List Bytes → Nat → L (List Bytes))
    (P : Params) (g : Nat → Nat → Byte) (ins : List Bytes) (inblocks : Nat) (ctx : Ctx) (addrs : List Addr) :
    L (List Bytes) := do
  let bufs ← tabulate ln fun j => do
    let buf := uninit (g (60 + j)) (P.n + SPX_ADDR_BYTES + inblocks * P.n)
    let buf ← wr buf 0 (← rd ctx.pub_seed 0 P.n)
    wr buf P.n (← rd (← rd1 addrs j) 0 SPX_ADDR_BYTES)
  let bitmasks ← shk ((List.range ln).map fun j => uninit (g (80 + j)) (inblocks * P.n)) (inblocks * P.n) bufs
    (P.n + SPX_ADDR_BYTES)
  let bufs ← tabulate ln fun j => do
    let inp ← rd1 ins j
    let bitmask ← rd1 bitmasks j
    forRange (inblocks * P.n) (fun i buf => do
      wr1 buf (P.n + SPX_ADDR_BYTES + i) ((← rd1 inp i) ^^^ (← rd1 bitmask i))) (← rd1 bufs j)
  shk ((List.range ln).map fun j => uninit (g (70 + j)) P.n) P.n bufs (P.n + SPX_ADDR_BYTES + inblocks * P.n)

/-- `state[ln*i+j] = load64(seed + 8*i)` in all lanes for `i < SPX_N/8`, at word `at0` on:
hash_shakex2.c:21-25 and 32-36, thash_shake_*x2.c; `_mm256_set1_epi64x(((int64_t*)seed)[i])` in the
AVX2 files. -/
def seedLanes (ln n at0 : Nat) (seed : Bytes) (s : List (BitVec 64)) : L (List (BitVec 64)) :=
  forRange (n / 8) (fun i s => do
    let x ← load64 (← sub seed (8 * i))
    setw ln s (at0 + i) (vdup x)) s

/-- The four quadwords of the address, from word `at0` on. -/
def putAddrs (ln at0 : Nat) (addrs : List Addr) (s : List (BitVec 64)) : L (List (BitVec 64)) :=
  forRange 4 (fun i s => do setw ln s (at0 + i) (← addrLanes ln addrs i)) s

/-- `store64(out + 8*i, state[ln*i+j])` for `i < SPX_N/8`, all lanes. -/
def outLanes (ln n : Nat) (g : Nat → Nat → Byte) (s : List (BitVec 64)) : L (List Bytes) :=
  tabulate ln fun j => storeLane ln s j (n / 8) (uninit (g (90 + j)) n)

/-- `for (i = a; i < b; i++) state[i] = _mm256_set1_epi64x(0)` -/
def zeroWords (ln a b : Nat) (s : List (BitVec 64)) : L (List (BitVec 64)) :=
  forRange (b - a) (fun i s => setw ln s (a + i) (vdup 0#64)) s

/-- `state[i] ^= w` in all lanes -/
def xorWord (ln : Nat) (s : List (BitVec 64)) (i : Nat) (w : BitVec 64) : L (List (BitVec 64)) := do
  let v ← getw ln s i
  setw ln s i (vxor v (vdup w))

namespace A64
variable (P : Params) (g : Nat → Nat → Byte)

/-- `prf_addrx2`, shake-a64/hash_shakex2.c:13-51 -/
def prf_addrx2 (ctx : Ctx) (addrs : List Addr) : L (List Bytes) := do
  let state := List.replicate 50 0#64
  let state ← seedLanes 2 P.n 0 ctx.pub_seed state
  let state ← putAddrs 2 (P.n / 8) addrs state
  let state ← seedLanes 2 P.n (P.n / 8 + 4) ctx.sk_seed state
  let state ← setw 2 state (P.n / 4 + 4) (vdup 0x1f#64)
  let state ← setw 2 state 16 (vdup (0x80#64 <<< 56))
  let state ← f1600x2 state
  outLanes 2 P.n g state

/-- `thashx2`, shake-a64/thash_shake_simplex2.c:28-83 -/
def thashx2_simple (ins : List Bytes) (inblocks : Nat) (ctx : Ctx) (addrs : List Addr) : L (List Bytes) := do
  cif inblocks = 1 orelse inblocks = 2 then do
    let state := List.replicate 50 0#64
    let state ← seedLanes 2 P.n 0 ctx.pub_seed state
    let state ← putAddrs 2 (P.n / 8) addrs state
    let state ← forRange (P.n / 8 * inblocks) (fun i s => do
      setw 2 s (P.n / 8 + 4 + i) (← ldLanes 2 ins i)) state
    let state ← setw 2 state 16 (vdup (0x80#64 <<< 56))
    let state ← xorWord 2 state (P.n / 8 * (1 + inblocks) + 4) 0x1f#64
    let state ← f1600x2 state
    outLanes 2 P.n g state
  else thashx_simple_long 2 (shake256x2 g) P g ins inblocks ctx addrs

/-- `thashx2`, shake-a64/thash_shake_robustx2.c:28-112 -/
def thashx2_robust (ins : List Bytes) (inblocks : Nat) (ctx : Ctx) (addrs : List Addr) : L (List Bytes) := do
  cif inblocks = 1 orelse inblocks = 2 then do
    let state := List.replicate 50 0#64
    let state ← seedLanes 2 P.n 0 ctx.pub_seed state
    let state ← putAddrs 2 (P.n / 8) addrs state
    let state ← setw 2 state 16 (vdup (0x80#64 <<< 56))
    let state ← xorWord 2 state (P.n / 8 + 4) 0x1f#64
    let state2 := state
    let state ← f1600x2 state
    let state2 ← forRange (P.n / 8 * inblocks) (fun i s => do
      setw 2 s (P.n / 8 + 4 + i) (vxor (← getw 2 state i) (← ldLanes 2 ins i))) state2
    let state2 ← xorWord 2 state2 (P.n / 8 * (1 + inblocks) + 4) 0x1f#64
    let state2 ← f1600x2 state2
    outLanes 2 P.n g state2
  else thashx_robust_long 2 (shake256x2 g) P g ins inblocks ctx addrs

/-- The lane hash functions linked in shake-a64. -/
def lanes : LaneHash where
  prf_addrx := prf_addrx2 P g
  thashx := if P.robust then thashx2_robust P g else thashx2_simple P g

/-- `thash`, shake-a64/thash_shake_simplex2.c:14-23 and thash_shake_robustx2.c:14-23:
`thashx2(out, out, in, in, inblocks, ctx, addrx2)`.  Lane 1 is written to `out` last. -/
def thash (inp : Bytes) (inblocks : Nat) (ctx : Ctx) (addr : Addr) : L Bytes := do
  let addr ← rd addr 0 32
  rd1 (← (lanes P g).thashx [inp, inp] inblocks ctx [addr, addr]) 1

/-- The one-way functions linked in shake-a64 (Makefile): hash_shake.c of ref/ and the `thash` above. -/
def impl : HashImpl := { Shake.impl P g with thash := thash P g }

end A64

namespace Avx2
variable (P : Params) (g : Nat → Nat → Byte)

/-- `prf_addrx4`, shake-avx2/hash_shakex4.c:14-63 -/
def prf_addrx4 (ctx : Ctx) (addrs : List Addr) : L (List Bytes) := do
  let state := Spx.Avx2.state0 g
  let state ← seedLanes 4 P.n 0 ctx.pub_seed state
  let state ← putAddrs 4 (P.n / 8) addrs state
  let state ← seedLanes 4 P.n (P.n / 8 + 4) ctx.sk_seed state
  let state ← setw 4 state (P.n / 4 + 4) (vdup 0x1f#64)
  let state ← zeroWords 4 (P.n / 4 + 5) 16 state
  let state ← setw 4 state 16 (vdup (0x80#64 <<< 56))
  let state ← zeroWords 4 17 25 state
  let state ← KeccakP1600times4_PermuteAll_24rounds state
  outLanes 4 P.n g state

/-- `thashx4`, shake-avx2/thash_shake_simplex4.c:16-98 -/
def thashx4_simple (ins : List Bytes) (inblocks : Nat) (ctx : Ctx) (addrs : List Addr) : L (List Bytes) := do
  cif inblocks = 1 orelse inblocks = 2 then do
    let state := Spx.Avx2.state0 g
    let state ← seedLanes 4 P.n 0 ctx.pub_seed state
    let state ← putAddrs 4 (P.n / 8) addrs state
    let state ← forRange (P.n / 8 * inblocks) (fun i s => do
      setw 4 s (P.n / 8 + 4 + i) (← ldLanes 4 ins i)) state
    let state ← zeroWords 4 (P.n / 8 * (1 + inblocks) + 4) 16 state
    let state ← setw 4 state 16 (vdup (0x80#64 <<< 56))
    let state ← xorWord 4 state (P.n / 8 * (1 + inblocks) + 4) 0x1f#64
    let state ← zeroWords 4 17 25 state
    let state ← KeccakP1600times4_PermuteAll_24rounds state
    outLanes 4 P.n g state
  else thashx_simple_long 4 (shake256x4 g) P g ins inblocks ctx addrs

/-- `thashx4`, shake-avx2/thash_shake_robustx4.c:16-131 -/
def thashx4_robust (ins : List Bytes) (inblocks : Nat) (ctx : Ctx) (addrs : List Addr) : L (List Bytes) := do
  cif inblocks = 1 orelse inblocks = 2 then do
    let state := Spx.Avx2.state0 g
    let state ← seedLanes 4 P.n 0 ctx.pub_seed state
    let state ← putAddrs 4 (P.n / 8) addrs state
    let state ← setw 4 state (P.n / 8 + 4) (vdup 0x1f#64)
    let state ← zeroWords 4 (P.n / 8 + 5) 16 state
    let state ← setw 4 state 16 (vdup (0x80#64 <<< 56))
    let state ← zeroWords 4 17 25 state
    let state2 := state
    let state ← KeccakP1600times4_PermuteAll_24rounds state
    let state2 ← forRange (P.n / 8 * inblocks) (fun i s => do
      setw 4 s (P.n / 8 + 4 + i) (vxor (← getw 4 state i) (← ldLanes 4 ins i))) state2
    let state2 ← xorWord 4 state2 (P.n / 8 * (1 + inblocks) + 4) 0x1f#64
    let state2 ← KeccakP1600times4_PermuteAll_24rounds state2
    outLanes 4 P.n g state2
  else thashx_robust_long 4 (shake256x4 g) P g ins inblocks ctx addrs

/-- The lane hash functions linked in shake-avx2. -/
def lanes : LaneHash where
  prf_addrx := prf_addrx4 P g
  thashx := if P.robust then thashx4_robust P g else thashx4_simple P g

end Avx2
end Spx.Leak
