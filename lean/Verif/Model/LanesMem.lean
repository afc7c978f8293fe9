import Verif.Model.ThashMem
import Verif.Model.HashShakeX
import Verif.Model.HashHarakaX
import Verif.Model.HashSha2X
/-! # Model of the parallel tweakable hashes over flat memory

The callers of `thashx2`/`thashx4`/`thashx8` let the outputs overlap the inputs: the tree code hashes the
pairs of nodes in `stackx4` and `current` into `current` (shake-avx2/utilsx4.c:122-131), and the chains and FORS
leaves are hashed in place (shake-avx2/wots.c:99-100 and 251-258, fors.c:48-50 called from fors.c:82-90); in
`gen_chains` several lanes may be given the same buffer `empty` (shake-avx2/wots.c:78 and 84).  Here `out j` and `inp j` are the
addresses passed for lane `j`; the context, the hash addresses and the local arrays are objects of their own, as
declared.  Every access through `in` is a memory read where the code makes it, and every write through `out` a
memory write where the code makes it, in the order of the code.  Everything else is as in the models over
lists, with the same uninitialised contents. -/

namespace Spx

/-- The bytes of lane `j` stay: every other output is disjoint from it, or is the same place and belongs to an
earlier lane. -/
def Wins (L n : Nat) (out : Nat → Nat) (j : Nat) : Prop :=
  ∀ j', j' < L → j' ≠ j → (out j' + n ≤ out j ∨ out j + n ≤ out j') ∨ (out j' = out j ∧ j' < j)

/-- `store64(p, u)`, shake-a64/fips202x2.c, shake-avx2/fips202x4.c; the assignment `((int64_t *)p)[0] = u`. -/
def Mem.wr64 (M : Mem) (p : Nat) (u : BitVec 64) : C Mem :=
  forRange 8 (fun i M => M.wr (p + i) [(u >>> (8 * i)).truncate 8]) M

/-- As `ldLanes`, from memory. -/
def ldLanesM (L : Nat) (M : Mem) (inp : Nat → Nat) (i : Nat) : C VReg := do
  let xs ← tabulate L fun j => do load64 (← M.rd (inp j + 8 * i) 8)
  .ok fun j => xs.getD j 0

/-- `store64(h0 + 8*i, s[L*i+0]); store64(h1 + 8*i, s[L*i+1]); …` for `i < k`, with `hj = out j + off`:
fips202x2.c:86-90, fips202x4.c:120-126; `((int64_t*)out0)[i] = …` at the end of the hash functions. -/
def storeLanesM (L : Nat) (out : Nat → Nat) (off : Nat) (s : List (BitVec 64)) (k : Nat) (M : Mem) : C Mem :=
  forRange k (fun i M => do
    let v ← getw L s i
    forRange L (fun j M => M.wr64 (out j + off + 8 * i) (v j)) M) M

/-- `keccak_squeezeblocks2x`, `keccak_squeezeblocks4x` with outputs in memory. -/
def keccak_squeezeblocksxM (L : Nat) (perm : List (BitVec 64) → C (List (BitVec 64))) (M : Mem) (out : Nat → Nat)
    (nblocks : Nat) (s : List (BitVec 64)) (r : Nat) : C (Mem × List (BitVec 64)) := do
  let (M, _, s) ← forRange nblocks (fun _ (st : Mem × Nat × List (BitVec 64)) => do
    let (M, off, s) := st
    let s ← perm s
    let M ← storeLanesM L out off s (r >>> 3) M
    .ok (M, off + r, s)) (M, 0, s)
  .ok (M, s)

/-- `out0[i] = t0[i]; out1[i] = t1[i]; …` for `i < k`: fips202x2.c:159-163, fips202x4.c:216-222,
haraka-aesni/haraka.c:399-404 -/
def copyLanesM (L : Nat) (out : Nat → Nat) (off : Nat) (ts : List Bytes) (k : Nat) (M : Mem) : C Mem :=
  forRange k (fun i M =>
    forRange L (fun j M => do M.wr (out j + off + i) [← rd1 (← rd1 ts j) i]) M) M

/-- `shake256x2`, `shake256x4` from the zeroed state on, with outputs in memory and inputs in local arrays. -/
def shake256xM (L : Nat) (perm : List (BitVec 64) → C (List (BitVec 64))) (g : Nat → Nat → Byte)
    (s : List (BitVec 64)) (M : Mem) (out : Nat → Nat) (outlen : Nat) (ins : List Bytes) (inlen : Nat) : C Mem := do
  let s ← keccak_absorbx L perm (fun j => g (30 + j)) s SHAKE256_RATE ins inlen 0x1F#8
  let (M, s) ← keccak_squeezeblocksxM L perm M out (outlen / SHAKE256_RATE) s SHAKE256_RATE
  let off := outlen / SHAKE256_RATE * SHAKE256_RATE
  if outlen % SHAKE256_RATE ≠ 0 then
    let ts := (List.range L).map fun j => uninit (g (40 + j)) SHAKE256_RATE
    let (ts, _) ← keccak_squeezeblocksx L perm ts 1 s SHAKE256_RATE
    copyLanesM L out off ts (outlen % SHAKE256_RATE) M
  else .ok M

/-- `shake256x2`, shake-a64/fips202x2.c:135-165 -/
def shake256x2M (g : Nat → Nat → Byte) : Mem → (Nat → Nat) → Nat → List Bytes → Nat → C Mem :=
  shake256xM 2 f1600x2 g (List.replicate 50 0#64)

/-- `shake256x4`, shake-avx2/fips202x4.c:183-225 -/
def shake256x4M (g : Nat → Nat → Byte) (M : Mem) (out : Nat → Nat) (outlen : Nat) (ins : List Bytes) (inlen : Nat) :
    C Mem := do
  let s ← forRange 25 (fun i s => do
    let v ← getw 4 s i
    setw 4 s i (vxor v v)) (uninit (fun i => (g 50 i).zeroExtend 64) 100)
  shake256xM 4 KeccakP1600times4_PermuteAll_24rounds g s M out outlen ins inlen

/-- The `else` branch of `thashx2`/`thashx4`, simple: shake-a64/thash_shake_simplex2.c:70-81,
shake-avx2/thash_shake_simplex4.c:77-96. -/
def thashx_simple_longM (L : Nat) (shk : Mem → (Nat → Nat) → Nat → List Bytes → Nat → C Mem)
    (P : Params) (g : Nat → Nat → Byte) (M : Mem) (out inp : Nat → Nat) (inblocks : Nat) (ctx : Ctx)
    (addrs : List Addr) : C Mem := do
  let bufs ← tabulate L fun j => do
    let buf := uninit (g (60 + j)) (P.n + SPX_ADDR_BYTES + inblocks * P.n)
    let buf ← wr buf 0 (← rd ctx.pub_seed 0 P.n)
    let buf ← wr buf P.n (← rd (← rd1 addrs j) 0 SPX_ADDR_BYTES)
    wr buf (P.n + SPX_ADDR_BYTES) (← M.rd (inp j) (inblocks * P.n))
  shk M out P.n bufs (P.n + SPX_ADDR_BYTES + inblocks * P.n)

/-- The `else` branch of `thashx2`/`thashx4`, robust: shake-a64/thash_shake_robustx2.c:90-110,
shake-avx2/thash_shake_robustx4.c:99-129.  `shk` writes local arrays (the masks), `shkM` the outputs. -/
def thashx_robust_longM (L : Nat) (shk : List Bytes → Nat → List Bytes → Nat → C (List Bytes))
    (shkM : Mem → (Nat → Nat) → Nat → List Bytes → Nat → C Mem)
    (P : Params) (g : Nat → Nat → Byte) (M : Mem) (out inp : Nat → Nat) (inblocks : Nat) (ctx : Ctx)
    (addrs : List Addr) : C Mem := do
  let bufs ← tabulate L fun j => do
    let buf := uninit (g (60 + j)) (P.n + SPX_ADDR_BYTES + inblocks * P.n)
    let buf ← wr buf 0 (← rd ctx.pub_seed 0 P.n)
    wr buf P.n (← rd (← rd1 addrs j) 0 SPX_ADDR_BYTES)
  let bitmasks ← shk ((List.range L).map fun j => uninit (g (80 + j)) (inblocks * P.n)) (inblocks * P.n) bufs
    (P.n + SPX_ADDR_BYTES)
  let bufs ← tabulate L fun j => do
    let bitmask ← rd1 bitmasks j
    forRange (inblocks * P.n) (fun i buf => do
      wr1 buf (P.n + SPX_ADDR_BYTES + i) ((← M.rd1 (inp j) i) ^^^ (← rd1 bitmask i))) (← rd1 bufs j)
  shkM M out P.n bufs (P.n + SPX_ADDR_BYTES + inblocks * P.n)

namespace A64
variable (P : Params) (g : Nat → Nat → Byte)

/-- `thashx2`, shake-a64/thash_shake_simplex2.c:28-83 -/
def thashx2_simpleM (M : Mem) (out inp : Nat → Nat) (inblocks : Nat) (ctx : Ctx) (addrs : List Addr) : C Mem := do
  if inblocks = 1 ∨ inblocks = 2 then
    let state := List.replicate 50 0#64
    let state ← seedLanes 2 P.n 0 ctx.pub_seed state
    let state ← putAddrs 2 (P.n / 8) addrs state
    let state ← forRange (P.n / 8 * inblocks) (fun i s => do
      setw 2 s (P.n / 8 + 4 + i) (← ldLanesM 2 M inp i)) state
    let state ← setw 2 state 16 (vdup (0x80#64 <<< 56))
    let state ← xorWord 2 state (P.n / 8 * (1 + inblocks) + 4) 0x1f#64
    let state ← f1600x2 state
    storeLanesM 2 out 0 state (P.n / 8) M
  else thashx_simple_longM 2 (shake256x2M g) P g M out inp inblocks ctx addrs

/-- `thashx2`, shake-a64/thash_shake_robustx2.c:28-112 -/
def thashx2_robustM (M : Mem) (out inp : Nat → Nat) (inblocks : Nat) (ctx : Ctx) (addrs : List Addr) : C Mem := do
  if inblocks = 1 ∨ inblocks = 2 then
    let state := List.replicate 50 0#64
    let state ← seedLanes 2 P.n 0 ctx.pub_seed state
    let state ← putAddrs 2 (P.n / 8) addrs state
    let state ← setw 2 state 16 (vdup (0x80#64 <<< 56))
    let state ← xorWord 2 state (P.n / 8 + 4) 0x1f#64
    let state2 := state
    let state ← f1600x2 state
    let state2 ← forRange (P.n / 8 * inblocks) (fun i s => do
      setw 2 s (P.n / 8 + 4 + i) (vxor (← getw 2 state i) (← ldLanesM 2 M inp i))) state2
    let state2 ← xorWord 2 state2 (P.n / 8 * (1 + inblocks) + 4) 0x1f#64
    let state2 ← f1600x2 state2
    storeLanesM 2 out 0 state2 (P.n / 8) M
  else thashx_robust_longM 2 (shake256x2 g) (shake256x2M g) P g M out inp inblocks ctx addrs

/-- The `thashx2` linked in shake-a64. -/
def thashxM : Mem → (Nat → Nat) → (Nat → Nat) → Nat → Ctx → List Addr → C Mem :=
  if P.robust then thashx2_robustM P g else thashx2_simpleM P g

/-- `thash`, shake-a64/thash_shake_simplex2.c:14-23 and thash_shake_robustx2.c:14-23:
`thashx2(out, out, in, in, inblocks, ctx, addrx2)`. -/
def thashM (M : Mem) (out inp inblocks : Nat) (ctx : Ctx) (addr : Addr) : C Mem := do
  let addr ← rd addr 0 32
  thashxM P g M (fun _ => out) (fun _ => inp) inblocks ctx [addr, addr]

end A64

namespace Avx2
variable (P : Params) (g : Nat → Nat → Byte)

/-- `thashx4`, shake-avx2/thash_shake_simplex4.c:16-98 -/
def thashx4_simpleM (M : Mem) (out inp : Nat → Nat) (inblocks : Nat) (ctx : Ctx) (addrs : List Addr) : C Mem := do
  if inblocks = 1 ∨ inblocks = 2 then
    let state := state0 g
    let state ← seedLanes 4 P.n 0 ctx.pub_seed state
    let state ← putAddrs 4 (P.n / 8) addrs state
    let state ← forRange (P.n / 8 * inblocks) (fun i s => do
      setw 4 s (P.n / 8 + 4 + i) (← ldLanesM 4 M inp i)) state
    let state ← zeroWords 4 (P.n / 8 * (1 + inblocks) + 4) 16 state
    let state ← setw 4 state 16 (vdup (0x80#64 <<< 56))
    let state ← xorWord 4 state (P.n / 8 * (1 + inblocks) + 4) 0x1f#64
    let state ← zeroWords 4 17 25 state
    let state ← KeccakP1600times4_PermuteAll_24rounds state
    storeLanesM 4 out 0 state (P.n / 8) M
  else thashx_simple_longM 4 (shake256x4M g) P g M out inp inblocks ctx addrs

/-- `thashx4`, shake-avx2/thash_shake_robustx4.c:16-131 -/
def thashx4_robustM (M : Mem) (out inp : Nat → Nat) (inblocks : Nat) (ctx : Ctx) (addrs : List Addr) : C Mem := do
  if inblocks = 1 ∨ inblocks = 2 then
    let state := state0 g
    let state ← seedLanes 4 P.n 0 ctx.pub_seed state
    let state ← putAddrs 4 (P.n / 8) addrs state
    let state ← setw 4 state (P.n / 8 + 4) (vdup 0x1f#64)
    let state ← zeroWords 4 (P.n / 8 + 5) 16 state
    let state ← setw 4 state 16 (vdup (0x80#64 <<< 56))
    let state ← zeroWords 4 17 25 state
    let state2 := state
    let state ← KeccakP1600times4_PermuteAll_24rounds state
    let state2 ← forRange (P.n / 8 * inblocks) (fun i s => do
      setw 4 s (P.n / 8 + 4 + i) (vxor (← getw 4 state i) (← ldLanesM 4 M inp i))) state2
    let state2 ← xorWord 4 state2 (P.n / 8 * (1 + inblocks) + 4) 0x1f#64
    let state2 ← KeccakP1600times4_PermuteAll_24rounds state2
    storeLanesM 4 out 0 state2 (P.n / 8) M
  else thashx_robust_longM 4 (shake256x4 g) (shake256x4M g) P g M out inp inblocks ctx addrs

/-- The `thashx4` linked in shake-avx2. -/
def thashxM : Mem → (Nat → Nat) → (Nat → Nat) → Nat → Ctx → List Addr → C Mem :=
  if P.robust then thashx4_robustM P g else thashx4_simpleM P g

end Avx2

namespace AesNi
open Haraka (HARAKAS_RATE)
variable (P : Params) (g : Nat → Nat → Byte)

/-- `memcpy(out0, outbuf, SPX_N); memcpy(out1, outbuf + 32, SPX_N); …` -/
def outs32M (out : Nat → Nat) (outbuf : Bytes) (M : Mem) : C Mem :=
  forRange 4 (fun j M => do M.wr (out j) (← rd outbuf (32 * j) P.n)) M

/-- `haraka_S_squeezeblocks4x`, haraka-aesni/haraka.c, with outputs in memory. -/
def haraka_S_squeezeblocksxM (L : Nat) (perm : Bytes → Ctx → C Bytes) (M : Mem) (out : Nat → Nat) (nblocks : Nat)
    (s : Bytes) (r : Nat) (ctx : Ctx) : C (Mem × Bytes) := do
  let (M, _, s) ← forRange nblocks (fun _ (st : Mem × Nat × Bytes) => do
    let (M, off, s) := st
    let s ← wr s 0 (← perm s ctx)
    let M ← forRange L (fun j M => do
      let M ← M.wr (out j + off) (← LOAD s (64 * j))
      M.wr (out j + off + 16) (← LOAD s (64 * j + 16))) M
    .ok (M, off + r, s)) (M, 0, s)
  .ok (M, s)

/-- `haraka_Sx4`, haraka-aesni/haraka.c:366-406, with outputs in memory and inputs in local arrays. -/
def haraka_Sx4M (M : Mem) (out : Nat → Nat) (outlen : Nat) (ins : List Bytes) (inlen : Nat) (ctx : Ctx) : C Mem := do
  let s ← forRange (64 * 4) (fun i s => wr1 s i 0#8) (uninit (g 41) (64 * 4))
  let s ← haraka_S_absorbx 4 haraka512_perm_x4 (fun j => g (60 + j)) s HARAKAS_RATE ins inlen 0x1F#8 ctx
  let (M, s) ← haraka_S_squeezeblocksxM 4 haraka512_perm_x4 M out (outlen / HARAKAS_RATE) s HARAKAS_RATE ctx
  let off := (outlen / HARAKAS_RATE) * HARAKAS_RATE
  if outlen % HARAKAS_RATE ≠ 0 then
    let ds := (List.range 4).map fun j => uninit (g (64 + j)) 32
    let (ds, _) ← haraka_S_squeezeblocksx 4 haraka512_perm_x4 ds 1 s HARAKAS_RATE ctx
    copyLanesM 4 out off ds (outlen % HARAKAS_RATE) M
  else .ok M

/-- `thashx4`, haraka-aesni/thash_haraka_simplex4.c:15-67 -/
def thashx4_simpleM (M : Mem) (out inp : Nat → Nat) (inblocks : Nat) (ctx : Ctx) (addrs : List Addr) : C Mem := do
  if inblocks = 1 then
    let buf_tmp : Bytes := List.replicate (64 * 4) 0#8
    let buf_tmp ← forRange 4 (fun j b => do wr b (64 * j) (← rd (← rd1 addrs j) 0 32)) buf_tmp
    let buf_tmp ← forRange 4 (fun j b => do wr b (SPX_ADDR_BYTES + 64 * j) (← M.rd (inp j) P.n)) buf_tmp
    let outbuf ← haraka512x4 buf_tmp ctx
    outs32M P out outbuf M
  else
    let bufs ← tabulate 4 fun j => do
      let buf := uninit (g (70 + j)) (SPX_ADDR_BYTES + inblocks * P.n)
      let buf ← wr buf 0 (← rd (← rd1 addrs j) 0 32)
      wr buf SPX_ADDR_BYTES (← M.rd (inp j) (inblocks * P.n))
    haraka_Sx4M g M out P.n bufs (SPX_ADDR_BYTES + inblocks * P.n) ctx

/-- `thashx4`, haraka-aesni/thash_haraka_robustx4.c:15-93 -/
def thashx4_robustM (M : Mem) (out inp : Nat → Nat) (inblocks : Nat) (ctx : Ctx) (addrs : List Addr) : C Mem := do
  if inblocks = 1 then
    let buf_tmp : Bytes := List.replicate (64 * 4) 0#8
    let buf_tmp ← forRange 4 (fun j b => do wr b (32 * j) (← rd (← rd1 addrs j) 0 32)) buf_tmp
    let outbuf ← haraka256x4 buf_tmp ctx
    let buf_tmp ← wr buf_tmp 192 (← rd buf_tmp 96 SPX_ADDR_BYTES)
    let buf_tmp ← wr buf_tmp 128 (← rd buf_tmp 64 SPX_ADDR_BYTES)
    let buf_tmp ← wr buf_tmp 64 (← rd buf_tmp 32 SPX_ADDR_BYTES)
    let buf_tmp ← wr buf_tmp 32 (List.replicate SPX_ADDR_BYTES 0#8)
    let buf_tmp ← wr buf_tmp 96 (List.replicate SPX_ADDR_BYTES 0#8)
    let buf_tmp ← forRange P.n (fun i b => forRange 4 (fun j b => do
      wr1 b (SPX_ADDR_BYTES + i + 64 * j) ((← M.rd1 (inp j) i) ^^^ (← rd1 outbuf (i + 32 * j)))) b) buf_tmp
    let outbuf ← haraka512x4 buf_tmp ctx
    outs32M P out outbuf M
  else
    let bufs ← tabulate 4 fun j => do
      let buf := uninit (g (70 + j)) (SPX_ADDR_BYTES + inblocks * P.n)
      wr buf 0 (← rd (← rd1 addrs j) 0 32)
    let bitmasks ← haraka_Sx4 g ((List.range 4).map fun j => uninit (g (78 + j)) (inblocks * P.n)) (inblocks * P.n)
      bufs SPX_ADDR_BYTES ctx
    let bufs ← tabulate 4 fun j => do
      let bitmask ← rd1 bitmasks j
      forRange (inblocks * P.n) (fun i buf => do
        wr1 buf (SPX_ADDR_BYTES + i) ((← M.rd1 (inp j) i) ^^^ (← rd1 bitmask i))) (← rd1 bufs j)
    haraka_Sx4M g M out P.n bufs (SPX_ADDR_BYTES + inblocks * P.n) ctx

/-- The `thashx4` linked in haraka-aesni. -/
def thashxM : Mem → (Nat → Nat) → (Nat → Nat) → Nat → Ctx → List Addr → C Mem :=
  if P.robust then thashx4_robustM P g else thashx4_simpleM P g

end AesNi

namespace Sha2X
variable (P : Params) (g : Nat → Nat → Byte)

/-- `memcpy(out_l0, outbuf, SPX_N); memcpy(out_l0+1, outbuf + m, SPX_N); …`, `k` of them -/
def outsM (k l0 m : Nat) (out : Nat → Nat) (outbuf : Bytes) (M : Mem) : C Mem :=
  forRange k (fun j M => do M.wr (out (l0 + j)) (← rd outbuf (j * m) P.n)) M

/-- The input buffers, thash_sha2_simplex8.c:68-92 and 156-180 -/
def simpleBufsM (M : Mem) (inp : Nat → Nat) (inblocks : Nat) (addrs : List Addr) : C Bytes := do
  let stride := SPX_SHA256_ADDR_BYTES + inblocks * P.n
  let bufx8 := uninit (g 62) (8 * stride)
  let bufx8 ← forRange 8 (fun i b => do wr b (i * stride) (← rd (← rd1 addrs i) 0 SPX_SHA256_ADDR_BYTES)) bufx8
  forRange 8 (fun j b => do
    wr b (SPX_SHA256_ADDR_BYTES + j * stride) (← M.rd (inp j) (inblocks * P.n))) bufx8

/-- The calls of `sha512x4_seeded`; the first four outputs are written before the second call:
thash_sha2_simplex8.c:182-218, thash_sha2_robustx8.c:238-274 -/
def outs512M (out : Nat → Nat) (seed bufx8 : Bytes) (base stride len : Nat) (M : Mem) : C Mem := do
  let outbuf := uninit (g 63) (4 * 64)
  let outs ← seeded x512 g seed 1024 (← subLanes 4 bufx8 base stride) len
  let outbuf ← wrLanes 4 outbuf 0 64 outs
  let M ← outsM P 4 0 64 out outbuf M
  let outs ← seeded x512 g seed 1024 (← subLanes 4 bufx8 (base + 4 * stride) stride) len
  let outbuf ← wrLanes 4 outbuf 0 64 outs
  outsM P 4 4 64 out outbuf M

/-- The call of `sha256x8_seeded`: thash_sha2_simplex8.c:94-127, thash_sha2_robustx8.c:119-152 -/
def outs256M (out : Nat → Nat) (seed bufx8 : Bytes) (base stride len : Nat) (M : Mem) : C Mem := do
  let outbufx8 := uninit (g 64) (8 * 32)
  let outs ← seeded x256 g seed 512 (← subLanes 8 bufx8 base stride) len
  let outbufx8 ← wrLanes 8 outbufx8 0 32 outs
  outsM P 8 0 32 out outbufx8 M

/-- `thashx8` and `thashx8_512`, thash_sha2_simplex8.c:41-219 -/
def thashx8_simpleM (M : Mem) (out inp : Nat → Nat) (inblocks : Nat) (ctx : Ctx) (addrs : List Addr) : C Mem := do
  let stride := SPX_SHA256_ADDR_BYTES + inblocks * P.n
  if P.sha512 ∧ inblocks > 1 then
    let bufx8 ← simpleBufsM P g M inp inblocks addrs
    outs512M P g out ctx.state_seeded_512 bufx8 0 stride stride M
  else
    let bufx8 ← simpleBufsM P g M inp inblocks addrs
    outs256M P g out ctx.state_seeded bufx8 0 stride stride M

/-- The masking loops, thash_sha2_robustx8.c:92-117, 201-214 and 223-236 -/
def maskBufsM (k l0 : Nat) (M : Mem) (inp : Nat → Nat) (inblocks : Nat) (bitmask bufx8 : Bytes) : C Bytes := do
  let stride := P.n + SPX_SHA256_ADDR_BYTES + inblocks * P.n
  forRange (inblocks * P.n) (fun i b =>
    forRange k (fun j b => do
      wr1 b (P.n + SPX_SHA256_ADDR_BYTES + i + (l0 + j) * stride)
        ((← M.rd1 (inp (l0 + j)) i) ^^^ (← rd1 bitmask (i + j * (inblocks * P.n))))) b) bufx8

/-- `thashx8` and `thashx8_512`, thash_sha2_robustx8.c:41-275 -/
def thashx8_robustM (M : Mem) (out inp : Nat → Nat) (inblocks : Nat) (ctx : Ctx) (addrs : List Addr) : C Mem := do
  let stride := P.n + SPX_SHA256_ADDR_BYTES + inblocks * P.n
  if P.sha512 ∧ inblocks > 1 then
    let bitmaskx4 := uninit (g 66) (4 * (inblocks * P.n))
    let bufx8 ← robustBufs P g inblocks ctx addrs
    let bitmaskx4 ← mgf1x4_512 g bitmaskx4 (inblocks * P.n) (← subLanes 4 bufx8 0 stride) (P.n + SPX_SHA256_ADDR_BYTES)
    let bufx8 ← maskBufsM P 4 0 M inp inblocks bitmaskx4 bufx8
    let bitmaskx4 ← mgf1x4_512 g bitmaskx4 (inblocks * P.n) (← subLanes 4 bufx8 (4 * stride) stride)
      (P.n + SPX_SHA256_ADDR_BYTES)
    let bufx8 ← maskBufsM P 4 4 M inp inblocks bitmaskx4 bufx8
    outs512M P g out ctx.state_seeded_512 bufx8 P.n stride (SPX_SHA256_ADDR_BYTES + inblocks * P.n) M
  else
    let bitmaskx8 := uninit (g 67) (8 * (inblocks * P.n))
    let bufx8 ← robustBufs P g inblocks ctx addrs
    let bitmaskx8 ← mgf1x8 g bitmaskx8 (inblocks * P.n) (← subLanes 8 bufx8 0 stride) (P.n + SPX_SHA256_ADDR_BYTES)
    let bufx8 ← maskBufsM P 8 0 M inp inblocks bitmaskx8 bufx8
    outs256M P g out ctx.state_seeded bufx8 P.n stride (SPX_SHA256_ADDR_BYTES + inblocks * P.n) M

/-- The `thashx8` linked in sha2-avx2. -/
def thashxM : Mem → (Nat → Nat) → (Nat → Nat) → Nat → Ctx → List Addr → C Mem :=
  if P.robust then thashx8_robustM P g else thashx8_simpleM P g

end Sha2X
end Spx
