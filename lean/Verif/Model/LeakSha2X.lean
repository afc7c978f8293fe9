import Verif.Model.LeakSha2
import Verif.Model.LeakParallel
import Verif.Model.HashSha2X
/-! # The vectorised SHA-2 code with traces

The definitions of Model/Sha2X.lean and Model/HashSha2X.lean over the monad of Model/LeakBase.lean.  The
registers, the message schedule `w` and the chaining value of the context are accessed at constant positions
and leave no events; the outputs are written by the callers (`wrLanes`).  `#if SPX_SHA512` and the test
`inblocks > 1` are one branch, as in Model/LeakSha2.lean. -/

namespace Spx.Leak.Sha2X
open Spx.Sha2X (V ofBytes BYTESWAP256 BYTESWAP512 transpose256 transpose512 prog256 rows512 loop512 ADD set1 ROUND512 Op.run)

/-- `_mm256_loadu_si256((__m256i *)(b + off))` -/
def LOAD (wb : Nat) (b : Bytes) (off : Nat) : L (V wb) := do
  let x ← rd b off 32
  .ok (ofBytes wb fun p => x.getD p 0)

/-- `sha256_transform8x`, sha256avx.c:130-294, on `ctx->s` -/
def transform256 (cs : List (V 4)) (data : List Bytes) : L (List (V 4)) := prim .sha256x do
  let lo ← tabulate 8 fun j => do .ok (BYTESWAP256 (← LOAD 4 (← rd1 data j) 0))
  let hi ← tabulate 8 fun j => do .ok (BYTESWAP256 (← LOAD 4 (← rd1 data j) 32))
  let w := transpose256 lo ++ transpose256 hi
  let s := (prog256.foldl Op.run (w, cs)).2
  .ok ((List.range 8).map fun i => ADD (s.getD i (set1 0)) (cs.getD i (set1 0)))

/-- `sha512_transform4x`, sha512x4.c:158-269, on `ctx->s` -/
def transform512 (cs : List (V 8)) (data : List Bytes) : L (List (V 8)) := prim .sha512x do
  let q0 ← tabulate 4 fun j => do .ok (BYTESWAP512 (← LOAD 8 (← rd1 data j) 0))
  let q1 ← tabulate 4 fun j => do .ok (BYTESWAP512 (← LOAD 8 (← rd1 data j) 32))
  let q2 ← tabulate 4 fun j => do .ok (BYTESWAP512 (← LOAD 8 (← rd1 data j) 64))
  let q3 ← tabulate 4 fun j => do .ok (BYTESWAP512 (← LOAD 8 (← rd1 data j) 96))
  let w := transpose512 q0 ++ transpose512 q1 ++ transpose512 q2 ++ transpose512 q3
  let s := rows512.foldl (fun s r => ROUND512 (r.getD 8 0) (w.getD (r.getD 9 0) (set1 0)) s r) cs
  let s := ((List.range 4).foldl (fun x k => loop512 (16 + 16 * k) x) (w, s)).2
  .ok ((List.range 8).map fun i => ADD (s.getD i (set1 0)) (cs.getD i (set1 0)))

/-- What differs between the two copies of the code, with the traces of the transformation and the load -/
structure XCfg (wb : Nat) extends Spx.Sha2X.XCfg wb where
  transformL : List (V wb) → List Bytes → Leak.L (List (V wb))
  loadL : Bytes → Leak.L (BitVec (8 * wb))

/-- sha256x8.c and sha256avx.c, `Spx.Sha2X.x256` -/
def x256 : XCfg 4 := { Spx.Sha2X.x256 with transformL := transform256, loadL := load_bigendian_32 }

/-- sha512x4.c, `Spx.Sha2X.x512` -/
def x512 : XCfg 8 := { Spx.Sha2X.x512 with transformL := transform512, loadL := load_bigendian_64 }

section
variable {wb : Nat} (c : XCfg wb) (g : Nat → Nat → Byte)

/-- The body of the `while` loop, sha256x8.c:32-45, sha512x4.c:284-294.  The loop state is `i`, `ctx->s` and
`ctx->msglen`. -/
def absorbStep (ins : List Bytes) (inlen : Nat) (x : Nat × List (V wb) × BitVec 64) :
    L ((Nat × List (V wb) × BitVec 64) ⊕ (Nat × List (V wb) × BitVec 64)) := do
  let (i, s, msglen) := x
  cif c.blk ≤ (inlen + 2 ^ 64 - i) % 2 ^ 64 then do
    let s ← c.transformL s (← tabulate c.L fun j => do sub (← rd1 ins j) i)
    .ok (.inl ((i + c.blk) % 2 ^ c.ibits, s, msglen + BitVec.ofNat 64 (8 * c.blk)))
  else .ok (.inr (i, s, msglen))

/-- The byte 0x80 and the zeros: sha256avx.c:65-71, 73-79, sha512x4.c:305-311, 313-319 -/
def padBlocks (mb : Bytes) (datalen : Nat) : L Bytes :=
  forRange c.L (fun i mb => do
    let mb ← wr1 mb (c.blk * i + datalen) 0x80#8
    forRange (c.blk - (datalen + 1)) (fun t mb => wr1 mb (c.blk * i + (datalen + 1 + t)) 0#8) mb) mb

/-- The length: sha256avx.c:95-104, sha512x4.c:332-342 -/
def lenBlocks (mb : Bytes) (msglen : BitVec 64) : L Bytes :=
  forRange c.L (fun i mb => do
    let mb ← forRange 8 (fun t mb => wr1 mb (c.blk * i + (c.blk - 1 - t)) ((msglen >>> (8 * t)).truncate 8)) mb
    if c.clear then wr mb (c.blk * i + 112) (List.replicate 8 0#8) else .ok mb) mb

/-- `_sha256x8`, sha256x8.c:13-59, with `sha256_final8x`, sha256avx.c:51-128; `_sha512x4`,
sha512x4.c:271-372.  `s` and `msglen` are those of the context. -/
def run (s : List (V wb)) (msglen : BitVec 64) (ins : List Bytes) (inlen : Nat) : L (List Bytes) := do
  let msgblocks := uninit (g 90) (c.L * c.blk)
  let (i, s, msglen) ← loop (inlen / c.blk + 1) (absorbStep c ins inlen) (0, s, msglen)
  let datalen := (inlen + 2 ^ 64 - i) % 2 ^ 64
  let msgblocks ← forRange c.L (fun j mb => do wr mb (c.blk * j) (← rd (← rd1 ins j) i datalen)) msgblocks
  let msgblocks ← padBlocks c msgblocks datalen
  let (s, msgblocks) ← (cif datalen < c.thr then .ok (s, msgblocks)
    else do
      let s ← c.transformL s (← subLanes c.L msgblocks 0 c.blk)
      .ok (s, List.replicate (c.L * c.blk) 0#8) : L (List (V wb) × Bytes))
  let msglen := msglen + BitVec.ofNat 64 (datalen * 8)
  let msgblocks ← lenBlocks c msgblocks msglen
  let s ← c.transformL s (← subLanes c.L msgblocks 0 c.blk)
  .ok (c.outs s)

/-- `sha256x8_seeded`, sha256x8.c:61-94; `sha512x4_seeded`, sha512x4.c:431-462 -/
def seeded (seed : Bytes) (seedlen : Nat) (ins : List Bytes) (inlen : Nat) : L (List Bytes) := do
  let s ← tabulate 8 fun i => do .ok (set1 (← c.loadL (← sub seed (wb * i))))
  run c g s (BitVec.ofNat 64 seedlen) ins inlen

/-- `sha256x8`, sha256x8.c:97-119; `sha512_init4x` and `_sha512x4` as used in sha512x4.c:407-421 -/
def hashx (ins : List Bytes) (inlen : Nat) : L (List Bytes) := run c g c.init 0#64 ins inlen

/-- `u32_to_bytes(inbuf + inlen + j*(inlen + 4), i)` for all lanes: sha256x8.c:153-155, 176-178,
sha512x4.c:403-405 -/
def setCounter (inbuf : Bytes) (inlen i : Nat) : L Bytes :=
  forRange c.L (fun j b => do
    let (b, _) ← withSub b (inlen + j * (inlen + 4)) (fun x => do .ok (← u32_to_bytes x (i % 2 ^ 32), ()))
    .ok b) inbuf

end

/-- The loop of `mgf1x8`, sha256x8.c:152-174.  Loop state: `i`, the output and `inbufx8`; `outx8` has been
advanced by `32*i`. -/
def mgfStep8 (g : Nat → Nat → Byte) (outlen inlen : Nat) (s : Nat × Bytes × Bytes) :
    L ((Nat × Bytes × Bytes) ⊕ (Nat × Bytes × Bytes)) := do
  let (i, out, inbuf) := s
  cif (i + 1) * 32 ≤ outlen then do
    let inbuf ← setCounter x256 inbuf inlen i
    let outs ← hashx x256 g (← subLanes 8 inbuf 0 (inlen + 4)) (inlen + 4)
    let out ← wrLanes 8 out (32 * i) outlen outs
    .ok (.inl (i + 1, out, inbuf))
  else .ok (.inr (i, out, inbuf))

/-- `mgf1x8`, sha256x8.c:126-201 -/
def mgf1x8 (g : Nat → Nat → Byte) (out : Bytes) (outlen : Nat) (ins : List Bytes) (inlen : Nat) : L Bytes := do
  let inbuf := uninit (g 91) (8 * (inlen + 4))
  let outbuf := uninit (g 92) (8 * 32)
  let inbuf ← forRange 8 (fun j b => do wr b (j * (inlen + 4)) (← rd (← rd1 ins j) 0 inlen)) inbuf
  let (i, out, inbuf) ← loop (outlen / 32 + 1) (mgfStep8 g outlen inlen) (0, out, inbuf)
  let inbuf ← setCounter x256 inbuf inlen i
  let outs ← hashx x256 g (← subLanes 8 inbuf 0 (inlen + 4)) (inlen + 4)
  let outbuf ← wrLanes 8 outbuf 0 32 outs
  forRange 8 (fun j out => do wr out (32 * i + j * outlen) (← rd outbuf (j * 32) (outlen - i * 32))) out

/-- The loop of `mgf1x4_512`, sha512x4.c:399-428.  Loop state: `i`, `remaining`, the number of bytes `outx4` has
been advanced, the output, `inbufx4` and `outbuf`. -/
def mgfStep4 (g : Nat → Nat → Byte) (outlen inlen : Nat) (s : Nat × Nat × Nat × Bytes × Bytes × Bytes) :
    L ((Nat × Nat × Nat × Bytes × Bytes × Bytes) ⊕ Bytes) := do
  let (i, remaining, pos, out, inbuf, outbuf) := s
  cif remaining > 0 then do
    let this_step ← cif 64 > remaining then .ok remaining else .ok 64
    let remaining := remaining - this_step
    let inbuf ← setCounter x512 inbuf inlen i
    let outs ← hashx x512 g (← subLanes 4 inbuf 0 (inlen + 4)) (inlen + 4)
    let outbuf ← wrLanes 4 outbuf 0 64 outs
    let out ← forRange 4 (fun j out => do wr out (pos + j * outlen) (← rd outbuf (j * 64) this_step)) out
    .ok (.inl (i + 1, remaining, pos + this_step, out, inbuf, outbuf))
  else .ok (.inr out)

/-- `mgf1x4_512`, sha512x4.c:380-429 -/
def mgf1x4_512 (g : Nat → Nat → Byte) (out : Bytes) (outlen : Nat) (ins : List Bytes) (inlen : Nat) : L Bytes := do
  let inbuf := uninit (g 93) (4 * (inlen + 4))
  let outbuf := uninit (g 94) (4 * 64)
  let inbuf ← forRange 4 (fun j b => do wr b (j * (inlen + 4)) (← rd (← rd1 ins j) 0 inlen)) inbuf
  loop (outlen / 64 + 2) (mgfStep4 g outlen inlen) (0, outlen, 0, out, inbuf, outbuf)

variable (P : Params) (g : Nat → Nat → Byte)

/-- `prf_addrx8`, hash_sha2x8.c:15-74 -/
def prf_addrx8 (ctx : Ctx) (addrs : List Addr) : L (List Bytes) := do
  let bufx8 := uninit (g 60) (8 * (P.n + SPX_SHA256_ADDR_BYTES))
  let outbufx8 := uninit (g 61) (8 * 32)
  let bufx8 ← forRange 8 (fun j b => do
    let b ← wr b (j * (P.n + SPX_SHA256_ADDR_BYTES)) (← rd (← rd1 addrs j) 0 SPX_SHA256_ADDR_BYTES)
    wr b (j * (P.n + SPX_SHA256_ADDR_BYTES) + SPX_SHA256_ADDR_BYTES) (← rd ctx.sk_seed 0 P.n)) bufx8
  let outs ← seeded x256 g ctx.state_seeded 512 (← subLanes 8 bufx8 0 (SPX_SHA256_ADDR_BYTES + P.n))
    (SPX_SHA256_ADDR_BYTES + P.n)
  let outbufx8 ← wrLanes 8 outbufx8 0 32 outs
  tabulate 8 fun j => rd outbufx8 (j * 32) P.n

/-- The input buffers, thash_sha2_simplex8.c:68-92 and 156-180 -/
def simpleBufs (ins : List Bytes) (inblocks : Nat) (addrs : List Addr) : L Bytes := do
  let stride := SPX_SHA256_ADDR_BYTES + inblocks * P.n
  let bufx8 := uninit (g 62) (8 * stride)
  let bufx8 ← forRange 8 (fun i b => do wr b (i * stride) (← rd (← rd1 addrs i) 0 SPX_SHA256_ADDR_BYTES)) bufx8
  forRange 8 (fun j b => do
    wr b (SPX_SHA256_ADDR_BYTES + j * stride) (← rd (← rd1 ins j) 0 (inblocks * P.n))) bufx8

/-- The calls of `sha512x4_seeded` for lanes 0 to 3 and 4 to 7, with inputs at `bufx8 + base + j*stride`:
thash_sha2_simplex8.c:182-218, thash_sha2_robustx8.c:238-274 -/
def outs512 (seed bufx8 : Bytes) (base stride len : Nat) : L (List Bytes) := do
  let outbuf := uninit (g 63) (4 * 64)
  let outs ← seeded x512 g seed 1024 (← subLanes 4 bufx8 base stride) len
  let outbuf ← wrLanes 4 outbuf 0 64 outs
  let lo ← tabulate 4 fun j => rd outbuf (j * 64) P.n
  let outs ← seeded x512 g seed 1024 (← subLanes 4 bufx8 (base + 4 * stride) stride) len
  let outbuf ← wrLanes 4 outbuf 0 64 outs
  let hi ← tabulate 4 fun j => rd outbuf (j * 64) P.n
  .ok (lo ++ hi)

/-- The call of `sha256x8_seeded`: thash_sha2_simplex8.c:94-127, thash_sha2_robustx8.c:119-152 -/
def outs256 (seed bufx8 : Bytes) (base stride len : Nat) : L (List Bytes) := do
  let outbufx8 := uninit (g 64) (8 * 32)
  let outs ← seeded x256 g seed 512 (← subLanes 8 bufx8 base stride) len
  let outbufx8 ← wrLanes 8 outbufx8 0 32 outs
  tabulate 8 fun j => rd outbufx8 (j * 32) P.n

/-- `thashx8` and `thashx8_512`, thash_sha2_simplex8.c:41-219 -/
def thashx8_simple (ins : List Bytes) (inblocks : Nat) (ctx : Ctx) (addrs : List Addr) : L (List Bytes) := do
  let stride := SPX_SHA256_ADDR_BYTES + inblocks * P.n
  cif P.sha512 ∧ inblocks > 1 then do
    let bufx8 ← simpleBufs P g ins inblocks addrs
    outs512 P g ctx.state_seeded_512 bufx8 0 stride stride
  else do
    let bufx8 ← simpleBufs P g ins inblocks addrs
    outs256 P g ctx.state_seeded bufx8 0 stride stride

/-- The seeds and addresses, thash_sha2_robustx8.c:73-79 and 186-192 -/
def robustBufs (inblocks : Nat) (ctx : Ctx) (addrs : List Addr) : L Bytes := do
  let stride := P.n + SPX_SHA256_ADDR_BYTES + inblocks * P.n
  let bufx8 := uninit (g 65) (8 * stride)
  forRange 8 (fun i b => do
    let b ← wr b (i * stride) (← rd ctx.pub_seed 0 P.n)
    wr b (P.n + i * stride) (← rd (← rd1 addrs i) 0 SPX_SHA256_ADDR_BYTES)) bufx8

/-- The masking loops, thash_sha2_robustx8.c:92-117 (lanes 0 to 7), 201-214 (lanes 0 to 3) and 223-236
(lanes 4 to 7): lanes `l0 … l0 + k - 1`, the mask of lane `l0 + j` at `bitmask + j*(inblocks*SPX_N)` -/
def maskBufs (k l0 : Nat) (ins : List Bytes) (inblocks : Nat) (bitmask bufx8 : Bytes) : L Bytes := do
  let stride := P.n + SPX_SHA256_ADDR_BYTES + inblocks * P.n
  forRange (inblocks * P.n) (fun i b =>
    forRange k (fun j b => do
      wr1 b (P.n + SPX_SHA256_ADDR_BYTES + i + (l0 + j) * stride)
        ((← rd1 (← rd1 ins (l0 + j)) i) ^^^ (← rd1 bitmask (i + j * (inblocks * P.n))))) b) bufx8

/-- `thashx8` and `thashx8_512`, thash_sha2_robustx8.c:41-275 -/
def thashx8_robust (ins : List Bytes) (inblocks : Nat) (ctx : Ctx) (addrs : List Addr) : L (List Bytes) := do
  let stride := P.n + SPX_SHA256_ADDR_BYTES + inblocks * P.n
  cif P.sha512 ∧ inblocks > 1 then do
    let bitmaskx4 := uninit (g 66) (4 * (inblocks * P.n))
    let bufx8 ← robustBufs P g inblocks ctx addrs
    let bitmaskx4 ← mgf1x4_512 g bitmaskx4 (inblocks * P.n) (← subLanes 4 bufx8 0 stride) (P.n + SPX_SHA256_ADDR_BYTES)
    let bufx8 ← maskBufs P 4 0 ins inblocks bitmaskx4 bufx8
    let bitmaskx4 ← mgf1x4_512 g bitmaskx4 (inblocks * P.n) (← subLanes 4 bufx8 (4 * stride) stride)
      (P.n + SPX_SHA256_ADDR_BYTES)
    let bufx8 ← maskBufs P 4 4 ins inblocks bitmaskx4 bufx8
    outs512 P g ctx.state_seeded_512 bufx8 P.n stride (SPX_SHA256_ADDR_BYTES + inblocks * P.n)
  else do
    let bitmaskx8 := uninit (g 67) (8 * (inblocks * P.n))
    let bufx8 ← robustBufs P g inblocks ctx addrs
    let bitmaskx8 ← mgf1x8 g bitmaskx8 (inblocks * P.n) (← subLanes 8 bufx8 0 stride) (P.n + SPX_SHA256_ADDR_BYTES)
    let bufx8 ← maskBufs P 8 0 ins inblocks bitmaskx8 bufx8
    outs256 P g ctx.state_seeded bufx8 P.n stride (SPX_SHA256_ADDR_BYTES + inblocks * P.n)

/-- The lane hash functions linked in sha2-avx2. -/
def lanes : LaneHash where
  prf_addrx := prf_addrx8 P g
  thashx := if P.robust then thashx8_robust P g else thashx8_simple P g

end Spx.Leak.Sha2X
