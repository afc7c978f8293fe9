import Verif.Model.Sha2X
import Verif.Model.HashSha2
/-! # Model of the eight-lane SHA-2 hash functions

sha2-avx2/hash_sha2x8.c, thash_sha2_simplex8.c, thash_sha2_robustx8.c.  The one-way functions linked in
sha2-avx2 are those of ref/ (`Spx.Sha2.impl`).

Simplifications: the outputs are returned as a list; statements for lane 0, 1, … in turn are loops over the
lanes. -/

namespace Spx.Sha2X
variable (P : Params) (g : Nat → Nat → Byte)

/-- `prf_addrx8`, hash_sha2x8.c:15-74 -/
def prf_addrx8 (ctx : Ctx) (addrs : List Addr) : C (List Bytes) := do
  let bufx8 := uninit (g 60) (8 * (P.n + SPX_SHA256_ADDR_BYTES))
  let outbufx8 := uninit (g 61) (8 * 32)
  let bufx8 ← forRange 8 (fun j b => do
    let b ← wr b (j * (P.n + SPX_SHA256_ADDR_BYTES)) (← rd (← rd1 addrs j) 0 SPX_SHA256_ADDR_BYTES)
    wr b (j * (P.n + SPX_SHA256_ADDR_BYTES) + SPX_SHA256_ADDR_BYTES) (← rd ctx.sk_seed 0 P.n)) bufx8
  let outs ← seeded x256 g ctx.state_seeded 512 (← subLanes 8 bufx8 0 (SPX_SHA256_ADDR_BYTES + P.n))
    (SPX_SHA256_ADDR_BYTES + P.n)
  let outbufx8 ← wrLanes 8 outbufx8 0 32 outs
  tabulate 8 fun j => rd outbufx8 (j * 32) P.n

/-- The input buffers, thash_sha2_simplex8.c:68-92 and 156-180 -/
def simpleBufs (ins : List Bytes) (inblocks : Nat) (addrs : List Addr) : C Bytes := do
  let stride := SPX_SHA256_ADDR_BYTES + inblocks * P.n
  let bufx8 := uninit (g 62) (8 * stride)
  let bufx8 ← forRange 8 (fun i b => do wr b (i * stride) (← rd (← rd1 addrs i) 0 SPX_SHA256_ADDR_BYTES)) bufx8
  forRange 8 (fun j b => do
    wr b (SPX_SHA256_ADDR_BYTES + j * stride) (← rd (← rd1 ins j) 0 (inblocks * P.n))) bufx8

/-- The calls of `sha512x4_seeded` for lanes 0 to 3 and 4 to 7, with inputs at `bufx8 + base + j*stride`:
thash_sha2_simplex8.c:182-218, thash_sha2_robustx8.c:238-274 -/
def outs512 (seed bufx8 : Bytes) (base stride len : Nat) : C (List Bytes) := do
  let outbuf := uninit (g 63) (4 * 64)
  let outs ← seeded x512 g seed 1024 (← subLanes 4 bufx8 base stride) len
  let outbuf ← wrLanes 4 outbuf 0 64 outs
  let lo ← tabulate 4 fun j => rd outbuf (j * 64) P.n
  let outs ← seeded x512 g seed 1024 (← subLanes 4 bufx8 (base + 4 * stride) stride) len
  let outbuf ← wrLanes 4 outbuf 0 64 outs
  let hi ← tabulate 4 fun j => rd outbuf (j * 64) P.n
  .ok (lo ++ hi)

/-- The call of `sha256x8_seeded`: thash_sha2_simplex8.c:94-127, thash_sha2_robustx8.c:119-152 -/
def outs256 (seed bufx8 : Bytes) (base stride len : Nat) : C (List Bytes) := do
  let outbufx8 := uninit (g 64) (8 * 32)
  let outs ← seeded x256 g seed 512 (← subLanes 8 bufx8 base stride) len
  let outbufx8 ← wrLanes 8 outbufx8 0 32 outs
  tabulate 8 fun j => rd outbufx8 (j * 32) P.n

/-- `thashx8` and `thashx8_512`, thash_sha2_simplex8.c:41-219 -/
def thashx8_simple (ins : List Bytes) (inblocks : Nat) (ctx : Ctx) (addrs : List Addr) : C (List Bytes) := do
  let stride := SPX_SHA256_ADDR_BYTES + inblocks * P.n
  if P.sha512 ∧ inblocks > 1 then
    let bufx8 ← simpleBufs P g ins inblocks addrs
    outs512 P g ctx.state_seeded_512 bufx8 0 stride stride
  else
    let bufx8 ← simpleBufs P g ins inblocks addrs
    outs256 P g ctx.state_seeded bufx8 0 stride stride

/-- The seeds and addresses, thash_sha2_robustx8.c:73-79 and 186-192 -/
def robustBufs (inblocks : Nat) (ctx : Ctx) (addrs : List Addr) : C Bytes := do
  let stride := P.n + SPX_SHA256_ADDR_BYTES + inblocks * P.n
  let bufx8 := uninit (g 65) (8 * stride)
  forRange 8 (fun i b => do
    let b ← wr b (i * stride) (← rd ctx.pub_seed 0 P.n)
    wr b (P.n + i * stride) (← rd (← rd1 addrs i) 0 SPX_SHA256_ADDR_BYTES)) bufx8

/-- The masking loops, thash_sha2_robustx8.c:92-117 (lanes 0 to 7), 201-214 (lanes 0 to 3) and 223-236
(lanes 4 to 7): lanes `l0 … l0 + k - 1`, the mask of lane `l0 + j` at `bitmask + j*(inblocks*SPX_N)` -/
def maskBufs (k l0 : Nat) (ins : List Bytes) (inblocks : Nat) (bitmask bufx8 : Bytes) : C Bytes := do
  let stride := P.n + SPX_SHA256_ADDR_BYTES + inblocks * P.n
  forRange (inblocks * P.n) (fun i b =>
    forRange k (fun j b => do
      wr1 b (P.n + SPX_SHA256_ADDR_BYTES + i + (l0 + j) * stride)
        ((← rd1 (← rd1 ins (l0 + j)) i) ^^^ (← rd1 bitmask (i + j * (inblocks * P.n))))) b) bufx8

/-- `thashx8` and `thashx8_512`, thash_sha2_robustx8.c:41-275 -/
def thashx8_robust (ins : List Bytes) (inblocks : Nat) (ctx : Ctx) (addrs : List Addr) : C (List Bytes) := do
  let stride := P.n + SPX_SHA256_ADDR_BYTES + inblocks * P.n
  if P.sha512 ∧ inblocks > 1 then
    let bitmaskx4 := uninit (g 66) (4 * (inblocks * P.n))
    let bufx8 ← robustBufs P g inblocks ctx addrs
    let bitmaskx4 ← mgf1x4_512 g bitmaskx4 (inblocks * P.n) (← subLanes 4 bufx8 0 stride) (P.n + SPX_SHA256_ADDR_BYTES)
    let bufx8 ← maskBufs P 4 0 ins inblocks bitmaskx4 bufx8
    let bitmaskx4 ← mgf1x4_512 g bitmaskx4 (inblocks * P.n) (← subLanes 4 bufx8 (4 * stride) stride)
      (P.n + SPX_SHA256_ADDR_BYTES)
    let bufx8 ← maskBufs P 4 4 ins inblocks bitmaskx4 bufx8
    outs512 P g ctx.state_seeded_512 bufx8 P.n stride (SPX_SHA256_ADDR_BYTES + inblocks * P.n)
  else
    let bitmaskx8 := uninit (g 67) (8 * (inblocks * P.n))
    let bufx8 ← robustBufs P g inblocks ctx addrs
    let bitmaskx8 ← mgf1x8 g bitmaskx8 (inblocks * P.n) (← subLanes 8 bufx8 0 stride) (P.n + SPX_SHA256_ADDR_BYTES)
    let bufx8 ← maskBufs P 8 0 ins inblocks bitmaskx8 bufx8
    outs256 P g ctx.state_seeded bufx8 P.n stride (SPX_SHA256_ADDR_BYTES + inblocks * P.n)

/-- The lane hash functions linked in sha2-avx2. -/
def lanes : LaneHash where
  prf_addrx := prf_addrx8 P g
  thashx := if P.robust then thashx8_robust P g else thashx8_simple P g

end Spx.Sha2X
