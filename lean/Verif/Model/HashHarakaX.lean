import Verif.Model.AesNi
import Verif.Model.HashHaraka
/-! # Model of the four-lane Haraka hash functions

haraka-aesni/hash_harakax4.c, thash_haraka_simplex4.c and thash_haraka_robustx4.c.  The outputs are
objects of their own with arbitrary previous contents (`g site i`). -/

namespace Spx.AesNi
variable (P : Params) (g : Nat → Nat → Byte)

/-- `memcpy(out0, outbuf, SPX_N); memcpy(out1, outbuf + 32, SPX_N); …` -/
def outs32 (outbuf : Bytes) : C (List Bytes) := tabulate 4 fun j => rd outbuf (32 * j) P.n

/-- `prf_addrx4`, haraka-aesni/hash_harakax4.c:13-36 -/
def prf_addrx4 (ctx : Ctx) (addrs : List Addr) : C (List Bytes) := do
  let bufx4 : Bytes := List.replicate (4 * 64) 0#8
  let bufx4 ← forRange 4 (fun i bufx4 => do
    let bufx4 ← wr bufx4 (i * 64) (← rd (← rd1 addrs i) 0 SPX_ADDR_BYTES)
    wr bufx4 (i * 64 + SPX_ADDR_BYTES) (← rd ctx.sk_seed 0 P.n)) bufx4
  let outbuf ← haraka512x4 bufx4 ctx
  outs32 P outbuf

/-- `thashx4`, haraka-aesni/thash_haraka_simplex4.c:15-67 -/
def thashx4_simple (ins : List Bytes) (inblocks : Nat) (ctx : Ctx) (addrs : List Addr) : C (List Bytes) := do
  if inblocks = 1 then
    let buf_tmp : Bytes := List.replicate (64 * 4) 0#8
    let buf_tmp ← forRange 4 (fun j b => do wr b (64 * j) (← rd (← rd1 addrs j) 0 32)) buf_tmp
    let buf_tmp ← forRange 4 (fun j b => do wr b (SPX_ADDR_BYTES + 64 * j) (← rd (← rd1 ins j) 0 P.n)) buf_tmp
    let outbuf ← haraka512x4 buf_tmp ctx
    outs32 P outbuf
  else
    let bufs ← tabulate 4 fun j => do
      let buf := uninit (g (70 + j)) (SPX_ADDR_BYTES + inblocks * P.n)
      let buf ← wr buf 0 (← rd (← rd1 addrs j) 0 32)
      wr buf SPX_ADDR_BYTES (← rd (← rd1 ins j) 0 (inblocks * P.n))
    haraka_Sx4 g ((List.range 4).map fun j => uninit (g (74 + j)) P.n) P.n bufs (SPX_ADDR_BYTES + inblocks * P.n) ctx

/-- `thashx4`, haraka-aesni/thash_haraka_robustx4.c:15-93 -/
def thashx4_robust (ins : List Bytes) (inblocks : Nat) (ctx : Ctx) (addrs : List Addr) : C (List Bytes) := do
  if inblocks = 1 then
    let buf_tmp : Bytes := List.replicate (64 * 4) 0#8
    let buf_tmp ← forRange 4 (fun j b => do wr b (32 * j) (← rd (← rd1 addrs j) 0 32)) buf_tmp
    let outbuf ← haraka256x4 buf_tmp ctx
    let buf_tmp ← wr buf_tmp 192 (← rd buf_tmp 96 SPX_ADDR_BYTES)
    let buf_tmp ← wr buf_tmp 128 (← rd buf_tmp 64 SPX_ADDR_BYTES)
    let buf_tmp ← wr buf_tmp 64 (← rd buf_tmp 32 SPX_ADDR_BYTES)
    let buf_tmp ← wr buf_tmp 32 (List.replicate SPX_ADDR_BYTES 0#8)
    let buf_tmp ← wr buf_tmp 96 (List.replicate SPX_ADDR_BYTES 0#8)
    let buf_tmp ← forRange P.n (fun i b => forRange 4 (fun j b => do
      wr1 b (SPX_ADDR_BYTES + i + 64 * j) ((← rd1 (← rd1 ins j) i) ^^^ (← rd1 outbuf (i + 32 * j)))) b) buf_tmp
    let outbuf ← haraka512x4 buf_tmp ctx
    outs32 P outbuf
  else
    let bufs ← tabulate 4 fun j => do
      let buf := uninit (g (70 + j)) (SPX_ADDR_BYTES + inblocks * P.n)
      wr buf 0 (← rd (← rd1 addrs j) 0 32)
    let bitmasks ← haraka_Sx4 g ((List.range 4).map fun j => uninit (g (78 + j)) (inblocks * P.n)) (inblocks * P.n)
      bufs SPX_ADDR_BYTES ctx
    let bufs ← tabulate 4 fun j => do
      let inp ← rd1 ins j
      let bitmask ← rd1 bitmasks j
      forRange (inblocks * P.n) (fun i buf => do
        wr1 buf (SPX_ADDR_BYTES + i) ((← rd1 inp i) ^^^ (← rd1 bitmask i))) (← rd1 bufs j)
    haraka_Sx4 g ((List.range 4).map fun j => uninit (g (74 + j)) P.n) P.n bufs (SPX_ADDR_BYTES + inblocks * P.n) ctx

/-- The one-way functions linked in haraka-aesni (Makefile:8): hash_haraka.c and thash_haraka_*.c of ref/
with the haraka.c of haraka-aesni. -/
def impl : HashImpl := Haraka.implWith lib P g

/-- The lane hash functions linked in haraka-aesni. -/
def lanes : LaneHash where
  prf_addrx := prf_addrx4 P
  thashx := if P.robust then thashx4_robust P g else thashx4_simple P g

end Spx.AesNi
