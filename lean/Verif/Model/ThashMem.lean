import Verif.Model.Api
import Verif.Model.ParamSets
import Verif.Model.Wots
/-! # Model of `thash` over flat memory

The callers of `thash` let the output overlap the input: `gen_chain` (ref/wots.c:36), the WOTS leaf
function (ref/wotsx1.c:67), `compute_root` (ref/utils.c:79 and 83), the tree hash functions
(ref/utils.c:140, ref/utilsx1.c:91) and the FORS leaf function (ref/fors.c:22, called with the same
buffer from line 42).  Here `out` and `inp` are addresses; the context, the hash
address and the local arrays are objects of their own, as declared.  Every access through `in` is a
memory read at the place where the code makes it, and every write through `out` is a memory write at
the place where the code makes it.  A call such as `shake256(out, SPX_N, buf, …)` reads only the
local `buf` and writes only `out`. -/

namespace Spx
variable (P : Params) (g : Nat → Nat → Byte)

/-- `in[i]`. -/
def Mem.rd1 (M : Mem) (p i : Nat) : C Byte :=
  match M (p + i) with
  | some b => .ok b
  | none => .error .oob

namespace Sha2

/-- ref/thash_sha2_simple.c:28-39 and 46-57. -/
def thash_simple_X_mem {wb : Nat} (c : Cfg wb) (M : Mem) (out inp inblocks : Nat) (seeded : Bytes)
    (addr : Addr) : C Mem := do
  let outbuf := uninit (g 33) c.hb
  let sha2_state ← rd seeded 0 (c.hb + 8)
  let buf := uninit (g 34) (SPX_SHA256_ADDR_BYTES + inblocks * P.n)
  let buf ← wr buf 0 (← rd addr 0 SPX_SHA256_ADDR_BYTES)
  let buf ← wr buf SPX_SHA256_ADDR_BYTES (← M.rd inp (inblocks * P.n))
  let (outbuf, _) ← inc_finalize c g outbuf sha2_state buf (SPX_SHA256_ADDR_BYTES + inblocks * P.n)
  M.wr out (← rd outbuf 0 P.n)

/-- `thash`, ref/thash_sha2_simple.c:18-40 -/
def thash_simple_mem (M : Mem) (out inp inblocks : Nat) (ctx : Ctx) (addr : Addr) : C Mem :=
  if P.sha512 ∧ inblocks > 1 then thash_simple_X_mem P g cfg512 M out inp inblocks ctx.state_seeded_512 addr
  else thash_simple_X_mem P g cfg256 M out inp inblocks ctx.state_seeded addr

/-- ref/thash_sha2_robust.c:27-46 and 53-72. -/
def thash_robust_X_mem {wb : Nat} (c : Cfg wb) (extra : Nat) (M : Mem) (out inp inblocks : Nat)
    (seeded pub_seed : Bytes) (addr : Addr) : C Mem := do
  let outbuf := uninit (g 33) c.hb
  let bitmask := uninit (g 35) (inblocks * P.n)
  let buf := uninit (g 34) (P.n + extra + inblocks * P.n)
  let buf ← wr buf 0 (← rd pub_seed 0 P.n)
  let buf ← wr buf P.n (← rd addr 0 SPX_SHA256_ADDR_BYTES)
  let bitmask ← mgf1 c g bitmask (inblocks * P.n) buf (P.n + SPX_SHA256_ADDR_BYTES)
  let sha2_state ← rd seeded 0 (c.hb + 8)
  let buf ← forRange (inblocks * P.n) (fun i buf => do
    wr1 buf (P.n + SPX_SHA256_ADDR_BYTES + i) ((← M.rd1 inp i) ^^^ (← rd1 bitmask i))) buf
  let (outbuf, _) ← inc_finalize c g outbuf sha2_state (← sub buf P.n) (SPX_SHA256_ADDR_BYTES + inblocks * P.n)
  M.wr out (← rd outbuf 0 P.n)

/-- `thash`, ref/thash_sha2_robust.c:18-47 -/
def thash_robust_mem (M : Mem) (out inp inblocks : Nat) (ctx : Ctx) (addr : Addr) : C Mem :=
  if P.sha512 ∧ inblocks > 1 then
    thash_robust_X_mem P g cfg512 SPX_SHA256_ADDR_BYTES M out inp inblocks ctx.state_seeded_512 ctx.pub_seed addr
  else thash_robust_X_mem P g cfg256 32 M out inp inblocks ctx.state_seeded ctx.pub_seed addr

end Sha2

namespace Shake

/-- `thash`, ref/thash_shake_simple.c:14-24 -/
def thash_simple_mem (M : Mem) (out inp inblocks : Nat) (ctx : Ctx) (addr : Addr) : C Mem := do
  let buf := uninit (g 16) (P.n + SPX_ADDR_BYTES + inblocks * P.n)
  let buf ← wr buf 0 (← rd ctx.pub_seed 0 P.n)
  let buf ← wr buf P.n (← rd addr 0 SPX_ADDR_BYTES)
  let buf ← wr buf (P.n + SPX_ADDR_BYTES) (← M.rd inp (inblocks * P.n))
  M.wr out (← shake256 g (uninit (g 17) P.n) P.n buf (P.n + SPX_ADDR_BYTES + inblocks * P.n))

/-- `thash`, ref/thash_shake_robust.c:14-31 -/
def thash_robust_mem (M : Mem) (out inp inblocks : Nat) (ctx : Ctx) (addr : Addr) : C Mem := do
  let buf := uninit (g 16) (P.n + SPX_ADDR_BYTES + inblocks * P.n)
  let bitmask := uninit (g 18) (inblocks * P.n)
  let buf ← wr buf 0 (← rd ctx.pub_seed 0 P.n)
  let buf ← wr buf P.n (← rd addr 0 SPX_ADDR_BYTES)
  let bitmask ← shake256 g bitmask (inblocks * P.n) buf (P.n + SPX_ADDR_BYTES)
  let buf ← forRange (inblocks * P.n) (fun i buf => do
    wr1 buf (P.n + SPX_ADDR_BYTES + i) ((← M.rd1 inp i) ^^^ (← rd1 bitmask i))) buf
  M.wr out (← shake256 g (uninit (g 17) P.n) P.n buf (P.n + SPX_ADDR_BYTES + inblocks * P.n))

end Shake

namespace Haraka

/-- `thash`, ref/thash_haraka_simple.c:14-37 -/
def thash_simple_mem (M : Mem) (out inp inblocks : Nat) (ctx : Ctx) (addr : Addr) : C Mem := do
  let buf := uninit (g 48) (SPX_ADDR_BYTES + inblocks * P.n)
  if inblocks = 1 then
    let buf_tmp : Bytes := List.replicate 64 0#8
    let buf_tmp ← wr buf_tmp 0 (← rd addr 0 32)
    let buf_tmp ← wr buf_tmp SPX_ADDR_BYTES (← M.rd inp P.n)
    let outbuf ← refLib.haraka512 buf_tmp ctx
    M.wr out (← rd outbuf 0 P.n)
  else
    let buf ← wr buf 0 (← rd addr 0 32)
    let buf ← wr buf SPX_ADDR_BYTES (← M.rd inp (inblocks * P.n))
    M.wr out (← refLib.haraka_S g (uninit (g 49) P.n) P.n buf (SPX_ADDR_BYTES + inblocks * P.n) ctx)

/-- `thash`, ref/thash_haraka_robust.c:14-46 -/
def thash_robust_mem (M : Mem) (out inp inblocks : Nat) (ctx : Ctx) (addr : Addr) : C Mem := do
  let buf := uninit (g 48) (SPX_ADDR_BYTES + inblocks * P.n)
  let bitmask := uninit (g 50) (inblocks * P.n)
  if inblocks = 1 then
    let buf_tmp : Bytes := List.replicate 64 0#8
    let buf_tmp ← wr buf_tmp 0 (← rd addr 0 32)
    let outbuf ← refLib.haraka256 buf_tmp ctx
    let buf_tmp ← forRange (inblocks * P.n) (fun i buf_tmp => do
      wr1 buf_tmp (SPX_ADDR_BYTES + i) ((← M.rd1 inp i) ^^^ (← rd1 outbuf i))) buf_tmp
    let outbuf ← refLib.haraka512 buf_tmp ctx
    M.wr out (← rd outbuf 0 P.n)
  else
    let buf ← wr buf 0 (← rd addr 0 32)
    let bitmask ← refLib.haraka_S g bitmask (inblocks * P.n) buf SPX_ADDR_BYTES ctx
    let buf ← forRange (inblocks * P.n) (fun i buf => do
      wr1 buf (SPX_ADDR_BYTES + i) ((← M.rd1 inp i) ^^^ (← rd1 bitmask i))) buf
    M.wr out (← refLib.haraka_S g (uninit (g 49) P.n) P.n buf (SPX_ADDR_BYTES + inblocks * P.n) ctx)

end Haraka

/-- The `thash` linked for a parameter set (ref/Makefile:10-21). -/
def thash_mem (M : Mem) (out inp inblocks : Nat) (ctx : Ctx) (addr : Addr) : C Mem :=
  match P.fam, P.robust with
  | .sha2, false => Sha2.thash_simple_mem P g M out inp inblocks ctx addr
  | .sha2, true => Sha2.thash_robust_mem P g M out inp inblocks ctx addr
  | .shake, false => Shake.thash_simple_mem P g M out inp inblocks ctx addr
  | .shake, true => Shake.thash_robust_mem P g M out inp inblocks ctx addr
  | .haraka, false => Haraka.thash_simple_mem P g M out inp inblocks ctx addr
  | .haraka, true => Haraka.thash_robust_mem P g M out inp inblocks ctx addr

/-- `gen_chain`, ref/wots.c:24-38, over flat memory: `memcpy(out, in, SPX_N)`, then `thash(out, out,
1, …)` in place.  Returns the memory and the address. -/
def gen_chain_mem (M : Mem) (out inp start steps : Nat) (ctx : Ctx) (addr : Addr) : C (Mem × Addr) := do
  let M ← M.wr out (← M.rd inp P.n)
  let stop := min ((start + steps) % 2 ^ 32) P.w
  forRange (stop - start) (fun j (s : Mem × Addr) => do
    let addr ← set_hash_addr P.fam s.2 (start + j)
    let M ← thash_mem P g s.1 out out 1 ctx addr
    .ok (M, addr)) (M, addr)

end Spx
