import Verif.Model.HashCommon
import Verif.Model.HashShake
import Verif.Model.Haraka
/-! # Model of ref/hash_haraka.c, ref/thash_haraka_simple.c and ref/thash_haraka_robust.c

`K` is the linked haraka.c.  `g site i` are the contents of uninitialised memory.  An output of `SPX_N` bytes is modelled as an
object of its own with arbitrary previous contents. -/

namespace Spx
namespace Haraka
variable (K : Lib) (P : Params) (g : Nat → Nat → Byte)

/-- `initialize_hash_function`, ref/hash_haraka.c:11-14 -/
def initialize_hash_function (ctx : Ctx) : C Ctx := K.tweak_constants g P.n ctx

/-- `prf_addr`, ref/hash_haraka.c:19-31.  `haraka512` fills the 32 bytes of `outbuf`. -/
def prf_addr (ctx : Ctx) (addr : Addr) : C Bytes := do
  let buf : Bytes := List.replicate 64 0#8
  let buf ← wr buf 0 (← rd addr 0 SPX_ADDR_BYTES)
  let buf ← wr buf SPX_ADDR_BYTES (← rd ctx.sk_seed 0 P.n)
  let outbuf ← K.haraka512 buf ctx
  rd outbuf 0 P.n

/-- `gen_message_random`, ref/hash_haraka.c:37-50 -/
def gen_message_random (sk_prf optrand m : Bytes) (ctx : Ctx) : C Bytes := do
  let s_inc := uninit (g 44) 65
  let s_inc ← haraka_S_inc_init s_inc
  let s_inc ← haraka_S_inc_absorb K.haraka512_perm s_inc sk_prf P.n ctx
  let s_inc ← haraka_S_inc_absorb K.haraka512_perm s_inc optrand P.n ctx
  let s_inc ← haraka_S_inc_absorb K.haraka512_perm s_inc m m.length ctx
  let s_inc ← haraka_S_inc_finalize s_inc
  let (R, _) ← haraka_S_inc_squeeze K.haraka512_perm (uninit (g 45) P.n) P.n s_inc ctx
  .ok R

/-- `hash_message`, ref/hash_haraka.c:57-96 -/
def hash_message (R pk m : Bytes) (ctx : Ctx) : C (Bytes × Nat × Nat) := do
  let s_inc := uninit (g 46) 65
  let s_inc ← haraka_S_inc_init s_inc
  let s_inc ← haraka_S_inc_absorb K.haraka512_perm s_inc R P.n ctx
  let s_inc ← haraka_S_inc_absorb K.haraka512_perm s_inc (← sub pk P.n) P.n ctx
  let s_inc ← haraka_S_inc_absorb K.haraka512_perm s_inc m m.length ctx
  let s_inc ← haraka_S_inc_finalize s_inc
  let (buf, _) ← haraka_S_inc_squeeze K.haraka512_perm (uninit (g 47) P.dgstBytes) P.dgstBytes s_inc ctx
  hash_message_split P buf

/-- `thash`, ref/thash_haraka_simple.c:14-37 -/
def thash_simple (inp : Bytes) (inblocks : Nat) (ctx : Ctx) (addr : Addr) : C Bytes := do
  let buf := uninit (g 48) (SPX_ADDR_BYTES + inblocks * P.n)
  if inblocks = 1 then
    let buf_tmp : Bytes := List.replicate 64 0#8
    let buf_tmp ← wr buf_tmp 0 (← rd addr 0 32)
    let buf_tmp ← wr buf_tmp SPX_ADDR_BYTES (← rd inp 0 P.n)
    let outbuf ← K.haraka512 buf_tmp ctx
    rd outbuf 0 P.n
  else
    let buf ← wr buf 0 (← rd addr 0 32)
    let buf ← wr buf SPX_ADDR_BYTES (← rd inp 0 (inblocks * P.n))
    K.haraka_S g (uninit (g 49) P.n) P.n buf (SPX_ADDR_BYTES + inblocks * P.n) ctx

/-- `thash`, ref/thash_haraka_robust.c:14-46 -/
def thash_robust (inp : Bytes) (inblocks : Nat) (ctx : Ctx) (addr : Addr) : C Bytes := do
  let buf := uninit (g 48) (SPX_ADDR_BYTES + inblocks * P.n)
  let bitmask := uninit (g 50) (inblocks * P.n)
  if inblocks = 1 then
    let buf_tmp : Bytes := List.replicate 64 0#8
    let buf_tmp ← wr buf_tmp 0 (← rd addr 0 32)
    let outbuf ← K.haraka256 buf_tmp ctx
    let buf_tmp ← forRange (inblocks * P.n) (fun i buf_tmp => do
      wr1 buf_tmp (SPX_ADDR_BYTES + i) ((← rd1 inp i) ^^^ (← rd1 outbuf i))) buf_tmp
    let outbuf ← K.haraka512 buf_tmp ctx
    rd outbuf 0 P.n
  else
    let buf ← wr buf 0 (← rd addr 0 32)
    let bitmask ← K.haraka_S g bitmask (inblocks * P.n) buf SPX_ADDR_BYTES ctx
    let buf ← forRange (inblocks * P.n) (fun i buf => do
      wr1 buf (SPX_ADDR_BYTES + i) ((← rd1 inp i) ^^^ (← rd1 bitmask i))) buf
    K.haraka_S g (uninit (g 49) P.n) P.n buf (SPX_ADDR_BYTES + inblocks * P.n) ctx

/-- The functions linked for the Haraka parameter sets, with the functions `K` of haraka.c. -/
def implWith : HashImpl where
  initialize_hash_function := initialize_hash_function K P g
  prf_addr := prf_addr K P
  thash := if P.robust then thash_robust K P g else thash_simple K P g
  gen_message_random := gen_message_random K P g
  hash_message := hash_message K P g

/-- The functions linked for the Haraka parameter sets (ref/Makefile:14-17). -/
def impl : HashImpl := implWith refLib P g

end Haraka
end Spx
