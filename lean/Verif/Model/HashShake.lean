import Verif.Model.HashCommon
import Verif.Model.Fips202
/-! # Model of ref/hash_shake.c, ref/thash_shake_simple.c and ref/thash_shake_robust.c

`g site i` are the contents of uninitialised memory.  An output of `SPX_N` bytes is modelled as an
object of its own with arbitrary previous contents. -/

namespace Spx

/-- SPX_ADDR_BYTES, ref/params/params-sphincs-shake-128s.h:22 (and all other headers) -/
def SPX_ADDR_BYTES : Nat := 32

namespace Shake
variable (P : Params) (g : Nat → Nat → Byte)

/-- `initialize_hash_function`, ref/hash_shake.c:12-15 -/
def initialize_hash_function (ctx : Ctx) : C Ctx := .ok ctx

/-- `prf_addr`, ref/hash_shake.c:20-30 -/
def prf_addr (ctx : Ctx) (addr : Addr) : C Bytes := do
  let buf := uninit (g 10) (2 * P.n + SPX_ADDR_BYTES)
  let buf ← wr buf 0 (← rd ctx.pub_seed 0 P.n)
  let buf ← wr buf P.n (← rd addr 0 SPX_ADDR_BYTES)
  let buf ← wr buf (P.n + SPX_ADDR_BYTES) (← rd ctx.sk_seed 0 P.n)
  shake256 g (uninit (g 11) P.n) P.n buf (2 * P.n + SPX_ADDR_BYTES)

/-- `gen_message_random`, ref/hash_shake.c:36-50 -/
def gen_message_random (sk_prf optrand m : Bytes) (_ctx : Ctx) : C Bytes := do
  let s_inc := uninit (fun i => (g 12 i).zeroExtend 64) 26
  let s_inc ← shake256_inc_init s_inc
  let s_inc ← shake256_inc_absorb s_inc sk_prf P.n
  let s_inc ← shake256_inc_absorb s_inc optrand P.n
  let s_inc ← shake256_inc_absorb s_inc m m.length
  let s_inc ← shake256_inc_finalize s_inc
  let (R, _) ← shake256_inc_squeeze (uninit (g 13) P.n) P.n s_inc
  .ok R

/-- `hash_message`, ref/hash_shake.c:57-97 -/
def hash_message (R pk m : Bytes) (_ctx : Ctx) : C (Bytes × Nat × Nat) := do
  let s_inc := uninit (fun i => (g 14 i).zeroExtend 64) 26
  let s_inc ← shake256_inc_init s_inc
  let s_inc ← shake256_inc_absorb s_inc R P.n
  let s_inc ← shake256_inc_absorb s_inc pk P.pkBytes
  let s_inc ← shake256_inc_absorb s_inc m m.length
  let s_inc ← shake256_inc_finalize s_inc
  let (buf, _) ← shake256_inc_squeeze (uninit (g 15) P.dgstBytes) P.dgstBytes s_inc
  hash_message_split P buf

/-- `thash`, ref/thash_shake_simple.c:14-24 -/
def thash_simple (inp : Bytes) (inblocks : Nat) (ctx : Ctx) (addr : Addr) : C Bytes := do
  let buf := uninit (g 16) (P.n + SPX_ADDR_BYTES + inblocks * P.n)
  let buf ← wr buf 0 (← rd ctx.pub_seed 0 P.n)
  let buf ← wr buf P.n (← rd addr 0 SPX_ADDR_BYTES)
  let buf ← wr buf (P.n + SPX_ADDR_BYTES) (← rd inp 0 (inblocks * P.n))
  shake256 g (uninit (g 17) P.n) P.n buf (P.n + SPX_ADDR_BYTES + inblocks * P.n)

/-- `thash`, ref/thash_shake_robust.c:14-31 -/
def thash_robust (inp : Bytes) (inblocks : Nat) (ctx : Ctx) (addr : Addr) : C Bytes := do
  let buf := uninit (g 16) (P.n + SPX_ADDR_BYTES + inblocks * P.n)
  let bitmask := uninit (g 18) (inblocks * P.n)
  let buf ← wr buf 0 (← rd ctx.pub_seed 0 P.n)
  let buf ← wr buf P.n (← rd addr 0 SPX_ADDR_BYTES)
  let bitmask ← shake256 g bitmask (inblocks * P.n) buf (P.n + SPX_ADDR_BYTES)
  let buf ← forRange (inblocks * P.n) (fun i buf => do
    wr1 buf (P.n + SPX_ADDR_BYTES + i) ((← rd1 inp i) ^^^ (← rd1 bitmask i))) buf
  shake256 g (uninit (g 17) P.n) P.n buf (P.n + SPX_ADDR_BYTES + inblocks * P.n)

/-- The functions linked for the SHAKE parameter sets (ref/Makefile:10-13). -/
def impl : HashImpl where
  initialize_hash_function := initialize_hash_function
  prf_addr := prf_addr P g
  thash := if P.robust then thash_robust P g else thash_simple P g
  gen_message_random := gen_message_random P g
  hash_message := hash_message P g

end Shake
end Spx
