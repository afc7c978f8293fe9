import Verif.Model.HashCommon
import Verif.Model.Sha2
/-! # Model of ref/hash_sha2.c, ref/thash_sha2_simple.c and ref/thash_sha2_robust.c

`g site i` are the contents of uninitialised memory.  An output of `SPX_N` bytes is returned. -/

namespace Spx

/-- SPX_SHA256_ADDR_BYTES, ref/sha2.h:16 -/
def SPX_SHA256_ADDR_BYTES : Nat := 22

namespace Sha2
variable (P : Params) (g : Nat → Nat → Byte)

/-- `initialize_hash_function`, ref/hash_sha2.c:31-34 -/
def initialize_hash_function (ctx : Ctx) : C Ctx := seed_state P g ctx

/-- `prf_addr`, ref/hash_sha2.c:39-56 -/
def prf_addr (ctx : Ctx) (addr : Addr) : C Bytes := do
  let sha2_state ← rd ctx.state_seeded 0 40
  let buf := uninit (g 25) (SPX_SHA256_ADDR_BYTES + P.n)
  let buf ← wr buf 0 (← rd addr 0 SPX_SHA256_ADDR_BYTES)
  let buf ← wr buf SPX_SHA256_ADDR_BYTES (← rd ctx.sk_seed 0 P.n)
  let (outbuf, _) ← inc_finalize cfg256 g (uninit (g 26) 32) sha2_state buf (SPX_SHA256_ADDR_BYTES + P.n)
  rd outbuf 0 P.n

/-- `gen_message_random`, ref/hash_sha2.c:66-115, for one choice of `shaX` -/
def gen_message_random_X {wb : Nat} (c : Cfg wb) (sk_prf optrand m : Bytes) (_ctx : Ctx) : C Bytes := do
  let mlen := m.length
  let buf := uninit (g 27) (c.blk + c.hb)
  let state := uninit (g 28) (8 + c.hb)
  let buf ← forRange P.n (fun i b => do wr1 b i (0x36#8 ^^^ (← rd1 sk_prf i))) buf
  let buf ← wr buf P.n (List.replicate (c.blk - P.n) 0x36#8)
  let state ← inc_init c state
  let state ← inc_blocks c state buf 1
  let buf ← wr buf 0 (← rd optrand 0 P.n)
  let (buf, _) ← (if P.n + mlen < c.blk then do
      let buf ← wr buf P.n (← rd m 0 mlen)
      withSub buf c.blk (fun out => inc_finalize c g out state buf (mlen + P.n))
    else do
      let buf ← wr buf P.n (← rd m 0 (c.blk - P.n))
      let state ← inc_blocks c state buf 1
      let m ← sub m (c.blk - P.n)
      let mlen := mlen - (c.blk - P.n)
      withSub buf c.blk (fun out => inc_finalize c g out state m mlen) : C (Bytes × Bytes))
  let buf ← forRange P.n (fun i b => do wr1 b i (0x5c#8 ^^^ (← rd1 sk_prf i))) buf
  let buf ← wr buf P.n (List.replicate (c.blk - P.n) 0x5c#8)
  let buf ← sha c g buf buf (c.blk + c.hb)
  rd buf 0 P.n

/-- `gen_message_random` with the `#if SPX_N >= 24` of ref/hash_sha2.c:10-26 -/
def gen_message_random (sk_prf optrand m : Bytes) (ctx : Ctx) : C Bytes :=
  if 24 ≤ P.n then gen_message_random_X P g cfg512 sk_prf optrand m ctx
  else gen_message_random_X P g cfg256 sk_prf optrand m ctx

/-- SPX_INBLOCKS, ref/hash_sha2.c:140-141; `x & -b` for a power of two `b` clears the low bits. -/
def INBLOCKS {wb : Nat} (c : Cfg wb) : Nat :=
  let x := P.n + P.pkBytes + c.blk - 1
  (x - x % c.blk) / c.blk

/-- `hash_message`, ref/hash_sha2.c:122-195, for one choice of `shaX` -/
def hash_message_X {wb : Nat} (c : Cfg wb) (R pk m : Bytes) (_ctx : Ctx) : C (Bytes × Nat × Nat) := do
  let mlen := m.length
  let nb := INBLOCKS P c
  let seed := uninit (g 29) (2 * P.n + c.hb)
  let inbuf := uninit (g 30) (nb * c.blk)
  let state := uninit (g 31) (8 + c.hb)
  let state ← inc_init c state
  let inbuf ← wr inbuf 0 (← rd R 0 P.n)
  let inbuf ← wr inbuf P.n (← rd pk 0 P.pkBytes)
  let (seed, _) ← (if P.n + P.pkBytes + mlen < nb * c.blk then do
      let inbuf ← wr inbuf (P.n + P.pkBytes) (← rd m 0 mlen)
      withSub seed (2 * P.n) (fun out => inc_finalize c g out state inbuf (P.n + P.pkBytes + mlen))
    else do
      let inbuf ← wr inbuf (P.n + P.pkBytes) (← rd m 0 (nb * c.blk - P.n - P.pkBytes))
      let state ← inc_blocks c state inbuf nb
      let m ← sub m (nb * c.blk - P.n - P.pkBytes)
      let mlen := mlen - (nb * c.blk - P.n - P.pkBytes)
      withSub seed (2 * P.n) (fun out => inc_finalize c g out state m mlen) : C (Bytes × Bytes))
  let seed ← wr seed 0 (← rd R 0 P.n)
  let seed ← wr seed P.n (← rd pk 0 P.n)
  let buf ← mgf1 c g (uninit (g 32) P.dgstBytes) P.dgstBytes seed (2 * P.n + c.hb)
  hash_message_split P buf

/-- `hash_message` with the `#if SPX_N >= 24` of ref/hash_sha2.c:10-26 -/
def hash_message (R pk m : Bytes) (ctx : Ctx) : C (Bytes × Nat × Nat) :=
  if 24 ≤ P.n then hash_message_X P g cfg512 R pk m ctx
  else hash_message_X P g cfg256 R pk m ctx

/-- `thash` after the test for `inblocks`, ref/thash_sha2_simple.c:28-39, and `thash_512`,
ref/thash_sha2_simple.c:46-57; `seeded` is `ctx->state_seeded` or `ctx->state_seeded_512`. -/
def thash_simple_X {wb : Nat} (c : Cfg wb) (inp : Bytes) (inblocks : Nat) (seeded : Bytes) (addr : Addr) :
    C Bytes := do
  let outbuf := uninit (g 33) c.hb
  let sha2_state ← rd seeded 0 (c.hb + 8)
  let buf := uninit (g 34) (SPX_SHA256_ADDR_BYTES + inblocks * P.n)
  let buf ← wr buf 0 (← rd addr 0 SPX_SHA256_ADDR_BYTES)
  let buf ← wr buf SPX_SHA256_ADDR_BYTES (← rd inp 0 (inblocks * P.n))
  let (outbuf, _) ← inc_finalize c g outbuf sha2_state buf (SPX_SHA256_ADDR_BYTES + inblocks * P.n)
  rd outbuf 0 P.n

/-- `thash`, ref/thash_sha2_simple.c:18-40 -/
def thash_simple (inp : Bytes) (inblocks : Nat) (ctx : Ctx) (addr : Addr) : C Bytes :=
  if P.sha512 ∧ inblocks > 1 then thash_simple_X P g cfg512 inp inblocks ctx.state_seeded_512 addr
  else thash_simple_X P g cfg256 inp inblocks ctx.state_seeded addr

/-- `thash` after the test for `inblocks`, ref/thash_sha2_robust.c:27-46, and `thash_512`,
ref/thash_sha2_robust.c:53-72; the size of `buf` is `SPX_N + extra + inblocks*SPX_N`, with
`SPX_SHA256_OUTPUT_BYTES` as `extra` in `thash` and `SPX_SHA256_ADDR_BYTES` in `thash_512`. -/
def thash_robust_X {wb : Nat} (c : Cfg wb) (extra : Nat) (inp : Bytes) (inblocks : Nat)
    (seeded pub_seed : Bytes) (addr : Addr) : C Bytes := do
  let outbuf := uninit (g 33) c.hb
  let bitmask := uninit (g 35) (inblocks * P.n)
  let buf := uninit (g 34) (P.n + extra + inblocks * P.n)
  let buf ← wr buf 0 (← rd pub_seed 0 P.n)
  let buf ← wr buf P.n (← rd addr 0 SPX_SHA256_ADDR_BYTES)
  let bitmask ← mgf1 c g bitmask (inblocks * P.n) buf (P.n + SPX_SHA256_ADDR_BYTES)
  let sha2_state ← rd seeded 0 (c.hb + 8)
  let buf ← forRange (inblocks * P.n) (fun i buf => do
    wr1 buf (P.n + SPX_SHA256_ADDR_BYTES + i) ((← rd1 inp i) ^^^ (← rd1 bitmask i))) buf
  let (outbuf, _) ← inc_finalize c g outbuf sha2_state (← sub buf P.n) (SPX_SHA256_ADDR_BYTES + inblocks * P.n)
  rd outbuf 0 P.n

/-- `thash`, ref/thash_sha2_robust.c:18-47 -/
def thash_robust (inp : Bytes) (inblocks : Nat) (ctx : Ctx) (addr : Addr) : C Bytes :=
  if P.sha512 ∧ inblocks > 1 then
    thash_robust_X P g cfg512 SPX_SHA256_ADDR_BYTES inp inblocks ctx.state_seeded_512 ctx.pub_seed addr
  else thash_robust_X P g cfg256 32 inp inblocks ctx.state_seeded ctx.pub_seed addr

/-- The functions linked for the SHA-2 parameter sets (ref/Makefile:18-21). -/
def impl : HashImpl where
  initialize_hash_function := initialize_hash_function P g
  prf_addr := prf_addr P g
  thash := if P.robust then thash_robust P g else thash_simple P g
  gen_message_random := gen_message_random P g
  hash_message := hash_message P g

end Sha2
end Spx
