import Verif.Model.LeakHash
import Verif.Model.HashSha2
/-! # The SHA-2 hash functions with traces

The definitions of Model/Sha2.lean and Model/HashSha2.lean over the monad of Model/LeakBase.lean. -/

namespace Spx.Leak

/-- `load_bigendian_32`, ref/sha2.c:12-15 -/
def load_bigendian_32 (x : Bytes) : L (BitVec 32) := do
  .ok ((← rd1 x 3).zeroExtend 32 ||| ((← rd1 x 2).zeroExtend 32 <<< 8) |||
    ((← rd1 x 1).zeroExtend 32 <<< 16) ||| ((← rd1 x 0).zeroExtend 32 <<< 24))

/-- `load_bigendian_64`, ref/sha2.c:17-22 -/
def load_bigendian_64 (x : Bytes) : L (BitVec 64) := do
  .ok ((← rd1 x 7).zeroExtend 64 ||| ((← rd1 x 6).zeroExtend 64 <<< 8) |||
    ((← rd1 x 5).zeroExtend 64 <<< 16) ||| ((← rd1 x 4).zeroExtend 64 <<< 24) |||
    ((← rd1 x 3).zeroExtend 64 <<< 32) ||| ((← rd1 x 2).zeroExtend 64 <<< 40) |||
    ((← rd1 x 1).zeroExtend 64 <<< 48) ||| ((← rd1 x 0).zeroExtend 64 <<< 56))

/-- `store_bigendian_32`, ref/sha2.c:24-32; the second parameter is a `uint64_t`. -/
def store_bigendian_32 (x : Bytes) (u : BitVec 64) : L Bytes := do
  let x ← wr1 x 3 (u.truncate 8)
  let u := u >>> 8
  let x ← wr1 x 2 (u.truncate 8)
  let u := u >>> 8
  let x ← wr1 x 1 (u.truncate 8)
  let u := u >>> 8
  wr1 x 0 (u.truncate 8)

/-- `store_bigendian_64`, ref/sha2.c:34-50 -/
def store_bigendian_64 (x : Bytes) (u : BitVec 64) : L Bytes := do
  let x ← wr1 x 7 (u.truncate 8)
  let u := u >>> 8
  let x ← wr1 x 6 (u.truncate 8)
  let u := u >>> 8
  let x ← wr1 x 5 (u.truncate 8)
  let u := u >>> 8
  let x ← wr1 x 4 (u.truncate 8)
  let u := u >>> 8
  let x ← wr1 x 3 (u.truncate 8)
  let u := u >>> 8
  let x ← wr1 x 2 (u.truncate 8)
  let u := u >>> 8
  let x ← wr1 x 1 (u.truncate 8)
  let u := u >>> 8
  wr1 x 0 (u.truncate 8)

namespace Sha2

open Spx.Sha2

/-- What differs between the two copies of the code, with the traces of `load_bigendian` and
`store_bigendian` -/
structure Cfg (wb : Nat) extends Spx.Sha2.Cfg wb where
  loadL : Bytes → L (BitVec (8 * wb))
  storeL : Bytes → BitVec (8 * wb) → L Bytes
  /-- the compression function -/
  fn : Fn

/-- The 32-bit copy, `Spx.Sha2.cfg256` -/
def cfg256 : Cfg 4 :=
  { Spx.Sha2.cfg256 with
    loadL := load_bigendian_32
    storeL := fun x u => store_bigendian_32 x (u.zeroExtend 64)
    fn := .sha256 }

/-- The 64-bit copy, `Spx.Sha2.cfg512` -/
def cfg512 : Cfg 8 :=
  { Spx.Sha2.cfg512 with loadL := load_bigendian_64, storeL := store_bigendian_64, fn := .sha512 }

section

variable {wb : Nat} (c : Cfg wb)

/-- Loading `k` words, e.g. ref/sha2.c:164-179. -/
def loadWords (x : Bytes) (k : Nat) : L (List (BitVec (8 * wb))) :=
  forRange k (fun i acc => do .ok (acc ++ [← c.loadL (← sub x (wb * i))])) []

/-- The body of the `while` loop, ref/sha2.c:163-275, 312-443.  The loop state is `in`, `inlen`,
`a … h` and `state[8]`. -/
def blockStep (s : Bytes × Nat × Vars wb × Vars wb) :
    L ((Bytes × Nat × Vars wb × Vars wb) ⊕ (Nat × Vars wb)) := do
  let (inp, inlen, v, state) := s
  cif c.blk ≤ inlen then prim c.fn do
    let w ← loadWords c inp 16
    let v := (groups c.toCfg w v c.groups).2
    let v := v.add state
    let state := v
    let inp ← sub inp c.blk
    .ok (.inl (inp, inlen - c.blk, v, state))
  else .ok (.inr (inlen, state))

/-- `crypto_hashblocks_sha256`, ref/sha2.c:132-287; `crypto_hashblocks_sha512`, ref/sha2.c:289-455.
Returns the state bytes (the returned `inlen` is never used by the callers). -/
def hashblocks (statebytes inp : Bytes) (inlen : Nat) : L Bytes := do
  let s ← loadWords c statebytes 8
  let v : Vars wb := ⟨s.getD 0 0, s.getD 1 0, s.getD 2 0, s.getD 3 0, s.getD 4 0, s.getD 5 0,
    s.getD 6 0, s.getD 7 0⟩
  let (_, state) ← loop (inlen / c.blk + 1) (blockStep c) (inp, inlen, v, v)
  let out := [state.a, state.b, state.c, state.d, state.e, state.f, state.g, state.h]
  forRange 8 (fun i st => do
    let (st, _) ← withSub st (wb * i) (fun x => do .ok (← c.storeL x (← rd1 out i), ()))
    .ok st) statebytes

/-- `sha256_inc_init`, ref/sha2.c:474-481; `sha512_inc_init`, ref/sha2.c:483-490 -/
def inc_init (state : Bytes) : L Bytes := do
  let state ← forRange c.hb (fun i st => do wr1 st i (← rd1 c.iv i)) state
  forRange 8 (fun i st => wr1 st (c.hb + i) 0#8) state

/-- `sha256_inc_blocks`, ref/sha2.c:492-499; `sha512_inc_blocks`, ref/sha2.c:501-508 -/
def inc_blocks (state inp : Bytes) (inblocks : Nat) : L Bytes := do
  let bytes ← load_bigendian_64 (← sub state c.hb)
  let state ← hashblocks c state inp (c.blk * inblocks)
  let bytes := bytes + BitVec.ofNat 64 (c.blk * inblocks)
  let (state, _) ← withSub state c.hb (fun x => do .ok (← store_bigendian_64 x bytes, ()))
  .ok state

/-- The zeros and the length bytes written to `padded`: ref/sha2.c:525-535, 538-548, 573-584, 587-598 -/
def padTail (padded : Bytes) (inlen zend : Nat) (bytes : BitVec 64) : L Bytes := do
  let padded ← forRange (zend - (inlen + 1)) (fun j p => wr1 p (inlen + 1 + j) 0#8) padded
  forRange c.lens.length (fun i p =>
    wr1 p (zend + i) ((c.lens.getD i (fun _ => 0#64) bytes).truncate 8)) padded

/-- `sha256_inc_finalize`, ref/sha2.c:510-556; `sha512_inc_finalize`, ref/sha2.c:558-605.
Returns `out` and `state`.  `out` is written after the last read of `in`, so an `out` inside the
object behind `in` (ref/hash_sha2.c:95, 113) makes no difference. -/
def inc_finalize (g : Nat → Nat → Byte) (out state inp : Bytes) (inlen : Nat) : L (Bytes × Bytes) := do
  let padded := uninit (g 20) (2 * c.blk)
  let bytes := (← load_bigendian_64 (← sub state c.hb)) + BitVec.ofNat 64 inlen
  let state ← hashblocks c state inp inlen
  let inlen' := inlen &&& c.mask
  let inp ← sub inp (inlen - inlen')
  let padded ← forRange inlen' (fun i p => do wr1 p i (← rd1 inp i)) padded
  let padded ← wr1 padded inlen' 0x80#8
  let state ← (cif inlen' < c.thr then do
      let padded ← padTail c padded inlen' c.zend1 bytes
      hashblocks c state padded c.blk
    else do
      let padded ← padTail c padded inlen' c.zend2 bytes
      hashblocks c state padded (2 * c.blk) : L Bytes)
  let out ← forRange c.hb (fun i out => do wr1 out i (← rd1 state i)) out
  .ok (out, state)

/-- `sha256`, ref/sha2.c:607-612; `sha512`, ref/sha2.c:614-619 -/
def sha (g : Nat → Nat → Byte) (out inp : Bytes) (inlen : Nat) : L Bytes := do
  let state := uninit (g 21) (c.hb + 8)
  let state ← inc_init c state
  let (out, _) ← inc_finalize c g out state inp inlen
  .ok out

/-- The loop of `mgf1`, ref/sha2.c:637-641, 663-667.  Loop state: `i`, the output and `inbuf`;
`out` has been advanced by `i` outputs. -/
def mgfStep (g : Nat → Nat → Byte) (outlen inlen : Nat) (s : Nat × Bytes × Bytes) :
    L ((Nat × Bytes × Bytes) ⊕ (Nat × Bytes × Bytes)) := do
  let (i, out, inbuf) := s
  cif (i + 1) * c.hb ≤ outlen then do
    let (inbuf, _) ← withSub inbuf inlen (fun x => do .ok (← u32_to_bytes x (i % 2 ^ 32), ()))
    let (out, _) ← withSub out (i * c.hb) (fun x => do .ok (← sha c g x inbuf (inlen + 4), ()))
    .ok (.inl (i + 1, out, inbuf))
  else .ok (.inr (i, out, inbuf))

/-- `mgf1_256`, ref/sha2.c:627-648; `mgf1_512`, ref/sha2.c:653-674 -/
def mgf1 (g : Nat → Nat → Byte) (out : Bytes) (outlen : Nat) (inp : Bytes) (inlen : Nat) : L Bytes := do
  let inbuf := uninit (g 22) (inlen + 4)
  let outbuf := uninit (g 23) c.hb
  let inbuf ← wr inbuf 0 (← rd inp 0 inlen)
  let (i, out, inbuf) ← loop (outlen / c.hb + 1) (mgfStep c g outlen inlen) (0, out, inbuf)
  cif i * c.hb < outlen then do
    let (inbuf, _) ← withSub inbuf inlen (fun x => do .ok (← u32_to_bytes x (i % 2 ^ 32), ()))
    let outbuf ← sha c g outbuf inbuf (inlen + 4)
    wr out (i * c.hb) (← rd outbuf 0 (outlen - i * c.hb))
  else .ok out

end

/-- `seed_state`, ref/sha2.c:682-700 -/
def seed_state (P : Params) (g : Nat → Nat → Byte) (ctx : Ctx) : L Ctx := do
  let block := uninit (g 24) 128
  let block ← forRange P.n (fun i b => do wr1 b i (← rd1 ctx.pub_seed i)) block
  let block ← forRange (128 - P.n) (fun j b => wr1 b (P.n + j) 0#8) block
  let st ← inc_init cfg256 ctx.state_seeded
  let st ← inc_blocks cfg256 st block 1
  let ctx := { ctx with state_seeded := st }
  if P.sha512 then do
    let st ← inc_init cfg512 ctx.state_seeded_512
    let st ← inc_blocks cfg512 st block 1
    .ok { ctx with state_seeded_512 := st }
  else .ok ctx

variable (P : Params) (g : Nat → Nat → Byte)

/-- `initialize_hash_function`, ref/hash_sha2.c:31-34 -/
def initialize_hash_function (ctx : Ctx) : L Ctx := seed_state P g ctx

/-- `prf_addr`, ref/hash_sha2.c:39-56 -/
def prf_addr (ctx : Ctx) (addr : Addr) : L Bytes := do
  let sha2_state ← rd ctx.state_seeded 0 40
  let buf := uninit (g 25) (SPX_SHA256_ADDR_BYTES + P.n)
  let buf ← wr buf 0 (← rd addr 0 SPX_SHA256_ADDR_BYTES)
  let buf ← wr buf SPX_SHA256_ADDR_BYTES (← rd ctx.sk_seed 0 P.n)
  let (outbuf, _) ← inc_finalize cfg256 g (uninit (g 26) 32) sha2_state buf (SPX_SHA256_ADDR_BYTES + P.n)
  rd outbuf 0 P.n

/-- `gen_message_random`, ref/hash_sha2.c:66-115, for one choice of `shaX` -/
def gen_message_random_X {wb : Nat} (c : Cfg wb) (sk_prf optrand m : Bytes) (_ctx : Ctx) : L Bytes := do
  let mlen := m.length
  let buf := uninit (g 27) (c.blk + c.hb)
  let state := uninit (g 28) (8 + c.hb)
  let buf ← forRange P.n (fun i b => do wr1 b i (0x36#8 ^^^ (← rd1 sk_prf i))) buf
  let buf ← wr buf P.n (List.replicate (c.blk - P.n) 0x36#8)
  let state ← inc_init c state
  let state ← inc_blocks c state buf 1
  let buf ← wr buf 0 (← rd optrand 0 P.n)
  let (buf, _) ← (cif P.n + mlen < c.blk then do
      let buf ← wr buf P.n (← rd m 0 mlen)
      withSub buf c.blk (fun out => inc_finalize c g out state buf (mlen + P.n))
    else do
      let buf ← wr buf P.n (← rd m 0 (c.blk - P.n))
      let state ← inc_blocks c state buf 1
      let m ← sub m (c.blk - P.n)
      let mlen := mlen - (c.blk - P.n)
      withSub buf c.blk (fun out => inc_finalize c g out state m mlen) : L (Bytes × Bytes))
  let buf ← forRange P.n (fun i b => do wr1 b i (0x5c#8 ^^^ (← rd1 sk_prf i))) buf
  let buf ← wr buf P.n (List.replicate (c.blk - P.n) 0x5c#8)
  let buf ← sha c g buf buf (c.blk + c.hb)
  rd buf 0 P.n

/-- `gen_message_random` with the `#if SPX_N >= 24` of ref/hash_sha2.c:10-26 -/
def gen_message_random (sk_prf optrand m : Bytes) (ctx : Ctx) : L Bytes :=
  if 24 ≤ P.n then gen_message_random_X P g cfg512 sk_prf optrand m ctx
  else gen_message_random_X P g cfg256 sk_prf optrand m ctx

/-- `hash_message`, ref/hash_sha2.c:122-195, for one choice of `shaX` -/
def hash_message_X {wb : Nat} (c : Cfg wb) (R pk m : Bytes) (_ctx : Ctx) : L (Bytes × Nat × Nat) := do
  let mlen := m.length
  let nb := INBLOCKS P c.toCfg
  let seed := uninit (g 29) (2 * P.n + c.hb)
  let inbuf := uninit (g 30) (nb * c.blk)
  let state := uninit (g 31) (8 + c.hb)
  let state ← inc_init c state
  let inbuf ← wr inbuf 0 (← rd R 0 P.n)
  let inbuf ← wr inbuf P.n (← rd pk 0 P.pkBytes)
  let (seed, _) ← (cif P.n + P.pkBytes + mlen < nb * c.blk then do
      let inbuf ← wr inbuf (P.n + P.pkBytes) (← rd m 0 mlen)
      withSub seed (2 * P.n) (fun out => inc_finalize c g out state inbuf (P.n + P.pkBytes + mlen))
    else do
      let inbuf ← wr inbuf (P.n + P.pkBytes) (← rd m 0 (nb * c.blk - P.n - P.pkBytes))
      let state ← inc_blocks c state inbuf nb
      let m ← sub m (nb * c.blk - P.n - P.pkBytes)
      let mlen := mlen - (nb * c.blk - P.n - P.pkBytes)
      withSub seed (2 * P.n) (fun out => inc_finalize c g out state m mlen) : L (Bytes × Bytes))
  let seed ← wr seed 0 (← rd R 0 P.n)
  let seed ← wr seed P.n (← rd pk 0 P.n)
  let buf ← mgf1 c g (uninit (g 32) P.dgstBytes) P.dgstBytes seed (2 * P.n + c.hb)
  hash_message_split P buf

/-- `hash_message` with the `#if SPX_N >= 24` of ref/hash_sha2.c:10-26 -/
def hash_message (R pk m : Bytes) (ctx : Ctx) : L (Bytes × Nat × Nat) :=
  if 24 ≤ P.n then hash_message_X P g cfg512 R pk m ctx
  else hash_message_X P g cfg256 R pk m ctx

/-- `thash` after the test for `inblocks`, ref/thash_sha2_simple.c:28-39, and `thash_512`,
ref/thash_sha2_simple.c:46-57; `seeded` is `ctx->state_seeded` or `ctx->state_seeded_512`. -/
def thash_simple_X {wb : Nat} (c : Cfg wb) (inp : Bytes) (inblocks : Nat) (seeded : Bytes) (addr : Addr) :
    L Bytes := do
  let outbuf := uninit (g 33) c.hb
  let sha2_state ← rd seeded 0 (c.hb + 8)
  let buf := uninit (g 34) (SPX_SHA256_ADDR_BYTES + inblocks * P.n)
  let buf ← wr buf 0 (← rd addr 0 SPX_SHA256_ADDR_BYTES)
  let buf ← wr buf SPX_SHA256_ADDR_BYTES (← rd inp 0 (inblocks * P.n))
  let (outbuf, _) ← inc_finalize c g outbuf sha2_state buf (SPX_SHA256_ADDR_BYTES + inblocks * P.n)
  rd outbuf 0 P.n

/-- `thash`, ref/thash_sha2_simple.c:18-40 -/
def thash_simple (inp : Bytes) (inblocks : Nat) (ctx : Ctx) (addr : Addr) : L Bytes :=
  cif P.sha512 ∧ inblocks > 1 then thash_simple_X P g cfg512 inp inblocks ctx.state_seeded_512 addr
  else thash_simple_X P g cfg256 inp inblocks ctx.state_seeded addr

/-- `thash` after the test for `inblocks`, ref/thash_sha2_robust.c:27-46, and `thash_512`,
ref/thash_sha2_robust.c:53-72; the size of `buf` is `SPX_N + extra + inblocks*SPX_N`, with
`SPX_SHA256_OUTPUT_BYTES` as `extra` in `thash` and `SPX_SHA256_ADDR_BYTES` in `thash_512`. -/
def thash_robust_X {wb : Nat} (c : Cfg wb) (extra : Nat) (inp : Bytes) (inblocks : Nat)
    (seeded pub_seed : Bytes) (addr : Addr) : L Bytes := do
  let outbuf := uninit (g 33) c.hb
  let bitmask := uninit (g 35) (inblocks * P.n)
  let buf := uninit (g 34) (P.n + extra + inblocks * P.n)
  let buf ← wr buf 0 (← rd pub_seed 0 P.n)
  let buf ← wr buf P.n (← rd addr 0 SPX_SHA256_ADDR_BYTES)
  let bitmask ← mgf1 c g bitmask (inblocks * P.n) buf (P.n + SPX_SHA256_ADDR_BYTES)
  let sha2_state ← rd seeded 0 (c.hb + 8)
  let buf ← forRange (inblocks * P.n) (fun i buf => do
    wr1 buf (P.n + SPX_SHA256_ADDR_BYTES + i) ((← rd1 inp i) ^^^ (← rd1 bitmask i))) buf
  let (outbuf, _) ← inc_finalize c g outbuf sha2_state (← sub buf P.n) (SPX_SHA256_ADDR_BYTES + inblocks * P.n)
  rd outbuf 0 P.n

/-- `thash`, ref/thash_sha2_robust.c:18-47 -/
def thash_robust (inp : Bytes) (inblocks : Nat) (ctx : Ctx) (addr : Addr) : L Bytes :=
  cif P.sha512 ∧ inblocks > 1 then do
    thash_robust_X P g cfg512 SPX_SHA256_ADDR_BYTES inp inblocks ctx.state_seeded_512 ctx.pub_seed addr
  else thash_robust_X P g cfg256 32 inp inblocks ctx.state_seeded ctx.pub_seed addr

/-- The functions linked for the SHA-2 parameter sets (ref/Makefile:18-21). -/
def impl : HashImpl where
  initialize_hash_function := initialize_hash_function P g
  prf_addr := prf_addr P g
  thash := if P.robust then thash_robust P g else thash_simple P g
  gen_message_random := gen_message_random P g
  hash_message := hash_message P g

end Sha2
end Spx.Leak
