import Verif.Model.Kat
import Verif.Model.Parallel
/-! # Model of the test programs shake-avx2/test/thashx4.c, sha2-avx2/test/thashx8.c,
shake-a64/test/thashx2.c, ref/test/fors.c and ref/test/spx.c

`randombytes(x, len)` is a write of `len` given bytes to `x`.  The lines printed are not modelled, only what `main`
returns. -/

namespace Spx.Tests

/-- `uint32_t addr[8*L]` as the addresses `addr + 8*j`. -/
def addrs (L : Nat) (addr : Bytes) : C (List Addr) := tabulate L fun j => rd addr (32 * j) 32

/-- The comparison of `thash` with the `L`-way function on `blocks` blocks per lane:
shake-avx2/test/thashx4.c:27-44, sha2-avx2/test/thashx8.c:36-61 (1 block) and 66-91 (2 blocks).  `seq` and `par` are the
output buffers of the two; the inputs of the lanes are `blocks` nodes apart.  The result is `none` when the outputs
differ (`return -1`). -/
def compare (P : Params) (H : HashImpl) (X : LaneHash) (L blocks : Nat) (seq par input : Bytes) (ctx : Ctx) (addr : Bytes) :
    C (Option (Bytes × Bytes)) := do
  let as ← addrs L addr
  let seq ← forRange L (fun j seq => do
    wr seq (j * P.n) (← H.thash (← sub input (blocks * j * P.n)) blocks ctx (← rd1 as j))) seq
  let ins ← tabulate L fun j => sub input (blocks * j * P.n)
  let outs ← X.thashx ins blocks ctx as
  let par ← forRange L (fun j par => do wr par (j * P.n) (← rd1 outs j)) par
  if (← rd seq 0 (L * P.n)) ≠ (← rd par 0 (L * P.n)) then .ok none else .ok (some (seq, par))

/-- `main`, shake-avx2/test/thashx4.c:9-47.  `ctx` is the uninitialised context, `r0`, `r1`, `r2` what the three calls of
`randombytes` deliver.  (`initialize_hash_function` is not called; for SHAKE it does nothing.) -/
def thashx4 (P : Params) (H : HashImpl) (X : LaneHash) (g : Nat → Nat → Byte) (ctx : Ctx) (r0 r1 r2 : Bytes) : C Int := do
  let ctx := { ctx with pub_seed := ← wr ctx.pub_seed 0 r0 }
  let input ← wr (uninit (g 0) (4 * P.n)) 0 r1
  let addr ← wr (List.replicate (4 * 32) 0#8) 0 r2
  match ← compare P H X 4 1 (uninit (g 1) (4 * P.n)) (uninit (g 2) (4 * P.n)) input ctx addr with
  | none => .ok (-1)
  | some _ => .ok 0

/-- `main`, sha2-avx2/test/thashx8.c:16-94. -/
def thashx8 (P : Params) (H : HashImpl) (X : LaneHash) (g : Nat → Nat → Byte) (ctx : Ctx) (r0 r1 r2 : Bytes) : C Int := do
  let ctx := { ctx with pub_seed := ← wr ctx.pub_seed 0 r0 }
  let input ← wr (uninit (g 0) (16 * P.n)) 0 r1
  let addr ← wr (List.replicate (8 * 32) 0#8) 0 r2
  let ctx ← H.initialize_hash_function ctx
  match ← compare P H X 8 1 (uninit (g 1) (8 * P.n)) (uninit (g 2) (8 * P.n)) input ctx addr with
  | none => .ok (-1)
  | some (seq, par) =>
    match ← compare P H X 8 2 seq par input ctx addr with
    | none => .ok (-1)
    | some _ => .ok 0

/-- `main`, shake-a64/test/thashx2.c:9-43.  `input` has `2*SPX_N` bytes (line 14), `randombytes` writes `4*SPX_N`
(line 22). -/
def thashx2 (P : Params) (H : HashImpl) (X : LaneHash) (g : Nat → Nat → Byte) (ctx : Ctx) (r0 r1 r2 : Bytes) : C Int := do
  let ctx := { ctx with pub_seed := ← wr ctx.pub_seed 0 r0 }
  let input ← wr (uninit (g 0) (2 * P.n)) 0 r1
  let addr ← wr (List.replicate (2 * 32) 0#8) 0 r2
  match ← compare P H X 2 1 (uninit (g 1) (2 * P.n)) (uninit (g 2) (2 * P.n)) input ctx addr with
  | none => .ok (-1)
  | some _ => .ok 0

/-- `main`, ref/test/fors.c:10-45 (linked from the other implementations).  `ctx` is the uninitialised context; `r0`, `r1`,
`rm`, `ra` are what the calls of `randombytes` deliver for `ctx.sk_seed`, `ctx.pub_seed`, `m` and `addr`. -/
def fors (E : Env) (T : TreeCode) (g : Nat → Nat → Byte) (ctx : Ctx) (r0 r1 rm ra : Bytes) : C Int := do
  let ctx := { ctx with sk_seed := ← wr ctx.sk_seed 0 r0 }
  let ctx := { ctx with pub_seed := ← wr ctx.pub_seed 0 r1 }
  let m ← wr (uninit (g 0) E.P.forsMsgBytes) 0 rm
  let addr ← wr zeroAddr 0 ra
  let ctx ← E.H.initialize_hash_function ctx
  let (sig, pk1) ← T.fors_sign (uninit (g 1) E.P.forsBytes) m ctx addr
  let pk2 ← fors_pk_from_sig E sig m ctx addr
  if (← rd pk1 0 E.P.n) ≠ (← rd pk2 0 E.P.n) then .ok (-1) else .ok 0

/-- Addresses of the arrays `pk`, `sk` and of the heap objects of ref/test/spx.c:20-24. -/
structure Lay where
  pk : Nat
  sk : Nat
  m : Nat
  sm : Nat
  mout : Nat

/-- SPX_MLEN, ref/test/spx.c:9 -/
def SPX_MLEN : Nat := 32

/-- `sm[p] ^= 1` -/
def flip (M : Mem) (p : Nat) : C Mem := do M.wr p ((← M.rd p 1).map (· ^^^ 1#8))

/-- `main`, ref/test/spx.c:12-125 (`SPX_SIGNATURES` is 1, `SPX_TEST_INVALIDSIG` is not defined; the calls of `malloc`
are assumed to succeed).  `rm`, `seed`, `optrand` are what the calls of `randombytes` deliver, `L k` the library with
the contents of uninitialised memory of call number `k`.  Returns the memory and the return value. -/
def spx (P : Params) (L : Nat → Kat.Lib) (lay : Lay) (M : Mem) (rm seed optrand : Bytes) : C (Mem × Int) := do
  let M ← M.wr lay.m rm
  let (pkb, skb, r) ← (L 0).keypair (← M.rd lay.pk P.pkBytes) (← M.rd lay.sk P.skBytes) seed
  let M ← M.wr lay.pk pkb
  let M ← M.wr lay.sk skb
  if r ≠ 0 then .ok (M, -1)
  else
    let ret : Int := 0
    let (M, smlen, _) ← (L 1).sign M lay.sm lay.m SPX_MLEN lay.sk optrand
    let ret := if smlen ≠ P.spxBytes + SPX_MLEN then -1 else ret
    let (M, mlen, r) ← (L 2).open' M lay.mout lay.sm smlen lay.pk
    let ret := if r ≠ 0 then -1 else ret
    let ret := if mlen ≠ SPX_MLEN then -1 else ret
    let ret := if (← M.rd lay.m SPX_MLEN) ≠ (← M.rd lay.mout SPX_MLEN) then -1 else ret
    let (M, _, r) ← (L 3).open' M lay.sm lay.sm smlen lay.pk
    let ret := if r ≠ 0 then -1 else ret
    let M ← flip M (lay.sm + smlen - 1)
    let (M, _, r) ← (L 4).open' M lay.mout lay.sm smlen lay.pk
    let ret := if r = 0 then -1 else ret
    let M ← flip M (lay.sm + smlen - 1)
    .ok (M, ret)

end Spx.Tests
