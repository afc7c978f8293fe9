import Verif.Model.LeakHash
import Verif.Model.HashHaraka
/-! # The Haraka hash functions with traces

The definitions of Model/Haraka.lean and Model/HashHaraka.lean over the monad of Model/LeakBase.lean. -/

namespace Spx.Leak
namespace Haraka
open Spx.Haraka

/-- Eight words of an array, beginning with element `8 * i` (one row of a two-dimensional array). -/
def Q8.load {w : Nat} (s : List (BitVec w)) (i : Nat) : L (Q8 w) := do
  let q0 ← rd1 s (8 * i)
  let q1 ← rd1 s (8 * i + 1)
  let q2 ← rd1 s (8 * i + 2)
  let q3 ← rd1 s (8 * i + 3)
  let q4 ← rd1 s (8 * i + 4)
  let q5 ← rd1 s (8 * i + 5)
  let q6 ← rd1 s (8 * i + 6)
  let q7 ← rd1 s (8 * i + 7)
  .ok ⟨q0, q1, q2, q3, q4, q5, q6, q7⟩

/-- `br_dec32le`, ref/haraka.c:54-60 -/
def br_dec32le (src : Bytes) : L (BitVec 32) := do
  let s0 ← rd1 src 0
  let s1 ← rd1 src 1
  let s2 ← rd1 src 2
  let s3 ← rd1 src 3
  .ok (s0.zeroExtend 32 ||| (s1.zeroExtend 32 <<< 8) ||| (s2.zeroExtend 32 <<< 16)
    ||| (s3.zeroExtend 32 <<< 24))

/-- `br_range_dec32le`, ref/haraka.c:62-68; the destination array is completely
overwritten by the callers, so the words are returned. -/
def br_range_dec32le (num : Nat) (src : Bytes) : L (List (BitVec 32)) :=
  forRange num (fun i v => do .ok (v ++ [← br_dec32le (← sub src (4 * i))])) []

/-- `br_range_enc32le`, ref/haraka.c:79-85: the bytes written -/
def br_range_enc32le (num : Nat) (v : List (BitVec 32)) : L Bytes :=
  forRange num (fun i dst => do .ok (dst ++ br_enc32le (← rd1 v i))) []

/-- The conversion to bitsliced form in `interleave_constant` (ref/haraka.c:685-688) and
`haraka512_perm` (ref/haraka.c:862-866): 64 bytes at the beginning of `src`. -/
def slice64 (src : Bytes) : L (Q8 64) := do
  let w ← br_range_dec32le 16 src
  let interleave := fun i => (do
    let w0 ← rd1 w (4 * i)
    let w1 ← rd1 w (4 * i + 1)
    let w2 ← rd1 w (4 * i + 2)
    let w3 ← rd1 w (4 * i + 3)
    .ok (br_aes_ct64_interleave_in w0 w1 w2 w3) : L (BitVec 64 × BitVec 64))
  let (q0, q4) ← interleave 0
  let (q1, q5) ← interleave 1
  let (q2, q6) ← interleave 2
  let (q3, q7) ← interleave 3
  .ok (br_aes_ct64_ortho ⟨q0, q1, q2, q3, q4, q5, q6, q7⟩)

/-- The conversion to bitsliced form in `interleave_constant32` (ref/haraka.c:694-698) and
`haraka256` (ref/haraka.c:928-932): 32 bytes at the beginning of `src`. -/
def slice32 (src : Bytes) : L (Q8 32) := do
  let q0 ← br_dec32le (← sub src 0)
  let q1 ← br_dec32le (← sub src 16)
  let q2 ← br_dec32le (← sub src 4)
  let q3 ← br_dec32le (← sub src 20)
  let q4 ← br_dec32le (← sub src 8)
  let q5 ← br_dec32le (← sub src 24)
  let q6 ← br_dec32le (← sub src 12)
  let q7 ← br_dec32le (← sub src 28)
  .ok (br_aes_ct_ortho ⟨q0, q1, q2, q3, q4, q5, q6, q7⟩)

/-- `interleave_constant`, ref/haraka.c:679-689: row `i` of the array `out` -/
def interleave_constant (out : List (BitVec 64)) (i : Nat) (inp : Bytes) : L (List (BitVec 64)) := do
  wr out (8 * i) (← slice64 inp).toList

/-- `interleave_constant32`, ref/haraka.c:691-699: row `i` of the array `out` -/
def interleave_constant32 (out : List (BitVec 32)) (i : Nat) (inp : Bytes) : L (List (BitVec 32)) := do
  wr out (8 * i) (← slice32 inp).toList

/-- One AES round on the bitsliced state, ref/haraka.c:871-874; `k` is `2 * i + j`. -/
def aes64 (rc : List (BitVec 64)) (k : Nat) (q : Q8 64) : L (Q8 64) := do
  let q := br_aes_ct64_bitslice_Sbox q
  let q := shift_rows q
  let q := mix_columns q
  .ok (add_round_key q (← Q8.load rc k))

/-- `haraka512_perm`, ref/haraka.c:855-900: the 64 bytes written to `out`.  The input is
read completely before the output is written, so `out` and `in` may be the same. -/
def haraka512_perm (inp : Bytes) (ctx : Ctx) : L Bytes := prim .haraka512 do
  let q ← slice64 inp
  let q ← forRange 5 (fun i q => do
    let q ← forRange 2 (fun j q => aes64 ctx.tweaked512_rc64 (2 * i + j) q) q
    .ok (q.map mix64)) q
  let q := br_aes_ct64_ortho q
  let w := br_aes_ct64_interleave_out q.q0 q.q4 ++ br_aes_ct64_interleave_out q.q1 q.q5 ++
    br_aes_ct64_interleave_out q.q2 q.q6 ++ br_aes_ct64_interleave_out q.q3 q.q7
  br_range_enc32le 16 w

/-- `haraka512`, ref/haraka.c:902-919: the 32 bytes written to `out` (a local array of 32
bytes of the caller) -/
def haraka512 (inp : Bytes) (ctx : Ctx) : L Bytes := do
  let buf ← haraka512_perm inp ctx
  let buf ← forRange 64 (fun i buf => do wr1 buf i ((← rd1 buf i) ^^^ (← rd1 inp i))) buf
  .ok ((← rd buf 8 8) ++ (← rd buf 24 8) ++ (← rd buf 32 8) ++ (← rd buf 48 8))

/-- One AES round on the bitsliced state, ref/haraka.c:937-940; `k` is `2 * i + j`. -/
def aes32 (rc : List (BitVec 32)) (k : Nat) (q : Q8 32) : L (Q8 32) := do
  let q := br_aes_ct_bitslice_Sbox q
  let q := shift_rows32 q
  let q := mix_columns32 q
  .ok (add_round_key32 q (← Q8.load rc k))

/-- `haraka256`, ref/haraka.c:922-965: the 32 bytes written to `out` (a local array of 32
bytes of the caller, different from `in`) -/
def haraka256 (inp : Bytes) (ctx : Ctx) : L Bytes := prim .haraka256 do
  let q ← slice32 inp
  let q ← forRange 5 (fun i q => do
    let q ← forRange 2 (fun j q => aes32 ctx.tweaked256_rc32 (2 * i + j) q) q
    .ok (q.map mix32)) q
  let q := br_aes_ct_ortho q
  let out := br_enc32le q.q0 ++ br_enc32le q.q2 ++ br_enc32le q.q4 ++ br_enc32le q.q6 ++
    br_enc32le q.q1 ++ br_enc32le q.q3 ++ br_enc32le q.q5 ++ br_enc32le q.q7
  forRange 32 (fun i out => do wr1 out i ((← rd1 out i) ^^^ (← rd1 inp i))) out

section

variable (perm : Bytes → Ctx → L Bytes)

/-- Body of the `while` loop of `haraka_S_absorb`, ref/haraka.c:724-732.  State: s, m, mlen. -/
def haraka_S_absorb_block (r : Nat) (ctx : Ctx) (st : Bytes × Bytes × Nat) :
    L ((Bytes × Bytes × Nat) ⊕ (Bytes × Bytes × Nat)) := do
  let (s, m, mlen) := st
  cif mlen ≥ r then do
    let s ← forRange r (fun i s => do wr1 s i ((← rd1 s i) ^^^ (← rd1 m i))) s
    let s ← wr s 0 (← perm s ctx)
    .ok (.inl (s, ← sub m r, mlen - r))
  else .ok (.inr (s, m, mlen))

/-- `haraka_S_absorb`, ref/haraka.c:717-745.  `g` is the uninitialised local `t`. -/
def haraka_S_absorb (g : Nat → Byte) (s : Bytes) (r : Nat) (m : Bytes) (mlen : Nat) (p : Byte)
    (ctx : Ctx) : L Bytes := do
  let (s, m, mlen) ← loop (mlen + 1) (haraka_S_absorb_block perm r ctx) (s, m, mlen)
  let t ← forRange r (fun i t => wr1 t i 0#8) (uninit g r)
  let t ← forRange mlen (fun i t => do wr1 t i (← rd1 m i)) t
  let t ← wr1 t mlen p
  let t ← wr1 t (r - 1) ((← rd1 t (r - 1)) ||| 128#8)
  forRange r (fun i s => do wr1 s i ((← rd1 s i) ^^^ (← rd1 t i))) s

/-- `haraka_S_squeezeblocks`, ref/haraka.c:747-757.  State: the output buffer, the
offset of the moving pointer `h`, the sponge state. -/
def haraka_S_squeezeblocks (h : Bytes) (nblocks : Nat) (s : Bytes) (r : Nat) (ctx : Ctx) :
    L (Bytes × Bytes) := do
  let (h, _, s) ← forRange nblocks (fun _ (st : Bytes × Nat × Bytes) => do
    let (h, off, s) := st
    let s ← wr s 0 (← perm s ctx)
    let h ← wr h off (← rd s 0 HARAKAS_RATE)
    .ok (h, off + r, s)) (h, 0, s)
  .ok (h, s)

/-- `haraka_S_inc_init`, ref/haraka.c:759-767 -/
def haraka_S_inc_init (s_inc : Bytes) : L Bytes := do
  let s ← forRange 64 (fun i s => wr1 s i 0#8) s_inc
  wr1 s 64 0#8

/-- The `for` loops of `haraka_S_inc_absorb`, ref/haraka.c:777-781 and 789-791: the first `len` bytes
of `m` are added.  `s_inc[64]` is read once instead of in every iteration; the loop writes below
index `HARAKAS_RATE` only. -/
def haraka_S_inc_xor (s_inc : Bytes) (m : Bytes) (len : Nat) : L Bytes := do
  let c ← rd1 s_inc 64
  forRange len (fun i s => do wr1 s (c.toNat + i) ((← rd1 s (c.toNat + i)) ^^^ (← rd1 m i))) s_inc

/-- Body of the `while` loop of `haraka_S_inc_absorb`, ref/haraka.c:776-787.  State: s_inc, m, mlen.
`mlen + s_inc[64]` does not wrap for lengths below 2^63. -/
def haraka_S_inc_absorb_block (ctx : Ctx) (st : Bytes × Bytes × Nat) :
    L ((Bytes × Bytes × Nat) ⊕ (Bytes × Bytes × Nat)) := do
  let (s_inc, m, mlen) := st
  let c := (← rd1 s_inc 64).toNat
  cif mlen + c ≥ HARAKAS_RATE then do
    let s_inc ← haraka_S_inc_xor s_inc m (HARAKAS_RATE - c)
    let mlen := mlen - (HARAKAS_RATE - c)
    let m ← sub m (HARAKAS_RATE - c)
    let s_inc ← wr1 s_inc 64 0#8
    let s_inc ← wr s_inc 0 (← perm s_inc ctx)
    .ok (.inl (s_inc, m, mlen))
  else .ok (.inr (s_inc, m, mlen))

/-- `haraka_S_inc_absorb`, ref/haraka.c:769-792 -/
def haraka_S_inc_absorb (s_inc : Bytes) (m : Bytes) (mlen : Nat) (ctx : Ctx) : L Bytes := do
  let (s_inc, m, mlen) ← loop (mlen + 2) (haraka_S_inc_absorb_block perm ctx) (s_inc, m, mlen)
  let s_inc ← haraka_S_inc_xor s_inc m mlen
  wr1 s_inc 64 ((← rd1 s_inc 64) + BitVec.ofNat 8 mlen)

/-- `haraka_S_inc_finalize`, ref/haraka.c:794-801 -/
def haraka_S_inc_finalize (s_inc : Bytes) : L Bytes := do
  let c := (← rd1 s_inc 64).toNat
  let s_inc ← wr1 s_inc c ((← rd1 s_inc c) ^^^ 0x1F#8)
  let s_inc ← wr1 s_inc (HARAKAS_RATE - 1) ((← rd1 s_inc (HARAKAS_RATE - 1)) ^^^ 128#8)
  wr1 s_inc 64 0#8

/-- Body of the `while` loop of `haraka_S_inc_squeeze`, ref/haraka.c:819-828.
State: output buffer, offset of the moving pointer `out`, outlen, s_inc. -/
def haraka_S_inc_squeeze_block (ctx : Ctx) (st : Bytes × Nat × Nat × Bytes) :
    L ((Bytes × Nat × Nat × Bytes) ⊕ (Bytes × Bytes)) := do
  let (out, off, outlen, s_inc) := st
  cif outlen > 0 then do
    let s_inc ← wr s_inc 0 (← perm s_inc ctx)
    let i := min outlen HARAKAS_RATE
    let out ← forRange i (fun i out => do wr1 out (off + i) (← rd1 s_inc i)) out
    let s_inc ← wr1 s_inc 64 (BitVec.ofNat 8 (HARAKAS_RATE - i))
    .ok (.inl (out, off + i, outlen - i, s_inc))
  else .ok (.inr (out, s_inc))

/-- `haraka_S_inc_squeeze`, ref/haraka.c:803-829.  The two-sided loop conditions
`i < outlen && i < x` are loops up to the minimum. -/
def haraka_S_inc_squeeze (out : Bytes) (outlen : Nat) (s_inc : Bytes) (ctx : Ctx) : L (Bytes × Bytes) := do
  let c := (← rd1 s_inc 64).toNat
  let i := min outlen c
  let out ← forRange i (fun i out => do wr1 out i (← rd1 s_inc (HARAKAS_RATE - c + i))) out
  let s_inc ← wr1 s_inc 64 ((← rd1 s_inc 64) - BitVec.ofNat 8 i)
  loop (outlen + 1) (haraka_S_inc_squeeze_block perm ctx) (out, i, outlen - i, s_inc)

/-- `haraka_S`, ref/haraka.c:831-853.  `g` supplies the uninitialised locals (`g 40` the `t` of
haraka_S_absorb, `g 41` the `s` and `g 42` the `d` of this function). -/
def haraka_S (g : Nat → Nat → Byte) (out : Bytes) (outlen : Nat) (inp : Bytes) (inlen : Nat) (ctx : Ctx) :
    L Bytes := do
  let s ← forRange 64 (fun i s => wr1 s i 0#8) (uninit (g 41) 64)
  let s ← haraka_S_absorb perm (g 40) s 32 inp inlen 0x1F#8 ctx
  let (out, s) ← haraka_S_squeezeblocks perm out (outlen / 32) s 32 ctx
  let off := (outlen / 32) * 32
  cif outlen % 32 ≠ 0 then do
    let (d, _) ← haraka_S_squeezeblocks perm (uninit (g 42) 32) 1 s 32 ctx
    forRange (outlen % 32) (fun i out => do wr1 out (off + i) (← rd1 d i)) out
  else .ok out

end

/-- `tweak_constants`, ref/haraka.c:701-715 -/
def tweak_constants (g : Nat → Nat → Byte) (n : Nat) (ctx : Ctx) : L Ctx := do
  let ctx := { ctx with tweaked512_rc64 := ← wr ctx.tweaked512_rc64 0 haraka512_rc64 }
  let buf ← haraka_S haraka512_perm g (uninit (g 43) (40 * 16)) (40 * 16) ctx.pub_seed n ctx
  forRange 10 (fun i ctx => do
    let rc32 ← interleave_constant32 ctx.tweaked256_rc32 i (← sub buf (32 * i))
    let ctx := { ctx with tweaked256_rc32 := rc32 }
    let rc64 ← interleave_constant ctx.tweaked512_rc64 i (← sub buf (64 * i))
    .ok { ctx with tweaked512_rc64 := rc64 }) ctx

/-- What the other source files use of haraka.c, `Spx.Haraka.Lib` -/
structure Lib where
  haraka512_perm : Bytes → Ctx → L Bytes
  haraka512 : Bytes → Ctx → L Bytes
  haraka256 : Bytes → Ctx → L Bytes
  haraka_S : (Nat → Nat → Byte) → Bytes → Nat → Bytes → Nat → Ctx → L Bytes
  tweak_constants : (Nat → Nat → Byte) → Nat → Ctx → L Ctx

/-- The functions without the traces -/
def Lib.erase (K : Lib) : Spx.Haraka.Lib where
  haraka512_perm s ctx := (K.haraka512_perm s ctx).res
  haraka512 s ctx := (K.haraka512 s ctx).res
  haraka256 s ctx := (K.haraka256 s ctx).res
  haraka_S g out outlen inp inlen ctx := (K.haraka_S g out outlen inp inlen ctx).res
  tweak_constants g n ctx := (K.tweak_constants g n ctx).res

/-- ref/haraka.c -/
def refLib : Lib where
  haraka512_perm := haraka512_perm
  haraka512 := haraka512
  haraka256 := haraka256
  haraka_S := haraka_S haraka512_perm
  tweak_constants := tweak_constants

variable (K : Lib) (P : Params) (g : Nat → Nat → Byte)

/-- `initialize_hash_function`, ref/hash_haraka.c:11-14 -/
def initialize_hash_function (ctx : Ctx) : L Ctx := K.tweak_constants g P.n ctx

/-- `prf_addr`, ref/hash_haraka.c:19-31.  `haraka512` fills the 32 bytes of `outbuf`. -/
def prf_addr (ctx : Ctx) (addr : Addr) : L Bytes := do
  let buf : Bytes := List.replicate 64 0#8
  let buf ← wr buf 0 (← rd addr 0 SPX_ADDR_BYTES)
  let buf ← wr buf SPX_ADDR_BYTES (← rd ctx.sk_seed 0 P.n)
  let outbuf ← K.haraka512 buf ctx
  rd outbuf 0 P.n

/-- `gen_message_random`, ref/hash_haraka.c:37-50 -/
def gen_message_random (sk_prf optrand m : Bytes) (ctx : Ctx) : L Bytes := do
  let s_inc := uninit (g 44) 65
  let s_inc ← haraka_S_inc_init s_inc
  let s_inc ← haraka_S_inc_absorb K.haraka512_perm s_inc sk_prf P.n ctx
  let s_inc ← haraka_S_inc_absorb K.haraka512_perm s_inc optrand P.n ctx
  let s_inc ← haraka_S_inc_absorb K.haraka512_perm s_inc m m.length ctx
  let s_inc ← haraka_S_inc_finalize s_inc
  let (R, _) ← haraka_S_inc_squeeze K.haraka512_perm (uninit (g 45) P.n) P.n s_inc ctx
  .ok R

/-- `hash_message`, ref/hash_haraka.c:57-96 -/
def hash_message (R pk m : Bytes) (ctx : Ctx) : L (Bytes × Nat × Nat) := do
  let s_inc := uninit (g 46) 65
  let s_inc ← haraka_S_inc_init s_inc
  let s_inc ← haraka_S_inc_absorb K.haraka512_perm s_inc R P.n ctx
  let s_inc ← haraka_S_inc_absorb K.haraka512_perm s_inc (← sub pk P.n) P.n ctx
  let s_inc ← haraka_S_inc_absorb K.haraka512_perm s_inc m m.length ctx
  let s_inc ← haraka_S_inc_finalize s_inc
  let (buf, _) ← haraka_S_inc_squeeze K.haraka512_perm (uninit (g 47) P.dgstBytes) P.dgstBytes s_inc ctx
  hash_message_split P buf

/-- `thash`, ref/thash_haraka_simple.c:14-37 -/
def thash_simple (inp : Bytes) (inblocks : Nat) (ctx : Ctx) (addr : Addr) : L Bytes := do
  let buf := uninit (g 48) (SPX_ADDR_BYTES + inblocks * P.n)
  cif inblocks = 1 then do
    let buf_tmp : Bytes := List.replicate 64 0#8
    let buf_tmp ← wr buf_tmp 0 (← rd addr 0 32)
    let buf_tmp ← wr buf_tmp SPX_ADDR_BYTES (← rd inp 0 P.n)
    let outbuf ← K.haraka512 buf_tmp ctx
    rd outbuf 0 P.n
  else do
    let buf ← wr buf 0 (← rd addr 0 32)
    let buf ← wr buf SPX_ADDR_BYTES (← rd inp 0 (inblocks * P.n))
    K.haraka_S g (uninit (g 49) P.n) P.n buf (SPX_ADDR_BYTES + inblocks * P.n) ctx

/-- `thash`, ref/thash_haraka_robust.c:14-46 -/
def thash_robust (inp : Bytes) (inblocks : Nat) (ctx : Ctx) (addr : Addr) : L Bytes := do
  let buf := uninit (g 48) (SPX_ADDR_BYTES + inblocks * P.n)
  let bitmask := uninit (g 50) (inblocks * P.n)
  cif inblocks = 1 then do
    let buf_tmp : Bytes := List.replicate 64 0#8
    let buf_tmp ← wr buf_tmp 0 (← rd addr 0 32)
    let outbuf ← K.haraka256 buf_tmp ctx
    let buf_tmp ← forRange (inblocks * P.n) (fun i buf_tmp => do
      wr1 buf_tmp (SPX_ADDR_BYTES + i) ((← rd1 inp i) ^^^ (← rd1 outbuf i))) buf_tmp
    let outbuf ← K.haraka512 buf_tmp ctx
    rd outbuf 0 P.n
  else do
    let buf ← wr buf 0 (← rd addr 0 32)
    let bitmask ← K.haraka_S g bitmask (inblocks * P.n) buf SPX_ADDR_BYTES ctx
    let buf ← forRange (inblocks * P.n) (fun i buf => do
      wr1 buf (SPX_ADDR_BYTES + i) ((← rd1 inp i) ^^^ (← rd1 bitmask i))) buf
    K.haraka_S g (uninit (g 49) P.n) P.n buf (SPX_ADDR_BYTES + inblocks * P.n) ctx

/-- The functions linked for the Haraka parameter sets, with the functions `K` of haraka.c. -/
def implWith : HashImpl where
  initialize_hash_function := initialize_hash_function K P g
  prf_addr := prf_addr K P
  thash := if P.robust then thash_robust K P g else thash_simple K P g
  gen_message_random := gen_message_random K P g
  hash_message := hash_message K P g

/-- The functions linked for the Haraka parameter sets (ref/Makefile:14-17). -/
def impl : HashImpl := implWith refLib P g

end Haraka
end Spx.Leak
