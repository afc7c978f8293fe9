import Verif.Model.LeakHaraka
import Verif.Model.LeakParallel
import Verif.Model.HashHarakaX
/-! # The Haraka hash functions with the AES instructions, with traces

The definitions of Model/AesNi.lean and Model/HashHarakaX.lean over the monad of Model/LeakBase.lean.  The AES and
shuffle instructions compute on registers and leave no trace. -/

namespace Spx.Leak
namespace AesNi
open Spx.AesNi
open Spx.Haraka (HARAKAS_RATE)

/-- `_mm_loadu_si128((u128 *)(b + off))`, haraka.c:19 -/
def LOAD (b : Bytes) (off : Nat) : L Bytes := rd b off 16

/-- `_mm_storeu_si128((u128 *)(b + off), r)`, haraka.c:20 -/
def STORE (b : Bytes) (off : Nat) (r : Bytes) : L Bytes := wr b off r

/-- `rc[k]` -/
def rcAt (rc : Bytes) (k : Nat) : L Bytes := rd rc (16 * k) 16

/-- `AES2(s[0], s[1], rc + r)`, haraka.c:24-28 -/
def AES2 (rc : Bytes) (r : Nat) (s : S2) : L S2 := do
  let s0 := aesenc s.s0 (← rcAt rc r)
  let s1 := aesenc s.s1 (← rcAt rc (r + 1))
  let s0 := aesenc s0 (← rcAt rc (r + 2))
  let s1 := aesenc s1 (← rcAt rc (r + 3))
  .ok ⟨s0, s1⟩

/-- `AES4(s[0], s[1], s[2], s[3], rc + r)`, haraka.c:36-44 -/
def AES4 (rc : Bytes) (r : Nat) (s : S4) : L S4 := do
  let s0 := aesenc s.s0 (← rcAt rc r)
  let s1 := aesenc s.s1 (← rcAt rc (r + 1))
  let s2 := aesenc s.s2 (← rcAt rc (r + 2))
  let s3 := aesenc s.s3 (← rcAt rc (r + 3))
  let s0 := aesenc s0 (← rcAt rc (r + 4))
  let s1 := aesenc s1 (← rcAt rc (r + 5))
  let s2 := aesenc s2 (← rcAt rc (r + 6))
  let s3 := aesenc s3 (← rcAt rc (r + 7))
  .ok ⟨s0, s1, s2, s3⟩

/-- `AES2_4x`, haraka.c:30-34 -/
def AES2_4x (rc : Bytes) (r : Nat) (s : List S2) : L (List S2) := tabulate 4 fun j => do AES2 rc r (← rd1 s j)

/-- `AES4_4x`, haraka.c:46-50 -/
def AES4_4x (rc : Bytes) (r : Nat) (s : List S4) : L (List S4) := tabulate 4 fun j => do AES4 rc r (← rd1 s j)

/-- `s[i] = LOAD(in + off + 16*i)` for `i < 4` -/
def load4 (inp : Bytes) (off : Nat) : L S4 := do
  .ok ⟨← LOAD inp off, ← LOAD inp (off + 16), ← LOAD inp (off + 32), ← LOAD inp (off + 48)⟩

/-- `s[i] = LOAD(in + off + 16*i)` for `i < 2` -/
def load2 (inp : Bytes) (off : Nat) : L S2 := do
  .ok ⟨← LOAD inp off, ← LOAD inp (off + 16)⟩

/-- `s[i] = XOR128(s[i], LOAD(in + off + 16*i))` for `i < 4` -/
def feed4 (inp : Bytes) (off : Nat) (s : S4) : L S4 := do
  .ok ⟨XOR128 s.s0 (← LOAD inp off), XOR128 s.s1 (← LOAD inp (off + 16)), XOR128 s.s2 (← LOAD inp (off + 32)),
    XOR128 s.s3 (← LOAD inp (off + 48))⟩

/-- `s[i] = XOR128(s[i], LOAD(in + off + 16*i))` for `i < 2` -/
def feed2 (inp : Bytes) (off : Nat) (s : S2) : L S2 := do
  .ok ⟨XOR128 s.s0 (← LOAD inp off), XOR128 s.s1 (← LOAD inp (off + 16))⟩

/-- The five rounds, haraka.c:418-431 and 519-532 -/
def rounds4 (rc : Bytes) (s : S4) : L S4 := do
  let s := MIX4 (← AES4 rc 0 s)
  let s := MIX4 (← AES4 rc 8 s)
  let s := MIX4 (← AES4 rc 16 s)
  let s := MIX4 (← AES4 rc 24 s)
  let s := MIX4 (← AES4 rc 32 s)
  .ok s

/-- The five rounds, haraka.c:461-489 and 565-593 -/
def rounds4_4x (rc : Bytes) (s : List S4) : L (List S4) := do
  let s := (← AES4_4x rc 0 s).map MIX4
  let s := (← AES4_4x rc 8 s).map MIX4
  let s := (← AES4_4x rc 16 s).map MIX4
  let s := (← AES4_4x rc 24 s).map MIX4
  let s := (← AES4_4x rc 32 s).map MIX4
  .ok s

/-- The five rounds, haraka.c:626-639 -/
def rounds2 (rc : Bytes) (s : S2) : L S2 := do
  let s := MIX2 (← AES2 rc 0 s)
  let s := MIX2 (← AES2 rc 4 s)
  let s := MIX2 (← AES2 rc 8 s)
  let s := MIX2 (← AES2 rc 12 s)
  let s := MIX2 (← AES2 rc 16 s)
  .ok s

/-- The five rounds, haraka.c:663-700 -/
def rounds2_4x (rc : Bytes) (s : List S2) : L (List S2) := do
  let s := (← AES2_4x rc 0 s).map MIX2
  let s := (← AES2_4x rc 4 s).map MIX2
  let s := (← AES2_4x rc 8 s).map MIX2
  let s := (← AES2_4x rc 12 s).map MIX2
  let s := (← AES2_4x rc 16 s).map MIX2
  .ok s

/-- `haraka512_perm`, haraka.c:408-437 -/
def haraka512_perm (inp : Bytes) (ctx : Ctx) : L Bytes := prim .haraka512 do
  let s ← load4 inp 0
  let s ← rounds4 ctx.rc s
  .ok s.bytes

/-- `haraka512_perm_x4`, haraka.c:439-507 -/
def haraka512_perm_x4 (inp : Bytes) (ctx : Ctx) : L Bytes := prim .haraka512x do
  let s ← tabulate 4 fun j => load4 inp (64 * j)
  let s ← rounds4_4x ctx.rc s
  .ok (s.flatMap S4.bytes)

/-- `haraka512`, haraka.c:509-541 -/
def haraka512 (inp : Bytes) (ctx : Ctx) : L Bytes := prim .haraka512 do
  let s ← load4 inp 0
  let s ← rounds4 ctx.rc s
  let s ← feed4 inp 0 s
  .ok (TRUNCSTORE s)

/-- `haraka512x4`, haraka.c:543-616 -/
def haraka512x4 (inp : Bytes) (ctx : Ctx) : L Bytes := prim .haraka512x do
  let s ← tabulate 4 fun j => load4 inp (64 * j)
  let s ← rounds4_4x ctx.rc s
  let s ← tabulate 4 fun j => do feed4 inp (64 * j) (← rd1 s j)
  .ok (s.flatMap TRUNCSTORE)

/-- `haraka256`, haraka.c:618-646 -/
def haraka256 (inp : Bytes) (ctx : Ctx) : L Bytes := prim .haraka256 do
  let s ← load2 inp 0
  let s ← rounds2 ctx.rc s
  let s ← feed2 inp 0 s
  .ok s.bytes

/-- `haraka256x4`, haraka.c:648-720 -/
def haraka256x4 (inp : Bytes) (ctx : Ctx) : L Bytes := prim .haraka256x do
  let s ← tabulate 4 fun j => load2 inp (32 * j)
  let s ← rounds2_4x ctx.rc s
  let s ← tabulate 4 fun j => do feed2 inp (32 * j) (← rd1 s j)
  .ok (s.flatMap S2.bytes)

/-! ## The sponge -/

/-- `STORE(s + off, XOR128(LOAD(s + off), LOAD(m)));
STORE(s + off + 16, XOR128(LOAD(s + off + 16), LOAD(m + 16)));` -/
def xorBlock (s : Bytes) (off : Nat) (m : Bytes) : L Bytes := do
  let s ← STORE s off (XOR128 (← LOAD s off) (← LOAD m 0))
  STORE s (off + 16) (XOR128 (← LOAD s (off + 16)) (← LOAD m 16))

/-- The block of every lane is xored to the state, haraka.c:143-144 and 178-185 -/
def xorBlocks (k : Nat) (s : Bytes) (ms : List Bytes) : L Bytes :=
  forRange k (fun j s => do xorBlock s (64 * j) (← rd1 ms j)) s

/-- Body of the `while` loop, haraka.c:141-148 and 176-193.  State: s, the pointers m, mlen. -/
def haraka_S_absorbx_block (k : Nat) (perm : Bytes → Ctx → L Bytes) (r : Nat) (ctx : Ctx)
    (st : Bytes × List Bytes × Nat) : L ((Bytes × List Bytes × Nat) ⊕ (Bytes × List Bytes × Nat)) := do
  let (s, ms, mlen) := st
  cif mlen ≥ r then do
    let s ← xorBlocks k s ms
    let s ← wr s 0 (← perm s ctx)
    let ms ← tabulate k fun j => do sub (← rd1 ms j) r
    .ok (.inl (s, ms, mlen - r))
  else .ok (.inr (s, ms, mlen))

/-- The last block of one lane: `t` of haraka.c:150-157 and 195-216.  `g` is its previous contents. -/
def haraka_S_last (g : Nat → Byte) (r : Nat) (m : Bytes) (mlen : Nat) (p : Byte) : L Bytes := do
  let t ← forRange r (fun i t => wr1 t i 0#8) (uninit g r)
  let t ← forRange mlen (fun i t => do wr1 t i (← rd1 m i)) t
  let t ← wr1 t mlen p
  wr1 t (r - 1) ((← rd1 t (r - 1)) ||| 128#8)

/-- `haraka_S_absorb`, haraka.c:134-160 (`k = 1`); `haraka_S_absorb4x`, haraka.c:162-228 (`k = 4`) -/
def haraka_S_absorbx (k : Nat) (perm : Bytes → Ctx → L Bytes) (g : Nat → Nat → Byte) (s : Bytes) (r : Nat)
    (ms : List Bytes) (mlen : Nat) (p : Byte) (ctx : Ctx) : L Bytes := do
  let (s, ms, mlen) ← loop (mlen + 1) (haraka_S_absorbx_block k perm r ctx) (s, ms, mlen)
  let ts ← tabulate k fun j => do haraka_S_last (g j) r (← rd1 ms j) mlen p
  xorBlocks k s ts

/-- `haraka_S_squeezeblocks`, haraka.c:230-241 (`k = 1`); `haraka_S_squeezeblocks4x`, haraka.c:243-268
(`k = 4`).  State: output buffers, offset of the moving pointers, s. -/
def haraka_S_squeezeblocksx (k : Nat) (perm : Bytes → Ctx → L Bytes) (hs : List Bytes) (nblocks : Nat) (s : Bytes)
    (r : Nat) (ctx : Ctx) : L (List Bytes × Bytes) := do
  let (hs, _, s) ← forRange nblocks (fun _ (st : List Bytes × Nat × Bytes) => do
    let (hs, off, s) := st
    let s ← wr s 0 (← perm s ctx)
    let hs ← tabulate k fun j => do
      let h ← STORE (← rd1 hs j) off (← LOAD s (64 * j))
      STORE h (off + 16) (← LOAD s (64 * j + 16))
    .ok (hs, off + r, s)) (hs, 0, s)
  .ok (hs, s)

/-- `haraka_S`, haraka.c:342-364 (`k = 1`); `haraka_Sx4`, haraka.c:366-406 (`k = 4`).  `g` supplies the
uninitialised locals. -/
def haraka_Sx (k : Nat) (perm : Bytes → Ctx → L Bytes) (g : Nat → Nat → Byte) (outs : List Bytes) (outlen : Nat)
    (ins : List Bytes) (inlen : Nat) (ctx : Ctx) : L (List Bytes) := do
  let s ← forRange (64 * k) (fun i s => wr1 s i 0#8) (uninit (g 41) (64 * k))
  let s ← haraka_S_absorbx k perm (fun j => g (60 + j)) s HARAKAS_RATE ins inlen 0x1F#8 ctx
  let (outs, s) ← haraka_S_squeezeblocksx k perm outs (outlen / HARAKAS_RATE) s HARAKAS_RATE ctx
  let off := (outlen / HARAKAS_RATE) * HARAKAS_RATE
  cif outlen % HARAKAS_RATE ≠ 0 then do
    let ds := (List.range k).map fun j => uninit (g (64 + j)) 32
    let (ds, _) ← haraka_S_squeezeblocksx k perm ds 1 s HARAKAS_RATE ctx
    tabulate k fun j => do
      let d ← rd1 ds j
      forRange (outlen % HARAKAS_RATE) (fun i out => do wr1 out (off + i) (← rd1 d i)) (← rd1 outs j)
  else .ok outs

/-- `haraka_S`, haraka.c:342-364 -/
def haraka_S (g : Nat → Nat → Byte) (out : Bytes) (outlen : Nat) (inp : Bytes) (inlen : Nat) (ctx : Ctx) : L Bytes := do
  rd1 (← haraka_Sx 1 haraka512_perm g [out] outlen [inp] inlen ctx) 0

/-- `haraka_Sx4`, haraka.c:366-406 -/
def haraka_Sx4 (g : Nat → Nat → Byte) : List Bytes → Nat → List Bytes → Nat → Ctx → L (List Bytes) :=
  haraka_Sx 4 haraka512_perm_x4 g

/-- `load_haraka_constants`, haraka.c:73-115 -/
def load_haraka_constants (rc : Bytes) : L Bytes :=
  forRange 40 (fun i rc => do wr rc (16 * i) (← rd1 stdConstants i)) rc

/-- `tweak_constants`, haraka.c:117-132 -/
def tweak_constants (g : Nat → Nat → Byte) (n : Nat) (ctx : Ctx) : L Ctx := do
  let ctx := { ctx with rc := ← load_haraka_constants ctx.rc }
  let buf ← haraka_S g (uninit (g 43) (40 * 16)) (40 * 16) ctx.pub_seed n ctx
  let rc ← forRange 40 (fun i rc => do wr rc (16 * i) (← LOAD buf (16 * i))) ctx.rc
  .ok { ctx with rc }

/-- haraka-aesni/haraka.c, as used by hash_haraka.c and thash_haraka_*.c -/
def lib : Haraka.Lib where
  haraka512_perm := haraka512_perm
  haraka512 := haraka512
  haraka256 := haraka256
  haraka_S := haraka_S
  tweak_constants := tweak_constants

variable (P : Params) (g : Nat → Nat → Byte)

/-- `memcpy(out0, outbuf, SPX_N); memcpy(out1, outbuf + 32, SPX_N); …` -/
def outs32 (outbuf : Bytes) : L (List Bytes) := tabulate 4 fun j => rd outbuf (32 * j) P.n

/-- `prf_addrx4`, haraka-aesni/hash_harakax4.c:13-36 -/
def prf_addrx4 (ctx : Ctx) (addrs : List Addr) : L (List Bytes) := do
  let bufx4 : Bytes := List.replicate (4 * 64) 0#8
  let bufx4 ← forRange 4 (fun i bufx4 => do
    let bufx4 ← wr bufx4 (i * 64) (← rd (← rd1 addrs i) 0 SPX_ADDR_BYTES)
    wr bufx4 (i * 64 + SPX_ADDR_BYTES) (← rd ctx.sk_seed 0 P.n)) bufx4
  let outbuf ← haraka512x4 bufx4 ctx
  outs32 P outbuf

/-- `thashx4`, haraka-aesni/thash_haraka_simplex4.c:15-67 -/
def thashx4_simple (ins : List Bytes) (inblocks : Nat) (ctx : Ctx) (addrs : List Addr) : L (List Bytes) := do
  cif inblocks = 1 then do
    let buf_tmp : Bytes := List.replicate (64 * 4) 0#8
    let buf_tmp ← forRange 4 (fun j b => do wr b (64 * j) (← rd (← rd1 addrs j) 0 32)) buf_tmp
    let buf_tmp ← forRange 4 (fun j b => do wr b (SPX_ADDR_BYTES + 64 * j) (← rd (← rd1 ins j) 0 P.n)) buf_tmp
    let outbuf ← haraka512x4 buf_tmp ctx
    outs32 P outbuf
  else do
    let bufs ← tabulate 4 fun j => do
      let buf := uninit (g (70 + j)) (SPX_ADDR_BYTES + inblocks * P.n)
      let buf ← wr buf 0 (← rd (← rd1 addrs j) 0 32)
      wr buf SPX_ADDR_BYTES (← rd (← rd1 ins j) 0 (inblocks * P.n))
    haraka_Sx4 g ((List.range 4).map fun j => uninit (g (74 + j)) P.n) P.n bufs (SPX_ADDR_BYTES + inblocks * P.n) ctx

/-- `thashx4`, haraka-aesni/thash_haraka_robustx4.c:15-93 -/
def thashx4_robust (ins : List Bytes) (inblocks : Nat) (ctx : Ctx) (addrs : List Addr) : L (List Bytes) := do
  cif inblocks = 1 then do
    let buf_tmp : Bytes := List.replicate (64 * 4) 0#8
    let buf_tmp ← forRange 4 (fun j b => do wr b (32 * j) (← rd (← rd1 addrs j) 0 32)) buf_tmp
    let outbuf ← haraka256x4 buf_tmp ctx
    let buf_tmp ← wr buf_tmp 192 (← rd buf_tmp 96 SPX_ADDR_BYTES)
    let buf_tmp ← wr buf_tmp 128 (← rd buf_tmp 64 SPX_ADDR_BYTES)
    let buf_tmp ← wr buf_tmp 64 (← rd buf_tmp 32 SPX_ADDR_BYTES)
    let buf_tmp ← wr buf_tmp 32 (List.replicate SPX_ADDR_BYTES 0#8)
    let buf_tmp ← wr buf_tmp 96 (List.replicate SPX_ADDR_BYTES 0#8)
    let buf_tmp ← forRange P.n (fun i b => forRange 4 (fun j b => do
      wr1 b (SPX_ADDR_BYTES + i + 64 * j) ((← rd1 (← rd1 ins j) i) ^^^ (← rd1 outbuf (i + 32 * j)))) b) buf_tmp
    let outbuf ← haraka512x4 buf_tmp ctx
    outs32 P outbuf
  else do
    let bufs ← tabulate 4 fun j => do
      let buf := uninit (g (70 + j)) (SPX_ADDR_BYTES + inblocks * P.n)
      wr buf 0 (← rd (← rd1 addrs j) 0 32)
    let bitmasks ← haraka_Sx4 g ((List.range 4).map fun j => uninit (g (78 + j)) (inblocks * P.n)) (inblocks * P.n)
      bufs SPX_ADDR_BYTES ctx
    let bufs ← tabulate 4 fun j => do
      let inp ← rd1 ins j
      let bitmask ← rd1 bitmasks j
      forRange (inblocks * P.n) (fun i buf => do
        wr1 buf (SPX_ADDR_BYTES + i) ((← rd1 inp i) ^^^ (← rd1 bitmask i))) (← rd1 bufs j)
    haraka_Sx4 g ((List.range 4).map fun j => uninit (g (74 + j)) P.n) P.n bufs (SPX_ADDR_BYTES + inblocks * P.n) ctx

/-- The one-way functions linked in haraka-aesni (Makefile:8): hash_haraka.c and thash_haraka_*.c of ref/
with the haraka.c of haraka-aesni. -/
def impl : HashImpl := Haraka.implWith lib P g

/-- The lane hash functions linked in haraka-aesni. -/
def lanes : LaneHash where
  prf_addrx := prf_addrx4 P
  thashx := if P.robust then thashx4_robust P g else thashx4_simple P g

end AesNi
end Spx.Leak
