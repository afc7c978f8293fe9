import Verif.Model.Haraka
import Verif.Model.Parallel
import Verif.Spec.Aes
/-! # Model of haraka-aesni/haraka.c: Haraka with the AES instructions

An `__m128i` is the list of its 16 bytes in memory order (little-endian machine).  Alignment is not
modelled; all accesses through pointers of the code are unaligned loads and stores.

Simplifications:
* Statements which treat lane 0, 1, 2, 3 in turn are done lane by lane; the variable `tmp` they share is
  assigned before each use.
* The functions for one and for four lanes of the sponge differ in the number of lanes only, so there is
  one definition for `L` lanes; lane `j` of the state `s` starts at `s + 64*j`.
* `haraka_S_inc_*` (lines 270-340) have the text of ref/haraka.c up to casts and are those of Model/Haraka.lean over
  the permutation of this file. -/

namespace Spx.AesNi
open Haraka (HARAKAS_RATE)

/-- `_mm_loadu_si128((u128 *)(b + off))`, haraka.c:19 -/
def LOAD (b : Bytes) (off : Nat) : C Bytes := rd b off 16

/-- `_mm_storeu_si128((u128 *)(b + off), r)`, haraka.c:20 -/
def STORE (b : Bytes) (off : Nat) (r : Bytes) : C Bytes := wr b off r

/-- `_mm_xor_si128`, haraka.c:22 -/
def XOR128 (a b : Bytes) : Bytes := List.zipWith (· ^^^ ·) a b

/-- `_mm_aesenc_si128(s, k)`: ShiftRows, SubBytes, MixColumns, then exclusive or with the round key. -/
def aesenc (s k : Bytes) : Bytes :=
  XOR128 (Spec.Aes.mixColumns (Spec.Aes.subBytes (Spec.Aes.shiftRows s))) k

/-- Doubleword `i` of a register. -/
def dword (a : Bytes) (i : Nat) : Bytes := (a.drop (4 * i)).take 4

/-- Quadword `i` of a register. -/
def qword (a : Bytes) (i : Nat) : Bytes := (a.drop (8 * i)).take 8

/-- `_mm_unpacklo_epi32` -/
def unpacklo_epi32 (a b : Bytes) : Bytes := dword a 0 ++ dword b 0 ++ dword a 1 ++ dword b 1

/-- `_mm_unpackhi_epi32` -/
def unpackhi_epi32 (a b : Bytes) : Bytes := dword a 2 ++ dword b 2 ++ dword a 3 ++ dword b 3

/-- `_mm_shuffle_pd(a, b, imm)`: bit 0 of `imm` selects the quadword of `a`, bit 1 that of `b`. -/
def shuffle_pd (a b : Bytes) (imm : Nat) : Bytes := qword a (imm % 2) ++ qword b (imm / 2 % 2)

/-- The bytes of a 32-bit integer. -/
def bytes32 (e : BitVec 32) : Bytes := (List.range 4).map fun i => e.extractLsb' (8 * i) 8

/-- `_mm_set_epi32(e3, e2, e1, e0)`: `e0` is the lowest doubleword. -/
def set_epi32 (e3 e2 e1 e0 : BitVec 32) : Bytes := bytes32 e0 ++ bytes32 e1 ++ bytes32 e2 ++ bytes32 e3

/-- `rc[k]` -/
def rcAt (rc : Bytes) (k : Nat) : C Bytes := rd rc (16 * k) 16

/-- `u128 s[4]` -/
structure S4 where
  s0 : Bytes
  s1 : Bytes
  s2 : Bytes
  s3 : Bytes

/-- `u128 s[2]` -/
structure S2 where
  s0 : Bytes
  s1 : Bytes

/-- `AES2(s[0], s[1], rc + r)`, haraka.c:24-28 -/
def AES2 (rc : Bytes) (r : Nat) (s : S2) : C S2 := do
  let s0 := aesenc s.s0 (← rcAt rc r)
  let s1 := aesenc s.s1 (← rcAt rc (r + 1))
  let s0 := aesenc s0 (← rcAt rc (r + 2))
  let s1 := aesenc s1 (← rcAt rc (r + 3))
  .ok ⟨s0, s1⟩

/-- `AES4(s[0], s[1], s[2], s[3], rc + r)`, haraka.c:36-44 -/
def AES4 (rc : Bytes) (r : Nat) (s : S4) : C S4 := do
  let s0 := aesenc s.s0 (← rcAt rc r)
  let s1 := aesenc s.s1 (← rcAt rc (r + 1))
  let s2 := aesenc s.s2 (← rcAt rc (r + 2))
  let s3 := aesenc s.s3 (← rcAt rc (r + 3))
  let s0 := aesenc s0 (← rcAt rc (r + 4))
  let s1 := aesenc s1 (← rcAt rc (r + 5))
  let s2 := aesenc s2 (← rcAt rc (r + 6))
  let s3 := aesenc s3 (← rcAt rc (r + 7))
  .ok ⟨s0, s1, s2, s3⟩

/-- `MIX2`, haraka.c:52-55 -/
def MIX2 (s : S2) : S2 :=
  let tmp := unpacklo_epi32 s.s0 s.s1
  let s1 := unpackhi_epi32 s.s0 s.s1
  let s0 := tmp
  ⟨s0, s1⟩

/-- `MIX4`, haraka.c:57-65 -/
def MIX4 (s : S4) : S4 :=
  let ⟨s0, s1, s2, s3⟩ := s
  let tmp := unpacklo_epi32 s0 s1
  let s0 := unpackhi_epi32 s0 s1
  let s1 := unpacklo_epi32 s2 s3
  let s2 := unpackhi_epi32 s2 s3
  let s3 := unpacklo_epi32 s0 s2
  let s0 := unpackhi_epi32 s0 s2
  let s2 := unpackhi_epi32 s1 tmp
  let s1 := unpacklo_epi32 s1 tmp
  ⟨s0, s1, s2, s3⟩

/-- The 32 bytes written by `TRUNCSTORE`, haraka.c:67-71 -/
def TRUNCSTORE (s : S4) : Bytes := shuffle_pd s.s0 s.s1 3 ++ shuffle_pd s.s2 s.s3 0

/-- `AES2_4x`, haraka.c:30-34 -/
def AES2_4x (rc : Bytes) (r : Nat) (s : List S2) : C (List S2) := tabulate 4 fun j => do AES2 rc r (← rd1 s j)

/-- `AES4_4x`, haraka.c:46-50 -/
def AES4_4x (rc : Bytes) (r : Nat) (s : List S4) : C (List S4) := tabulate 4 fun j => do AES4 rc r (← rd1 s j)

/-- `s[i] = LOAD(in + off + 16*i)` for `i < 4` -/
def load4 (inp : Bytes) (off : Nat) : C S4 := do
  .ok ⟨← LOAD inp off, ← LOAD inp (off + 16), ← LOAD inp (off + 32), ← LOAD inp (off + 48)⟩

/-- `s[i] = LOAD(in + off + 16*i)` for `i < 2` -/
def load2 (inp : Bytes) (off : Nat) : C S2 := do
  .ok ⟨← LOAD inp off, ← LOAD inp (off + 16)⟩

/-- The bytes stored by `STORE(out + 16*i, s[i])` for `i < 4`. -/
def S4.bytes (s : S4) : Bytes := s.s0 ++ s.s1 ++ s.s2 ++ s.s3

/-- The bytes stored by `STORE(out + 16*i, s[i])` for `i < 2`. -/
def S2.bytes (s : S2) : Bytes := s.s0 ++ s.s1

/-- `s[i] = XOR128(s[i], LOAD(in + off + 16*i))` for `i < 4` -/
def feed4 (inp : Bytes) (off : Nat) (s : S4) : C S4 := do
  .ok ⟨XOR128 s.s0 (← LOAD inp off), XOR128 s.s1 (← LOAD inp (off + 16)), XOR128 s.s2 (← LOAD inp (off + 32)),
    XOR128 s.s3 (← LOAD inp (off + 48))⟩

/-- `s[i] = XOR128(s[i], LOAD(in + off + 16*i))` for `i < 2` -/
def feed2 (inp : Bytes) (off : Nat) (s : S2) : C S2 := do
  .ok ⟨XOR128 s.s0 (← LOAD inp off), XOR128 s.s1 (← LOAD inp (off + 16))⟩

/-- The five rounds, haraka.c:418-431 and 519-532 -/
def rounds4 (rc : Bytes) (s : S4) : C S4 := do
  let s := MIX4 (← AES4 rc 0 s)
  let s := MIX4 (← AES4 rc 8 s)
  let s := MIX4 (← AES4 rc 16 s)
  let s := MIX4 (← AES4 rc 24 s)
  let s := MIX4 (← AES4 rc 32 s)
  .ok s

/-- The five rounds, haraka.c:461-489 and 565-593 -/
def rounds4_4x (rc : Bytes) (s : List S4) : C (List S4) := do
  let s := (← AES4_4x rc 0 s).map MIX4
  let s := (← AES4_4x rc 8 s).map MIX4
  let s := (← AES4_4x rc 16 s).map MIX4
  let s := (← AES4_4x rc 24 s).map MIX4
  let s := (← AES4_4x rc 32 s).map MIX4
  .ok s

/-- The five rounds, haraka.c:626-639 -/
def rounds2 (rc : Bytes) (s : S2) : C S2 := do
  let s := MIX2 (← AES2 rc 0 s)
  let s := MIX2 (← AES2 rc 4 s)
  let s := MIX2 (← AES2 rc 8 s)
  let s := MIX2 (← AES2 rc 12 s)
  let s := MIX2 (← AES2 rc 16 s)
  .ok s

/-- The five rounds, haraka.c:663-700 -/
def rounds2_4x (rc : Bytes) (s : List S2) : C (List S2) := do
  let s := (← AES2_4x rc 0 s).map MIX2
  let s := (← AES2_4x rc 4 s).map MIX2
  let s := (← AES2_4x rc 8 s).map MIX2
  let s := (← AES2_4x rc 12 s).map MIX2
  let s := (← AES2_4x rc 16 s).map MIX2
  .ok s

/-- `haraka512_perm`, haraka.c:408-437 -/
def haraka512_perm (inp : Bytes) (ctx : Ctx) : C Bytes := do
  let s ← load4 inp 0
  let s ← rounds4 ctx.rc s
  .ok s.bytes

/-- `haraka512_perm_x4`, haraka.c:439-507 -/
def haraka512_perm_x4 (inp : Bytes) (ctx : Ctx) : C Bytes := do
  let s ← tabulate 4 fun j => load4 inp (64 * j)
  let s ← rounds4_4x ctx.rc s
  .ok (s.flatMap S4.bytes)

/-- `haraka512`, haraka.c:509-541 -/
def haraka512 (inp : Bytes) (ctx : Ctx) : C Bytes := do
  let s ← load4 inp 0
  let s ← rounds4 ctx.rc s
  let s ← feed4 inp 0 s
  .ok (TRUNCSTORE s)

/-- `haraka512x4`, haraka.c:543-616 -/
def haraka512x4 (inp : Bytes) (ctx : Ctx) : C Bytes := do
  let s ← tabulate 4 fun j => load4 inp (64 * j)
  let s ← rounds4_4x ctx.rc s
  let s ← tabulate 4 fun j => do feed4 inp (64 * j) (← rd1 s j)
  .ok (s.flatMap TRUNCSTORE)

/-- `haraka256`, haraka.c:618-646 -/
def haraka256 (inp : Bytes) (ctx : Ctx) : C Bytes := do
  let s ← load2 inp 0
  let s ← rounds2 ctx.rc s
  let s ← feed2 inp 0 s
  .ok s.bytes

/-- `haraka256x4`, haraka.c:648-720 -/
def haraka256x4 (inp : Bytes) (ctx : Ctx) : C Bytes := do
  let s ← tabulate 4 fun j => load2 inp (32 * j)
  let s ← rounds2_4x ctx.rc s
  let s ← tabulate 4 fun j => do feed2 inp (32 * j) (← rd1 s j)
  .ok (s.flatMap S2.bytes)

/-! ## The sponge -/

/-- `STORE(s + off, XOR128(LOAD(s + off), LOAD(m)));
STORE(s + off + 16, XOR128(LOAD(s + off + 16), LOAD(m + 16)));` -/
def xorBlock (s : Bytes) (off : Nat) (m : Bytes) : C Bytes := do
  let s ← STORE s off (XOR128 (← LOAD s off) (← LOAD m 0))
  STORE s (off + 16) (XOR128 (← LOAD s (off + 16)) (← LOAD m 16))

/-- The block of every lane is xored to the state, haraka.c:143-144 and 178-185 -/
def xorBlocks (L : Nat) (s : Bytes) (ms : List Bytes) : C Bytes :=
  forRange L (fun j s => do xorBlock s (64 * j) (← rd1 ms j)) s

/-- Body of the `while` loop, haraka.c:141-148 and 176-193.  State: s, the pointers m, mlen. -/
def haraka_S_absorbx_block (L : Nat) (perm : Bytes → Ctx → C Bytes) (r : Nat) (ctx : Ctx)
    (st : Bytes × List Bytes × Nat) : C ((Bytes × List Bytes × Nat) ⊕ (Bytes × List Bytes × Nat)) := do
  let (s, ms, mlen) := st
  if mlen ≥ r then
    let s ← xorBlocks L s ms
    let s ← wr s 0 (← perm s ctx)
    let ms ← tabulate L fun j => do sub (← rd1 ms j) r
    .ok (.inl (s, ms, mlen - r))
  else .ok (.inr (s, ms, mlen))

/-- The last block of one lane: `t` of haraka.c:150-157 and 195-216.  `g` is its previous contents. -/
def haraka_S_last (g : Nat → Byte) (r : Nat) (m : Bytes) (mlen : Nat) (p : Byte) : C Bytes := do
  let t ← forRange r (fun i t => wr1 t i 0#8) (uninit g r)
  let t ← forRange mlen (fun i t => do wr1 t i (← rd1 m i)) t
  let t ← wr1 t mlen p
  wr1 t (r - 1) ((← rd1 t (r - 1)) ||| 128#8)

/-- `haraka_S_absorb`, haraka.c:134-160 (`L = 1`); `haraka_S_absorb4x`, haraka.c:162-228 (`L = 4`) -/
def haraka_S_absorbx (L : Nat) (perm : Bytes → Ctx → C Bytes) (g : Nat → Nat → Byte) (s : Bytes) (r : Nat)
    (ms : List Bytes) (mlen : Nat) (p : Byte) (ctx : Ctx) : C Bytes := do
  let (s, ms, mlen) ← loop (mlen + 1) (haraka_S_absorbx_block L perm r ctx) (s, ms, mlen)
  let ts ← tabulate L fun j => do haraka_S_last (g j) r (← rd1 ms j) mlen p
  xorBlocks L s ts

/-- `haraka_S_squeezeblocks`, haraka.c:230-241 (`L = 1`); `haraka_S_squeezeblocks4x`, haraka.c:243-268
(`L = 4`).  State: output buffers, offset of the moving pointers, s. -/
def haraka_S_squeezeblocksx (L : Nat) (perm : Bytes → Ctx → C Bytes) (hs : List Bytes) (nblocks : Nat) (s : Bytes)
    (r : Nat) (ctx : Ctx) : C (List Bytes × Bytes) := do
  let (hs, _, s) ← forRange nblocks (fun _ (st : List Bytes × Nat × Bytes) => do
    let (hs, off, s) := st
    let s ← wr s 0 (← perm s ctx)
    let hs ← tabulate L fun j => do
      let h ← STORE (← rd1 hs j) off (← LOAD s (64 * j))
      STORE h (off + 16) (← LOAD s (64 * j + 16))
    .ok (hs, off + r, s)) (hs, 0, s)
  .ok (hs, s)

/-- `haraka_S`, haraka.c:342-364 (`L = 1`); `haraka_Sx4`, haraka.c:366-406 (`L = 4`).  `g` supplies the
uninitialised locals. -/
def haraka_Sx (L : Nat) (perm : Bytes → Ctx → C Bytes) (g : Nat → Nat → Byte) (outs : List Bytes) (outlen : Nat)
    (ins : List Bytes) (inlen : Nat) (ctx : Ctx) : C (List Bytes) := do
  let s ← forRange (64 * L) (fun i s => wr1 s i 0#8) (uninit (g 41) (64 * L))
  let s ← haraka_S_absorbx L perm (fun j => g (60 + j)) s HARAKAS_RATE ins inlen 0x1F#8 ctx
  let (outs, s) ← haraka_S_squeezeblocksx L perm outs (outlen / HARAKAS_RATE) s HARAKAS_RATE ctx
  let off := (outlen / HARAKAS_RATE) * HARAKAS_RATE
  if outlen % HARAKAS_RATE ≠ 0 then
    let ds := (List.range L).map fun j => uninit (g (64 + j)) 32
    let (ds, _) ← haraka_S_squeezeblocksx L perm ds 1 s HARAKAS_RATE ctx
    tabulate L fun j => do
      let d ← rd1 ds j
      forRange (outlen % HARAKAS_RATE) (fun i out => do wr1 out (off + i) (← rd1 d i)) (← rd1 outs j)
  else .ok outs

/-- `haraka_S`, haraka.c:342-364 -/
def haraka_S (g : Nat → Nat → Byte) (out : Bytes) (outlen : Nat) (inp : Bytes) (inlen : Nat) (ctx : Ctx) : C Bytes := do
  rd1 (← haraka_Sx 1 haraka512_perm g [out] outlen [inp] inlen ctx) 0

/-- `haraka_Sx4`, haraka.c:366-406 -/
def haraka_Sx4 (g : Nat → Nat → Byte) : List Bytes → Nat → List Bytes → Nat → Ctx → C (List Bytes) :=
  haraka_Sx 4 haraka512_perm_x4 g

/-- The constants assigned in haraka.c:75-114. -/
def stdConstants : List Bytes :=
  [set_epi32 0x0684704c#32 0xe620c00a#32 0xb2c5fef0#32 0x75817b9d#32,
   set_epi32 0x8b66b4e1#32 0x88f3a06b#32 0x640f6ba4#32 0x2f08f717#32,
   set_epi32 0x3402de2d#32 0x53f28498#32 0xcf029d60#32 0x9f029114#32,
   set_epi32 0x0ed6eae6#32 0x2e7b4f08#32 0xbbf3bcaf#32 0xfd5b4f79#32,
   set_epi32 0xcbcfb0cb#32 0x4872448b#32 0x79eecd1c#32 0xbe397044#32,
   set_epi32 0x7eeacdee#32 0x6e9032b7#32 0x8d5335ed#32 0x2b8a057b#32,
   set_epi32 0x67c28f43#32 0x5e2e7cd0#32 0xe2412761#32 0xda4fef1b#32,
   set_epi32 0x2924d9b0#32 0xafcacc07#32 0x675ffde2#32 0x1fc70b3b#32,
   set_epi32 0xab4d63f1#32 0xe6867fe9#32 0xecdb8fca#32 0xb9d465ee#32,
   set_epi32 0x1c30bf84#32 0xd4b7cd64#32 0x5b2a404f#32 0xad037e33#32,
   set_epi32 0xb2cc0bb9#32 0x941723bf#32 0x69028b2e#32 0x8df69800#32,
   set_epi32 0xfa0478a6#32 0xde6f5572#32 0x4aaa9ec8#32 0x5c9d2d8a#32,
   set_epi32 0xdfb49f2b#32 0x6b772a12#32 0x0efa4f2e#32 0x29129fd4#32,
   set_epi32 0x1ea10344#32 0xf449a236#32 0x32d611ae#32 0xbb6a12ee#32,
   set_epi32 0xaf044988#32 0x4b050084#32 0x5f9600c9#32 0x9ca8eca6#32,
   set_epi32 0x21025ed8#32 0x9d199c4f#32 0x78a2c7e3#32 0x27e593ec#32,
   set_epi32 0xbf3aaaf8#32 0xa759c9b7#32 0xb9282ecd#32 0x82d40173#32,
   set_epi32 0x6260700d#32 0x6186b017#32 0x37f2efd9#32 0x10307d6b#32,
   set_epi32 0x5aca45c2#32 0x21300443#32 0x81c29153#32 0xf6fc9ac6#32,
   set_epi32 0x9223973c#32 0x226b68bb#32 0x2caf92e8#32 0x36d1943a#32,
   set_epi32 0xd3bf9238#32 0x225886eb#32 0x6cbab958#32 0xe51071b4#32,
   set_epi32 0xdb863ce5#32 0xaef0c677#32 0x933dfddd#32 0x24e1128d#32,
   set_epi32 0xbb606268#32 0xffeba09c#32 0x83e48de3#32 0xcb2212b1#32,
   set_epi32 0x734bd3dc#32 0xe2e4d19c#32 0x2db91a4e#32 0xc72bf77d#32,
   set_epi32 0x43bb47c3#32 0x61301b43#32 0x4b1415c4#32 0x2cb3924e#32,
   set_epi32 0xdba775a8#32 0xe707eff6#32 0x03b231dd#32 0x16eb6899#32,
   set_epi32 0x6df3614b#32 0x3c755977#32 0x8e5e2302#32 0x7eca472c#32,
   set_epi32 0xcda75a17#32 0xd6de7d77#32 0x6d1be5b9#32 0xb88617f9#32,
   set_epi32 0xec6b43f0#32 0x6ba8e9aa#32 0x9d6c069d#32 0xa946ee5d#32,
   set_epi32 0xcb1e6950#32 0xf957332b#32 0xa2531159#32 0x3bf327c1#32,
   set_epi32 0x2cee0c75#32 0x00da619c#32 0xe4ed0353#32 0x600ed0d9#32,
   set_epi32 0xf0b1a5a1#32 0x96e90cab#32 0x80bbbabc#32 0x63a4a350#32,
   set_epi32 0xae3db102#32 0x5e962988#32 0xab0dde30#32 0x938dca39#32,
   set_epi32 0x17bb8f38#32 0xd554a40b#32 0x8814f3a8#32 0x2e75b442#32,
   set_epi32 0x34bb8a5b#32 0x5f427fd7#32 0xaeb6b779#32 0x360a16f6#32,
   set_epi32 0x26f65241#32 0xcbe55438#32 0x43ce5918#32 0xffbaafde#32,
   set_epi32 0x4ce99a54#32 0xb9f3026a#32 0xa2ca9cf7#32 0x839ec978#32,
   set_epi32 0xae51a51a#32 0x1bdff7be#32 0x40c06e28#32 0x22901235#32,
   set_epi32 0xa0c1613c#32 0xba7ed22b#32 0xc173bc0f#32 0x48a659cf#32,
   set_epi32 0x756acc03#32 0x02288288#32 0x4ad6bdfd#32 0xe9c59da1#32]

/-- `load_haraka_constants`, haraka.c:73-115 -/
def load_haraka_constants (rc : Bytes) : C Bytes :=
  forRange 40 (fun i rc => do wr rc (16 * i) (← rd1 stdConstants i)) rc

/-- `tweak_constants`, haraka.c:117-132 -/
def tweak_constants (g : Nat → Nat → Byte) (n : Nat) (ctx : Ctx) : C Ctx := do
  let ctx := { ctx with rc := ← load_haraka_constants ctx.rc }
  let buf ← haraka_S g (uninit (g 43) (40 * 16)) (40 * 16) ctx.pub_seed n ctx
  let rc ← forRange 40 (fun i rc => do wr rc (16 * i) (← LOAD buf (16 * i))) ctx.rc
  .ok { ctx with rc }

/-- haraka-aesni/haraka.c, as used by hash_haraka.c and thash_haraka_*.c -/
def lib : Haraka.Lib where
  haraka512_perm := haraka512_perm
  haraka512 := haraka512
  haraka256 := haraka256
  haraka_S := haraka_S
  tweak_constants := tweak_constants

end Spx.AesNi
