import Verif.Model.Sha2
import Verif.Model.Parallel
/-! # Model of the vectorised SHA-2 code

sha2-avx2/sha256avx.c, sha256avx.h and sha256x8.c (SHA-256 on eight inputs), sha2-avx2/sha512x4.c
(SHA-512 on four inputs).

The vector instructions are modelled after the Intel Intrinsics Guide; this is trusted.  The machine is
little-endian.

The functions around the two transformations (absorbing, padding, length, MGF1) have nearly the same text
for both algorithms; the model has them once, over a record `XCfg` of everything that differs.

Simplifications:
* The `L` pointers `in0, in1, …` are the list of the memory behind them; the `L` outputs are returned as a
  list, which the caller writes in lane order (all inputs are read before the first output is written).
* Entry `t` of the array `w[64]` of `sha256_transform8x` is appended to a list when it is assigned.
* Statements for lane 0, 1, … in turn are loops over the lanes. -/

namespace Spx.Sha2X

/-- An `__m256i` as a vector of words of `wb` bytes, word 0 lowest.  Words from `32 / wb` on do not exist in
the machine. -/
abbrev V (wb : Nat) := Nat → BitVec (8 * wb)

section
variable {wb : Nat}

/-- Byte `p` of a register. -/
def vbyte (a : V wb) (p : Nat) : Byte := (a (p / wb) >>> (8 * (p % wb))).truncate 8

/-- The register with bytes `f 0, f 1, …`. -/
def ofBytes (wb : Nat) (f : Nat → Byte) : V wb := fun l =>
  (List.range wb).foldl (fun (x : BitVec (8 * wb)) c => x ||| ((f (wb * l + c)).zeroExtend (8 * wb) <<< (8 * c))) 0

/-- `_mm256_loadu_si256((__m256i *)(b + off))` -/
def LOAD (wb : Nat) (b : Bytes) (off : Nat) : C (V wb) := do
  let x ← rd b off 32
  .ok (ofBytes wb fun p => x.getD p 0)

/-- The bytes written by `_mm256_storeu_si256`. -/
def STORE (a : V wb) : Bytes := (List.range 32).map (vbyte a)

/-- `_mm256_set_epi8(e31, …, e0)` -/
def set_epi8 (wb : Nat) (e : List Byte) : V wb := ofBytes wb fun p => e.getD (31 - p) 0

/-- `_mm256_shuffle_epi8(a, m)`: in each 128-bit half, byte `p` of the result is byte `m[p] & 15` of that half
of `a`, or 0 if bit 7 of `m[p]` is set. -/
def shuffle_epi8 (a m : V wb) : V wb := ofBytes wb fun p =>
  if (vbyte m p).getLsbD 7 then 0#8 else vbyte a (16 * (p / 16) + (vbyte m p &&& 15#8).toNat)

/-- `_mm256_xor_si256`, `_mm256_or_si256`, `_mm256_and_si256` -/
def XOR (a b : V wb) : V wb := fun l => a l ^^^ b l
def OR (a b : V wb) : V wb := fun l => a l ||| b l
def AND (a b : V wb) : V wb := fun l => a l &&& b l
/-- `_mm256_add_epi32`, `_mm256_add_epi64` -/
def ADD (a b : V wb) : V wb := fun l => a l + b l
/-- `_mm256_srli_epi32`, `_mm256_srli_epi64` -/
def SHIFTR (a : V wb) (k : Nat) : V wb := fun l => a l >>> k
/-- `_mm256_slli_epi32`, `_mm256_slli_epi64` -/
def SHIFTL (a : V wb) (k : Nat) : V wb := fun l => a l <<< k
/-- `_mm256_set1_epi32(x)`, `_mm256_set1_epi64x(x)`, `_mm256_set_epi32(x, …, x)`, `_mm256_set_epi64x(x, …, x)` -/
def set1 (x : BitVec (8 * wb)) : V wb := fun _ => x

/-- `ROTR32`, sha256avx.h:42; `ROTR64`, sha512x4.c:80 -/
def ROTR (x : V wb) (y : Nat) : V wb := OR (SHIFTR x y) (SHIFTL x (8 * wb - y))

/-- `XOR3`, sha256avx.h:45, sha512x4.c:82-84 -/
def XOR3 (a b c : V wb) : V wb := XOR (XOR a b) c

/-- Half `i` of the concatenation of `a` and `b`: low and high half of `a`, low and high half of `b`;
`k` is the position in the half. -/
def half (a b : V wb) (i k : Nat) : BitVec (8 * wb) :=
  let m := 16 / wb
  if i = 0 then a k else if i = 1 then a (m + k) else if i = 2 then b k else b (m + k)

/-- `_mm256_permute2x128_si256(a, b, imm)` for `imm` with bits 3 and 7 clear -/
def permute2x128 (a b : V wb) (imm : Nat) : V wb := fun l =>
  let m := 16 / wb
  if l < m then half a b (imm % 4) l else half a b (imm / 16 % 4) (l - m)

end

/-- `_mm256_unpacklo_epi32` on 32-bit words -/
def unpacklo_epi32 (a b : V 4) : V 4 := fun l =>
  if l % 2 = 0 then a (4 * (l / 4) + l % 4 / 2) else b (4 * (l / 4) + l % 4 / 2)
/-- `_mm256_unpackhi_epi32` on 32-bit words -/
def unpackhi_epi32 (a b : V 4) : V 4 := fun l =>
  if l % 2 = 0 then a (4 * (l / 4) + 2 + l % 4 / 2) else b (4 * (l / 4) + 2 + l % 4 / 2)
/-- `_mm256_unpacklo_epi64` on 32-bit words -/
def unpacklo_epi64_32 (a b : V 4) : V 4 := fun l =>
  if l % 4 < 2 then a (4 * (l / 4) + l % 2) else b (4 * (l / 4) + l % 2)
/-- `_mm256_unpackhi_epi64` on 32-bit words -/
def unpackhi_epi64_32 (a b : V 4) : V 4 := fun l =>
  if l % 4 < 2 then a (4 * (l / 4) + 2 + l % 2) else b (4 * (l / 4) + 2 + l % 2)
/-- `_mm256_unpacklo_epi64` on 64-bit words -/
def unpacklo_epi64 (a b : V 8) : V 8 := fun l => if l % 2 = 0 then a (2 * (l / 2)) else b (2 * (l / 2))
/-- `_mm256_unpackhi_epi64` on 64-bit words -/
def unpackhi_epi64 (a b : V 8) : V 8 := fun l => if l % 2 = 0 then a (2 * (l / 2) + 1) else b (2 * (l / 2) + 1)

/-! ## SHA-256: sha256avx.h, sha256avx.c -/

/-- The mask of `BYTESWAP`, sha256avx.h:37 -/
def swapMask256 : List Byte := [
  0xc#8, 0xd#8, 0xe#8, 0xf#8, 0x8#8, 0x9#8, 0xa#8, 0xb#8, 0x4#8, 0x5#8, 0x6#8, 0x7#8, 0x0#8, 0x1#8, 0x2#8, 0x3#8,
  0xc#8, 0xd#8, 0xe#8, 0xf#8, 0x8#8, 0x9#8, 0xa#8, 0xb#8, 0x4#8, 0x5#8, 0x6#8, 0x7#8, 0x0#8, 0x1#8, 0x2#8, 0x3#8]

/-- `BYTESWAP`, sha256avx.h:37 -/
def BYTESWAP256 (x : V 4) : V 4 := shuffle_epi8 x (set_epi8 4 swapMask256)

/-- `transpose`, sha256avx.c:8-35 -/
def transpose256 (s : List (V 4)) : List (V 4) :=
  let e := fun (x : List (V 4)) i => x.getD i (set1 0)
  let tmp0 := [
    unpacklo_epi32 (e s 0) (e s 1), unpackhi_epi32 (e s 0) (e s 1),
    unpacklo_epi32 (e s 2) (e s 3), unpackhi_epi32 (e s 2) (e s 3),
    unpacklo_epi32 (e s 4) (e s 5), unpackhi_epi32 (e s 4) (e s 5),
    unpacklo_epi32 (e s 6) (e s 7), unpackhi_epi32 (e s 6) (e s 7)]
  let tmp1 := [
    unpacklo_epi64_32 (e tmp0 0) (e tmp0 2), unpackhi_epi64_32 (e tmp0 0) (e tmp0 2),
    unpacklo_epi64_32 (e tmp0 1) (e tmp0 3), unpackhi_epi64_32 (e tmp0 1) (e tmp0 3),
    unpacklo_epi64_32 (e tmp0 4) (e tmp0 6), unpackhi_epi64_32 (e tmp0 4) (e tmp0 6),
    unpacklo_epi64_32 (e tmp0 5) (e tmp0 7), unpackhi_epi64_32 (e tmp0 5) (e tmp0 7)]
  [permute2x128 (e tmp1 0) (e tmp1 4) 0x20, permute2x128 (e tmp1 1) (e tmp1 5) 0x20,
    permute2x128 (e tmp1 2) (e tmp1 6) 0x20, permute2x128 (e tmp1 3) (e tmp1 7) 0x20,
    permute2x128 (e tmp1 0) (e tmp1 4) 0x31, permute2x128 (e tmp1 1) (e tmp1 5) 0x31,
    permute2x128 (e tmp1 2) (e tmp1 6) 0x31, permute2x128 (e tmp1 3) (e tmp1 7) 0x31]

/-- `NOT`, sha256avx.h:32 -/
def NOT (x : V 4) : V 4 := XOR x (set1 (-1#32))

/-- `MAJ_AVX`, `CH_AVX`, sha256avx.h:51-52 -/
def MAJ256 (a b c : V 4) : V 4 := XOR3 (AND a b) (AND a c) (AND b c)
def CH256 (a b c : V 4) : V 4 := XOR (AND a b) (AND (NOT a) c)
/-- `SIGMA1_AVX`, `SIGMA0_AVX`, `WSIGMA1_AVX`, `WSIGMA0_AVX`, sha256avx.h:54-58 -/
def SIGMA1_256 (x : V 4) : V 4 := XOR3 (ROTR x 6) (ROTR x 11) (ROTR x 25)
def SIGMA0_256 (x : V 4) : V 4 := XOR3 (ROTR x 2) (ROTR x 13) (ROTR x 22)
def WSIGMA1_256 (x : V 4) : V 4 := XOR3 (ROTR x 17) (ROTR x 19) (SHIFTR x 10)
def WSIGMA0_256 (x : V 4) : V 4 := XOR3 (ROTR x 7) (ROTR x 18) (SHIFTR x 3)

/-- `RC`, sha256avx.h:6-23 -/
def RC256 : List (BitVec 32) := [
  0x428a2f98#32, 0x71374491#32, 0xb5c0fbcf#32, 0xe9b5dba5#32, 0x3956c25b#32, 0x59f111f1#32, 0x923f82a4#32, 0xab1c5ed5#32,
  0xd807aa98#32, 0x12835b01#32, 0x243185be#32, 0x550c7dc3#32, 0x72be5d74#32, 0x80deb1fe#32, 0x9bdc06a7#32, 0xc19bf174#32,
  0xe49b69c1#32, 0xefbe4786#32, 0x0fc19dc6#32, 0x240ca1cc#32, 0x2de92c6f#32, 0x4a7484aa#32, 0x5cb0a9dc#32, 0x76f988da#32,
  0x983e5152#32, 0xa831c66d#32, 0xb00327c8#32, 0xbf597fc7#32, 0xc6e00bf3#32, 0xd5a79147#32, 0x06ca6351#32, 0x14292967#32,
  0x27b70a85#32, 0x2e1b2138#32, 0x4d2c6dfc#32, 0x53380d13#32, 0x650a7354#32, 0x766a0abb#32, 0x81c2c92e#32, 0x92722c85#32,
  0xa2bfe8a1#32, 0xa81a664b#32, 0xc24b8b70#32, 0xc76c51a3#32, 0xd192e819#32, 0xd6990624#32, 0xf40e3585#32, 0x106aa070#32,
  0x19a4c116#32, 0x1e376c08#32, 0x2748774c#32, 0x34b0bcb5#32, 0x391c0cb3#32, 0x4ed8aa4a#32, 0x5b9cca4f#32, 0x682e6ff3#32,
  0x748f82ee#32, 0x78a5636f#32, 0x84c87814#32, 0x8cc70208#32, 0x90befffa#32, 0xa4506ceb#32, 0xbef9a3f7#32, 0xc67178f2#32]

/-- `SHA256ROUND_AVX(s[a], …, s[h], rc, w)`, sha256avx.h:60-64; `r` lists the numbers `a, …, h, rc`. -/
def ROUND256 (w : V 4) (s : List (V 4)) (r : List Nat) : List (V 4) :=
  let i := fun k => r.getD k 0
  let e := fun (s : List (V 4)) k => s.getD (i k) (set1 0)
  let T0 := ADD (ADD (ADD (ADD (e s 7) (SIGMA1_256 (e s 4))) (CH256 (e s 4) (e s 5) (e s 6))) (set1 (RC256.getD (i 8) 0))) w
  let s := s.set (i 3) (ADD (e s 3) T0)
  let T1 := ADD (SIGMA0_256 (e s 0)) (MAJ256 (e s 0) (e s 1) (e s 2))
  s.set (i 7) (ADD T0 T1)

/-- A statement of the body of `sha256_transform8x`: `R` is `SHA256ROUND_AVX` with the numbers `a, …, h, rc`
and the index in `w`; `W [t, i, j, k, l]` is
`w[t] = ADD4_32(WSIGMA1_AVX(w[i]), w[j], w[k], WSIGMA0_AVX(w[l]))`. -/
inductive Op where
  | R (r : List Nat)
  | W (r : List Nat)

/-- One statement, on `w` and `s`. -/
def Op.run (x : List (V 4) × List (V 4)) : Op → List (V 4) × List (V 4)
  | .R r => (x.1, ROUND256 (x.1.getD (r.getD 9 0) (set1 0)) x.2 r)
  | .W r =>
    let e := fun k => x.1.getD (r.getD k 0) (set1 0)
    (x.1 ++ [ADD (ADD (ADD (WSIGMA1_256 (e 1)) (e 2)) (e 3)) (WSIGMA0_256 (e 4))], x.2)

/-- sha256avx.c:172-283; a literal transcription. -/
def prog256 : List Op := [
  .R [0, 1, 2, 3, 4, 5, 6, 7, 0, 0], .R [7, 0, 1, 2, 3, 4, 5, 6, 1, 1], .R [6, 7, 0, 1, 2, 3, 4, 5, 2, 2],
  .R [5, 6, 7, 0, 1, 2, 3, 4, 3, 3], .R [4, 5, 6, 7, 0, 1, 2, 3, 4, 4], .R [3, 4, 5, 6, 7, 0, 1, 2, 5, 5],
  .R [2, 3, 4, 5, 6, 7, 0, 1, 6, 6], .R [1, 2, 3, 4, 5, 6, 7, 0, 7, 7], .R [0, 1, 2, 3, 4, 5, 6, 7, 8, 8],
  .R [7, 0, 1, 2, 3, 4, 5, 6, 9, 9], .R [6, 7, 0, 1, 2, 3, 4, 5, 10, 10], .R [5, 6, 7, 0, 1, 2, 3, 4, 11, 11],
  .R [4, 5, 6, 7, 0, 1, 2, 3, 12, 12], .R [3, 4, 5, 6, 7, 0, 1, 2, 13, 13], .R [2, 3, 4, 5, 6, 7, 0, 1, 14, 14],
  .R [1, 2, 3, 4, 5, 6, 7, 0, 15, 15], .W [16, 14, 0, 9, 1], .R [0, 1, 2, 3, 4, 5, 6, 7, 16, 16],
  .W [17, 15, 1, 10, 2], .R [7, 0, 1, 2, 3, 4, 5, 6, 17, 17], .W [18, 16, 2, 11, 3],
  .R [6, 7, 0, 1, 2, 3, 4, 5, 18, 18], .W [19, 17, 3, 12, 4], .R [5, 6, 7, 0, 1, 2, 3, 4, 19, 19],
  .W [20, 18, 4, 13, 5], .R [4, 5, 6, 7, 0, 1, 2, 3, 20, 20], .W [21, 19, 5, 14, 6],
  .R [3, 4, 5, 6, 7, 0, 1, 2, 21, 21], .W [22, 20, 6, 15, 7], .R [2, 3, 4, 5, 6, 7, 0, 1, 22, 22],
  .W [23, 21, 7, 16, 8], .R [1, 2, 3, 4, 5, 6, 7, 0, 23, 23], .W [24, 22, 8, 17, 9],
  .R [0, 1, 2, 3, 4, 5, 6, 7, 24, 24], .W [25, 23, 9, 18, 10], .R [7, 0, 1, 2, 3, 4, 5, 6, 25, 25],
  .W [26, 24, 10, 19, 11], .R [6, 7, 0, 1, 2, 3, 4, 5, 26, 26], .W [27, 25, 11, 20, 12],
  .R [5, 6, 7, 0, 1, 2, 3, 4, 27, 27], .W [28, 26, 12, 21, 13], .R [4, 5, 6, 7, 0, 1, 2, 3, 28, 28],
  .W [29, 27, 13, 22, 14], .R [3, 4, 5, 6, 7, 0, 1, 2, 29, 29], .W [30, 28, 14, 23, 15],
  .R [2, 3, 4, 5, 6, 7, 0, 1, 30, 30], .W [31, 29, 15, 24, 16], .R [1, 2, 3, 4, 5, 6, 7, 0, 31, 31],
  .W [32, 30, 16, 25, 17], .R [0, 1, 2, 3, 4, 5, 6, 7, 32, 32], .W [33, 31, 17, 26, 18],
  .R [7, 0, 1, 2, 3, 4, 5, 6, 33, 33], .W [34, 32, 18, 27, 19], .R [6, 7, 0, 1, 2, 3, 4, 5, 34, 34],
  .W [35, 33, 19, 28, 20], .R [5, 6, 7, 0, 1, 2, 3, 4, 35, 35], .W [36, 34, 20, 29, 21],
  .R [4, 5, 6, 7, 0, 1, 2, 3, 36, 36], .W [37, 35, 21, 30, 22], .R [3, 4, 5, 6, 7, 0, 1, 2, 37, 37],
  .W [38, 36, 22, 31, 23], .R [2, 3, 4, 5, 6, 7, 0, 1, 38, 38], .W [39, 37, 23, 32, 24],
  .R [1, 2, 3, 4, 5, 6, 7, 0, 39, 39], .W [40, 38, 24, 33, 25], .R [0, 1, 2, 3, 4, 5, 6, 7, 40, 40],
  .W [41, 39, 25, 34, 26], .R [7, 0, 1, 2, 3, 4, 5, 6, 41, 41], .W [42, 40, 26, 35, 27],
  .R [6, 7, 0, 1, 2, 3, 4, 5, 42, 42], .W [43, 41, 27, 36, 28], .R [5, 6, 7, 0, 1, 2, 3, 4, 43, 43],
  .W [44, 42, 28, 37, 29], .R [4, 5, 6, 7, 0, 1, 2, 3, 44, 44], .W [45, 43, 29, 38, 30],
  .R [3, 4, 5, 6, 7, 0, 1, 2, 45, 45], .W [46, 44, 30, 39, 31], .R [2, 3, 4, 5, 6, 7, 0, 1, 46, 46],
  .W [47, 45, 31, 40, 32], .R [1, 2, 3, 4, 5, 6, 7, 0, 47, 47], .W [48, 46, 32, 41, 33],
  .R [0, 1, 2, 3, 4, 5, 6, 7, 48, 48], .W [49, 47, 33, 42, 34], .R [7, 0, 1, 2, 3, 4, 5, 6, 49, 49],
  .W [50, 48, 34, 43, 35], .R [6, 7, 0, 1, 2, 3, 4, 5, 50, 50], .W [51, 49, 35, 44, 36],
  .R [5, 6, 7, 0, 1, 2, 3, 4, 51, 51], .W [52, 50, 36, 45, 37], .R [4, 5, 6, 7, 0, 1, 2, 3, 52, 52],
  .W [53, 51, 37, 46, 38], .R [3, 4, 5, 6, 7, 0, 1, 2, 53, 53], .W [54, 52, 38, 47, 39],
  .R [2, 3, 4, 5, 6, 7, 0, 1, 54, 54], .W [55, 53, 39, 48, 40], .R [1, 2, 3, 4, 5, 6, 7, 0, 55, 55],
  .W [56, 54, 40, 49, 41], .R [0, 1, 2, 3, 4, 5, 6, 7, 56, 56], .W [57, 55, 41, 50, 42],
  .R [7, 0, 1, 2, 3, 4, 5, 6, 57, 57], .W [58, 56, 42, 51, 43], .R [6, 7, 0, 1, 2, 3, 4, 5, 58, 58],
  .W [59, 57, 43, 52, 44], .R [5, 6, 7, 0, 1, 2, 3, 4, 59, 59], .W [60, 58, 44, 53, 45],
  .R [4, 5, 6, 7, 0, 1, 2, 3, 60, 60], .W [61, 59, 45, 54, 46], .R [3, 4, 5, 6, 7, 0, 1, 2, 61, 61],
  .W [62, 60, 46, 55, 47], .R [2, 3, 4, 5, 6, 7, 0, 1, 62, 62], .W [63, 61, 47, 56, 48],
  .R [1, 2, 3, 4, 5, 6, 7, 0, 63, 63]]

/-- `sha256_transform8x`, sha256avx.c:130-294, on `ctx->s` -/
def transform256 (cs : List (V 4)) (data : List Bytes) : C (List (V 4)) := do
  let lo ← tabulate 8 fun j => do .ok (BYTESWAP256 (← LOAD 4 (← rd1 data j) 0))
  let hi ← tabulate 8 fun j => do .ok (BYTESWAP256 (← LOAD 4 (← rd1 data j) 32))
  let w := transpose256 lo ++ transpose256 hi
  let s := (prog256.foldl Op.run (w, cs)).2
  .ok ((List.range 8).map fun i => ADD (s.getD i (set1 0)) (cs.getD i (set1 0)))

/-! ## SHA-512: sha512x4.c -/

/-- The mask of `BYTESWAP`, sha512x4.c:21 -/
def swapMask512 : List Byte := [
  0x8#8, 0x9#8, 0xa#8, 0xb#8, 0xc#8, 0xd#8, 0xe#8, 0xf#8, 0x0#8, 0x1#8, 0x2#8, 0x3#8, 0x4#8, 0x5#8, 0x6#8, 0x7#8,
  0x8#8, 0x9#8, 0xa#8, 0xb#8, 0xc#8, 0xd#8, 0xe#8, 0xf#8, 0x0#8, 0x1#8, 0x2#8, 0x3#8, 0x4#8, 0x5#8, 0x6#8, 0x7#8]

/-- `BYTESWAP`, sha512x4.c:21 -/
def BYTESWAP512 (x : V 8) : V 8 := shuffle_epi8 x (set_epi8 8 swapMask512)

/-- `transpose`, sha512x4.c:36-51, on `s[0..3]` -/
def transpose512 (s : List (V 8)) : List (V 8) :=
  let e := fun (x : List (V 8)) i => x.getD i (set1 0)
  let tmp := [unpacklo_epi64 (e s 0) (e s 1), unpackhi_epi64 (e s 0) (e s 1),
    unpacklo_epi64 (e s 2) (e s 3), unpackhi_epi64 (e s 2) (e s 3)]
  [permute2x128 (e tmp 0) (e tmp 2) 0x20, permute2x128 (e tmp 1) (e tmp 3) 0x20,
    permute2x128 (e tmp 0) (e tmp 2) 0x31, permute2x128 (e tmp 1) (e tmp 3) 0x31]

/-- `MAJ_AVX`, `CH_AVX`, sha512x4.c:90-95 -/
def MAJ512 (a b c : V 8) : V 8 := XOR c (AND (XOR a c) (XOR b c))
def CH512 (a b c : V 8) : V 8 := XOR c (AND a (XOR b c))
/-- `SIGMA0_AVX`, `SIGMA1_AVX`, `GAMMA0_AVX`, `GAMMA1_AVX`, sha512x4.c:96-107 -/
def SIGMA0_512 (x : V 8) : V 8 := XOR3 (ROTR x 28) (ROTR x 34) (ROTR x 39)
def SIGMA1_512 (x : V 8) : V 8 := XOR3 (ROTR x 14) (ROTR x 18) (ROTR x 41)
def GAMMA0_512 (x : V 8) : V 8 := XOR3 (ROTR x 1) (ROTR x 8) (SHIFTR x 7)
def GAMMA1_512 (x : V 8) : V 8 := XOR3 (ROTR x 19) (ROTR x 61) (SHIFTR x 6)

/-- `RC`, sha512x4.c:115-156 -/
def RC512 : List (BitVec 64) := [
  0x428a2f98d728ae22#64, 0x7137449123ef65cd#64, 0xb5c0fbcfec4d3b2f#64, 0xe9b5dba58189dbbc#64,
  0x3956c25bf348b538#64, 0x59f111f1b605d019#64, 0x923f82a4af194f9b#64, 0xab1c5ed5da6d8118#64,
  0xd807aa98a3030242#64, 0x12835b0145706fbe#64, 0x243185be4ee4b28c#64, 0x550c7dc3d5ffb4e2#64,
  0x72be5d74f27b896f#64, 0x80deb1fe3b1696b1#64, 0x9bdc06a725c71235#64, 0xc19bf174cf692694#64,
  0xe49b69c19ef14ad2#64, 0xefbe4786384f25e3#64, 0x0fc19dc68b8cd5b5#64, 0x240ca1cc77ac9c65#64,
  0x2de92c6f592b0275#64, 0x4a7484aa6ea6e483#64, 0x5cb0a9dcbd41fbd4#64, 0x76f988da831153b5#64,
  0x983e5152ee66dfab#64, 0xa831c66d2db43210#64, 0xb00327c898fb213f#64, 0xbf597fc7beef0ee4#64,
  0xc6e00bf33da88fc2#64, 0xd5a79147930aa725#64, 0x06ca6351e003826f#64, 0x142929670a0e6e70#64,
  0x27b70a8546d22ffc#64, 0x2e1b21385c26c926#64, 0x4d2c6dfc5ac42aed#64, 0x53380d139d95b3df#64,
  0x650a73548baf63de#64, 0x766a0abb3c77b2a8#64, 0x81c2c92e47edaee6#64, 0x92722c851482353b#64,
  0xa2bfe8a14cf10364#64, 0xa81a664bbc423001#64, 0xc24b8b70d0f89791#64, 0xc76c51a30654be30#64,
  0xd192e819d6ef5218#64, 0xd69906245565a910#64, 0xf40e35855771202a#64, 0x106aa07032bbd1b8#64,
  0x19a4c116b8d2d0c8#64, 0x1e376c085141ab53#64, 0x2748774cdf8eeb99#64, 0x34b0bcb5e19b48a8#64,
  0x391c0cb3c5c95a63#64, 0x4ed8aa4ae3418acb#64, 0x5b9cca4f7763e373#64, 0x682e6ff3d6b2b8a3#64,
  0x748f82ee5defb2fc#64, 0x78a5636f43172f60#64, 0x84c87814a1f0ab72#64, 0x8cc702081a6439ec#64,
  0x90befffa23631e28#64, 0xa4506cebde82bde9#64, 0xbef9a3f7b2c67915#64, 0xc67178f2e372532b#64,
  0xca273eceea26619c#64, 0xd186b8c721c0c207#64, 0xeada7dd6cde0eb1e#64, 0xf57d4f7fee6ed178#64,
  0x06f067aa72176fba#64, 0x0a637dc5a2c898a6#64, 0x113f9804bef90dae#64, 0x1b710b35131c471b#64,
  0x28db77f523047d84#64, 0x32caab7b40c72493#64, 0x3c9ebe0a15c9bebc#64, 0x431d67c49c100d4c#64,
  0x4cc5d4becb3e42b6#64, 0x597f299cfc657e2a#64, 0x5fcb6fab3ad6faec#64, 0x6c44198c4a475817#64]

/-- `SHA512ROUND_AVX(s<a>, …, s<h>, rc, w)`, sha512x4.c:109-113; `r` lists the numbers `a, …, h`. -/
def ROUND512 (rc : Nat) (w : V 8) (s : List (V 8)) (r : List Nat) : List (V 8) :=
  let i := fun k => r.getD k 0
  let e := fun (s : List (V 8)) k => s.getD (i k) (set1 0)
  let T0 := ADD (ADD (ADD (ADD (e s 7) w) (SIGMA1_512 (e s 4))) (CH512 (e s 4) (e s 5) (e s 6))) (set1 (RC512.getD rc 0))
  let T1 := ADD (SIGMA0_512 (e s 0)) (MAJ512 (e s 0) (e s 1) (e s 2))
  let s := s.set (i 3) (ADD (e s 3) T0)
  s.set (i 7) (ADD T0 T1)

/-- The first sixteen rounds, sha512x4.c:203-218; a literal transcription: `a, …, h`, `rc`, index in `w`. -/
def rows512 : List (List Nat) := [
  [0, 1, 2, 3, 4, 5, 6, 7, 0, 0], [7, 0, 1, 2, 3, 4, 5, 6, 1, 1], [6, 7, 0, 1, 2, 3, 4, 5, 2, 2],
  [5, 6, 7, 0, 1, 2, 3, 4, 3, 3], [4, 5, 6, 7, 0, 1, 2, 3, 4, 4], [3, 4, 5, 6, 7, 0, 1, 2, 5, 5],
  [2, 3, 4, 5, 6, 7, 0, 1, 6, 6], [1, 2, 3, 4, 5, 6, 7, 0, 7, 7], [0, 1, 2, 3, 4, 5, 6, 7, 8, 8],
  [7, 0, 1, 2, 3, 4, 5, 6, 9, 9], [6, 7, 0, 1, 2, 3, 4, 5, 10, 10], [5, 6, 7, 0, 1, 2, 3, 4, 11, 11],
  [4, 5, 6, 7, 0, 1, 2, 3, 12, 12], [3, 4, 5, 6, 7, 0, 1, 2, 13, 13], [2, 3, 4, 5, 6, 7, 0, 1, 14, 14],
  [1, 2, 3, 4, 5, 6, 7, 0, 15, 15]]

/-- The body of the loop, sha512x4.c:226-257; a literal transcription: `a, …, h`, the offset of `rc` from
`i`, the argument of `NextW`. -/
def loopRows512 : List (List Nat) := [
  [0, 1, 2, 3, 4, 5, 6, 7, 0, 0], [7, 0, 1, 2, 3, 4, 5, 6, 1, 1], [6, 7, 0, 1, 2, 3, 4, 5, 2, 2],
  [5, 6, 7, 0, 1, 2, 3, 4, 3, 3], [4, 5, 6, 7, 0, 1, 2, 3, 4, 4], [3, 4, 5, 6, 7, 0, 1, 2, 5, 5],
  [2, 3, 4, 5, 6, 7, 0, 1, 6, 6], [1, 2, 3, 4, 5, 6, 7, 0, 7, 7], [0, 1, 2, 3, 4, 5, 6, 7, 8, 8],
  [7, 0, 1, 2, 3, 4, 5, 6, 9, 9], [6, 7, 0, 1, 2, 3, 4, 5, 10, 10], [5, 6, 7, 0, 1, 2, 3, 4, 11, 11],
  [4, 5, 6, 7, 0, 1, 2, 3, 12, 12], [3, 4, 5, 6, 7, 0, 1, 2, 13, 13], [2, 3, 4, 5, 6, 7, 0, 1, 14, 14],
  [1, 2, 3, 4, 5, 6, 7, 0, 15, 15]]

/-- `M(i - 16)`, sha512x4.c:220; all arguments below have 16 added, so that they are never negative -/
def M (i : Nat) : Nat := i &&& 0xf

/-- `NextW(i)`, sha512x4.c:221-222: the new `w` and the value assigned -/
def NextW (w : List (V 8)) (i : Nat) : List (V 8) × V 8 :=
  let e := fun k => w.getD (M k) (set1 0)
  let x := ADD (ADD (ADD (GAMMA1_512 (e (i + 16 - 2))) (e (i + 16 - 7))) (GAMMA0_512 (e (i + 16 - 15)))) (e (i + 16 - 16))
  (w.set (M (i + 16)) x, x)

/-- One iteration of the loop, sha512x4.c:225-258 -/
def loop512 (i : Nat) (x : List (V 8) × List (V 8)) : List (V 8) × List (V 8) :=
  loopRows512.foldl (fun x r =>
    let (w, nw) := NextW x.1 (r.getD 9 0)
    (w, ROUND512 (i + r.getD 8 0) nw x.2 r)) x

/-- `sha512_transform4x`, sha512x4.c:158-269, on `ctx->s` -/
def transform512 (cs : List (V 8)) (data : List Bytes) : C (List (V 8)) := do
  let q0 ← tabulate 4 fun j => do .ok (BYTESWAP512 (← LOAD 8 (← rd1 data j) 0))
  let q1 ← tabulate 4 fun j => do .ok (BYTESWAP512 (← LOAD 8 (← rd1 data j) 32))
  let q2 ← tabulate 4 fun j => do .ok (BYTESWAP512 (← LOAD 8 (← rd1 data j) 64))
  let q3 ← tabulate 4 fun j => do .ok (BYTESWAP512 (← LOAD 8 (← rd1 data j) 96))
  let w := transpose512 q0 ++ transpose512 q1 ++ transpose512 q2 ++ transpose512 q3
  let s := rows512.foldl (fun s r => ROUND512 (r.getD 8 0) (w.getD (r.getD 9 0) (set1 0)) s r) cs
  let s := ((List.range 4).foldl (fun x k => loop512 (16 + 16 * k) x) (w, s)).2
  .ok ((List.range 8).map fun i => ADD (s.getD i (set1 0)) (cs.getD i (set1 0)))

/-! ## Absorbing, padding, MGF1 -/

/-- What differs between the functions of sha256x8.c, sha256avx.c and those of sha512x4.c. -/
structure XCfg (wb : Nat) where
  /-- number of lanes, block size, output size -/
  L : Nat
  blk : Nat
  hb : Nat
  /-- bound of `datalen` for the short case -/
  thr : Nat
  /-- the type of the counter `i` is an unsigned integer of this many bits -/
  ibits : Nat
  transform : List (V wb) → List Bytes → C (List (V wb))
  /-- `memset(&ctx->msgblocks[128*i + 112], 0, 8)`, only in sha512x4.c:341 -/
  clear : Bool
  /-- the outputs, from the final state -/
  outs : List (V wb) → List Bytes
  /-- big-endian load of a word of the seed -/
  load : Bytes → C (BitVec (8 * wb))
  /-- `sha256_init8x`, `sha512_init4x` -/
  init : List (V wb)

/-- sha256x8.c and sha256avx.c: lines 37-49 (init), 64 (bound), 116-127 (outputs) of sha256avx.c. -/
def x256 : XCfg 4 where
  L := 8
  blk := 64
  hb := 32
  thr := 56
  ibits := 64
  transform := transform256
  clear := false
  outs s :=
    let s := transpose256 s
    (List.range 8).map fun j => STORE (BYTESWAP256 (s.getD j (set1 0)))
  load := load_bigendian_32
  init := [set1 0x6a09e667#32, set1 0xbb67ae85#32, set1 0x3c6ef372#32, set1 0xa54ff53a#32, set1 0x510e527f#32,
    set1 0x9b05688c#32, set1 0x1f83d9ab#32, set1 0x5be0cd19#32]

/-- sha512x4.c: lines 54-67 (init), 304 (bound), 351-371 (outputs), 447-450 (load). -/
def x512 : XCfg 8 where
  L := 4
  blk := 128
  hb := 64
  thr := 112
  ibits := 32
  transform := transform512
  clear := true
  outs s :=
    let s := transpose512 s ++ transpose512 (s.drop 4)
    [STORE (BYTESWAP512 (s.getD 0 (set1 0))) ++ STORE (BYTESWAP512 (s.getD 4 (set1 0))),
      STORE (BYTESWAP512 (s.getD 1 (set1 0))) ++ STORE (BYTESWAP512 (s.getD 5 (set1 0))),
      STORE (BYTESWAP512 (s.getD 2 (set1 0))) ++ STORE (BYTESWAP512 (s.getD 6 (set1 0))),
      STORE (BYTESWAP512 (s.getD 3 (set1 0))) ++ STORE (BYTESWAP512 (s.getD 7 (set1 0)))]
  load := load_bigendian_64
  init := [set1 0x6a09e667f3bcc908#64, set1 0xbb67ae8584caa73b#64, set1 0x3c6ef372fe94f82b#64,
    set1 0xa54ff53a5f1d36f1#64, set1 0x510e527fade682d1#64, set1 0x9b05688c2b3e6c1f#64, set1 0x1f83d9abfb41bd6b#64,
    set1 0x5be0cd19137e2179#64]

section
variable {wb : Nat} (c : XCfg wb) (g : Nat → Nat → Byte)

/-- The body of the `while` loop, sha256x8.c:32-45, sha512x4.c:284-294.  The loop state is `i`, `ctx->s` and
`ctx->msglen`. -/
def absorbStep (ins : List Bytes) (inlen : Nat) (x : Nat × List (V wb) × BitVec 64) :
    C ((Nat × List (V wb) × BitVec 64) ⊕ (Nat × List (V wb) × BitVec 64)) := do
  let (i, s, msglen) := x
  if c.blk ≤ (inlen + 2 ^ 64 - i) % 2 ^ 64 then do
    let s ← c.transform s (← tabulate c.L fun j => do sub (← rd1 ins j) i)
    .ok (.inl ((i + c.blk) % 2 ^ c.ibits, s, msglen + BitVec.ofNat 64 (8 * c.blk)))
  else .ok (.inr (i, s, msglen))

/-- The byte 0x80 and the zeros: sha256avx.c:65-71, 73-79, sha512x4.c:305-311, 313-319 -/
def padBlocks (mb : Bytes) (datalen : Nat) : C Bytes :=
  forRange c.L (fun i mb => do
    let mb ← wr1 mb (c.blk * i + datalen) 0x80#8
    forRange (c.blk - (datalen + 1)) (fun t mb => wr1 mb (c.blk * i + (datalen + 1 + t)) 0#8) mb) mb

/-- The length: sha256avx.c:95-104, sha512x4.c:332-342 -/
def lenBlocks (mb : Bytes) (msglen : BitVec 64) : C Bytes :=
  forRange c.L (fun i mb => do
    let mb ← forRange 8 (fun t mb => wr1 mb (c.blk * i + (c.blk - 1 - t)) ((msglen >>> (8 * t)).truncate 8)) mb
    if c.clear then wr mb (c.blk * i + 112) (List.replicate 8 0#8) else .ok mb) mb

/-- `_sha256x8`, sha256x8.c:13-59, with `sha256_final8x`, sha256avx.c:51-128; `_sha512x4`,
sha512x4.c:271-372.  `s` and `msglen` are those of the context. -/
def run (s : List (V wb)) (msglen : BitVec 64) (ins : List Bytes) (inlen : Nat) : C (List Bytes) := do
  let msgblocks := uninit (g 90) (c.L * c.blk)
  let (i, s, msglen) ← loop (inlen / c.blk + 1) (absorbStep c ins inlen) (0, s, msglen)
  let datalen := (inlen + 2 ^ 64 - i) % 2 ^ 64
  let msgblocks ← forRange c.L (fun j mb => do wr mb (c.blk * j) (← rd (← rd1 ins j) i datalen)) msgblocks
  let msgblocks ← padBlocks c msgblocks datalen
  let (s, msgblocks) ← (if datalen < c.thr then .ok (s, msgblocks)
    else do
      let s ← c.transform s (← subLanes c.L msgblocks 0 c.blk)
      .ok (s, List.replicate (c.L * c.blk) 0#8) : C (List (V wb) × Bytes))
  let msglen := msglen + BitVec.ofNat 64 (datalen * 8)
  let msgblocks ← lenBlocks c msgblocks msglen
  let s ← c.transform s (← subLanes c.L msgblocks 0 c.blk)
  .ok (c.outs s)

/-- `sha256x8_seeded`, sha256x8.c:61-94; `sha512x4_seeded`, sha512x4.c:431-462 -/
def seeded (seed : Bytes) (seedlen : Nat) (ins : List Bytes) (inlen : Nat) : C (List Bytes) := do
  let s ← tabulate 8 fun i => do .ok (set1 (← c.load (← sub seed (wb * i))))
  run c g s (BitVec.ofNat 64 seedlen) ins inlen

/-- `sha256x8`, sha256x8.c:97-119; `sha512_init4x` and `_sha512x4` as used in sha512x4.c:407-421 -/
def hashx (ins : List Bytes) (inlen : Nat) : C (List Bytes) := run c g c.init 0#64 ins inlen

/-- `u32_to_bytes(inbuf + inlen + j*(inlen + 4), i)` for all lanes: sha256x8.c:153-155, 176-178,
sha512x4.c:403-405 -/
def setCounter (inbuf : Bytes) (inlen i : Nat) : C Bytes :=
  forRange c.L (fun j b => do
    let (b, _) ← withSub b (inlen + j * (inlen + 4)) (fun x => do .ok (← u32_to_bytes x (i % 2 ^ 32), ()))
    .ok b) inbuf

end

/-- The loop of `mgf1x8`, sha256x8.c:152-174.  Loop state: `i`, the output and `inbufx8`; `outx8` has been
advanced by `32*i`. -/
def mgfStep8 (g : Nat → Nat → Byte) (outlen inlen : Nat) (s : Nat × Bytes × Bytes) :
    C ((Nat × Bytes × Bytes) ⊕ (Nat × Bytes × Bytes)) := do
  let (i, out, inbuf) := s
  if (i + 1) * 32 ≤ outlen then do
    let inbuf ← setCounter x256 inbuf inlen i
    let outs ← hashx x256 g (← subLanes 8 inbuf 0 (inlen + 4)) (inlen + 4)
    let out ← wrLanes 8 out (32 * i) outlen outs
    .ok (.inl (i + 1, out, inbuf))
  else .ok (.inr (i, out, inbuf))

/-- `mgf1x8`, sha256x8.c:126-201 -/
def mgf1x8 (g : Nat → Nat → Byte) (out : Bytes) (outlen : Nat) (ins : List Bytes) (inlen : Nat) : C Bytes := do
  let inbuf := uninit (g 91) (8 * (inlen + 4))
  let outbuf := uninit (g 92) (8 * 32)
  let inbuf ← forRange 8 (fun j b => do wr b (j * (inlen + 4)) (← rd (← rd1 ins j) 0 inlen)) inbuf
  let (i, out, inbuf) ← loop (outlen / 32 + 1) (mgfStep8 g outlen inlen) (0, out, inbuf)
  let inbuf ← setCounter x256 inbuf inlen i
  let outs ← hashx x256 g (← subLanes 8 inbuf 0 (inlen + 4)) (inlen + 4)
  let outbuf ← wrLanes 8 outbuf 0 32 outs
  forRange 8 (fun j out => do wr out (32 * i + j * outlen) (← rd outbuf (j * 32) (outlen - i * 32))) out

/-- The loop of `mgf1x4_512`, sha512x4.c:399-428.  Loop state: `i`, `remaining`, the number of bytes `outx4` has
been advanced, the output, `inbufx4` and `outbuf`. -/
def mgfStep4 (g : Nat → Nat → Byte) (outlen inlen : Nat) (s : Nat × Nat × Nat × Bytes × Bytes × Bytes) :
    C ((Nat × Nat × Nat × Bytes × Bytes × Bytes) ⊕ Bytes) := do
  let (i, remaining, pos, out, inbuf, outbuf) := s
  if remaining > 0 then do
    let this_step := if 64 > remaining then remaining else 64
    let remaining := remaining - this_step
    let inbuf ← setCounter x512 inbuf inlen i
    let outs ← hashx x512 g (← subLanes 4 inbuf 0 (inlen + 4)) (inlen + 4)
    let outbuf ← wrLanes 4 outbuf 0 64 outs
    let out ← forRange 4 (fun j out => do wr out (pos + j * outlen) (← rd outbuf (j * 64) this_step)) out
    .ok (.inl (i + 1, remaining, pos + this_step, out, inbuf, outbuf))
  else .ok (.inr out)

/-- `mgf1x4_512`, sha512x4.c:380-429 -/
def mgf1x4_512 (g : Nat → Nat → Byte) (out : Bytes) (outlen : Nat) (ins : List Bytes) (inlen : Nat) : C Bytes := do
  let inbuf := uninit (g 93) (4 * (inlen + 4))
  let outbuf := uninit (g 94) (4 * 64)
  let inbuf ← forRange 4 (fun j b => do wr b (j * (inlen + 4)) (← rd (← rd1 ins j) 0 inlen)) inbuf
  loop (outlen / 64 + 2) (mgfStep4 g outlen inlen) (0, outlen, 0, out, inbuf, outbuf)

end Spx.Sha2X
