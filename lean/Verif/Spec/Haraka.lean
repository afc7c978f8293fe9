import Verif.Spec.Aes
import Verif.Spec.Sponge
/-! # Haraka v2 and Haraka-S

Kölbl, Lauridsen, Mendel, Rechberger, "Haraka v2 - Efficient short-input hashing for post-quantum
applications", and the SPHINCS+ submission (round 3.1), section 7.2.3, in terms of AES rounds. -/

namespace Spx.Spec.Haraka

/-- The 40 round constants of Haraka v2, as 128-bit numbers. -/
def RC : List (BitVec 128) :=
  [0x0684704ce620c00ab2c5fef075817b9d,
   0x8b66b4e188f3a06b640f6ba42f08f717,
   0x3402de2d53f28498cf029d609f029114,
   0x0ed6eae62e7b4f08bbf3bcaffd5b4f79,
   0xcbcfb0cb4872448b79eecd1cbe397044,
   0x7eeacdee6e9032b78d5335ed2b8a057b,
   0x67c28f435e2e7cd0e2412761da4fef1b,
   0x2924d9b0afcacc07675ffde21fc70b3b,
   0xab4d63f1e6867fe9ecdb8fcab9d465ee,
   0x1c30bf84d4b7cd645b2a404fad037e33,
   0xb2cc0bb9941723bf69028b2e8df69800,
   0xfa0478a6de6f55724aaa9ec85c9d2d8a,
   0xdfb49f2b6b772a120efa4f2e29129fd4,
   0x1ea10344f449a23632d611aebb6a12ee,
   0xaf0449884b0500845f9600c99ca8eca6,
   0x21025ed89d199c4f78a2c7e327e593ec,
   0xbf3aaaf8a759c9b7b9282ecd82d40173,
   0x6260700d6186b01737f2efd910307d6b,
   0x5aca45c22130044381c29153f6fc9ac6,
   0x9223973c226b68bb2caf92e836d1943a,
   0xd3bf9238225886eb6cbab958e51071b4,
   0xdb863ce5aef0c677933dfddd24e1128d,
   0xbb606268ffeba09c83e48de3cb2212b1,
   0x734bd3dce2e4d19c2db91a4ec72bf77d,
   0x43bb47c361301b434b1415c42cb3924e,
   0xdba775a8e707eff603b231dd16eb6899,
   0x6df3614b3c7559778e5e23027eca472c,
   0xcda75a17d6de7d776d1be5b9b88617f9,
   0xec6b43f06ba8e9aa9d6c069da946ee5d,
   0xcb1e6950f957332ba25311593bf327c1,
   0x2cee0c7500da619ce4ed0353600ed0d9,
   0xf0b1a5a196e90cab80bbbabc63a4a350,
   0xae3db1025e962988ab0dde30938dca39,
   0x17bb8f38d554a40b8814f3a82e75b442,
   0x34bb8a5b5f427fd7aeb6b779360a16f6,
   0x26f65241cbe5543843ce5918ffbaafde,
   0x4ce99a54b9f3026aa2ca9cf7839ec978,
   0xae51a51a1bdff7be40c06e2822901235,
   0xa0c1613cba7ed22bc173bc0f48a659cf,
   0x756acc03022882884ad6bdfde9c59da1]

/-- The round constants as bytes (little endian, as loaded by the AES instructions). -/
def rcStd : Bytes := RC.flatMap fun k => (List.range 16).map fun i => k.extractLsb' (8 * i) 8

/-- Interleave the low 32-bit words of two 16-byte blocks (`_mm_unpacklo_epi32`). -/
def unpackLo {α : Type} (a b : List α) : List α := chunk 4 a 0 ++ chunk 4 b 0 ++ chunk 4 a 1 ++ chunk 4 b 1

/-- Interleave the high 32-bit words of two 16-byte blocks (`_mm_unpackhi_epi32`). -/
def unpackHi {α : Type} (a b : List α) : List α := chunk 4 a 2 ++ chunk 4 b 2 ++ chunk 4 a 3 ++ chunk 4 b 3

/-- The mixing layer of Haraka-512 on four blocks. -/
def mix4 {α : Type} (s : List α) : List α :=
  let s0 := chunk 16 s 0
  let s1 := chunk 16 s 1
  let s2 := chunk 16 s 2
  let s3 := chunk 16 s 3
  let tmp := unpackLo s0 s1
  let s0 := unpackHi s0 s1
  let s1 := unpackLo s2 s3
  let s2 := unpackHi s2 s3
  let s3 := unpackLo s0 s2
  let s0 := unpackHi s0 s2
  let s2 := unpackHi s1 tmp
  let s1 := unpackLo s1 tmp
  s0 ++ s1 ++ s2 ++ s3

/-- The mixing layer of Haraka-256 on two blocks. -/
def mix2 {α : Type} (s : List α) : List α :=
  unpackLo (chunk 16 s 0) (chunk 16 s 1) ++ unpackHi (chunk 16 s 0) (chunk 16 s 1)

/-- AES round number `j` on `b` blocks in parallel; block `i` uses constant `b * j + i`. -/
def aesLayer (b : Nat) (rc : Bytes) (j : Nat) (s : Bytes) : Bytes :=
  cat b fun i => Aes.round (chunk 16 rc (b * j + i)) (chunk 16 s i)

/-- `k` rounds of the permutation on `b` blocks: two AES layers and a mixing layer. -/
def rounds (b : Nat) (mix : Bytes → Bytes) (rc : Bytes) : Nat → Bytes → Bytes
  | 0, s => s
  | k + 1, s => mix (aesLayer b rc (2 * k + 1) (aesLayer b rc (2 * k) (rounds b mix rc k s)))

/-- The permutation π_512 with round constants `rc`. -/
def perm512 (rc : Bytes) (s : Bytes) : Bytes := rounds 4 mix4 rc 5 s

/-- The permutation π_256 with round constants `rc`. -/
def perm256 (rc : Bytes) (s : Bytes) : Bytes := rounds 2 mix2 rc 5 s

/-- Haraka-512: feed-forward and truncation to 32 bytes. -/
def haraka512 (rc : Bytes) (x : Bytes) : Bytes :=
  let y := xorBytes (perm512 rc x) x
  chunk 8 y 1 ++ chunk 8 y 3 ++ chunk 8 y 4 ++ chunk 8 y 6

/-- Haraka-256: feed-forward. -/
def haraka256 (rc : Bytes) (x : Bytes) : Bytes := xorBytes (perm256 rc x) x

/-- Haraka-S: sponge over π_512 with rate 32 bytes and the padding of SHAKE. -/
def harakaS (rc : Bytes) (m : Bytes) (outlen : Nat) : Bytes := sponge (perm512 rc) 64 32 0x1F#8 m outlen

/-- The round constants tweaked by the public seed (SPHINCS+ 7.2.3): 40 constants squeezed from
Haraka-S with the standard constants. -/
def rcTweak (seed : Bytes) : Bytes := harakaS rcStd seed 640

end Spx.Spec.Haraka
