import Verif.Spec.Bytes
/-! # The AES round (FIPS 197)

A block is 16 bytes, column by column; byte `4 * c + r` is row `r` of column `c`. -/

namespace Spx.Spec.Aes

/-- Multiplication by `x` in GF(2^8) = GF(2)[x] / (x^8 + x^4 + x^3 + x + 1), FIPS 197, 4.2. -/
def xtime (a : Byte) : Byte := (a <<< 1) ^^^ (if a.getLsbD 7 then 0x1b#8 else 0#8)

/-- Multiplication in GF(2^8), FIPS 197, 4.2: sum of `a * x^i` over the bits `i` of `b`. -/
def gmul (a b : Byte) : Byte :=
  (List.range 8).foldl (fun s i => s ^^^ (if b.getLsbD i then Nat.repeat xtime i a else 0#8)) 0#8

/-- The multiplicative inverse in GF(2^8), with 0 mapped to 0: `a ^ 254` by squaring
(`254 = 2 + 4 + 8 + 16 + 32 + 64 + 128`). -/
def ginv (a : Byte) : Byte :=
  ((List.range 7).foldl (fun (x : Byte × Byte) _ =>
    let q := gmul x.2 x.2
    (gmul x.1 q, q)) (1#8, a)).1

/-- The affine transformation of FIPS 197, 5.1.1. -/
def affine (x : Byte) : Byte :=
  x ^^^ x.rotateLeft 1 ^^^ x.rotateLeft 2 ^^^ x.rotateLeft 3 ^^^ x.rotateLeft 4 ^^^ 0x63#8

/-- The S-box, FIPS 197, 5.1.1. -/
def sbox (a : Byte) : Byte := affine (ginv a)

/-- SubBytes -/
def subBytes (s : Bytes) : Bytes := s.map sbox

/-- ShiftRows: row `r` is rotated by `r` columns. -/
def shiftRows (s : Bytes) : Bytes :=
  (List.range 16).map fun p => s.getD (4 * ((p / 4 + p % 4) % 4) + p % 4) 0#8

/-- MixColumns: `2 a_r + 3 a_(r+1) + a_(r+2) + a_(r+3)` in every column. -/
def mixColumns (s : Bytes) : Bytes :=
  (List.range 16).map fun p =>
    let a := fun j => s.getD (4 * (p / 4) + (p % 4 + j) % 4) 0#8
    gmul 2#8 (a 0) ^^^ gmul 3#8 (a 1) ^^^ a 2 ^^^ a 3

/-- One AES encryption round with round key `k` (the instruction AESENC). -/
def round (k s : Bytes) : Bytes := xorBytes (mixColumns (shiftRows (subBytes s))) k

end Spx.Spec.Aes
