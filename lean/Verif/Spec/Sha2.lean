import Verif.Spec.Bytes
/-! # SHA-256 and SHA-512 (FIPS 180-4), HMAC (FIPS 198-1) and MGF1 (RFC 8017, B.2.1)

Messages are strings of whole bytes. -/

namespace Spx.Spec.Sha2

/-- The two algorithms differ in word size, number of rounds, rotation amounts and the size of
the length field. -/
structure Alg where
  /-- word size in bytes -/
  wb : Nat
  rounds : Nat
  /-- amounts of Σ0, Σ1 (three rotations) and σ0, σ1 (two rotations and a shift) -/
  S0 : Nat × Nat × Nat
  S1 : Nat × Nat × Nat
  s0 : Nat × Nat × Nat
  s1 : Nat × Nat × Nat

/-- FIPS 180-4, 4.1.2 -/
abbrev alg256 : Alg := ⟨4, 64, (2, 13, 22), (6, 11, 25), (7, 18, 3), (17, 19, 10)⟩
/-- FIPS 180-4, 4.1.3 -/
abbrev alg512 : Alg := ⟨8, 80, (28, 34, 39), (14, 18, 41), (1, 8, 7), (19, 61, 6)⟩

namespace Alg
/-- word size in bits -/
abbrev w (A : Alg) : Nat := 8 * A.wb
/-- block size in bytes: 16 words -/
def blk (A : Alg) : Nat := 16 * A.wb
/-- output size in bytes: 8 words -/
def out (A : Alg) : Nat := 8 * A.wb
/-- size of the length field in bytes: 2 words -/
def lenBytes (A : Alg) : Nat := 2 * A.wb
end Alg

/-- Largest `x < 2 ^ b` with `x ^ k ≤ n` (binary search from the top bit, starting at `x`). -/
def rootFrom (k n : Nat) : Nat → Nat → Nat
  | 0, x => x
  | b + 1, x => rootFrom k n b (if (x + 2 ^ b) ^ k ≤ n then x + 2 ^ b else x)

/-- The first `bits` bits of the fractional part of the `k`-th root of `p`. -/
def fracRoot (k p bits : Nat) : Nat := rootFrom k (p * 2 ^ (k * bits)) (bits + 5) 0 % 2 ^ bits

/-- The first `n` primes (`bound` has to be large enough). -/
def primes (bound n : Nat) : List Nat :=
  ((List.range bound).filter fun p => 2 ≤ p && (List.range p).all fun d => d < 2 || p % d != 0).take n

section
variable (A : Alg)

/-- Round constant (FIPS 180-4, 4.2.2, 4.2.3): cube roots of the first primes. -/
def K (t : Nat) : BitVec A.w := BitVec.ofNat _ (fracRoot 3 ((primes 410 A.rounds).getD t 0) A.w)

/-- Initial hash value (FIPS 180-4, 5.3.3, 5.3.5): square roots of the first eight primes. -/
def H0 : List (BitVec A.w) := (primes 20 8).map fun p => BitVec.ofNat _ (fracRoot 2 p A.w)

def Ch (x y z : BitVec A.w) : BitVec A.w := (x &&& y) ^^^ (~~~ x &&& z)
def Maj (x y z : BitVec A.w) : BitVec A.w := (x &&& y) ^^^ (x &&& z) ^^^ (y &&& z)
def rot3 (r : Nat × Nat × Nat) (x : BitVec A.w) : BitVec A.w :=
  x.rotateRight r.1 ^^^ x.rotateRight r.2.1 ^^^ x.rotateRight r.2.2
def rot2 (r : Nat × Nat × Nat) (x : BitVec A.w) : BitVec A.w :=
  x.rotateRight r.1 ^^^ x.rotateRight r.2.1 ^^^ (x >>> r.2.2)

/-- The first `n` words of the message schedule of a block (FIPS 180-4, 6.2.2 and 6.4.2, step 1). -/
def schedule (M : Nat → BitVec A.w) : Nat → List (BitVec A.w)
  | 0 => []
  | t + 1 =>
    let W := schedule M t
    W ++ [if t < 16 then M t
      else rot2 A A.s1 (W.getD (t - 2) 0) + W.getD (t - 7) 0 + rot2 A A.s0 (W.getD (t - 15) 0) +
        W.getD (t - 16) 0]

/-- Working variables. -/
structure Vars where
  (a b c d e f g h : BitVec A.w)

/-- One round (FIPS 180-4, 6.2.2 and 6.4.2, step 3). -/
def round (k w : BitVec A.w) (v : Vars A) : Vars A :=
  let T1 := v.h + rot3 A A.S1 v.e + Ch A v.e v.f v.g + k + w
  let T2 := rot3 A A.S0 v.a + Maj A v.a v.b v.c
  ⟨T1 + T2, v.a, v.b, v.c, v.d + T1, v.e, v.f, v.g⟩

/-- The first `t` rounds. -/
def rounds (W : Nat → BitVec A.w) (v : Vars A) : Nat → Vars A
  | 0 => v
  | t + 1 => round A (K A t) (W t) (rounds W v t)

def ofList (H : List (BitVec A.w)) : Vars A :=
  ⟨H.getD 0 0, H.getD 1 0, H.getD 2 0, H.getD 3 0, H.getD 4 0, H.getD 5 0, H.getD 6 0, H.getD 7 0⟩

def toList (v : Vars A) : List (BitVec A.w) := [v.a, v.b, v.c, v.d, v.e, v.f, v.g, v.h]

/-- Word `i` of a block. -/
def word (blk : Bytes) (i : Nat) : BitVec A.w := BitVec.ofNat _ (beNat (chunk A.wb blk i))

/-- Processing one block (FIPS 180-4, 6.2.2 and 6.4.2). -/
def compress (H : List (BitVec A.w)) (blk : Bytes) : List (BitVec A.w) :=
  let W := schedule A (word A blk) A.rounds
  List.zipWith (· + ·) (toList A (rounds A (fun t => W.getD t 0) (ofList A H) A.rounds)) H

/-- Hash value after the first `k` blocks. -/
def blocks (H : List (BitVec A.w)) (m : Bytes) : Nat → List (BitVec A.w)
  | 0 => H
  | k + 1 => compress A (blocks H m k) (chunk A.blk m k)

/-- Padding (FIPS 180-4, 5.1): bit 1, the smallest number of zeros, the bit length. -/
def pad (m : Bytes) : Bytes :=
  m ++ [0x80#8] ++
    List.replicate ((A.blk - (m.length + 1 + A.lenBytes) % A.blk) % A.blk) 0#8 ++
    toBE A.lenBytes (8 * m.length)

/-- Words as big-endian bytes. -/
def wordsBE (H : List (BitVec A.w)) : Bytes := cat H.length fun i => toBE A.wb (H.getD i 0).toNat

/-- The hash function. -/
def hash (m : Bytes) : Bytes :=
  wordsBE A (blocks A (H0 A) (pad A m) ((pad A m).length / A.blk))

/-- HMAC with a key of at most one block. -/
def hmac (key m : Bytes) : Bytes :=
  let k := key ++ List.replicate (A.blk - key.length) 0#8
  hash A (k.map (· ^^^ 0x5c#8) ++ hash A (k.map (· ^^^ 0x36#8) ++ m))

/-- MGF1. -/
def mgf1 (seed : Bytes) (len : Nat) : Bytes :=
  (cat ((len + A.out - 1) / A.out) fun i => hash A (seed ++ toBE 4 i)).take len

end

def sha256 : Bytes → Bytes := hash alg256
def sha512 : Bytes → Bytes := hash alg512

end Spx.Spec.Sha2
