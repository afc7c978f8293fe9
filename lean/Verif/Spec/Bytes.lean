import Verif.Base
/-! # Specification of byte strings as numbers (big endian) -/

namespace Spx.Spec

/-- The number denoted by a byte string, most significant byte first. -/
def beNat (bs : Bytes) : Nat := bs.foldl (fun a b => a * 256 + b.toNat) 0

/-- The `len`-byte big-endian string of `x` (modulo `256 ^ len`). -/
def toBE : Nat → Nat → Bytes
  | 0, _ => []
  | len + 1, x => toBE len (x / 256) ++ [BitVec.ofNat 8 x]

/-- The number denoted by a byte string, least significant byte first. -/
def leNat : Bytes → Nat
  | [] => 0
  | b :: bs => b.toNat + 256 * leNat bs

/-- The `len`-byte little-endian string of `x` (modulo `256 ^ len`). -/
def toLE : Nat → Nat → Bytes
  | 0, _ => []
  | len + 1, x => BitVec.ofNat 8 x :: toLE len (x / 256)

/-- Bytewise exclusive or. -/
def xorBytes (a b : Bytes) : Bytes := List.zipWith (· ^^^ ·) a b

end Spx.Spec
