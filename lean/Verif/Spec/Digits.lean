import Verif.Base
/-! # Digits and bits of byte strings -/

namespace Spx.Spec

/-- The number with the given base-`w` digits, most significant digit first. -/
def ofDigits (w : Nat) (ds : List Nat) : Nat := ds.foldl (fun a d => a * w + d) 0

/-- Bit `b` of a byte string, the least significant bit of each byte first. -/
def bitAt (m : Bytes) (b : Nat) : Bool := (m.getD (b / 8) 0).getLsbD (b % 8)

end Spx.Spec
