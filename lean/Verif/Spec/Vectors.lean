import Verif.Spec.Kat
/-! # Files of SHA-256 sums -/

namespace Spx.Spec.Vectors
open Kat

/-- Lower case hexadecimal digits of a byte string -/
def lowerHex (b : Bytes) : Bytes :=
  b.flatMap fun x => ascii (String.ofList [("0123456789abcdef".toList.getD (x.toNat / 16) '?'),
    ("0123456789abcdef".toList.getD (x.toNat % 16) '?')])

/-- The line for the sum `e.1` and the name `e.2`, without its end -/
def line (e : Bytes × Bytes) : Bytes := lowerHex e.1 ++ 32#8 :: e.2

/-- The file with these lines -/
def file (es : List (Bytes × Bytes)) : Bytes := es.flatMap fun e => line e ++ [10#8]

/-- A sum of 32 bytes and a name without blanks and ends of lines -/
def Entry (e : Bytes × Bytes) : Prop := e.1.length = 32 ∧ 32#8 ∉ e.2 ∧ 10#8 ∉ e.2

end Spx.Spec.Vectors
