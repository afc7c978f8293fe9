import Verif.Base
/-! # Answers of an operating system that look alike

What may be known about the answers of the operating system when nothing is known of the random bytes themselves: which
reads failed and how long the others are. -/

namespace Spx.Spec

/-- Lists of answers (`none`: failure) which fail at the same places and have the same lengths elsewhere -/
def AlikeReads : List (Option (List (BitVec 8))) → List (Option (List (BitVec 8))) → Prop
  | [], [] => True
  | none :: r, none :: r' => AlikeReads r r'
  | some d :: r, some d' :: r' => d.length = d'.length ∧ AlikeReads r r'
  | _, _ => False

/-- Memories in which the same addresses exist -/
def SameAddresses (M M' : Nat → Option (BitVec 8)) : Prop := ∀ a, M a = none ↔ M' a = none

end Spx.Spec
