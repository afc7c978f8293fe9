import Verif.Base
/-! # Specification of binary hash trees

`H h i l r` is the node at height `h` and position `i` with children `l` and `r`. -/

namespace Spx.Spec

/-- Node at height `h`, position `i` of the tree over `leaf`. -/
def node (H : Nat → Nat → Bytes → Bytes → Bytes) (leaf : Nat → Bytes) : Nat → Nat → Bytes
  | 0, i => leaf i
  | h + 1, i => H (h + 1) i (node H leaf h (2 * i)) (node H leaf h (2 * i + 1))

/-- Position of the sibling of node `i`. -/
def sibling (i : Nat) : Nat := if i % 2 = 0 then i + 1 else i - 1

/-- Authentication path of leaf `i` in a tree of height `t`: the siblings along the path. -/
def authPath (H : Nat → Nat → Bytes → Bytes → Bytes) (leaf : Nat → Bytes) (t i : Nat) : Bytes :=
  cat t fun h => node H leaf h (sibling (i / 2 ^ h))

/-- Root candidate at height `h` from a leaf value, the leaf index and path elements. -/
def climb (H : Nat → Nat → Bytes → Bytes → Bytes) (i : Nat) (path : Nat → Bytes) (leaf : Bytes) :
    Nat → Bytes
  | 0 => leaf
  | h + 1 =>
    if i / 2 ^ h % 2 = 0 then H (h + 1) (i / 2 ^ (h + 1)) (climb H i path leaf h) (path h)
    else H (h + 1) (i / 2 ^ (h + 1)) (path h) (climb H i path leaf h)

end Spx.Spec
