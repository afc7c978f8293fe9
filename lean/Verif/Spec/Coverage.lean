import Mathlib.Data.Fintype.Pi
import Verif.Spec.Sphincs
/-! # How often digests select the same leaves

The randomness of the statements is that of the message digests: a statement about `N` of the
`256 ^ digestBytes` strings is one about the probability of the same event for a uniform digest. -/

namespace Spx.Spec

open Classical in
/-- The number of elements with a property -/
noncomputable def howMany {α : Type} [Fintype α] (X : α → Prop) : Nat := (Finset.univ.filter X).card

/-- A message digest -/
abbrev Digest (p : Par) : Type := Fin (digestBytes p) → Fin (2 ^ 8)

/-- The digest as a byte string -/
def Digest.bytes {p : Par} (d : Digest p) : Bytes := List.ofFn fun i => BitVec.ofFin (d i)

/-- Tree and leaf of the FORS key selected by a digest -/
def Digest.key {p : Par} (d : Digest p) : Nat × Nat := (splitDigest p d.bytes).2

/-- The leaf of FORS tree `i` selected by a digest -/
def Digest.pick {p : Par} (d : Digest p) (i : Nat) : Nat := forsIdx p (splitDigest p d.bytes).1 i

/-- Every FORS leaf selected by `d` is selected by one of the digests `x`, for the same FORS key. -/
def Covered {p : Par} {q : Nat} (x : Fin q → Digest p) (d : Digest p) : Prop :=
  ∀ i, i < p.k → ∃ j, (x j).key = d.key ∧ (x j).pick i = d.pick i

/-- The column "bit security" of the table in README.md, lines 14-21, found by the columns n and h. -/
def bitSecurity (p : Par) : Nat :=
  match p.n, p.h' * p.d with
  | 16, 63 => 133
  | 16, 66 => 128
  | 24, 63 => 193
  | 24, 66 => 194
  | 32, 64 => 255
  | 32, 68 => 255
  | _, _ => 0

end Spx.Spec
