import Mathlib.Algebra.Field.Rat
import Verif.Spec.Coverage
/-! # Attackers who choose messages depending on the answers

The message hash is a function `H` of randomiser and message, taken uniformly from all functions; the randomisers of
the signatures are uniform too.  The attacker may know the rest of the secret key: what it does next is an arbitrary
function of the answers, so all other parts of the signatures are at its disposal. -/

namespace Spx.Spec

/-- What an attacker does: it ends with a forgery, or hashes, or asks for a signature.  It gets the randomiser and
the digest of the signature. -/
inductive Attacker (ρ M D : Type) : Type
  | forge (r : ρ) (m : M)
  | hash (r : ρ) (m : M) (next : D → Attacker ρ M D)
  | sign (m : M) (next : ρ → D → Attacker ρ M D)

section
variable {ρ M D : Type}

/-- At most `q` signatures are asked for, and at most `t` digests computed, with that of the forgery. -/
def Attacker.Within : Attacker ρ M D → Nat → Nat → Prop
  | .forge _ _, _, t => 0 < t
  | .hash _ _ next, q, t => 0 < t ∧ ∀ d, (next d).Within q (t - 1)
  | .sign _ next, q, t => 0 < q ∧ ∀ r d, (next r d).Within (q - 1) t

/-- The attack, if `H` is the message hash and `s` are the randomisers of the signatures: the pairs of randomiser and
message which are signed, the last one first, in front of `S`, and the pair of the forgery. -/
def Attacker.run (H : ρ × M → D) : Attacker ρ M D → List ρ → List (ρ × M) → Option (List (ρ × M) × (ρ × M))
  | .forge r m, _, S => some (S, (r, m))
  | .hash r m next, s, S => (next (H (r, m))).run H s S
  | .sign m next, r :: s, S => (next r (H (r, m))).run H s ((r, m) :: S)
  | .sign _ _, [], _ => none

end

/-- The probability of an event, if all elements of the type are equally likely -/
noncomputable def chance {α : Type} [Fintype α] (X : α → Prop) : ℚ := howMany X / Fintype.card α

/-- The pair of the forgery was not signed, but its digest selects only leaves which are selected by the digests of
pairs signed, for the same FORS key. -/
def Won {ρ M : Type} {p : Par} (H : ρ × M → Digest p) (o : Option (List (ρ × M) × (ρ × M))) : Prop :=
  ∃ S z, o = some (S, z) ∧ z ∉ S ∧
    ∀ i, i < p.k → ∃ y ∈ S, (H y).key = (H z).key ∧ (H y).pick i = (H z).pick i

/-- The ways in which `k` more trees can be covered, if `j` digests have been used: by one of them, or by another digest.
The others count `x` together. -/
def coverings (x : ℚ) : Nat → Nat → ℚ
  | 0, _ => 1
  | k + 1, j => j * coverings x k j + x * coverings x k (j + 1)

end Spx.Spec
