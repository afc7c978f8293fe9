import Verif.Spec.Many
/-! # Forgers with a common limit for many keys

As `ManyForger.Within`, but the computations of the tweakable hash are counted for all keys together: the forger may
decide during the attack for which keys it makes them. -/

namespace Spx.Spec

/-- For each owner `i`, at most `q i` signatures are asked for and at most `t i` digests are computed, counting one for a
verification.  The tweakable hash is computed at most `u` times in all. -/
def ManyForger.WithinShared {ι β ρ M D : Type} [DecidableEq ι] :
    ManyForger ι β ρ M D → (ι → Nat) → (ι → Nat) → Nat → Prop
  | .output _ _ _, _, t, _ => ∀ i, 0 < t i
  | .hash i _ _ next, q, t, u => 0 < t i ∧ ∀ d, (next d).WithinShared q (Function.update t i (t i - 1)) u
  | .tweak _ _ _ next, q, t, u => 0 < u ∧ ∀ y, (next y).WithinShared q t (u - 1)
  | .sign i _ _ next, q, t, u => 0 < q i ∧ ∀ sig, (next sig).WithinShared (Function.update q i (q i - 1)) t u

end Spx.Spec
