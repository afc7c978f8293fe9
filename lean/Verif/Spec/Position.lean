import Verif.Spec.Adrs
/-! # Positions of the hash calls in the scheme -/

namespace Spx.Spec

/-- A place in the SPHINCS+ structure at which a hash function is applied. -/
inductive Position where
  /-- secret start value of a WOTS+ chain -/
  | wotsPrf (layer tree keypair chain : Nat)
  /-- step of a WOTS+ chain -/
  | wotsHash (layer tree keypair chain step : Nat)
  /-- compression of a WOTS+ public key -/
  | wotsPk (layer tree keypair : Nat)
  /-- inner node of a hypertree subtree, height at least 1 -/
  | treeNode (layer tree height index : Nat)
  /-- secret FORS value -/
  | forsPrf (tree keypair index : Nat)
  /-- FORS leaf -/
  | forsLeaf (tree keypair index : Nat)
  /-- inner FORS node, height at least 1 -/
  | forsNode (tree keypair height index : Nat)
  /-- compression of the FORS roots -/
  | forsRoots (tree keypair : Nat)
  deriving DecidableEq

/-- The address of a position. -/
def Position.adrs : Position → ADRS
  | wotsPrf l t k c => ⟨l, t, WOTS_PRF, k, c, 0⟩
  | wotsHash l t k c s => ⟨l, t, WOTS_HASH, k, c, s⟩
  | wotsPk l t k => ⟨l, t, WOTS_PK, k, 0, 0⟩
  | treeNode l t h i => ⟨l, t, TREE, 0, h, i⟩
  | forsPrf t k i => ⟨0, t, FORS_PRF, k, 0, i⟩
  | forsLeaf t k i => ⟨0, t, FORS_TREE, k, 0, i⟩
  | forsNode t k h i => ⟨0, t, FORS_TREE, k, h, i⟩
  | forsRoots t k => ⟨0, t, FORS_ROOTS, k, 0, 0⟩

/-- The positions that occur for parameters `p`. -/
def Position.Valid (p : Par) : Position → Prop
  | wotsPrf l t k c => l < p.d ∧ t < 2 ^ (p.h - (l + 1) * p.h') ∧ k < 2 ^ p.h' ∧ c < p.len
  | wotsHash l t k c s => l < p.d ∧ t < 2 ^ (p.h - (l + 1) * p.h') ∧ k < 2 ^ p.h' ∧ c < p.len ∧ s < p.w - 1
  | wotsPk l t k => l < p.d ∧ t < 2 ^ (p.h - (l + 1) * p.h') ∧ k < 2 ^ p.h'
  | treeNode l t h i => l < p.d ∧ t < 2 ^ (p.h - (l + 1) * p.h') ∧ 1 ≤ h ∧ h ≤ p.h' ∧ i < 2 ^ (p.h' - h)
  | forsPrf t k i => t < 2 ^ (p.h - p.h') ∧ k < 2 ^ p.h' ∧ i < p.k * 2 ^ p.a
  | forsLeaf t k i => t < 2 ^ (p.h - p.h') ∧ k < 2 ^ p.h' ∧ i < p.k * 2 ^ p.a
  | forsNode t k h i => t < 2 ^ (p.h - p.h') ∧ k < 2 ^ p.h' ∧ 1 ≤ h ∧ h ≤ p.a ∧ i < p.k * 2 ^ (p.a - h)
  | forsRoots t k => t < 2 ^ (p.h - p.h') ∧ k < 2 ^ p.h'

end Spx.Spec
