import Verif.Spec.Forge
/-! # Which calls of the hash functions the scheme needs -/

namespace Spx.Spec

/-- The positions at which the pseudorandom function is applied; the tweakable hash is applied at all others. -/
def Position.isPrf : Position → Bool
  | wotsPrf .. => true
  | forsPrf .. => true
  | _ => false

/-- Number of bytes hashed at a position by the tweakable hash. -/
def Position.inLen (p : Par) : Position → Nat
  | wotsHash .. => p.n
  | forsLeaf .. => p.n
  | treeNode .. => 2 * p.n
  | forsNode .. => 2 * p.n
  | wotsPk .. => p.len * p.n
  | forsRoots .. => p.k * p.n
  | wotsPrf .. => 0
  | forsPrf .. => 0

/-- The two families of hash functions agree at the positions that occur for `p`, on inputs of the length hashed
there, and on messages. -/
structure SameAt (p : Par) (S S' : Hash) : Prop where
  T : ∀ pub q x, Position.Valid p q → q.isPrf = false → x.length = q.inLen p →
    S'.T pub q.adrs x = S.T pub q.adrs x
  PRF : ∀ pub sk q, Position.Valid p q → q.isPrf = true → S'.PRF pub sk q.adrs = S.PRF pub sk q.adrs
  PRFmsg : S'.PRFmsg = S.PRFmsg
  Hmsg : S'.Hmsg = S.Hmsg

end Spx.Spec
