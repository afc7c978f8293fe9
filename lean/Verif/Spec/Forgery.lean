import Verif.Spec.Forge
/-! # What a forgery after signing queries shows

The places of a signature where secret values stand, and the secret values released by a collection of
signatures.  `Q` is a list of pairs of a message and a signature of it, in any order. -/

namespace Spx.Spec

section
variable (p : Par) (S : Hash) (pk : Bytes)

/-- The step of WOTS+ chain `i` at layer `j` at which verification of `sig` starts: the digit of the
value that this layer authenticates. -/
def shownStep (m sig : Bytes) (j i : Nat) : Nat :=
  let (md, tree, leaf) := selected p S pk m sig
  (lengths p (htRoot p S (pk.take p.n) tree leaf (sig.drop (p.n + forsBytes p))
    (forsPkFromSig p S (pk.take p.n) tree leaf (sig.drop p.n) md) j)).getD i 0

/-- The value `sig` contains for WOTS+ chain `i` of layer `j`. -/
def shownChain (sig : Bytes) (j i : Nat) : Bytes :=
  (sig.drop (p.n + forsBytes p + j * xmssBytes p + i * p.n)).take p.n

/-- The value `sig` contains as secret value of FORS tree `i`. -/
def shownFors (sig : Bytes) (i : Nat) : Bytes :=
  (sig.drop (p.n + i * ((p.a + 1) * p.n))).take p.n

/-- Tree and leaf of the WOTS+ key that verification of `sig` uses at layer `j`. -/
def wotsKey (m sig : Bytes) (j : Nat) : Nat × Nat :=
  let (_, tree, leaf) := selected p S pk m sig
  (treeAt p tree j, leafAt p tree leaf j)

/-- Tree and leaf of the FORS key that verification of `sig` uses. -/
def forsKey (m sig : Bytes) : Nat × Nat := (selected p S pk m sig).2

/-- The leaf of FORS tree `i` that verification of `sig` uses. -/
def forsPick (m sig : Bytes) (i : Nat) : Nat := forsIdx p (selected p S pk m sig).1 i

variable (sk : Bytes) (Q : List (Bytes × Bytes)) (m sig : Bytes)

/-- `sig` contains, for chain `i` of the WOTS+ key it uses at layer `j`, the owner's value at a step
before the one the owner ever releases; and every signature in `Q` that uses the same key contains the
owner's value of a later step of this chain. -/
def WotsPreimage (j i : Nat) : Prop :=
  let k := wotsKey p S pk m sig j
  shownChain p sig j i = chainValue S (pk.take p.n) sk j k.1 k.2 i (shownStep p S pk m sig j i) ∧
  shownStep p S pk m sig j i < p.w - 1 ∧
  ∀ q ∈ Q, wotsKey p S pk q.1 q.2 j = k →
    shownStep p S pk m sig j i < shownStep p S pk q.1 q.2 j i ∧
    shownChain p q.2 j i = chainValue S (pk.take p.n) sk j k.1 k.2 i (shownStep p S pk q.1 q.2 j i)

/-- `sig` contains the owner's secret FORS value of a leaf that no signature in `Q` uses. -/
def ForsPreimage (i : Nat) : Prop :=
  let k := forsKey p S pk m sig
  shownFors p sig i = forsSk S (pk.take p.n) sk k.1 k.2 (i * 2 ^ p.a + forsPick p S pk m sig i) ∧
  ∀ q ∈ Q, forsKey p S pk q.1 q.2 = k → forsPick p S pk q.1 q.2 i ≠ forsPick p S pk m sig i

/-- The digest of (`R`, `m`), for a pair not among those of `Q`, selects a FORS key and leaves all of
which are selected by digests of `Q` too: an interleaved target subset of `Hmsg`. -/
def CoveredDigest : Prop :=
  (∀ q ∈ Q, (q.2.take p.n, q.1) ≠ (sig.take p.n, m)) ∧
  ∀ i, i < p.k → ∃ q ∈ Q, forsKey p S pk q.1 q.2 = forsKey p S pk m sig ∧
    forsPick p S pk q.1 q.2 i = forsPick p S pk m sig i

end

end Spx.Spec
