import Verif.Spec.Sphincs
import Verif.Spec.Position
/-! # What an accepted signature shows

The inputs to the tweakable hash that the owner of the secret key computes at each position, and the
calls of the tweakable hash that verification of a given signature makes. -/

namespace Spx.Spec

section
variable (p : Par) (S : Hash) (pub sk : Bytes)

/-- The value of WOTS+ chain `i` after `j` steps. -/
def chainValue (layer tree kp i j : Nat) : Bytes :=
  chain (wotsF S pub layer tree kp i) (wotsSk S pub sk layer tree kp i) 0 j

/-- What the owner of the secret key hashes at a position. -/
def honestInput : Position → Bytes
  | .wotsHash l t k i j => chainValue S pub sk l t k i j
  | .wotsPk l t k => cat p.len fun i => chainValue S pub sk l t k i (p.w - 1)
  | .treeNode l t h i =>
    node (treeH S pub l t) (wotsPk p S pub sk l t) (h - 1) (2 * i) ++
      node (treeH S pub l t) (wotsPk p S pub sk l t) (h - 1) (2 * i + 1)
  | .forsLeaf t k i => forsSk S pub sk t k i
  | .forsNode t k h i =>
    node (forsH S pub t k) (forsLeaf S pub sk t k) (h - 1) (2 * i) ++
      node (forsH S pub t k) (forsLeaf S pub sk t k) (h - 1) (2 * i + 1)
  | .forsRoots t k => cat p.k fun i => node (forsH S pub t k) (forsLeaf S pub sk t k) p.a i
  | .wotsPrf .. => []
  | .forsPrf .. => []

/-- A call of the tweakable hash: where, and on what. -/
abbrev HashCall := Position × Bytes

/-- A second preimage: at the same address, a different input of the same length with the output
that the owner's input has. -/
def SecondPreimage (c : HashCall) : Prop :=
  c.2 ≠ honestInput p S pub sk c.1 ∧ c.2.length = (honestInput p S pub sk c.1).length ∧
    S.T pub c.1.adrs c.2 = S.T pub c.1.adrs (honestInput p S pub sk c.1)

/-- Calls made while climbing a tree from leaf `i`; `pos h j` is the position of node `j` at height
`h`. -/
def climbCalls (pos : Nat → Nat → Position) (H : Nat → Nat → Bytes → Bytes → Bytes) (i : Nat) (path : Nat → Bytes)
    (leaf : Bytes) (t : Nat) : List HashCall :=
  (List.range t).map fun h =>
    (pos (h + 1) (i / 2 ^ (h + 1)),
      if i / 2 ^ h % 2 = 0 then climb H i path leaf h ++ path h else path h ++ climb H i path leaf h)

/-- Calls of `wotsPkFromSig`. -/
def wotsCalls (layer tree kp : Nat) (sig m : Bytes) : List HashCall :=
  ((List.range p.len).flatMap fun i =>
    (List.range (p.w - 1 - (lengths p m).getD i 0)).map fun s =>
      (.wotsHash layer tree kp i ((lengths p m).getD i 0 + s),
        chain (wotsF S pub layer tree kp i) (chunk p.n sig i) ((lengths p m).getD i 0) s)) ++
  [(.wotsPk layer tree kp,
    cat p.len fun i => chain (wotsF S pub layer tree kp i) (chunk p.n sig i) ((lengths p m).getD i 0)
      (p.w - 1 - (lengths p m).getD i 0))]

/-- Calls of `xmssRootFromSig`. -/
def xmssCalls (layer tree leaf : Nat) (sig m : Bytes) : List HashCall :=
  wotsCalls p S pub layer tree leaf sig m ++
    climbCalls (.treeNode layer tree) (treeH S pub layer tree) leaf (chunk p.n (sig.drop (p.len * p.n)))
      (wotsPkFromSig p S pub layer tree leaf sig m) p.h'

/-- Calls of `htRoot` in all layers. -/
def htCalls (tree leaf : Nat) (sig m : Bytes) : List HashCall :=
  (List.range p.d).flatMap fun j =>
    xmssCalls p S pub j (treeAt p tree j) (leafAt p tree leaf j) (sig.drop (j * xmssBytes p))
      (htRoot p S pub tree leaf sig m j)

/-- Calls of `forsPkFromSig`. -/
def forsCalls (tree kp : Nat) (sig md : Bytes) : List HashCall :=
  ((List.range p.k).flatMap fun i =>
    let j := i * 2 ^ p.a + forsIdx p md i
    let s := sig.drop (i * ((p.a + 1) * p.n))
    (.forsLeaf tree kp j, s.take p.n) ::
      climbCalls (.forsNode tree kp) (forsH S pub tree kp) j (chunk p.n (s.drop p.n))
        (forsLeafOf S pub tree kp j (s.take p.n)) p.a) ++
  [(.forsRoots tree kp,
    cat p.k fun i =>
      let j := i * 2 ^ p.a + forsIdx p md i
      let s := sig.drop (i * ((p.a + 1) * p.n))
      climb (forsH S pub tree kp) j (chunk p.n (s.drop p.n)) (forsLeafOf S pub tree kp j (s.take p.n)) p.a)]

end

/-- The FORS digest, tree and leaf that verification derives from message, public key and signature. -/
def selected (p : Par) (S : Hash) (pk m sig : Bytes) : Bytes × Nat × Nat :=
  splitDigest p (S.Hmsg (sig.take p.n) (pk.take p.n) ((pk.drop p.n).take p.n) m (digestBytes p))

/-- All calls of the tweakable hash made by `verify`. -/
def verifyCalls (p : Par) (S : Hash) (pk m sig : Bytes) : List HashCall :=
  let pub := pk.take p.n
  let (md, tree, leaf) := selected p S pk m sig
  forsCalls p S pub tree leaf (sig.drop p.n) md ++
    htCalls p S pub tree leaf (sig.drop (p.n + forsBytes p)) (forsPkFromSig p S pub tree leaf (sig.drop p.n) md)

/-- What the owner of the key would append to `R` for this digest. -/
def honestRest (p : Par) (S : Hash) (pub sk md : Bytes) (tree leaf : Nat) : Bytes :=
  forsSig p S pub sk tree leaf md ++ htSig p S pub sk tree leaf (forsPk p S pub sk tree leaf)

/-- The signature shows, at layer `j` and chain `i`, the owner's chain value at a place before the one
the owner releases: the owner's value signed at this position is `htMsg`, and its digit is larger. -/
def ShowsHiddenValue (p : Par) (S : Hash) (pub sk : Bytes) (tree leaf : Nat) (htsig m : Bytes) (j i : Nat) : Prop :=
  let cand := htRoot p S pub tree leaf htsig m j
  let own := htMsg p S pub sk tree (forsPk p S pub sk tree leaf) j
  (lengths p cand).getD i 0 < (lengths p own).getD i 0 ∧
    chunk p.n (htsig.drop (j * xmssBytes p)) i =
      chainValue S pub sk j (treeAt p tree j) (leafAt p tree leaf j) i ((lengths p cand).getD i 0)

end Spx.Spec
