import Verif.Spec.Bytes
import Verif.Spec.Merkle
/-!
# Specification of SPHINCS+

Written from the SPHINCS+ submission document (round 3.1): hash addresses, WOTS+, hypertree,
FORS and the signature scheme, as recursive functions over byte strings.  Everything is
parameterised by the tweakable hash functions.  No file of the model is imported.
-/

namespace Spx.Spec

/-- Parameters: security parameter `n`, hypertree height `h`, layers `d`, FORS trees `k` of
height `a`, Winternitz parameter `w = 2 ^ lgw`. -/
structure Par where
  n : Nat
  h : Nat
  d : Nat
  a : Nat
  k : Nat
  lgw : Nat
  deriving DecidableEq, Repr

namespace Par
/-- Winternitz parameter. -/
def w (p : Par) : Nat := 2 ^ p.lgw
/-- Number of message digits. -/
def len1 (p : Par) : Nat := 8 * p.n / p.lgw
/-- Largest possible checksum. -/
def maxChecksum (p : Par) : Nat := p.len1 * (p.w - 1)
/-- Number of checksum digits: `⌊log_w (len1 * (w-1))⌋ + 1`. -/
def len2 (p : Par) : Nat := Nat.log2 p.maxChecksum / p.lgw + 1
/-- Number of WOTS+ chains. -/
def len (p : Par) : Nat := p.len1 + p.len2
/-- Height of one hypertree layer. -/
def h' (p : Par) : Nat := p.h / p.d
/-- Signature size in bytes. -/
def sigBytes (p : Par) : Nat := (1 + p.k * (p.a + 1) + p.h + p.d * p.len) * p.n
end Par

/-- A hash address. `w1` is the key pair, `w2` the chain or the height, `w3` the hash step or the
node index. -/
structure ADRS where
  layer : Nat
  tree : Nat
  typ : Nat
  w1 : Nat
  w2 : Nat
  w3 : Nat
  deriving DecidableEq, Repr

/-- Address types. -/
def WOTS_HASH := 0
def WOTS_PK := 1
def TREE := 2
def FORS_TREE := 3
def FORS_ROOTS := 4
def WOTS_PRF := 5
def FORS_PRF := 6

/-- The hash functions a SPHINCS+ instance is built from. `T` is the tweakable hash (`F`, `H` and
`T_l` by the length of the input). -/
structure Hash where
  T : (pubSeed : Bytes) → ADRS → Bytes → Bytes
  PRF : (pubSeed skSeed : Bytes) → ADRS → Bytes
  PRFmsg : (pubSeed skPrf optrand m : Bytes) → Bytes
  Hmsg : (R pubSeed root m : Bytes) → Nat → Bytes

/-- Base-`2^lgw` digits of `x`, most significant first. -/
def digits (lgw len x : Nat) : List Nat :=
  (List.range len).map fun i => x / 2 ^ (lgw * (len - 1 - i)) % 2 ^ lgw

/-- Checksum of a digit list. -/
def checksum (p : Par) (ds : List Nat) : Nat := (ds.map fun x => p.w - 1 - x).sum

/-- WOTS+ chain lengths for an `n`-byte message. -/
def lengths (p : Par) (m : Bytes) : List Nat :=
  let ds := digits p.lgw p.len1 (beNat m)
  ds ++ digits p.lgw p.len2 (checksum p ds)

/-- `steps` applications of the step functions `F start, F (start+1), …`. -/
def chain (F : Nat → Bytes → Bytes) (x : Bytes) (start : Nat) : Nat → Bytes
  | 0 => x
  | s + 1 => F (start + s) (chain F x start s)

section
variable (p : Par) (S : Hash) (pub sk : Bytes)

/-- WOTS+ chain step `j` of chain `i` of key pair `kp`. -/
def wotsF (layer tree kp i : Nat) (j : Nat) (x : Bytes) : Bytes :=
  S.T pub ⟨layer, tree, WOTS_HASH, kp, i, j⟩ x

/-- Secret start value of chain `i`. -/
def wotsSk (layer tree kp i : Nat) : Bytes := S.PRF pub sk ⟨layer, tree, WOTS_PRF, kp, i, 0⟩

/-- Compressed WOTS+ public key: the leaf `kp` of tree `tree` in layer `layer`. -/
def wotsPk (layer tree kp : Nat) : Bytes :=
  S.T pub ⟨layer, tree, WOTS_PK, kp, 0, 0⟩
    (cat p.len fun i => chain (wotsF S pub layer tree kp i) (wotsSk S pub sk layer tree kp i) 0 (p.w - 1))

/-- WOTS+ signature of the `n`-byte message `m`. -/
def wotsSig (layer tree kp : Nat) (m : Bytes) : Bytes :=
  cat p.len fun i =>
    chain (wotsF S pub layer tree kp i) (wotsSk S pub sk layer tree kp i) 0 ((lengths p m).getD i 0)

/-- Compressed WOTS+ public key recovered from a signature. -/
def wotsPkFromSig (layer tree kp : Nat) (sig m : Bytes) : Bytes :=
  S.T pub ⟨layer, tree, WOTS_PK, kp, 0, 0⟩
    (cat p.len fun i =>
      chain (wotsF S pub layer tree kp i) (chunk p.n sig i) ((lengths p m).getD i 0)
        (p.w - 1 - (lengths p m).getD i 0))

/-- Inner node function of a hypertree subtree. -/
def treeH (layer tree : Nat) (h i : Nat) (l r : Bytes) : Bytes :=
  S.T pub ⟨layer, tree, TREE, 0, h, i⟩ (l ++ r)

/-- Root of subtree `tree` in layer `layer`. -/
def xmssRoot (layer tree : Nat) : Bytes :=
  node (treeH S pub layer tree) (wotsPk p S pub sk layer tree) p.h' 0

/-- Signature of one layer: WOTS+ signature followed by the authentication path. -/
def xmssSig (layer tree leaf : Nat) (m : Bytes) : Bytes :=
  wotsSig p S pub sk layer tree leaf m ++
    authPath (treeH S pub layer tree) (wotsPk p S pub sk layer tree) p.h' leaf

/-- Candidate root of one layer from a layer signature. -/
def xmssRootFromSig (layer tree leaf : Nat) (sig m : Bytes) : Bytes :=
  climb (treeH S pub layer tree) leaf (chunk p.n (sig.drop (p.len * p.n)))
    (wotsPkFromSig p S pub layer tree leaf sig m) p.h'

/-- Tree index at layer `j` on the way up from tree `tree` at layer 0. -/
def treeAt (tree j : Nat) : Nat := tree / 2 ^ (p.h' * j)

/-- Leaf index at layer `j`: the given one at layer 0, then the position of the tree below. -/
def leafAt (tree leaf : Nat) : Nat → Nat
  | 0 => leaf
  | j + 1 => treeAt p tree j % 2 ^ p.h'

/-- Value signed at layer `j`: the FORS public key, then the root of the tree below. -/
def htMsg (tree : Nat) (m : Bytes) : Nat → Bytes
  | 0 => m
  | j + 1 => xmssRoot p S pub sk j (treeAt p tree j)

/-- Hypertree signature. -/
def htSig (tree leaf : Nat) (m : Bytes) : Bytes :=
  cat p.d fun j =>
    xmssSig p S pub sk j (treeAt p tree j) (leafAt p tree leaf j) (htMsg p S pub sk tree m j)

/-- Length of one layer signature. -/
def xmssBytes : Nat := p.len * p.n + p.h' * p.n

/-- Root candidates while verifying a hypertree signature, after `j` layers. -/
def htRoot (tree leaf : Nat) (sig m : Bytes) : Nat → Bytes
  | 0 => m
  | j + 1 => xmssRootFromSig p S pub j (treeAt p tree j) (leafAt p tree leaf j)
      (sig.drop (j * xmssBytes p)) (htRoot tree leaf sig m j)

/-- Secret FORS value number `i` (trees are numbered consecutively). -/
def forsSk (tree kp i : Nat) : Bytes := S.PRF pub sk ⟨0, tree, FORS_PRF, kp, 0, i⟩

/-- FORS leaf from its secret value. -/
def forsLeafOf (tree kp i : Nat) (s : Bytes) : Bytes := S.T pub ⟨0, tree, FORS_TREE, kp, 0, i⟩ s

/-- FORS leaf number `i`. -/
def forsLeaf (tree kp i : Nat) : Bytes := forsLeafOf S pub tree kp i (forsSk S pub sk tree kp i)

/-- Inner node function of the FORS trees; indices count across trees. -/
def forsH (tree kp : Nat) (h i : Nat) (l r : Bytes) : Bytes :=
  S.T pub ⟨0, tree, FORS_TREE, kp, h, i⟩ (l ++ r)

/-- FORS index of tree `i`: digest bits `i*a … i*a+a-1`, where bit `b` of the digest is bit `b % 8`
of byte `b / 8`, and the first bit is the least significant one. -/
def forsIdx (md : Bytes) (i : Nat) : Nat := leNat md / 2 ^ (p.a * i) % 2 ^ p.a

/-- FORS signature of the digest `md`. -/
def forsSig (tree kp : Nat) (md : Bytes) : Bytes :=
  cat p.k fun i =>
    let j := i * 2 ^ p.a + forsIdx p md i
    forsSk S pub sk tree kp j ++ authPath (forsH S pub tree kp) (forsLeaf S pub sk tree kp) p.a j

/-- FORS public key. -/
def forsPk (tree kp : Nat) : Bytes :=
  S.T pub ⟨0, tree, FORS_ROOTS, kp, 0, 0⟩
    (cat p.k fun i => node (forsH S pub tree kp) (forsLeaf S pub sk tree kp) p.a i)

/-- FORS public key candidate recovered from a signature. -/
def forsPkFromSig (tree kp : Nat) (sig md : Bytes) : Bytes :=
  S.T pub ⟨0, tree, FORS_ROOTS, kp, 0, 0⟩
    (cat p.k fun i =>
      let j := i * 2 ^ p.a + forsIdx p md i
      let s := sig.drop (i * ((p.a + 1) * p.n))
      climb (forsH S pub tree kp) j (chunk p.n (s.drop p.n))
        (forsLeafOf S pub tree kp j (s.take p.n)) p.a)

end

/-- Bytes of the digest used for FORS, for the tree index and for the leaf index. -/
def mdBytes (p : Par) : Nat := (p.k * p.a + 7) / 8
def treeBytes (p : Par) : Nat := (p.h' * (p.d - 1) + 7) / 8
def leafBytes (p : Par) : Nat := (p.h' + 7) / 8
def digestBytes (p : Par) : Nat := mdBytes p + treeBytes p + leafBytes p

/-- Split the message digest into FORS digest, tree index and leaf index. -/
def splitDigest (p : Par) (dg : Bytes) : Bytes × Nat × Nat :=
  (dg.take (mdBytes p),
   beNat ((dg.drop (mdBytes p)).take (treeBytes p)) % 2 ^ (p.h' * (p.d - 1)),
   beNat ((dg.drop (mdBytes p + treeBytes p)).take (leafBytes p)) % 2 ^ p.h')

/-- Secret key: `SK.seed ‖ SK.prf ‖ PK.seed ‖ PK.root` from a seed. -/
def skOf (p : Par) (S : Hash) (seed : Bytes) : Bytes :=
  seed ++ xmssRoot p S ((seed.drop (2 * p.n)).take p.n) (seed.take p.n) (p.d - 1) 0

/-- Public key: `PK.seed ‖ PK.root` from a seed. -/
def pkOf (p : Par) (S : Hash) (seed : Bytes) : Bytes :=
  (seed.drop (2 * p.n)).take p.n ++
    xmssRoot p S ((seed.drop (2 * p.n)).take p.n) (seed.take p.n) (p.d - 1) 0

/-- Signature of `m` under secret key `sk` with randomness `optrand`. -/
def sign (p : Par) (S : Hash) (sk optrand m : Bytes) : Bytes :=
  let skSeed := sk.take p.n
  let skPrf := (sk.drop p.n).take p.n
  let pub := (sk.drop (2 * p.n)).take p.n
  let root := (sk.drop (3 * p.n)).take p.n
  let R := S.PRFmsg pub skPrf optrand m
  let (md, tree, leaf) := splitDigest p (S.Hmsg R pub root m (digestBytes p))
  R ++ forsSig p S pub skSeed tree leaf md ++
    htSig p S pub skSeed tree leaf (forsPk p S pub skSeed tree leaf)

/-- Size of the FORS part. -/
def forsBytes (p : Par) : Nat := p.k * ((p.a + 1) * p.n)

/-- Verification predicate on a signature of the right length. -/
def verify (p : Par) (S : Hash) (pk m sig : Bytes) : Bool :=
  let pub := pk.take p.n
  let root := (pk.drop p.n).take p.n
  let R := sig.take p.n
  let (md, tree, leaf) := splitDigest p (S.Hmsg R pub root m (digestBytes p))
  let fpk := forsPkFromSig p S pub tree leaf (sig.drop p.n) md
  htRoot p S pub tree leaf (sig.drop (p.n + forsBytes p)) fpk p.d == root

end Spx.Spec
