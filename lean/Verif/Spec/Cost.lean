import Verif.BaseFn
import Verif.Spec.Sphincs
/-! # How many calls of the hash functions the scheme takes

The numbers of calls when every tree on the way is computed in full, every WOTS+ chain from end to end (section
"Theoretical performance estimates" of the SPHINCS+ submission, where `F`, `H` and `T_l` are the tweakable hash of 1, 2 and
`l` blocks). -/

namespace Spx.Spec

/-- A list of calls with their numbers; the total of one function. -/
def total (l : List (Nat × Fn)) (f : Fn) : Nat := (l.map fun e => if e.2 = f then e.1 else 0).sum

/-- What a list of calls costs, when a call of `f` costs `κ f`. -/
def weigh (κ : Fn → Nat) (l : List (Nat × Fn)) : Nat := (l.map fun e => e.1 * κ e.2).sum

variable (p : Par)

/-- The leaf of a hypertree subtree: `len` chains and the compression of their ends. -/
def leafCost : List (Nat × Fn) := [(p.len, .prf), (p.len * (p.w - 1), .thash 1), (1, .thash p.len)]

/-- `m` times a list of calls. -/
def times (m : Nat) (l : List (Nat × Fn)) : List (Nat × Fn) := l.map fun e => (m * e.1, e.2)

/-- A subtree: all its leaves and inner nodes. -/
def xmssCost : List (Nat × Fn) := times (2 ^ p.h') (leafCost p) ++ [(2 ^ p.h' - 1, .thash 2)]

/-- A FORS signature: the secret values revealed, all leaves and inner nodes of all trees, the compression of the roots. -/
def forsCost : List (Nat × Fn) :=
  [(p.k, .prf), (p.k * 2 ^ p.a, .prf), (p.k * 2 ^ p.a, .thash 1), (p.k * (2 ^ p.a - 1), .thash 2), (1, .thash p.k)]

/-- Key generation: the subtree on top. -/
def keygenCost : List (Nat × Fn) := (1, .init) :: xmssCost p

/-- Signing: randomiser, digest, FORS and the subtrees on the way. -/
def signCost : List (Nat × Fn) := [(1, .init), (1, .rand), (1, .msg)] ++ forsCost p ++ times p.d (xmssCost p)

/-- What is left of the chains when the value `m` has been signed. -/
def chainRest (m : Bytes) : Nat := ((lengths p m).map fun x => p.w - 1 - x).sum

/-- Verification: digest, FORS leaves and authentication paths, and on every layer the rest of the chains, at the cost given
for the value they sign, their compression and the authentication path. -/
def verifyCostWith (chains : Bytes → List (Nat × Fn)) (S : Hash) (pk m sig : Bytes) : List (Nat × Fn) :=
  let pub := pk.take p.n
  let root := (pk.drop p.n).take p.n
  let (md, tree, leaf) := splitDigest p (S.Hmsg (sig.take p.n) pub root m (digestBytes p))
  let fpk := forsPkFromSig p S pub tree leaf (sig.drop p.n) md
  [(1, .init), (1, .msg), (p.k, .thash 1), (p.k * p.a, .thash 2), (1, .thash p.k)] ++ (List.range p.d).flatMap fun j =>
    chains (htRoot p S pub tree leaf (sig.drop (p.n + forsBytes p)) fpk j) ++ [(1, .thash p.len), (p.h', .thash 2)]

/-- One chain after the other. -/
def verifyCost : Hash → Bytes → Bytes → Bytes → List (Nat × Fn) :=
  verifyCostWith p fun m => [(chainRest p m, .thash 1)]

/-! ### `2 ^ lg` lanes -/

/-- A tree of height `h` computed by a function for `2 ^ lg` nodes at a time, the last `lg` levels one by one. -/
def treeCostX (lg h : Nat) : Nat := 2 ^ (h - lg) - 1 + lg

/-- A subtree. -/
def xmssCostX (lg : Nat) : List (Nat × Fn) :=
  times (2 ^ (p.h' - lg)) [(p.len, .prfx), (p.len * (p.w - 1), .thashx 1), (1, .thashx p.len)] ++
    [(treeCostX lg p.h', .thashx 2)]

/-- A FORS signature. -/
def forsCostX (lg : Nat) : List (Nat × Fn) :=
  [(p.k, .prf), (p.k * 2 ^ (p.a - lg), .prfx), (p.k * 2 ^ (p.a - lg), .thashx 1), (p.k * treeCostX lg p.a, .thashx 2),
    (1, .thash p.k)]

/-- Key generation -/
def keygenCostX (lg : Nat) : List (Nat × Fn) := (1, .init) :: xmssCostX p lg

/-- Signing -/
def signCostX (lg : Nat) : List (Nat × Fn) :=
  [(1, .init), (1, .rand), (1, .msg)] ++ forsCostX p lg ++ times p.d (xmssCostX p lg)

/-- The rests of the chains, the longest first, in groups of `2 ^ lg`: a group takes as many calls as its longest rest. -/
def chainRestX (lg : Nat) (m : Bytes) : Nat :=
  let rests := ((lengths p m).map fun x => p.w - 1 - x).mergeSort fun a b => b ≤ a
  ((List.range ((p.len + 2 ^ lg - 1) / 2 ^ lg)).map fun t => rests.getD (t * 2 ^ lg) 0).sum

/-- Verification -/
def verifyCostX (lg : Nat) : Hash → Bytes → Bytes → Bytes → List (Nat × Fn) :=
  verifyCostWith p fun m => [(chainRestX p lg m, .thashx 1)]

end Spx.Spec
