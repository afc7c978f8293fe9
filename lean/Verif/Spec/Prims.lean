import Verif.Spec.Cost
/-! # How many calls of the primitives the hash functions take

The numbers follow from the padding rules of FIPS 202 and FIPS 180-4, the definitions of HMAC and MGF1 and the constructions
of the SPHINCS+ submission, section 7.2; `mlen` is the length of the message. -/

namespace Spx.Spec

variable (p : Par) (robust : Bool) (mlen : Nat)

/-- SHAKE256 and the Haraka sponge with rate `r`: `i` bytes of input make `⌊i / r⌋ + 1` blocks after padding, with a
permutation after each; `o` bytes of output need further permutations if there is more than one block. -/
def spongePerms (r i o : Nat) : Nat := i / r + (o + r - 1) / r

/-! ### SHAKE -/

/-- SHAKE256, one lane -/
def shake (i o : Nat) : List (Nat × Fn) := [(spongePerms 136 i o, .keccak)]

/-- The functions of the SHAKE instances -/
def shakePrims : Fn → List (Nat × Fn)
  | .prf => shake (2 * p.n + 32) p.n
  | .thash b => (if robust then shake (p.n + 32) (b * p.n) else []) ++ shake (p.n + 32 + b * p.n) p.n
  | .rand => shake (2 * p.n + mlen) p.n
  | .msg => shake (3 * p.n + mlen) (digestBytes p)
  | _ => []

/-! ### SHA-2 -/

/-- Hashing `len` bytes: a byte 0x80, zeros and the length of the message in 8 or 16 bytes make a whole number of blocks
of 64 or 128 bytes. -/
def sha (big : Bool) (len : Nat) : List (Nat × Fn) :=
  if big then [((len + 16) / 128 + 1, .sha512)] else [((len + 8) / 64 + 1, .sha256)]

/-- MGF1: the input with a counter of four bytes for every block of output -/
def mgf (big : Bool) (i o : Nat) : List (Nat × Fn) :=
  times (if big then (o + 63) / 64 else (o + 31) / 32) (sha big (i + 4))

/-- HMAC: one block of key and the message, one block of key and the digest -/
def hmac (big : Bool) (len : Nat) : List (Nat × Fn) :=
  if big then sha true (128 + len) ++ sha true (128 + 64) else sha false (64 + len) ++ sha false (64 + 32)

/-- The functions of the SHA-2 instances.  The block with the public seed is hashed once, when the functions are
initialised. -/
def sha2Prims : Fn → List (Nat × Fn)
  | .init => (1, .sha256) :: if 24 ≤ p.n then [(1, .sha512)] else []
  | .prf => sha false (22 + p.n)
  | .thash b =>
    (if robust then mgf (decide (24 ≤ p.n ∧ 1 < b)) (p.n + 22) (b * p.n) else []) ++
      sha (decide (24 ≤ p.n ∧ 1 < b)) (22 + b * p.n)
  | .rand => hmac (decide (24 ≤ p.n)) (p.n + mlen)
  | .msg => sha (decide (24 ≤ p.n)) (3 * p.n + mlen) ++
      mgf (decide (24 ≤ p.n)) (2 * p.n + if 24 ≤ p.n then 64 else 32) (digestBytes p)
  | _ => []

/-! ### Haraka -/

/-- The sponge, one lane -/
def harakaS (i o : Nat) : List (Nat × Fn) := [(spongePerms 32 i o, .haraka512)]

/-- The functions of the Haraka instances; the constants are derived from the public seed when the functions are
initialised. -/
def harakaPrims : Fn → List (Nat × Fn)
  | .init => harakaS p.n 640
  | .prf => [(1, .haraka512)]
  | .thash b =>
    if b = 1 then (if robust then [(1, .haraka256)] else []) ++ [(1, .haraka512)]
    else (if robust then harakaS 32 (b * p.n) else []) ++ harakaS (32 + b * p.n) p.n
  | .rand => harakaS (2 * p.n + mlen) p.n
  | .msg => harakaS (2 * p.n + mlen) (digestBytes p)
  | _ => []

/-! ### Several lanes

A primitive for several lanes counts once. -/

/-- SHAKE256 -/
def shakex (i o : Nat) : List (Nat × Fn) := [(spongePerms 136 i o, .keccakx)]

/-- SHAKE with lanes for `prfx` and `thashx` -/
def shakePrimsX : Fn → List (Nat × Fn)
  | .prfx => shakex (2 * p.n + 32) p.n
  | .thashx b => (if robust then shakex (p.n + 32) (b * p.n) else []) ++ shakex (p.n + 32 + b * p.n) p.n
  | f => shakePrims p robust mlen f

/-- SHAKE with lanes also for a single `thash` -/
def shakePrimsXX : Fn → List (Nat × Fn)
  | .thash b => shakePrimsX p robust mlen (.thashx b)
  | f => shakePrimsX p robust mlen f

/-- The sponge -/
def harakaSx (i o : Nat) : List (Nat × Fn) := [(spongePerms 32 i o, .haraka512x)]

/-- Haraka with lanes for `prfx` and `thashx` -/
def harakaPrimsX : Fn → List (Nat × Fn)
  | .prfx => [(1, .haraka512x)]
  | .thashx b =>
    if b = 1 then (if robust then [(1, .haraka256x)] else []) ++ [(1, .haraka512x)]
    else (if robust then harakaSx 32 (b * p.n) else []) ++ harakaSx (32 + b * p.n) p.n
  | f => harakaPrims p robust mlen f

/-- Hashing `len` bytes in eight lanes; SHA-512 has four lanes and is run twice. -/
def shax (big : Bool) (len : Nat) : List (Nat × Fn) :=
  if big then times 2 [((len + 16) / 128 + 1, .sha512x)] else [((len + 8) / 64 + 1, .sha256x)]

/-- MGF1.  With SHA-256 a last block is always computed, also if no byte of it is needed. -/
def mgfx (big : Bool) (i o : Nat) : List (Nat × Fn) :=
  times (if big then (o + 63) / 64 else o / 32 + 1) (shax big (i + 4))

/-- SHA-2 with lanes for `prfx` and `thashx` -/
def sha2PrimsX : Fn → List (Nat × Fn)
  | .prfx => shax false (22 + p.n)
  | .thashx b =>
    (if robust then mgfx (decide (24 ≤ p.n ∧ 1 < b)) (p.n + 22) (b * p.n) else []) ++
      shax (decide (24 ≤ p.n ∧ 1 < b)) (22 + b * p.n)
  | f => sha2Prims p robust mlen f

end Spx.Spec
