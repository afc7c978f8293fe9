import Verif.Spec.Bytes
/-! # The sponge construction on byte strings

FIPS 202, section 4 (sponge) and 5.1 (pad10*1), for messages, rates and outputs in whole bytes.
Used for SHAKE256 (state 200 bytes, rate 136) and Haraka-S (state 64 bytes, rate 32). -/

namespace Spx.Spec

/-- Exclusive or of a block into the beginning of the state. -/
def xorInto (s blk : Bytes) : Bytes := xorBytes s blk ++ s.drop blk.length

/-- The state after absorbing the first `k` blocks of size `r` of `m`. -/
def absorbBlocks (f : Bytes → Bytes) (r : Nat) (s : Bytes) (m : Bytes) : Nat → Bytes
  | 0 => s
  | k + 1 => f (xorInto (absorbBlocks f r s m k) (chunk r m k))

/-- Padding for a message of `len` bytes: the domain bits `dom` (including the first padding bit),
zeros, and the final bit, filling the last block of size `r`. -/
def padding (r : Nat) (dom : Byte) (len : Nat) : Bytes :=
  let q := r - len % r
  if q = 1 then [dom ^^^ 0x80#8] else dom :: (List.replicate (q - 2) 0#8 ++ [0x80#8])

/-- `f` applied `k` times. -/
def iter {α : Type} (f : α → α) : Nat → α → α
  | 0, x => x
  | k + 1, x => f (iter f k x)

/-- The first `outlen` bytes squeezed from state `s`: whole blocks of `r` bytes with `f` between. -/
def squeeze (f : Bytes → Bytes) (r : Nat) (s : Bytes) (outlen : Nat) : Bytes :=
  (List.range outlen).map fun j => (iter f (j / r) s).getD (j % r) 0

/-- Sponge with permutation `f` on `b` bytes, rate `r`, domain byte `dom`. -/
def sponge (f : Bytes → Bytes) (b r : Nat) (dom : Byte) (m : Bytes) (outlen : Nat) : Bytes :=
  let x := m ++ padding r dom m.length
  squeeze f r (absorbBlocks f r (List.replicate b 0#8) x (x.length / r)) outlen

end Spx.Spec
