import Verif.Spec.Forgery
/-! # What two messages with one signature show

For a public key that anybody may have made, honestly or not. -/

namespace Spx.Spec

/-- Two calls of the tweakable hash on different inputs of the same length, where the address counts as
part of the input, that have the same output. -/
def Collide (S : Hash) (pub : Bytes) (c c' : HashCall) : Prop :=
  (c.1.adrs, c.2) ≠ (c'.1.adrs, c'.2) ∧ c.2.length = c'.2.length ∧
    S.T pub c.1.adrs c.2 = S.T pub c'.1.adrs c'.2

section
variable (p : Par) (S : Hash) (pk m sig m' sig' : Bytes)

/-- A chain that comes back: verification for the first message starts chain `i` of layer `j` at an
earlier step than for the second, and by the step where the second starts the chain has returned to the
value in the signature, where both started. -/
def ChainReturns (j i : Nat) : Prop :=
  let k := wotsKey p S pk m sig j
  let v := shownChain p sig j i
  let a := shownStep p S pk m sig j i
  let b := shownStep p S pk m' sig' j i
  a < b ∧ b ≤ p.w - 1 ∧ chain (wotsF S (pk.take p.n) j k.1 k.2 i) v a (b - a) = v

/-- The digests of the two pairs of `R` and message select the same FORS key and the same leaves. -/
def SameSelection : Prop :=
  forsKey p S pk m sig = forsKey p S pk m' sig' ∧
    ∀ i, i < p.k → forsPick p S pk m sig i = forsPick p S pk m' sig' i

end

end Spx.Spec
