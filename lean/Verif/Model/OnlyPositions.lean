import Verif.Model.ParamSets
import Verif.Spec.Calls
import Verif.Proof.Address
/-! # Hash code replaced outside the positions of the scheme

Not in /repo.  `onlyPositions P H T' F'` behaves as the hash code `H` where the scheme applies its hash functions, and
returns the bytes of `T'` and `F'` for every other address or input length.  It states that a program does not make
other calls: the program computes the same with both. -/

namespace Spx
open Spec

open Classical in
/-- `H` at the addresses of the valid positions and on inputs of the length hashed there, `T'` and `F'` elsewhere. -/
noncomputable def onlyPositions (P : Params) (H : HashImpl) (T' : Bytes → Addr → Bytes → Bytes)
    (F' : Bytes → Bytes → Addr → Bytes) : HashImpl :=
  { H with
    thash := fun inp blocks ctx addr =>
      if ∃ q : Position, q.Valid P.toSpec ∧ q.isPrf = false ∧ addr = enc P.fam q.adrs ∧ blocks * P.n = q.inLen P.toSpec
      then H.thash inp blocks ctx addr
      else .ok (T' ctx.pub_seed addr (inp.take (blocks * P.n)))
    prf_addr := fun ctx addr =>
      if ∃ q : Position, q.Valid P.toSpec ∧ q.isPrf = true ∧ addr = enc P.fam q.adrs then H.prf_addr ctx addr
      else .ok (F' ctx.pub_seed ctx.sk_seed addr) }

end Spx
