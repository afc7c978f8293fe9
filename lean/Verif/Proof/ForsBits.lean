import Verif.Proof.Fors
import Verif.Spec.Digits
/-! The bits of a FORS index. -/

namespace Spx
open Spec

theorem testBit_forsIdx {P : Params} {m : Bytes} (hm : P.forsTrees * P.forsHeight ≤ 8 * m.length) {i j : Nat}
    (hi : i < P.forsTrees) (hj : j < P.forsHeight) :
    (forsIdx P.toSpec m i).testBit j = bitAt m (i * P.forsHeight + j) := by
  have hmul : (i + 1) * P.forsHeight ≤ P.forsTrees * P.forsHeight := Nat.mul_le_mul_right _ hi
  rw [Nat.succ_mul] at hmul
  have ho : (i * P.forsHeight + j) / 8 < m.length := by omega
  unfold forsIdx bitAt
  change (leNat m / 2 ^ (P.forsHeight * i) % 2 ^ P.forsHeight).testBit j = _
  rw [Nat.testBit_mod_two_pow, Nat.testBit_div_two_pow, decide_eq_true hj, Bool.true_and, Nat.mul_comm, Nat.add_comm j,
    getD_lt ho, Nat.testBit_eq_decide_div_mod_eq, leNat_bit m ho]
  rw [BitVec.getLsbD, Nat.testBit_eq_decide_div_mod_eq]

end Spx
