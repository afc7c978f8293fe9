import Verif.Model.ThashMem
import Verif.Proof.Mem
import Verif.Proof.Ready
/-! `thash` over memory reads the whole input before it writes the output. -/

namespace Spx
open Spec

namespace Mem

theorem rd1_of_rd {M : Mem} {p len : Nat} {d : Bytes} (h : M.rd p len = .ok d) {i : Nat} (hi : i < len) :
    M.rd1 p i = Spx.rd1 d i := by
  obtain ⟨hl, hd⟩ := rd_eq_iff.mp h
  unfold Mem.rd1
  rw [hd i hi, List.getElem?_eq_getElem (by omega), rd1_ok (by omega)]

end Mem

theorem rd_whole {d : Bytes} {k : Nat} (h : d.length = k) : Spx.rd d 0 k = .ok d := by
  rw [rd_ok (by omega), List.drop_zero, List.take_of_length_le (by omega)]

variable {P : Params} {g : Nat → Nat → Byte} {M : Mem} {out inp blocks : Nat} {ctx : Ctx} {addr : Addr} {d : Bytes}

theorem sha2_simple_X_mem {wb : Nat} (c : Sha2.Cfg wb) (seeded : Bytes) (h : M.rd inp (blocks * P.n) = .ok d) :
    Sha2.thash_simple_X_mem P g c M out inp blocks seeded addr =
      (Sha2.thash_simple_X P g c d blocks seeded addr >>= fun r => M.wr out r) := by
  have hl := Mem.rd_length h
  unfold Sha2.thash_simple_X_mem Sha2.thash_simple_X
  simp only [bind_assoc, h, rd_whole hl]

theorem sha2_robust_X_mem {wb : Nat} (c : Sha2.Cfg wb) (extra : Nat) (seeded pub : Bytes)
    (h : M.rd inp (blocks * P.n) = .ok d) :
    Sha2.thash_robust_X_mem P g c extra M out inp blocks seeded pub addr =
      (Sha2.thash_robust_X P g c extra d blocks seeded pub addr >>= fun r => M.wr out r) := by
  unfold Sha2.thash_robust_X_mem Sha2.thash_robust_X
  have e : ∀ (bm buf : Bytes) (o : Nat), forRange (blocks * P.n) (fun i buf => do
      wr1 buf (o + i) ((← M.rd1 inp i) ^^^ (← Spx.rd1 bm i))) buf =
      forRange (blocks * P.n) (fun i buf => do
      wr1 buf (o + i) ((← Spx.rd1 d i) ^^^ (← Spx.rd1 bm i))) buf := by
    intro bm buf o
    apply forRange_congr
    intro i s hi
    rw [Mem.rd1_of_rd h hi]
  simp only [bind_assoc, e]

theorem shake_simple_mem (h : M.rd inp (blocks * P.n) = .ok d) :
    Shake.thash_simple_mem P g M out inp blocks ctx addr =
      (Shake.thash_simple P g d blocks ctx addr >>= fun r => M.wr out r) := by
  have hl := Mem.rd_length h
  unfold Shake.thash_simple_mem Shake.thash_simple
  simp only [bind_assoc, h, rd_whole hl]

theorem shake_robust_mem (h : M.rd inp (blocks * P.n) = .ok d) :
    Shake.thash_robust_mem P g M out inp blocks ctx addr =
      (Shake.thash_robust P g d blocks ctx addr >>= fun r => M.wr out r) := by
  unfold Shake.thash_robust_mem Shake.thash_robust
  have e : ∀ (bm buf : Bytes) (o : Nat), forRange (blocks * P.n) (fun i buf => do
      wr1 buf (o + i) ((← M.rd1 inp i) ^^^ (← Spx.rd1 bm i))) buf =
      forRange (blocks * P.n) (fun i buf => do
      wr1 buf (o + i) ((← Spx.rd1 d i) ^^^ (← Spx.rd1 bm i))) buf := by
    intro bm buf o
    apply forRange_congr
    intro i s hi
    rw [Mem.rd1_of_rd h hi]
  simp only [bind_assoc, e]

theorem haraka_simple_mem (h : M.rd inp (blocks * P.n) = .ok d) :
    Haraka.thash_simple_mem P g M out inp blocks ctx addr =
      (Haraka.thash_simple Haraka.refLib P g d blocks ctx addr >>= fun r => M.wr out r) := by
  have hl := Mem.rd_length h
  unfold Haraka.thash_simple_mem Haraka.thash_simple
  by_cases hb : blocks = 1
  · subst hb
    rw [Nat.one_mul] at h hl
    simp only [bind_assoc, if_true, h, rd_whole hl]
  · simp only [bind_assoc, hb, if_false, h, rd_whole hl]

theorem haraka_robust_mem (h : M.rd inp (blocks * P.n) = .ok d) :
    Haraka.thash_robust_mem P g M out inp blocks ctx addr =
      (Haraka.thash_robust Haraka.refLib P g d blocks ctx addr >>= fun r => M.wr out r) := by
  unfold Haraka.thash_robust_mem Haraka.thash_robust
  have e : ∀ (bm buf : Bytes) (o : Nat), forRange (blocks * P.n) (fun i buf => do
      wr1 buf (o + i) ((← M.rd1 inp i) ^^^ (← Spx.rd1 bm i))) buf =
      forRange (blocks * P.n) (fun i buf => do
      wr1 buf (o + i) ((← Spx.rd1 d i) ^^^ (← Spx.rd1 bm i))) buf := by
    intro bm buf o
    apply forRange_congr
    intro i s hi
    rw [Mem.rd1_of_rd h hi]
  by_cases hb : blocks = 1
  · simp only [bind_assoc, if_pos hb, e]
  · simp only [bind_assoc, if_neg hb, e]

/-- `thash` on memory is `thash` on the bytes of the input, followed by one write. -/
theorem thash_mem_eq (h : M.rd inp (blocks * P.n) = .ok d) :
    thash_mem P g M out inp blocks ctx addr =
      ((implOf P g).thash d blocks ctx addr >>= fun r => M.wr out r) := by
  unfold thash_mem implOf
  cases hf : P.fam <;> cases hr : P.robust <;> dsimp only
  · simp only [Sha2.impl, hr, Sha2.thash_simple_mem, Sha2.thash_simple, Bool.false_eq_true, if_false]
    split
    · exact sha2_simple_X_mem _ _ h
    · exact sha2_simple_X_mem _ _ h
  · simp only [Sha2.impl, hr, Sha2.thash_robust_mem, Sha2.thash_robust, if_true]
    split
    · exact sha2_robust_X_mem _ _ _ _ h
    · exact sha2_robust_X_mem _ _ _ _ h
  · simp only [Shake.impl, hr, Bool.false_eq_true, if_false]
    exact shake_simple_mem h
  · simp only [Shake.impl, hr, if_true]
    exact shake_robust_mem h
  · simp only [Haraka.impl, Haraka.implWith, hr, Bool.false_eq_true, if_false]
    exact haraka_simple_mem h
  · simp only [Haraka.impl, Haraka.implWith, hr, if_true]
    exact haraka_robust_mem h

end Spx
