import Verif.Proof.Digits
import Verif.Spec.Digits
/-! Why the WOTS checksum works. -/

namespace Spx
open Spec

theorem ofDigits_append (w : Nat) (ds : List Nat) (d : Nat) : ofDigits w (ds ++ [d]) = ofDigits w ds * w + d := by
  simp [ofDigits]

/-- The digits the specification speaks of denote the number modulo `w^k`. -/
theorem ofDigits_digits (lgw k x : Nat) : ofDigits (2 ^ lgw) (digits lgw k x) = x % (2 ^ lgw) ^ k := by
  suffices h : ∀ j, j ≤ k → ofDigits (2 ^ lgw) ((List.range j).map fun i => x / 2 ^ (lgw * (k - 1 - i)) % 2 ^ lgw) =
      x / 2 ^ (lgw * (k - j)) % (2 ^ lgw) ^ j by
    have := h k (Nat.le_refl k)
    simpa [digits] using this
  intro j
  induction j with
  | zero => intro _; simp [ofDigits, Nat.mod_one]
  | succ j ih =>
    intro hj
    rw [List.range_succ, List.map_append, List.map_singleton, ofDigits_append, ih (by omega),
      show k - 1 - j = k - (j + 1) by omega, show k - j = (k - (j + 1)) + 1 by omega, Nat.mul_add, Nat.pow_add,
      ← Nat.div_div_eq_div_mul, Nat.mul_one, Nat.pow_succ, Nat.mul_comm ((2 ^ lgw) ^ j), Nat.mod_mul]
    generalize x / 2 ^ (lgw * (k - (j + 1))) = y
    rw [Nat.add_comm, Nat.mul_comm (2 ^ lgw)]

/-- Pointwise larger digits denote a larger number. -/
theorem ofDigits_mono (w : Nat) {a b : List Nat} (hl : a.length = b.length)
    (h : ∀ i, a.getD i 0 ≤ b.getD i 0) : ofDigits w a ≤ ofDigits w b := by
  unfold ofDigits
  suffices hh : ∀ (a b : List Nat), a.length = b.length → (∀ i, a.getD i 0 ≤ b.getD i 0) → ∀ x y, x ≤ y →
      a.foldl (fun a d => a * w + d) x ≤ b.foldl (fun a d => a * w + d) y from hh a b hl h 0 0 (Nat.le_refl 0)
  intro a
  induction a with
  | nil => intro b hl _ x y hxy; cases b with | nil => exact hxy | cons => simp at hl
  | cons d ds ih =>
    intro b hl h x y hxy
    cases b with
    | nil => simp at hl
    | cons e es =>
      have h0 := h 0
      simp at h0 hl
      exact ih es hl (fun i => by have := h (i + 1); simpa using this) _ _
        (Nat.add_le_add (Nat.mul_le_mul_right _ hxy) h0)

/-- Digits of equal sum, pointwise ordered, are equal. -/
theorem eq_of_checksum_le {w : Nat} : ∀ {a b : List Nat}, a.length = b.length → (∀ d ∈ b, d < w) →
    (∀ i, a.getD i 0 ≤ b.getD i 0) → (a.map (w - 1 - ·)).sum ≤ (b.map (w - 1 - ·)).sum → a = b := by
  have key : ∀ (a b : List Nat), a.length = b.length → (∀ i, a.getD i 0 ≤ b.getD i 0) →
      (b.map (w - 1 - ·)).sum ≤ (a.map (w - 1 - ·)).sum := by
    intro a
    induction a with
    | nil => intro b hl _; cases b with | nil => simp | cons => simp at hl
    | cons x xs ih =>
      intro b hl h
      cases b with
      | nil => simp at hl
      | cons y ys =>
        have h0 := h 0
        simp at h0 hl
        have := ih ys hl (fun i => by have := h (i + 1); simpa using this)
        simp only [List.map_cons, List.sum_cons]
        omega
  intro a
  induction a with
  | nil => intro b hl _ _ _; cases b with | nil => rfl | cons => simp at hl
  | cons x xs ih =>
    intro b hl hb h hs
    cases b with
    | nil => simp at hl
    | cons y ys =>
      have h0 := h 0
      simp at h0 hl
      have ht : ∀ i, xs.getD i 0 ≤ ys.getD i 0 := fun i => by have := h (i + 1); simpa using this
      have hk := key xs ys hl ht
      simp only [List.map_cons, List.sum_cons] at hs
      have hy := hb y (by simp)
      rw [ih hl (fun d hd => hb d (by simp [hd])) ht (by omega), show x = y by omega]

end Spx
