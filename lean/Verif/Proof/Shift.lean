import Verif.Proof.Arith
import Verif.Proof.Base
import Verif.Spec.Merkle
/-! A tree whose node functions and leaves are shifted copies of a part of a larger tree. -/

namespace Spx
open Spec

theorem two_pow_sub_succ {t h : Nat} (hh : h < t) : 2 ^ (t - h) = 2 * 2 ^ (t - (h + 1)) := by
  rw [← Nat.pow_succ', show (t - (h + 1)).succ = t - h by omega]

theorem shift_even {t h i0 : Nat} (hh : h < t) : i0 * 2 ^ (t - h) = 2 * (i0 * 2 ^ (t - (h + 1))) := by
  rw [two_pow_sub_succ hh, Nat.mul_left_comm]

theorem shift_div {t h i0 l : Nat} (hh : h ≤ t) :
    (l + i0 * 2 ^ t) / 2 ^ h = l / 2 ^ h + i0 * 2 ^ (t - h) := by
  have e : i0 * 2 ^ t = i0 * 2 ^ (t - h) * 2 ^ h := by
    rw [Nat.mul_assoc, ← Nat.pow_add, show t - h + h = t by omega]
  rw [e, Nat.add_mul_div_right _ _ (Nat.two_pow_pos h)]

theorem sibling_shift {t h i0 l : Nat} (hh : h < t) :
    sibling (l + i0 * 2 ^ (t - h)) = sibling l + i0 * 2 ^ (t - h) := by
  rw [shift_even hh]
  generalize i0 * 2 ^ (t - (h + 1)) = q
  unfold sibling
  split <;> split <;> omega

theorem div_lt_pow {l t h : Nat} (hl : l < 2 ^ t) (hh : h ≤ t) : l / 2 ^ h < 2 ^ (t - h) := by
  rw [Nat.div_lt_iff_lt_mul (Nat.two_pow_pos h), ← Nat.pow_add, show t - h + h = t by omega]
  exact hl

section
variable {H H' : Nat → Nat → Bytes → Bytes → Bytes} {leaf leaf' : Nat → Bytes} {t i0 : Nat}
  (hH : ∀ h i l r, h ≤ t → i < 2 ^ (t - h) → H h i l r = H' h (i + i0 * 2 ^ (t - h)) l r)

include hH in
theorem node_shift (hl : ∀ j, j < 2 ^ t → leaf j = leaf' (j + i0 * 2 ^ t)) :
    ∀ h i, h ≤ t → i < 2 ^ (t - h) → node H leaf h i = node H' leaf' h (i + i0 * 2 ^ (t - h)) := by
  intro h
  induction h with
  | zero => intro i _ hi; exact hl i hi
  | succ h ih =>
    intro i hh hi
    have hp := two_pow_sub_succ (t := t) (h := h) (by omega)
    have hs := shift_even (t := t) (h := h) (i0 := i0) (by omega)
    rw [node, node, hH _ _ _ _ hh hi, ih (2 * i) (by omega) (by omega), ih (2 * i + 1) (by omega) (by omega), hs]
    congr 2 <;> omega

include hH in
theorem authPath_shift (hl : ∀ j, j < 2 ^ t → leaf j = leaf' (j + i0 * 2 ^ t)) {l : Nat}
    (hlt : l < 2 ^ t) : authPath H leaf t l = authPath H' leaf' t (l + i0 * 2 ^ t) := by
  unfold authPath
  apply cat_congr
  intro h hh
  rw [shift_div (by omega), sibling_shift hh]
  apply node_shift hH hl h _ (by omega)
  have h1 := div_lt_pow (h := h) hlt (by omega)
  have h2 := two_pow_sub_succ hh
  generalize l / 2 ^ h = q at *
  generalize 2 ^ (t - h) = p at *
  unfold sibling
  split <;> omega

include hH in
theorem climb_shift {l : Nat} (hlt : l < 2 ^ t) {path path' : Nat → Bytes}
    (hp : ∀ h, h < t → path h = path' h) (x : Bytes) :
    climb H l path x t = climb H' (l + i0 * 2 ^ t) path' x t := by
  suffices hg : ∀ h, h ≤ t → climb H l path x h = climb H' (l + i0 * 2 ^ t) path' x h from
    hg t (Nat.le_refl t)
  intro h
  induction h with
  | zero => intro _; rfl
  | succ h ih =>
    intro hh
    rw [climb, climb, ih (by omega), hp h (by omega), shift_div (by omega), shift_div hh]
    have h1 := div_lt_pow (h := h + 1) hlt (by omega)
    have hs := shift_even (t := t) (h := h) (i0 := i0) (by omega)
    have : (l / 2 ^ h + i0 * 2 ^ (t - h)) % 2 = l / 2 ^ h % 2 := by omega
    rw [this, hH _ _ _ _ hh h1, hH _ _ _ _ hh h1]
end

end Spx
