import Mathlib.Algebra.BigOperators.Ring.Finset
import Mathlib.Algebra.Order.BigOperators.Group.Finset
import Mathlib.Algebra.BigOperators.Field
import Mathlib.Data.Fintype.BigOperators
import Mathlib.Data.Rat.Cast.Order
import Mathlib.Tactic.Linarith
import Mathlib.Tactic.Positivity
import Mathlib.Tactic.Ring
import Verif.Spec.Interactive
/-! # Attackers who choose messages depending on the answers

Averages over finite types; a random function is sampled where it is used first. -/

namespace Spx.Rom
open Finset Spec

/-- The average of a function on a finite type -/
def avg {α : Type} [Fintype α] (f : α → ℚ) : ℚ := (∑ a, f a) / Fintype.card α

section
variable {α β : Type} [Fintype α] [Fintype β]

theorem avg_mono {f g : α → ℚ} (h : ∀ a, f a ≤ g a) : avg f ≤ avg g :=
  div_le_div_of_nonneg_right (sum_le_sum fun a _ => h a) (Nat.cast_nonneg _)

theorem avg_const [Nonempty α] (c : ℚ) : avg (fun _ : α => c) = c := by
  have : (Fintype.card α : ℚ) ≠ 0 := Nat.cast_ne_zero.mpr Fintype.card_ne_zero
  unfold avg
  rw [sum_const, card_univ, nsmul_eq_mul, mul_div_cancel_left₀ _ this]

theorem avg_add (f g : α → ℚ) : avg (fun a => f a + g a) = avg f + avg g := by
  unfold avg
  rw [sum_add_distrib, add_div]

theorem avg_comm (f : α → β → ℚ) : avg (fun a => avg (f a)) = avg fun b => avg fun a => f a b := by
  unfold avg
  rw [← sum_div, ← sum_div, sum_comm, div_div, div_div, mul_comm]

theorem avg_succ {n : ℕ} (f : (Fin (n + 1) → α) → ℚ) :
    avg f = avg fun a => avg fun s : Fin n → α => f (Fin.cons a s) := by
  unfold avg
  rw [← sum_div, div_div, ← (Fin.consEquiv fun _ => α).sum_comp, Fintype.sum_prod_type, Fintype.card_fun, Fintype.card_fun,
    Fintype.card_fin, Fintype.card_fin]
  congr 1
  push_cast
  rw [pow_succ]

/-- A value of a random function may be chosen anew. -/
theorem avg_update {Z D : Type} [Fintype Z] [DecidableEq Z] [Fintype D] [Nonempty D] (z : Z) (f : (Z → D) → ℚ) :
    avg f = avg fun d => avg fun g => f (Function.update g z d) := by
  let e : D × (Z → D) ≃ D × (Z → D) :=
    { toFun := fun x => (x.2 z, Function.update x.2 z x.1)
      invFun := fun x => (x.2 z, Function.update x.2 z x.1)
      left_inv := fun x => by simp
      right_inv := fun x => by simp }
  have h : ∑ x : D × (Z → D), f (Function.update x.2 z x.1) = ∑ x : D × (Z → D), f x.2 :=
    e.sum_comp fun x => f x.2
  rw [Fintype.sum_prod_type, Fintype.sum_prod_type] at h
  simp only [sum_const, card_univ, nsmul_eq_mul] at h
  have hD : (Fintype.card D : ℚ) ≠ 0 := Nat.cast_ne_zero.mpr Fintype.card_ne_zero
  unfold avg
  rw [← sum_div, h, mul_div_assoc, mul_div_cancel_left₀ _ hD]

end

open Classical in
/-- 1 for an event that happens, 0 otherwise -/
noncomputable def ind (X : Prop) : ℚ := if X then 1 else 0

theorem ind_mono {X Y : Prop} (h : X → Y) : ind X ≤ ind Y := by
  unfold ind
  split
  · next hx => rw [if_pos (h hx)]
  · split <;> norm_num

theorem ind_le_one (X : Prop) : ind X ≤ 1 := by
  unfold ind; split <;> norm_num

theorem ind_nonneg (X : Prop) : 0 ≤ ind X := by
  unfold ind; split <;> norm_num

theorem avg_ind {α : Type} [Fintype α] (X : α → Prop) : avg (fun a => ind (X a)) = chance X := by
  classical
  unfold avg ind chance howMany
  rw [sum_boole]

theorem chance_or {α : Type} [Fintype α] {X Y Z : α → Prop} (h : ∀ a, X a → Y a ∨ Z a) :
    chance X ≤ chance Y + chance Z := by
  rw [← avg_ind, ← avg_ind, ← avg_ind, ← avg_add]
  refine avg_mono fun a => ?_
  by_cases hX : X a
  · rcases h a hX with hY | hZ
    · exact (ind_mono fun _ => hY).trans (le_add_of_nonneg_right (ind_nonneg _))
    · exact (ind_mono fun _ => hZ).trans (le_add_of_nonneg_left (ind_nonneg _))
  · rw [show ind (X a) = 0 from if_neg hX]
    exact add_nonneg (ind_nonneg _) (ind_nonneg _)

theorem avg_prod {α β : Type} [Fintype α] [Fintype β] (f : α × β → ℚ) : avg f = avg fun a => avg fun b => f (a, b) := by
  unfold avg
  rw [← sum_div, div_div, Fintype.sum_prod_type, Fintype.card_prod]
  congr 1
  push_cast
  rw [mul_comm]

section
variable {ρ M D : Type} [Fintype ρ] [Fintype M] [Fintype D] [Nonempty D] [DecidableEq ρ] [DecidableEq M]

/-- The values known and otherwise those of `g` -/
def over (T : ρ × M → Option D) (g : ρ × M → D) : ρ × M → D := fun z => (T z).getD (g z)

omit [Fintype ρ] [Fintype M] [Fintype D] [Nonempty D] in
theorem over_update {T : ρ × M → Option D} {z : ρ × M} (h : T z = none) (g : ρ × M → D) (d : D) :
    over T (Function.update g z d) = over (Function.update T z (some d)) g := by
  funext y
  unfold over
  by_cases hy : y = z
  · subst hy; simp [h]
  · simp [hy]

/-- The end of an attack, with any notion of covering -/
def WonBy (C : Set D → D → Prop) (H : ρ × M → D) (o : Option (List (ρ × M) × (ρ × M))) : Prop :=
  ∃ S z, o = some (S, z) ∧ z ∉ S ∧ C {d | ∃ y ∈ S, H y = d} (H z)

/-- The probability of success from a certain point on: the values `T` are known, the pairs `S` are signed -/
noncomputable def G (C : Set D → D → Prop) (A : Attacker ρ M D) (q : ℕ) (T : ρ × M → Option D) (S : List (ρ × M)) : ℚ :=
  avg fun g : ρ × M → D => avg fun s : Fin q → ρ => ind (WonBy C (over T g) (A.run (over T g) (List.ofFn s) S))

theorem G_fresh (C : Set D → D → Prop) (A : Attacker ρ M D) (q : ℕ) {T : ρ × M → Option D} {z : ρ × M} (h : T z = none)
    (S : List (ρ × M)) : G C A q T S = avg fun d => G C A q (Function.update T z (some d)) S := by
  unfold G
  rw [avg_update z]
  congr; funext d; congr; funext g
  rw [over_update h]

end

end Spx.Rom
