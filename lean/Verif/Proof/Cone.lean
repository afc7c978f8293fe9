import Mathlib.Algebra.MvPolynomial.CommRing
import Mathlib.Algebra.Order.BigOperators.Group.Finset
import Mathlib.Data.Rat.Cast.Order
import Mathlib.Tactic.Linarith
import Mathlib.Tactic.Positivity
import Mathlib.Tactic.Ring
/-! # Polynomials compared coefficient by coefficient

One variable for each FORS tree; the coefficient of the product of all variables counts the ways to cover all trees. -/

namespace Spx.Cone
open Finset MvPolynomial

variable {k : ℕ}

/-- Generating functions -/
abbrev R (k : ℕ) : Type := MvPolynomial (Fin k) ℚ

/-- Every coefficient of `p` is at most that of `q`. -/
def Le (p q : R k) : Prop := ∀ s, p.coeff s ≤ q.coeff s

theorem Le.refl (p : R k) : Le p p := fun _ => le_refl _

theorem Le.of_eq {p q : R k} (h : p = q) : Le p q := h ▸ Le.refl p

theorem Le.trans {p q r : R k} (h : Le p q) (h' : Le q r) : Le p r := fun s => (h s).trans (h' s)

theorem Le.add {p q p' q' : R k} (h : Le p q) (h' : Le p' q') : Le (p + p') (q + q') := fun s => by
  rw [coeff_add, coeff_add]; exact add_le_add (h s) (h' s)

theorem Le.sub {p q : R k} (h : Le p q) : Le 0 (q - p) := fun s => by
  rw [coeff_zero, coeff_sub]; exact sub_nonneg.mpr (h s)

theorem Le.of_sub {p q : R k} (h : Le 0 (q - p)) : Le p q := fun s => by
  have := h s
  rw [coeff_zero, coeff_sub] at this
  exact sub_nonneg.mp this

theorem zero_mul' {p q : R k} (hp : Le 0 p) (hq : Le 0 q) : Le 0 (p * q) := fun s => by
  rw [coeff_zero, coeff_mul]
  refine sum_nonneg fun x _ => mul_nonneg ?_ ?_
  · simpa using hp x.1
  · simpa using hq x.2

theorem Le.mul_right {p q r : R k} (h : Le p q) (hr : Le 0 r) : Le (p * r) (q * r) :=
  Le.of_sub (by rw [← sub_mul]; exact zero_mul' h.sub hr)

theorem Le.mul_left {p q r : R k} (h : Le p q) (hr : Le 0 r) : Le (r * p) (r * q) := by
  rw [mul_comm r, mul_comm r]; exact h.mul_right hr

theorem Le.mul {p q p' q' : R k} (h : Le p q) (h' : Le p' q') (hp : Le 0 p') (hq : Le 0 q) : Le (p * p') (q * q') :=
  (h.mul_right hp).trans (h'.mul_left hq)

theorem zero_C {c : ℚ} (hc : 0 ≤ c) : Le 0 (C c : R k) := fun s => by
  rw [coeff_zero, coeff_C]
  split
  · exact hc
  · exact le_refl _

theorem zero_one : Le 0 (1 : R k) := zero_C (by norm_num)

theorem zero_X (i : Fin k) : Le 0 (X i : R k) := fun s => by
  rw [coeff_zero, coeff_X]
  split <;> norm_num

theorem zero_add {p q : R k} (hp : Le 0 p) (hq : Le 0 q) : Le 0 (p + q) := by
  have := hp.add hq
  rwa [add_zero] at this

theorem zero_one_add {p : R k} (hp : Le 0 p) : Le 0 (1 + p) := zero_add zero_one hp

theorem one_le_one_add {p : R k} (hp : Le 0 p) : Le 1 (1 + p) := by
  have := (Le.refl (1 : R k)).add hp
  rwa [add_zero] at this

theorem zero_sum {ι : Type} {s : Finset ι} {f : ι → R k} (h : ∀ i ∈ s, Le 0 (f i)) : Le 0 (∑ i ∈ s, f i) := by
  classical
  induction s using Finset.induction_on with
  | empty => exact Le.refl _
  | insert a s ha ih =>
    rw [sum_insert ha]
    exact zero_add (h a (mem_insert_self _ _)) (ih fun i hi => h i (mem_insert_of_mem hi))

theorem zero_prod {ι : Type} {s : Finset ι} {f : ι → R k} (h : ∀ i ∈ s, Le 0 (f i)) : Le 0 (∏ i ∈ s, f i) := by
  classical
  induction s using Finset.induction_on with
  | empty => exact zero_one
  | insert a s ha ih =>
    rw [prod_insert ha]
    exact zero_mul' (h a (mem_insert_self _ _)) (ih fun i hi => h i (mem_insert_of_mem hi))

theorem prod_le {ι : Type} {s : Finset ι} {f g : ι → R k} (h0 : ∀ i ∈ s, Le 0 (f i)) (h : ∀ i ∈ s, Le (f i) (g i)) :
    Le (∏ i ∈ s, f i) (∏ i ∈ s, g i) := by
  classical
  induction s using Finset.induction_on with
  | empty => exact Le.refl _
  | insert a s ha ih =>
    rw [prod_insert ha, prod_insert ha]
    have hs : ∀ i ∈ s, i ∈ insert a s := fun i hi => mem_insert_of_mem hi
    exact (h a (mem_insert_self _ _)).mul (ih (fun i hi => h0 i (hs i hi)) fun i hi => h i (hs i hi))
      (zero_prod fun i hi => h0 i (hs i hi)) ((h0 a (mem_insert_self _ _)).trans (h a (mem_insert_self _ _)))

theorem zero_pow {p : R k} (h : Le 0 p) (n : ℕ) : Le 0 (p ^ n) := by
  rw [← card_range n, ← prod_const]
  exact zero_prod fun _ _ => h

theorem pow_le {p q : R k} (h0 : Le 0 p) (h : Le p q) (n : ℕ) : Le (p ^ n) (q ^ n) := by
  rw [← card_range n, ← prod_const, ← prod_const]
  exact prod_le (fun _ _ => h0) fun _ _ => h

/-- The coefficient of the product of all variables -/
noncomputable def top : R k →ₗ[ℚ] ℚ := lcoeff ℚ (∑ i, Finsupp.single i 1)

theorem top_le {p q : R k} (h : Le p q) : top p ≤ top q := h _

theorem top_zero {p : R k} (h : Le 0 p) : 0 ≤ top p := by
  have := top_le h
  rwa [map_zero] at this

theorem top_prod_X : top (∏ i : Fin k, X i) = 1 := by
  show coeff _ _ = _
  have e : (∏ i : Fin k, X i : R k) = monomial (∑ i, Finsupp.single i 1) 1 := by
    rw [monomial_sum_one]
    rfl
  rw [e, coeff_monomial, if_pos rfl]

/-- One more chance for each factor: the product rule -/
theorem prod_step {ι : Type} [DecidableEq ι] (s : Finset ι) {u : ι → R k} (hu : ∀ i, Le 0 (u i)) {w ε : ℚ} (hw : 0 ≤ w)
    (hε : 0 ≤ ε) :
    Le (∏ i ∈ s, (1 + C w * u i) + C ε * ∑ y ∈ s, u y * ∏ i ∈ s.erase y, (1 + C w * u i))
      (∏ i ∈ s, (1 + C (w + ε) * u i)) := by
  have pos : ∀ {c : ℚ}, 0 ≤ c → ∀ i, Le 0 (1 + C c * u i) := fun hc i => zero_one_add (zero_mul' (zero_C hc) (hu i))
  induction s using Finset.induction_on with
  | empty => simpa using Le.refl (1 : R k)
  | insert b s hb ih =>
    have e : ∑ y ∈ insert b s, u y * ∏ i ∈ (insert b s).erase y, (1 + C w * u i) =
        u b * ∏ i ∈ s, (1 + C w * u i) + (1 + C w * u b) * ∑ y ∈ s, u y * ∏ i ∈ s.erase y, (1 + C w * u i) := by
      rw [sum_insert hb, erase_insert hb, mul_sum]
      congr 1
      refine sum_congr rfl fun y hy => ?_
      have : b ≠ y := fun h => hb (h ▸ hy)
      rw [erase_insert_of_ne this, prod_insert (fun h => hb (mem_of_mem_erase h))]
      ring
    have h1 : Le (∏ i ∈ s, (1 + C w * u i)) (∏ i ∈ s, (1 + C (w + ε) * u i)) := by
      refine Le.trans ?_ ih
      have : Le 0 (C ε * ∑ y ∈ s, u y * ∏ i ∈ s.erase y, (1 + C w * u i)) :=
        zero_mul' (zero_C hε) (zero_sum fun y _ => zero_mul' (hu y) (zero_prod fun i _ => pos hw i))
      have := (Le.refl (∏ i ∈ s, (1 + C w * u i))).add this
      rwa [add_zero] at this
    rw [e, prod_insert hb, prod_insert hb]
    have h2 := (ih.mul_left (pos hw b)).add (h1.mul_left (zero_mul' (zero_C hε) (hu b)))
    refine Le.trans (Le.of_eq ?_) (h2.trans (Le.of_eq ?_))
    · ring
    · rw [C_add]; ring

end Spx.Cone
