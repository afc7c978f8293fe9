import Verif.Proof.Sharp
import Verif.Proof.SharpCount
/-! # Covering digests, for adaptive attackers

`D` stands for the digests, `key` and `pick` for what a digest selects; every selection has the same number `N` of
digests. -/

namespace Spx.Rom
open Finset Spec Cone MvPolynomial

section
variable {D K B : Type} [Fintype D] [Nonempty D] [Fintype K] [Fintype B] [DecidableEq K] [DecidableEq B]
  {k N : ℕ} (key : D → K) (pick : D → Fin k → B)

/-- The trees that `d` can cover for `e` -/
noncomputable def cover (e d : D) : R k :=
  if key d = key e then ∏ i, (1 + if pick d i = pick e i then X i else 0) - 1 else 0

omit [Fintype D] [Nonempty D] [Fintype K] [Fintype B] in
theorem cover_pos (e d : D) : Le 0 (cover key pick e d) := by
  unfold cover
  split
  · refine Le.sub ?_
    have := prod_le (s := univ) (f := fun _ : Fin k => (1 : R k))
      (g := fun i => 1 + if pick d i = pick e i then X i else 0) (fun _ _ => zero_one) (fun i _ => one_le_one_add (by
        split
        · exact zero_X i
        · exact Le.refl 0))
    rwa [prod_const_one] at this
  · exact Le.refl 0

omit [Fintype D] [Nonempty D] [Fintype K] [Fintype B] in
/-- If all trees are covered, the coefficient is positive. -/
theorem cover_top {ι : Type} [DecidableEq ι] (A : Finset ι) (dig : ι → D) (e : D)
    (h : ∀ i, ∃ x ∈ {d | ∃ y ∈ A, dig y = d}, key x = key e ∧ pick x i = pick e i) :
    1 ≤ top (∏ x ∈ A, (1 + cover key pick e (dig x))) := by
  have h' : ∀ i, ∃ y, y ∈ A ∧ key (dig y) = key e ∧ pick (dig y) i = pick e i := by
    intro i
    obtain ⟨x, ⟨y, hy, rfl⟩, h1⟩ := h i
    exact ⟨y, hy, h1⟩
  obtain ⟨f, hf⟩ := Classical.axiomOfChoice h'
  have e1 : ∏ x ∈ A, ∏ i with f i = x, (X i : R k) = ∏ i, X i := prod_fiberwise_of_maps_to (fun i _ => (hf i).1) _
  rw [← top_prod_X (k := k), ← e1]
  refine top_le (prod_le (fun x _ => zero_prod fun i _ => zero_X i) fun x _ => ?_)
  rw [prod_filter]
  unfold cover
  by_cases hk : key (dig x) = key e
  · rw [if_pos hk, add_sub_cancel]
    refine prod_le (fun i _ => ?_) fun i _ => ?_
    · split
      · exact zero_X i
      · exact zero_one
    · by_cases hi : f i = x
      · rw [if_pos hi, if_pos (hi ▸ (hf i).2.2)]
        have := (zero_one (k := k)).add (Le.refl (X i))
        rwa [_root_.zero_add] at this
      · rw [if_neg hi]
        refine one_le_one_add ?_
        split
        · exact zero_X i
        · exact Le.refl 0
  · rw [if_neg hk, add_zero]
    exact Le.of_eq (prod_eq_one fun i _ => if_neg (by
      intro hi
      rw [← hi] at hk
      exact hk (hf i).2.1))

variable (hU : ∀ κ c, (univ.filter fun d => key d = κ ∧ pick d = c).card = N)
include hU

omit [Nonempty D] [Fintype K] in
theorem sum_cover (e : D) :
    ∑ d, cover key pick e d = MvPolynomial.C (N : ℚ) * (∏ i : Fin k, (MvPolynomial.C (Fintype.card B : ℚ) + X i) - MvPolynomial.C (Fintype.card B : ℚ) ^ k) := by
  have h1 : ∑ d, cover key pick e d = ∑ d with key d = key e,
      (∏ i, (1 + if pick d i = pick e i then X i else 0) - 1 : R k) := by
    rw [sum_filter]
    rfl
  have h2 := sum_fiberwise_of_maps_to (s := univ.filter fun d => key d = key e) (t := univ) (g := pick)
    (fun d _ => mem_univ _) (fun d => (∏ i, (1 + if pick d i = pick e i then X i else 0) - 1 : R k))
  rw [h1, ← h2]
  have h3 : ∀ c ∈ (univ : Finset (Fin k → B)), ∑ d ∈ (univ.filter fun d => key d = key e) with pick d = c,
      (∏ i, (1 + if pick d i = pick e i then X i else 0) - 1 : R k) =
      MvPolynomial.C (N : ℚ) * (∏ i, (1 + if c i = pick e i then X i else 0) - 1) := by
    intro c _
    rw [sum_congr rfl (g := fun _ => (∏ i, (1 + if c i = pick e i then X i else 0) - 1 : R k)) (fun d hd => by
      rw [(mem_filter.mp hd).2]), sum_const, filter_filter, hU, nsmul_eq_mul, map_natCast]
  rw [sum_congr rfl h3, ← mul_sum, sum_sub_distrib, sum_const, nsmul_one, card_univ, Fintype.card_fun, Fintype.card_fin]
  have h4 := prod_univ_sum (fun _ : Fin k => (univ : Finset B)) fun i b => (1 + if b = pick e i then X i else 0 : R k)
  rw [Fintype.piFinset_univ] at h4
  rw [← h4]
  congr 2
  · refine prod_congr rfl fun i _ => ?_
    rw [sum_add_distrib, sum_const, nsmul_one, card_univ, sum_ite_eq' univ (pick e i) fun _ => (X i : R k),
      if_pos (mem_univ _), map_natCast]
  · rw [← map_pow, ← Nat.cast_pow, map_natCast]

theorem mean_cover (hD : Fintype.card D = Fintype.card K * (N * Fintype.card B ^ k)) (e : D) :
    mean (cover key pick) e = MvPolynomial.C (1 / Fintype.card K : ℚ) * (U k (1 / Fintype.card B) - 1) := by
  have hD0 : (Fintype.card D : ℚ) ≠ 0 := Nat.cast_ne_zero.mpr Fintype.card_ne_zero
  have hB : (Fintype.card B : ℚ) ^ k ≠ 0 := by
    intro h
    rw [hD] at hD0
    push_cast at hD0
    rw [h] at hD0
    simp at hD0
  have e1 : (∏ i : Fin k, (MvPolynomial.C (Fintype.card B : ℚ) + X i) : R k) = MvPolynomial.C ((Fintype.card B : ℚ) ^ k) * U k (1 / Fintype.card B) := by
    unfold U
    rw [map_pow]
    have e2 : (MvPolynomial.C (Fintype.card B : ℚ) : R k) ^ k = ∏ _i : Fin k, MvPolynomial.C (Fintype.card B : ℚ) := by
      rw [prod_const, card_univ, Fintype.card_fin]
    rw [e2, ← prod_mul_distrib]
    refine prod_congr rfl fun i _ => ?_
    have hB0 : (Fintype.card B : ℚ) ≠ 0 := fun h => hB (by
      rw [h, _root_.zero_pow]
      have := i.2
      omega)
    rw [mul_add, mul_one, ← mul_assoc, ← MvPolynomial.C_mul, mul_one_div_cancel hB0, MvPolynomial.C_1, one_mul]
  unfold mean
  rw [sum_cover key pick hU, e1, ← map_pow]
  have e3 : (MvPolynomial.C (1 / Fintype.card D : ℚ) : R k) * MvPolynomial.C (N : ℚ) * MvPolynomial.C ((Fintype.card B : ℚ) ^ k) = MvPolynomial.C (1 / Fintype.card K : ℚ) := by
    rw [← MvPolynomial.C_mul, ← MvPolynomial.C_mul]
    congr 1
    rw [hD] at hD0 ⊢
    push_cast at hD0 ⊢
    have hK0 := left_ne_zero_of_mul hD0
    have hN0 := left_ne_zero_of_mul (right_ne_zero_of_mul hD0)
    field_simp
  rw [← e3]
  ring

/-- The bound -/
theorem covered_bound {ρ M : Type} [Fintype ρ] [Fintype M] [DecidableEq ρ] [DecidableEq M] [Nonempty ρ]
    (hD : Fintype.card D = Fintype.card K * (N * Fintype.card B ^ k)) (Q : Attacker ρ M D) {q t : ℕ} (hQ : Q.Within q t) :
    chance (fun w : (ρ × M → D) × (Fin q → ρ) =>
      WonBy (fun (X : Set D) d => ∀ i, ∃ x ∈ X, key x = key d ∧ pick x i = pick d i) w.1 (Q.run w.1 (List.ofFn w.2) [])) ≤
    t * ((1 / Fintype.card B) ^ k *
      (grow (1 / Fintype.card K * (q + (t - 1 : ℕ) * (q / Fintype.card ρ))))^[k] (fun _ => 1) 0) := by
  refine (G_sharp_start (cover_pos key pick) (cover_top key pick) Q hQ).trans ?_
  refine mul_le_mul_of_nonneg_left ?_ (Nat.cast_nonneg _)
  simp only [mean_cover key pick hU hD]
  rw [avg_const]
  exact top_factors (by positivity) (by positivity) (by positivity) q (t - 1)

end

end Spx.Rom
