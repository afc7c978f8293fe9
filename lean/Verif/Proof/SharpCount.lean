import Mathlib.Algebra.Polynomial.AlgebraMap
import Mathlib.Algebra.Polynomial.Derivative
import Mathlib.Algebra.Polynomial.Eval.SMul
import Mathlib.Algebra.BigOperators.Ring.Finset
import Mathlib.Data.Nat.Factorial.Basic
import Mathlib.Tactic.FieldSimp
import Mathlib.Tactic.LinearCombination
import Verif.Proof.Cone
import Verif.Spec.Interactive
/-! # Counting the ways to cover, for uniform digests -/

namespace Spx.Cone
open Finset MvPolynomial

variable {k : ℕ}

/-! ## Powers of the product of all `1 + b * X i` -/

/-- The product of all `1 + b * X i` -/
noncomputable def U (k : ℕ) (b : ℚ) : R k := ∏ i, (1 + MvPolynomial.C b * X i)

theorem one_le_U {b : ℚ} (hb : 0 ≤ b) : Le 1 (U k b) := by
  have := prod_le (s := univ) (f := fun _ : Fin k => (1 : R k)) (g := fun i => 1 + MvPolynomial.C b * X i) (fun _ _ => zero_one)
    (fun i _ => one_le_one_add (zero_mul' (zero_C hb) (zero_X i)))
  rwa [prod_const_one] at this

theorem top_monomials (f : Fin k → ℕ) (c : Fin k → ℚ) :
    top (∏ i, (MvPolynomial.C (c i) * X i ^ f i) : R k) = if f = 1 then ∏ i, c i else 0 := by
  have e : (∏ i, (MvPolynomial.C (c i) * X i ^ f i) : R k) = monomial (∑ i, Finsupp.single i (f i)) (∏ i, c i) := by
    rw [prod_mul_distrib, ← map_prod]
    have e1 : (∏ i, X i ^ f i : R k) = monomial (∑ i, Finsupp.single i (f i)) 1 := by
      rw [monomial_sum_one]
      exact prod_congr rfl fun i _ => X_pow_eq_monomial
    rw [e1, MvPolynomial.C_mul_monomial, mul_one]
  rw [e]
  show coeff (∑ i, Finsupp.single i 1) (monomial (∑ i, Finsupp.single i (f i)) (∏ i, c i)) = _
  rw [coeff_monomial]
  congr 1
  refine propext ⟨fun h => funext fun i => ?_, fun h => by rw [h]; rfl⟩
  have := congrArg (fun s => s i) h
  simpa [Finsupp.finsetSum_apply, Finsupp.single_apply] using this

theorem top_U_pow (b : ℚ) (n : ℕ) : top (U k b ^ n) = b ^ k * (n : ℚ) ^ k := by
  have e : ∀ i : Fin k, (1 + MvPolynomial.C b * X i : R k) ^ n = ∑ j ∈ range (n + 2), MvPolynomial.C (n.choose j * b ^ j) * X i ^ j := by
    intro i
    rw [sum_range_succ, Nat.choose_succ_self, add_comm, add_pow]
    simp only [Nat.cast_zero, zero_mul, MvPolynomial.C_0, add_zero, one_pow, mul_one]
    refine sum_congr rfl fun j _ => ?_
    rw [mul_pow, MvPolynomial.C_mul, MvPolynomial.C_pow, map_natCast]
    ring
  unfold U
  rw [← prod_pow, prod_congr rfl fun i _ => e i, prod_univ_sum, map_sum, sum_congr rfl fun f _ => top_monomials f _,
    sum_ite_eq', if_pos]
  · simp [mul_pow, mul_comm]
  · rw [Fintype.mem_piFinset]
    intro i
    rw [mem_range, Pi.one_apply]
    omega

/-- The number of functions from `k` elements onto `j` elements -/
def onto : ℕ → ℕ → ℕ
  | 0, 0 => 1
  | 0, _ + 1 => 0
  | _ + 1, 0 => 0
  | k + 1, j + 1 => (j + 1) * onto k (j + 1) + (j + 1) * onto k j

/-- `X * d / dX` -/
noncomputable def theta : Polynomial ℚ →ₗ[ℚ] Polynomial ℚ :=
  (LinearMap.mulLeft ℚ Polynomial.X).comp Polynomial.derivative

theorem theta_iter_X (n k : ℕ) : (theta ^ k) (Polynomial.X ^ n) = (n : ℚ) ^ k • Polynomial.X ^ n := by
  induction k with
  | zero => simp
  | succ k ih =>
    rw [pow_succ', Module.End.mul_apply, ih, map_smul, pow_succ, mul_smul]
    congr 1
    show Polynomial.X * Polynomial.derivative (Polynomial.X ^ n) = _
    rcases n with - | n
    · simp
    · rw [Polynomial.derivative_X_pow, Polynomial.smul_eq_C_mul, Nat.add_sub_cancel, pow_succ]
      ring

theorem theta_iter_sub (k : ℕ) : ∀ j : ℕ,
    Polynomial.eval 1 ((theta ^ k) ((Polynomial.X - 1 : Polynomial ℚ) ^ j)) = onto k j := by
  induction k with
  | zero =>
    rintro (- | j)
    · simp [onto]
    · simp [onto]
  | succ k ih =>
    rintro (- | j)
    · rw [pow_succ, Module.End.mul_apply]
      simp [theta, onto]
    · rw [pow_succ, Module.End.mul_apply]
      have e : theta ((Polynomial.X - 1) ^ (j + 1)) =
          ((j + 1 : ℕ) : ℚ) • (Polynomial.X - 1 : Polynomial ℚ) ^ (j + 1) +
            ((j + 1 : ℕ) : ℚ) • (Polynomial.X - 1 : Polynomial ℚ) ^ j := by
        show Polynomial.X * Polynomial.derivative ((Polynomial.X - 1 : Polynomial ℚ) ^ (j + 1)) = _
        rw [Polynomial.derivative_pow, Polynomial.smul_eq_C_mul, Polynomial.smul_eq_C_mul, Polynomial.derivative_sub,
          Polynomial.derivative_X, Polynomial.derivative_one, Nat.add_sub_cancel]
        ring
      rw [e, map_add, map_smul, map_smul, Polynomial.eval_add, Polynomial.eval_smul, Polynomial.eval_smul, ih, ih]
      simp [onto]

theorem top_aeval_U (b : ℚ) (p : Polynomial ℚ) :
    top (Polynomial.aeval (U k b) p) = b ^ k * Polynomial.eval 1 ((theta ^ k) p) := by
  induction p using Polynomial.induction_on' with
  | add p q hp hq => rw [map_add, map_add, hp, hq, map_add, Polynomial.eval_add, mul_add]
  | monomial n a =>
    rw [← Polynomial.C_mul_X_pow_eq_monomial, ← Polynomial.smul_eq_C_mul, map_smul, map_smul, map_pow,
      Polynomial.aeval_X, top_U_pow, map_smul, theta_iter_X]
    simp
    ring

theorem top_sub_pow (b : ℚ) (j : ℕ) : top ((U k b - 1) ^ j) = b ^ k * onto k j := by
  rw [← theta_iter_sub, ← top_aeval_U]
  congr 1
  simp

/-! ## Products of many factors `1 + a * v` -/

/-- A part of the exponential series -/
noncomputable def expo (v : R k) (N : ℕ) (a : ℚ) : R k := ∑ j ∈ range N, MvPolynomial.C (a ^ j / j.factorial) * v ^ j

theorem pow_step {a b : ℚ} (ha : 0 ≤ a) (hb : 0 ≤ b) (j : ℕ) : a ^ (j + 1) + (j + 1) * b * a ^ j ≤ (a + b) ^ (j + 1) := by
  induction j with
  | zero => simp
  | succ j ih =>
    have h := mul_le_mul_of_nonneg_right ih (add_nonneg ha hb)
    rw [← pow_succ] at h
    refine le_trans ?_ h
    have h2 : 0 ≤ (j + 1) * b * a ^ j * b := by positivity
    have e : (a ^ (j + 1) + (j + 1) * b * a ^ j) * (a + b) =
      a ^ (j + 1 + 1) + ((j + 1 : ℕ) + 1) * b * a ^ (j + 1) + (j + 1) * b * a ^ j * b := by push_cast; ring
    rw [e]
    linarith

theorem expo_step {v : R k} (hv : Le 0 v) {a b : ℚ} (ha : 0 ≤ a) (hb : 0 ≤ b) (N : ℕ) :
    Le ((1 + MvPolynomial.C b * v) * expo v N a) (expo v (N + 1) (a + b)) := by
  have e : (1 + MvPolynomial.C b * v) * expo v N a = expo v N a + ∑ j ∈ range N, MvPolynomial.C (b * (a ^ j / j.factorial)) * v ^ (j + 1) := by
    unfold expo
    rw [add_mul, one_mul, mul_sum]
    congr 1
    refine sum_congr rfl fun j _ => ?_
    rw [MvPolynomial.C_mul, pow_succ]
    ring
  have e2 : expo v (N + 1) (a + b) = 1 + ∑ j ∈ range N, MvPolynomial.C ((a + b) ^ (j + 1) / (j + 1).factorial) * v ^ (j + 1) := by
    unfold expo
    rw [sum_range_succ', add_comm]
    simp
  have le_sum : ∀ {f g : ℕ → R k}, (∀ j, Le (f j) (g j)) → Le (∑ j ∈ range N, f j) (∑ j ∈ range N, g j) := by
    intro f g h
    refine Le.of_sub ?_
    rw [← sum_sub_distrib]
    exact zero_sum fun j _ => (h j).sub
  have mono : ∀ {c d : ℚ} (j : ℕ), c ≤ d → Le (MvPolynomial.C c * v ^ j) (MvPolynomial.C d * v ^ j) := by
    intro c d j h
    refine Le.of_sub ?_
    rw [← sub_mul, ← MvPolynomial.C_sub]
    exact zero_mul' (zero_C (sub_nonneg.mpr h)) (zero_pow hv j)
  have h1 : Le (expo v N a) (1 + ∑ j ∈ range N, MvPolynomial.C (a ^ (j + 1) / (j + 1).factorial) * v ^ (j + 1)) := by
    have e3 : (1 + ∑ j ∈ range N, MvPolynomial.C (a ^ (j + 1) / (j + 1).factorial) * v ^ (j + 1)) = expo v (N + 1) a := by
      unfold expo
      rw [sum_range_succ', add_comm]
      simp
    rw [e3]
    unfold expo
    rw [sum_range_succ]
    have := (Le.refl (∑ j ∈ range N, MvPolynomial.C (a ^ j / j.factorial) * v ^ j)).add
      (zero_mul' (zero_C (c := a ^ N / N.factorial) (by positivity)) (zero_pow hv N))
    rwa [add_zero] at this
  rw [e, e2]
  refine (h1.add (Le.refl _)).trans ?_
  rw [add_assoc, ← sum_add_distrib]
  refine (Le.refl 1).add (le_sum fun j => ?_)
  rw [← add_mul, ← MvPolynomial.C_add]
  refine mono _ ?_
  have hf : (0 : ℚ) < (j + 1).factorial := by exact_mod_cast Nat.factorial_pos _
  rw [le_div_iff₀ hf]
  refine le_trans (le_of_eq ?_) (pow_step ha hb j)
  have hf' : (j.factorial : ℚ) ≠ 0 := by exact_mod_cast Nat.factorial_ne_zero _
  rw [Nat.factorial_succ]
  push_cast
  field_simp

theorem expo_pos {v : R k} (hv : Le 0 v) {a : ℚ} (ha : 0 ≤ a) (N : ℕ) : Le 0 (expo v N a) :=
  zero_sum fun j _ => zero_mul' (zero_C (by positivity)) (zero_pow hv j)

theorem expo_pow {v : R k} (hv : Le 0 v) {a b : ℚ} (ha : 0 ≤ a) (hb : 0 ≤ b) (N n : ℕ) :
    Le ((1 + MvPolynomial.C b * v) ^ n * expo v N a) (expo v (N + n) (a + n * b)) := by
  induction n with
  | zero => simpa using Le.refl _
  | succ n ih =>
    rw [pow_succ', mul_assoc]
    refine (ih.mul_left (zero_one_add (zero_mul' (zero_C hb) hv))).trans ((expo_step hv (by positivity) hb _).trans ?_)
    refine Le.of_eq ?_
    congr 1
    push_cast
    ring

/-- A further tree gets one of the `j` elements used so far, or another; the others count `a` together. -/
def grow (a : ℚ) (g : ℕ → ℚ) (j : ℕ) : ℚ := j * g j + a * g (j + 1)

theorem grow_nonneg {a : ℚ} (ha : 0 ≤ a) {g : ℕ → ℚ} (hg : ∀ j, 0 ≤ g j) (j : ℕ) : 0 ≤ grow a g j :=
  add_nonneg (mul_nonneg (Nat.cast_nonneg _) (hg _)) (mul_nonneg ha (hg _))

theorem sum_onto {a : ℚ} (ha : 0 ≤ a) (N : ℕ) : ∀ (k : ℕ) {g : ℕ → ℚ} (_ : ∀ j, 0 ≤ g j),
    ∑ j ∈ range N, a ^ j / j.factorial * (onto k j) * g j ≤ (grow a)^[k] g 0 := by
  intro k
  induction k with
  | zero =>
    intro g hg
    rcases N with - | N
    · simpa using hg 0
    · rw [sum_range_succ']
      simp [onto]
  | succ k ih =>
    intro g hg
    rw [Function.iterate_succ_apply]
    refine le_trans ?_ (ih (grow_nonneg ha hg))
    have term : ∀ j, 0 ≤ a ^ j / j.factorial * (onto k j) := fun j => by positivity
    have e1 : ∀ j, a ^ j / j.factorial * (onto (k + 1) j) * g j =
        a ^ j / j.factorial * (onto k j) * (j * g j) +
          (if j = 0 then 0 else a ^ (j - 1) / (j - 1).factorial * (onto k (j - 1)) * (a * g j)) := by
      rintro (- | j)
      · simp [onto]
      · rw [if_neg (Nat.succ_ne_zero j), Nat.add_sub_cancel, onto, Nat.factorial_succ]
        have hf' : (j.factorial : ℚ) ≠ 0 := by exact_mod_cast Nat.factorial_ne_zero _
        push_cast
        field_simp
        ring
    rw [sum_congr rfl fun j _ => e1 j, sum_add_distrib]
    have e2 : ∀ j, a ^ j / j.factorial * (onto k j) * grow a g j =
        a ^ j / j.factorial * (onto k j) * (j * g j) + a ^ j / j.factorial * (onto k j) * (a * g (j + 1)) := fun j => by
      unfold grow; ring
    rw [sum_congr rfl fun j _ => e2 j, sum_add_distrib]
    refine add_le_add_right ?_ _
    rcases N with - | N
    · simp
    · rw [sum_range_succ', sum_range_succ]
      simp only [Nat.succ_ne_zero, if_false, if_true, Nat.add_sub_cancel, add_zero]
      exact le_add_of_nonneg_right (mul_nonneg (term N) (mul_nonneg ha (hg _)))

theorem top_expo {a b : ℚ} (ha : 0 ≤ a) (hb : 0 ≤ b) (N : ℕ) :
    top (expo (U k b - 1) N a) ≤ b ^ k * (grow a)^[k] (fun _ => 1) 0 := by
  have h := mul_le_mul_of_nonneg_left (sum_onto ha N k (g := fun _ => 1) fun _ => by norm_num) (pow_nonneg hb k)
  refine le_trans (le_of_eq ?_) h
  unfold expo
  rw [map_sum, mul_sum]
  refine sum_congr rfl fun j _ => ?_
  rw [MvPolynomial.C_mul', map_smul, top_sub_pow, smul_eq_mul]
  ring

/-- The whole estimate -/
theorem top_factors {b s w : ℚ} (hb : 0 ≤ b) (hs : 0 ≤ s) (hw : 0 ≤ w) (q t : ℕ) :
    top ((1 + MvPolynomial.C s * (U k b - 1)) ^ q * (1 + MvPolynomial.C w * (MvPolynomial.C s * (U k b - 1))) ^ t) ≤
      b ^ k * (grow (s * (q + t * w)))^[k] (fun _ => 1) 0 := by
  have hv : Le 0 (U k b - 1) := (one_le_U hb).sub
  have h1 := expo_pow hv (le_refl 0) hs 1 q
  have e0 : expo (U k b - 1) 1 0 = 1 := by
    unfold expo; simp
  rw [e0, mul_one, _root_.zero_add] at h1
  have h2 := expo_pow hv (a := q * s) (b := w * s) (by positivity) (by positivity) (1 + q) t
  have h3 : Le 0 ((1 + MvPolynomial.C (w * s) * (U k b - 1)) ^ t) := zero_pow (zero_one_add (zero_mul' (zero_C (by positivity)) hv)) t
  have h4 := top_le ((h1.mul_left h3).trans h2)
  refine le_trans (le_of_eq ?_) (h4.trans ((top_expo (by positivity) hb _).trans (le_of_eq ?_)))
  · congr 1
    rw [MvPolynomial.C_mul]
    ring
  · rw [show (q : ℚ) * s + t * (w * s) = s * (q + t * w) by ring]

/-! ## Monotonicity and scaling -/

theorem grow_mono {a a' c : ℚ} (ha : 0 ≤ a) (haa : a ≤ c * a') (hc : 1 ≤ c) {g g' : ℕ → ℚ} {d : ℚ} (hd : 0 ≤ d)
    (hg : ∀ j, 0 ≤ g' j) (h : ∀ j, g j ≤ d * g' j) (j : ℕ) : grow a g j ≤ (c * d) * grow a' g' j := by
  unfold grow
  have h1 : (j : ℚ) * g j ≤ c * d * (j * g' j) := by
    have h2 := mul_le_mul_of_nonneg_left (h j) (Nat.cast_nonneg (α := ℚ) j)
    have h3 : 0 ≤ d * (j * g' j) := mul_nonneg hd (mul_nonneg (Nat.cast_nonneg _) (hg _))
    nlinarith [mul_le_mul_of_nonneg_right hc h3]
  have h4 : a * g (j + 1) ≤ c * d * (a' * g' (j + 1)) := by
    have h5 := mul_le_mul_of_nonneg_left (h (j + 1)) ha
    have h6 := mul_le_mul_of_nonneg_right haa (mul_nonneg hd (hg (j + 1)))
    linarith
  linarith

theorem grow_iter {a a' c : ℚ} (ha : 0 ≤ a) (ha' : 0 ≤ a') (haa : a ≤ c * a') (hc : 1 ≤ c) (k : ℕ) :
    ∀ {g g' : ℕ → ℚ} {d : ℚ} (_ : 0 ≤ d) (_ : ∀ j, 0 ≤ g' j) (_ : ∀ j, g j ≤ d * g' j) (j : ℕ),
      (grow a)^[k] g j ≤ c ^ k * d * (grow a')^[k] g' j := by
  induction k with
  | zero => intro g g' d _ _ h j; simpa using h j
  | succ k ih =>
    intro g g' d hd hg h j
    rw [Function.iterate_succ_apply, Function.iterate_succ_apply]
    refine (ih (mul_nonneg (zero_le_one.trans hc) hd) (grow_nonneg ha' hg) (grow_mono ha haa hc hd hg h) j).trans
      (le_of_eq ?_)
    ring

theorem coverings_eq (x : ℚ) (k : ℕ) : ∀ j, Spec.coverings x k j = (grow x)^[k] (fun _ => 1) j := by
  induction k with
  | zero => intro j; rfl
  | succ k ih =>
    intro j
    rw [Function.iterate_succ_apply', Spec.coverings, ih, ih]
    rfl

theorem coverings_mono {a a' c : ℚ} (ha : 0 ≤ a) (ha' : 0 ≤ a') (haa : a ≤ c * a') (hc : 1 ≤ c) (k j : ℕ) :
    Spec.coverings a k j ≤ c ^ k * Spec.coverings a' k j := by
  rw [coverings_eq, coverings_eq]
  have := grow_iter ha ha' haa hc k (g := fun _ => 1) (g' := fun _ => 1) (d := 1) (by norm_num) (fun _ => by norm_num)
    (fun _ => by norm_num) j
  rwa [mul_one] at this

theorem coverings_nonneg {a : ℚ} (ha : 0 ≤ a) (k : ℕ) : ∀ j, 0 ≤ Spec.coverings a k j := by
  induction k with
  | zero => intro j; exact zero_le_one
  | succ k ih => intro j; exact add_nonneg (mul_nonneg (Nat.cast_nonneg _) (ih j)) (mul_nonneg ha (ih _))

/-- `coverings` on a list of values, with a common denominator -/
def row (a c : ℕ) : ℕ → List ℕ → List ℕ
  | _, [] => []
  | _, [_] => []
  | j, x :: y :: l => (c * (j * x) + a * y) :: row a c (j + 1) (y :: l)

/-- The step of `coverings` with a common denominator -/
def growN (a c : ℕ) (g : ℕ → ℕ) (j : ℕ) : ℕ := c * (j * g j) + a * g (j + 1)

theorem row_map (a c : ℕ) (g : ℕ → ℕ) : ∀ n j : ℕ,
    row a c j ((List.range' j (n + 1)).map g) = (List.range' j n).map (growN a c g)
  | 0, _ => rfl
  | n + 1, j => congrArg (growN a c g j :: ·) (row_map a c g n (j + 1))

theorem row_iter (a c k : ℕ) (g : ℕ → ℕ) :
    (row a c 0)^[k] ((List.range' 0 (k + 1)).map g) = [(growN a c)^[k] g 0] := by
  induction k generalizing g with
  | zero => rfl
  | succ k ih => rw [Function.iterate_succ_apply, row_map, ih]; rfl

theorem growN_iter (a : ℕ) {c : ℕ} (hc : 0 < c) (k : ℕ) : ∀ j,
    ((growN a c)^[k] (fun _ => 1) j : ℚ) = c ^ k * (grow (a / c))^[k] (fun _ => 1) j := by
  induction k with
  | zero => intro j; simp
  | succ k ih =>
    intro j
    rw [Function.iterate_succ_apply', Function.iterate_succ_apply', growN, grow]
    push_cast
    rw [ih, ih, pow_succ]
    have : (c : ℚ) ≠ 0 := by exact_mod_cast hc.ne'
    field_simp

/-- How to compute `coverings` -/
theorem coverings_row (a : ℕ) {c : ℕ} (hc : 0 < c) (k : ℕ) :
    c ^ k * Spec.coverings (a / c) k 0 = (((row a c 0)^[k] (List.replicate (k + 1) 1)).headD 0 : ℕ) := by
  have e : List.replicate (k + 1) 1 = (List.range' 0 (k + 1)).map fun _ => 1 := by
    rw [List.map_const', List.length_range']
  rw [e, row_iter, List.headD_cons, growN_iter a hc, coverings_eq]

end Spx.Cone
