import Mathlib.Tactic.LinearCombination
import Verif.Proof.Interactive
import Verif.Proof.Cone
/-! # Attackers who choose messages depending on the answers: the sharp bound

The potential counts the ways to cover a digest.  A pair hashed before it is signed counts with the probability that it
will be signed, so it is not necessary to exclude that the randomiser of a signature is guessed. -/

namespace Spx.Rom
open Finset Spec Cone

section
variable {D ι : Type} [Fintype D] [Nonempty D] [DecidableEq ι] {k : ℕ} (u : D → D → R k)

/-- The average of `u e` -/
noncomputable def mean (e : D) : R k := MvPolynomial.C (1 / Fintype.card D : ℚ) * ∑ d, u e d

/-- The ways to cover `e`: by the pairs `A` signed, the pairs `B` hashed, each with weight `w`, and `q` and `t` others -/
noncomputable def ways (dig : ι → D) (e : D) (A B : Finset ι) (w : ℚ) (q t : ℕ) : R k :=
  (∏ x ∈ A, (1 + u e (dig x))) * (∏ y ∈ B, (1 + MvPolynomial.C w * u e (dig y))) * (1 + mean u e) ^ q *
    (1 + MvPolynomial.C w * mean u e) ^ t

/-- The expected number of ways to cover one of the digests hashed, or of `t` others -/
noncomputable def potential (dig : ι → D) (A B : Finset ι) (w : ℚ) (q t : ℕ) : ℚ :=
  ∑ z ∈ B, top (ways u dig (dig z) A (B.erase z) w q t) + t * avg fun e => top (ways u dig e A B w q (t - 1))

variable {u}

omit [Nonempty D] in
theorem avg_top (f : D → R k) : avg (fun d => top (f d)) = top (MvPolynomial.C (1 / Fintype.card D : ℚ) * ∑ d, f d) := by
  unfold avg
  rw [← map_sum, MvPolynomial.C_mul', map_smul, smul_eq_mul, one_div, div_eq_inv_mul]

omit [Nonempty D] [DecidableEq ι] in
theorem avg_sum (s : Finset ι) (f : D → ι → ℚ) : avg (fun d => ∑ y ∈ s, f d y) = ∑ y ∈ s, avg fun d => f d y := by
  unfold avg
  rw [sum_comm, sum_div]

omit [Nonempty D] in
theorem avg_mul (c : ℚ) (f : D → ℚ) : avg (fun d => c * f d) = c * avg f := by
  unfold avg
  rw [← mul_sum, mul_div_assoc]

/-- One factor averaged -/
theorem avg_factor (e : D) (w : ℚ) (p : R k) :
    avg (fun d => top (p * (1 + MvPolynomial.C w * u e d))) = top (p * (1 + MvPolynomial.C w * mean u e)) := by
  have hD : (Fintype.card D : ℚ) ≠ 0 := Nat.cast_ne_zero.mpr Fintype.card_ne_zero
  rw [avg_top]
  congr 1
  unfold mean
  have e1 : ∑ d, p * (1 + MvPolynomial.C w * u e d) =
      p * (MvPolynomial.C (Fintype.card D : ℚ) + MvPolynomial.C w * ∑ d, u e d) := by
    rw [← mul_sum, sum_add_distrib, ← mul_sum, sum_const, card_univ, nsmul_eq_mul, mul_one]
    simp
  rw [e1]
  have e2 : (MvPolynomial.C (1 / Fintype.card D : ℚ) : R k) * MvPolynomial.C (Fintype.card D : ℚ) = 1 := by
    rw [← MvPolynomial.C_mul, one_div, inv_mul_cancel₀ hD, MvPolynomial.C_1]
  linear_combination p * e2

variable (hu : ∀ e d, Le 0 (u e d))
include hu

omit [Nonempty D] in
theorem mean_pos (e : D) : Le 0 (mean u e) :=
  zero_mul' (zero_C (by positivity)) (zero_sum fun d _ => hu e d)

omit [Nonempty D] [DecidableEq ι] in
theorem ways_pos (dig : ι → D) (e : D) (A B : Finset ι) {w : ℚ} (hw : 0 ≤ w) (q t : ℕ) : Le 0 (ways u dig e A B w q t) := by
  unfold ways
  refine zero_mul' (zero_mul' (zero_mul' (zero_prod fun x _ => zero_one_add (hu _ _))
    (zero_prod fun y _ => zero_one_add (zero_mul' (zero_C hw) (hu _ _)))) (zero_pow (zero_one_add (mean_pos hu e)) _))
    (zero_pow (zero_one_add (zero_mul' (zero_C hw) (mean_pos hu e))) _)

omit [Nonempty D] [DecidableEq ι] in
theorem ways_t (dig : ι → D) (e : D) (A B : Finset ι) {w : ℚ} (hw : 0 ≤ w) (q t : ℕ) :
    Le (ways u dig e A B w q t) (ways u dig e A B w q (t + 1)) := by
  have h := (one_le_one_add (zero_mul' (zero_C hw) (mean_pos hu e))).mul_left (ways_pos hu dig e A B hw q t)
  rw [mul_one] at h
  refine h.trans (Le.of_eq ?_)
  unfold ways
  ring

omit [Nonempty D] [DecidableEq ι] in
theorem ways_q (dig : ι → D) (e : D) (A B : Finset ι) {w : ℚ} (hw : 0 ≤ w) (q t : ℕ) :
    Le (ways u dig e A B w q t) (ways u dig e A B w (q + 1) t) := by
  have h := (one_le_one_add (mean_pos hu e)).mul_left (ways_pos hu dig e A B hw q t)
  rw [mul_one] at h
  refine h.trans (Le.of_eq ?_)
  unfold ways
  ring

omit [Nonempty D] in
theorem potential_pos (dig : ι → D) (A B : Finset ι) {w : ℚ} (hw : 0 ≤ w) (q t : ℕ) : 0 ≤ potential u dig A B w q t := by
  unfold potential avg
  exact add_nonneg (sum_nonneg fun z _ => top_zero (ways_pos hu _ _ _ _ hw _ _)) (mul_nonneg (Nat.cast_nonneg _)
    (div_nonneg (sum_nonneg fun e _ => top_zero (ways_pos hu _ _ _ _ hw _ _)) (Nat.cast_nonneg _)))

omit [Nonempty D] in
theorem potential_t (dig : ι → D) (A B : Finset ι) {w : ℚ} (hw : 0 ≤ w) (q t : ℕ) :
    potential u dig A B w q t ≤ potential u dig A B w q (t + 1) := by
  unfold potential
  refine add_le_add (sum_le_sum fun z _ => top_le (ways_t hu _ _ _ _ hw _ _)) ?_
  have h0 : ∀ t, 0 ≤ avg fun e => top (ways u dig e A B w q t) := fun t =>
    div_nonneg (sum_nonneg fun e _ => top_zero (ways_pos hu _ _ _ _ hw _ _)) (Nat.cast_nonneg _)
  rcases t with - | t
  · simpa using h0 0
  · refine mul_le_mul ?_ (avg_mono fun e => top_le (ways_t hu _ _ _ _ hw _ _)) (h0 _) (Nat.cast_nonneg _)
    push_cast
    linarith

omit [Nonempty D] in
theorem potential_q (dig : ι → D) (A B : Finset ι) {w : ℚ} (hw : 0 ≤ w) (q t : ℕ) :
    potential u dig A B w q t ≤ potential u dig A B w (q + 1) t := by
  unfold potential
  exact add_le_add (sum_le_sum fun z _ => top_le (ways_q hu _ _ _ _ hw _ _))
    (mul_le_mul_of_nonneg_left (avg_mono fun e => top_le (ways_q hu _ _ _ _ hw _ _)) (Nat.cast_nonneg _))

omit hu [Fintype D] [Nonempty D] in
theorem update_mem {dig : ι → D} {A : Finset ι} {z x : ι} (hA : z ∉ A) (hx : x ∈ A) (d : D) :
    Function.update dig z d x = dig x := by
  rw [Function.update_of_ne]
  rintro rfl
  exact hA hx

omit hu [Nonempty D] in
theorem ways_update {dig : ι → D} (e : D) {A B : Finset ι} {z : ι} (hA : z ∉ A) (hB : z ∉ B) (d : D) (w : ℚ) (q t : ℕ) :
    ways u (Function.update dig z d) e A B w q t = ways u dig e A B w q t := by
  unfold ways
  have e1 : ∏ x ∈ A, (1 + u e (Function.update dig z d x)) = ∏ x ∈ A, (1 + u e (dig x)) :=
    prod_congr rfl fun x hx => by rw [update_mem hA hx]
  have e2 : ∏ y ∈ B, (1 + MvPolynomial.C w * u e (Function.update dig z d y)) =
      ∏ y ∈ B, (1 + MvPolynomial.C w * u e (dig y)) :=
    prod_congr rfl fun x hx => by rw [update_mem hB hx]
  rw [e1, e2]

omit hu [Nonempty D] in
theorem ways_hash {dig : ι → D} (e : D) {A B : Finset ι} {z : ι} (hA : z ∉ A) (hB : z ∉ B) (d : D) (w : ℚ) (q t : ℕ) :
    ways u (Function.update dig z d) e A (insert z B) w q t = ways u dig e A B w q t * (1 + MvPolynomial.C w * u e d) := by
  rw [← ways_update e hA hB d]
  unfold ways
  rw [prod_insert hB, Function.update_self]
  ring

omit hu [Nonempty D] in
theorem ways_sign {dig : ι → D} (e : D) {A B : Finset ι} {z : ι} (hA : z ∉ A) (hB : z ∉ B) (d : D) (w : ℚ) (q t : ℕ) :
    ways u (Function.update dig z d) e (insert z A) B w q t = ways u dig e A B w q t * (1 + u e d) := by
  rw [← ways_update e hA hB d]
  unfold ways
  rw [prod_insert hA, Function.update_self]
  ring

omit hu [Nonempty D] [DecidableEq ι] in
theorem ways_succ_t (dig : ι → D) (e : D) (A B : Finset ι) (w : ℚ) (q t : ℕ) :
    ways u dig e A B w q t * (1 + MvPolynomial.C w * mean u e) = ways u dig e A B w q (t + 1) := by
  unfold ways
  rw [pow_succ, ← mul_assoc]

omit hu [Nonempty D] [DecidableEq ι] in
theorem ways_succ_q (dig : ι → D) (e : D) (A B : Finset ι) (w : ℚ) (q t : ℕ) :
    ways u dig e A B w q t * (1 + mean u e) = ways u dig e A B w (q + 1) t := by
  unfold ways
  rw [pow_succ]
  ring

omit hu in
/-- Another digest is hashed. -/
theorem potential_hash {dig : ι → D} {A B : Finset ι} {z : ι} (hA : z ∉ A) (hB : z ∉ B) (w : ℚ) (q t : ℕ) :
    avg (fun d => potential u (Function.update dig z d) A (insert z B) w q t) = potential u dig A B w q (t + 1) := by
  unfold potential
  rw [avg_add]
  have e1 : ∀ d, ∑ y ∈ insert z B, top (ways u (Function.update dig z d) (Function.update dig z d y) A
      ((insert z B).erase y) w q t) = top (ways u dig d A B w q t) +
      ∑ y ∈ B, top (ways u dig (dig y) A (B.erase y) w q t * (1 + MvPolynomial.C w * u (dig y) d)) := by
    intro d
    rw [sum_insert hB, erase_insert hB, Function.update_self]
    rw [ways_update d hA hB]
    refine congrArg _ (sum_congr rfl fun y hy => ?_)
    have hzy : z ≠ y := by rintro rfl; exact hB hy
    rw [erase_insert_of_ne hzy, update_mem hB hy, ways_hash _ hA (fun h => hB (mem_of_mem_erase h))]
  simp only [e1]
  rw [avg_add]
  have e2 : avg (fun d => ∑ y ∈ B, top (ways u dig (dig y) A (B.erase y) w q t * (1 + MvPolynomial.C w * u (dig y) d))) =
      ∑ y ∈ B, top (ways u dig (dig y) A (B.erase y) w q (t + 1)) := by
    rw [avg_sum]
    refine sum_congr rfl fun y _ => ?_
    rw [avg_factor, ways_succ_t]
  have e3 : avg (fun d => (t : ℚ) * avg fun e => top (ways u (Function.update dig z d) e A (insert z B) w q (t - 1))) =
      t * avg fun e => top (ways u dig e A B w q t) := by
    rcases t with - | t
    · simp only [Nat.cast_zero, zero_mul]
      exact avg_const 0
    · rw [avg_mul, avg_comm]
      refine congrArg _ (congrArg _ (funext fun e => ?_))
      simp only [ways_hash e hA hB]
      rw [avg_factor, Nat.add_sub_cancel, ways_succ_t]
  rw [e2, e3, Nat.add_sub_cancel]
  push_cast
  ring

omit hu in
/-- Another digest is signed. -/
theorem potential_sign {dig : ι → D} {A B : Finset ι} {z : ι} (hA : z ∉ A) (hB : z ∉ B) (w : ℚ) (q t : ℕ) :
    avg (fun d => potential u (Function.update dig z d) (insert z A) B w q t) = potential u dig A B w (q + 1) t := by
  unfold potential
  have fac : ∀ e p, avg (fun d => top (p * (1 + u e d))) = top (p * (1 + mean u e)) := by
    intro e p
    have := avg_factor (u := u) e 1 p
    simpa using this
  rw [avg_add, avg_mul, avg_comm]
  have e1 : ∀ d, ∑ y ∈ B, top (ways u (Function.update dig z d) (Function.update dig z d y) (insert z A) (B.erase y) w q t) =
      ∑ y ∈ B, top (ways u dig (dig y) A (B.erase y) w q t * (1 + u (dig y) d)) := by
    intro d
    refine sum_congr rfl fun y hy => ?_
    rw [update_mem hB hy, ways_sign _ hA (fun h => hB (mem_of_mem_erase h))]
  have e2 : ∀ e, avg (fun d => top (ways u (Function.update dig z d) e (insert z A) B w q (t - 1))) =
      top (ways u dig e A B w (q + 1) (t - 1)) := by
    intro e
    simp only [ways_sign e hA hB]
    rw [fac, ways_succ_q]
  simp only [e1, e2]
  rw [avg_sum]
  refine congrArg (· + _) (sum_congr rfl fun y _ => ?_)
  rw [fac, ways_succ_q]

omit [Nonempty D] in
/-- What signing a pair already hashed adds -/
noncomputable def gain (u : D → D → R k) (dig : ι → D) (A B : Finset ι) (w : ℚ) (q t : ℕ) (y : ι) : ℚ :=
  ∑ z ∈ B.erase y, top (u (dig z) (dig y) * ways u dig (dig z) A ((B.erase z).erase y) w q t) +
    t * avg fun e => top (u e (dig y) * ways u dig e A (B.erase y) w q (t - 1))

omit [Nonempty D] in
theorem gain_pos (dig : ι → D) (A B : Finset ι) {w : ℚ} (hw : 0 ≤ w) (q t : ℕ) (y : ι) : 0 ≤ gain u dig A B w q t y :=
  add_nonneg (sum_nonneg fun _ _ => top_zero (zero_mul' (hu _ _) (ways_pos hu _ _ _ _ hw _ _)))
    (mul_nonneg (Nat.cast_nonneg _) (div_nonneg
      (sum_nonneg fun _ _ => top_zero (zero_mul' (hu _ _) (ways_pos hu _ _ _ _ hw _ _))) (Nat.cast_nonneg _)))

omit [Nonempty D] in
theorem ways_erase (dig : ι → D) (e : D) (A B : Finset ι) {w : ℚ} (hw : 0 ≤ w) (q t : ℕ) {y : ι} (hy : y ∈ B) (hA : y ∉ A) :
    Le (ways u dig e (insert y A) (B.erase y) w q t)
      (ways u dig e A B w q t + u e (dig y) * ways u dig e A (B.erase y) w q t) := by
  have e1 : ways u dig e (insert y A) (B.erase y) w q t = (1 + u e (dig y)) * ways u dig e A (B.erase y) w q t := by
    unfold ways
    rw [prod_insert hA]
    ring
  have e2 : ways u dig e A B w q t = ways u dig e A (B.erase y) w q t * (1 + MvPolynomial.C w * u e (dig y)) := by
    unfold ways
    rw [← mul_prod_erase B _ hy]
    ring
  rw [e1, e2, add_mul, one_mul]
  refine Le.add ?_ (Le.refl _)
  have h := (one_le_one_add (zero_mul' (zero_C hw) (hu e (dig y)))).mul_left (ways_pos hu dig e A (B.erase y) hw q t)
  rwa [mul_one] at h

omit [Nonempty D] in
theorem potential_hit (dig : ι → D) (A B : Finset ι) {w : ℚ} (hw : 0 ≤ w) (q t : ℕ) {y : ι} (hy : y ∈ B) (hA : y ∉ A) :
    potential u dig (insert y A) (B.erase y) w q t ≤ potential u dig A B w q t + gain u dig A B w q t y := by
  unfold potential gain
  have h1 : ∑ z ∈ B.erase y, top (ways u dig (dig z) (insert y A) ((B.erase y).erase z) w q t) ≤
      ∑ z ∈ B, top (ways u dig (dig z) A (B.erase z) w q t) +
      ∑ z ∈ B.erase y, top (u (dig z) (dig y) * ways u dig (dig z) A ((B.erase z).erase y) w q t) := by
    have h2 : ∑ z ∈ B.erase y, top (ways u dig (dig z) A (B.erase z) w q t) ≤
        ∑ z ∈ B, top (ways u dig (dig z) A (B.erase z) w q t) :=
      sum_le_sum_of_subset_of_nonneg (erase_subset _ _) fun z _ _ => top_zero (ways_pos hu _ _ _ _ hw _ _)
    refine le_trans ?_ (add_le_add_left h2 _)
    rw [← sum_add_distrib]
    refine sum_le_sum fun z hz => ?_
    rw [← map_add, erase_right_comm]
    exact top_le (ways_erase hu dig _ A (B.erase z) hw q t (mem_erase.mpr ⟨(ne_of_mem_erase hz).symm, hy⟩) hA)
  have h3 : (t : ℚ) * avg (fun e => top (ways u dig e (insert y A) (B.erase y) w q (t - 1))) ≤
      t * (avg (fun e => top (ways u dig e A B w q (t - 1))) +
        avg fun e => top (u e (dig y) * ways u dig e A (B.erase y) w q (t - 1))) := by
    refine mul_le_mul_of_nonneg_left ?_ (Nat.cast_nonneg _)
    rw [← avg_add]
    refine avg_mono fun e => ?_
    rw [← map_add]
    exact top_le (ways_erase hu dig e A B hw q _ hy hA)
  linarith

omit [Nonempty D] in
theorem ways_step (dig : ι → D) (e : D) (A B : Finset ι) {w ε : ℚ} (hw : 0 ≤ w) (hε : 0 ≤ ε) (q t : ℕ) :
    top (ways u dig e A B w q t) + ε * ∑ y ∈ B, top (u e (dig y) * ways u dig e A (B.erase y) w q t) ≤
      top (ways u dig e A B (w + ε) q t) := by
  have h := prod_step B (fun y => hu e (dig y)) hw hε
  have pos : ∀ {c : ℚ}, 0 ≤ c → Le 0 (1 + MvPolynomial.C c * mean u e) := fun hc =>
    zero_one_add (zero_mul' (zero_C hc) (mean_pos hu e))
  have hF : Le 0 ((∏ x ∈ A, (1 + u e (dig x))) * (1 + mean u e) ^ q) :=
    zero_mul' (zero_prod fun x _ => zero_one_add (hu _ _)) (zero_pow (zero_one_add (mean_pos hu e)) _)
  have h1 : Le ((1 + MvPolynomial.C w * mean u e) ^ t) ((1 + MvPolynomial.C (w + ε) * mean u e) ^ t) := by
    refine pow_le (pos hw) ((Le.refl _).add ?_) t
    rw [MvPolynomial.C_add, add_mul]
    have := (Le.refl (MvPolynomial.C w * mean u e)).add (zero_mul' (zero_C hε) (mean_pos hu e))
    rwa [add_zero] at this
  have h2 := (h.mul h1 (zero_pow (pos hw) t)
    (zero_prod fun y _ => zero_one_add (zero_mul' (zero_C (add_nonneg hw hε)) (hu _ _)))).mul_left hF
  have h3 := top_le h2
  refine le_trans (le_of_eq ?_) (h3.trans (le_of_eq ?_))
  · rw [← map_sum, ← smul_eq_mul, ← map_smul, ← map_add]
    congr 1
    rw [← MvPolynomial.C_mul']
    unfold ways
    have e2 : ∀ y ∈ B, u e (dig y) * ((∏ x ∈ A, (1 + u e (dig x))) *
        (∏ y ∈ B.erase y, (1 + MvPolynomial.C w * u e (dig y))) * (1 + mean u e) ^ q *
        (1 + MvPolynomial.C w * mean u e) ^ t) =
        ((∏ x ∈ A, (1 + u e (dig x))) * (1 + mean u e) ^ q * (1 + MvPolynomial.C w * mean u e) ^ t) *
        (u e (dig y) * ∏ y ∈ B.erase y, (1 + MvPolynomial.C w * u e (dig y))) := fun y _ => by ring
    rw [sum_congr rfl e2, ← mul_sum]
    ring
  · congr 1
    unfold ways
    ring

omit [Nonempty D] in
theorem potential_step (dig : ι → D) (A B : Finset ι) {w ε : ℚ} (hw : 0 ≤ w) (hε : 0 ≤ ε) (q t : ℕ) :
    potential u dig A B w q t + ε * ∑ y ∈ B, gain u dig A B w q t y ≤ potential u dig A B (w + ε) q t := by
  unfold potential gain
  rw [sum_add_distrib, sum_comm' (s' := fun z => B.erase z) (t' := B) (by
    intro x y
    simp only [mem_erase, ne_eq]
    constructor
    · rintro ⟨h1, h2, h3⟩; exact ⟨⟨fun h => h2 h.symm, h1⟩, h3⟩
    · rintro ⟨⟨h1, h2⟩, h3⟩; exact ⟨h2, fun h => h1 h.symm, h3⟩)]
  have h1 := sum_le_sum fun z (_ : z ∈ B) => ways_step hu dig (dig z) A (B.erase z) hw hε q t
  rw [sum_add_distrib, ← mul_sum] at h1
  have h2 := avg_mono fun e => ways_step hu dig e A B hw hε q (t - 1)
  rw [avg_add] at h2
  have e1 : avg (fun e => ε * ∑ y ∈ B, top (u e (dig y) * ways u dig e A (B.erase y) w q (t - 1))) =
      ε * ∑ y ∈ B, avg fun e => top (u e (dig y) * ways u dig e A (B.erase y) w q (t - 1)) := by
    unfold avg
    rw [← mul_sum, sum_comm, mul_div_assoc, sum_div]
  rw [e1] at h2
  have h3 := mul_le_mul_of_nonneg_left h2 (Nat.cast_nonneg (α := ℚ) t)
  rw [← mul_sum]
  have e2 : ∀ a b c d s : ℚ, a + s * b + ε * (c + s * d) = (a + ε * c) + s * (b + ε * d) := fun a b c d s => by ring
  rw [e2]
  exact add_le_add h1 h3

end

section
variable {ρ M D : Type} [Fintype ρ] [Fintype M] [Fintype D] [Nonempty D] [DecidableEq ρ] [DecidableEq M] {k : ℕ}

/-- The digests of the pairs `K` are known. -/
def known (dig : ρ × M → D) (K : Finset (ρ × M)) : ρ × M → Option D := fun z => if z ∈ K then some (dig z) else none

omit [Fintype ρ] [Fintype M] [Fintype D] [Nonempty D] in
theorem known_update (dig : ρ × M → D) {K : Finset (ρ × M)} {z : ρ × M} (hz : z ∉ K) (d : D) :
    Function.update (known dig K) z (some d) = known (Function.update dig z d) (insert z K) := by
  funext y
  unfold known
  by_cases hy : y = z
  · subst hy; simp
  · simp [hy]

omit [Fintype ρ] [Fintype M] [Fintype D] [Nonempty D] in
theorem over_known {dig : ρ × M → D} {K : Finset (ρ × M)} {z : ρ × M} (hz : z ∈ K) (g : ρ × M → D) :
    over (known dig K) g z = dig z := by
  unfold over known
  rw [if_pos hz]
  rfl

variable {u : D → D → R k} (hu : ∀ e d, Le 0 (u e d)) {C : Set D → D → Prop}
  (hC : ∀ (A : Finset (ρ × M)) (dig : ρ × M → D) e, C {d | ∃ y ∈ A, dig y = d} e → 1 ≤ top (∏ x ∈ A, (1 + u e (dig x))))
include hu hC

theorem G_end [Nonempty ρ] (r : ρ) (m : M) {w : ℚ} (hw : 0 ≤ w) (q t : ℕ) {dig : ρ × M → D} {A B : Finset (ρ × M)}
    {S : List (ρ × M)} (hS : ∀ z, z ∈ S ↔ z ∈ A) (hz : (r, m) ∈ A ∪ B) :
    G C (.forge r m) q (known dig (A ∪ B)) S ≤ potential u dig A B w q t := by
  by_cases h : (r, m) ∈ A
  · refine le_trans ?_ (potential_pos hu dig A B hw q t)
    rw [← avg_const (α := ρ × M → D) (0 : ℚ)]
    refine avg_mono fun g => ?_
    rw [← avg_const (α := Fin q → ρ) (0 : ℚ)]
    refine avg_mono fun s => ?_
    unfold ind
    rw [if_neg]
    rintro ⟨S', z, e, h1, -⟩
    simp only [Attacker.run, Option.some.injEq, Prod.mk.injEq] at e
    obtain ⟨rfl, rfl⟩ := e
    exact h1 ((hS _).mpr h)
  · have hB : (r, m) ∈ B := (mem_union.mp hz).resolve_left h
    have h1 : G C (.forge r m) q (known dig (A ∪ B)) S ≤ ind (C {d | ∃ y ∈ A, dig y = d} (dig (r, m))) := by
      rw [← avg_const (α := ρ × M → D) (ind (C {d | ∃ y ∈ A, dig y = d} (dig (r, m))))]
      refine avg_mono fun g => ?_
      rw [← avg_const (α := Fin q → ρ) (ind (C {d | ∃ y ∈ A, dig y = d} (dig (r, m))))]
      refine avg_mono fun s => ind_mono ?_
      rintro ⟨S', z, e, -, h2⟩
      simp only [Attacker.run, Option.some.injEq, Prod.mk.injEq] at e
      obtain ⟨rfl, rfl⟩ := e
      rw [over_known hz] at h2
      have e2 : {d | ∃ y ∈ S, over (known dig (A ∪ B)) g y = d} = {d | ∃ y ∈ A, dig y = d} := by
        ext d
        refine exists_congr fun y => ?_
        rw [hS]
        refine and_congr_right fun hy => ?_
        rw [over_known (mem_union_left _ hy)]
      rwa [e2] at h2
    have h2 : ind (C {d | ∃ y ∈ A, dig y = d} (dig (r, m))) ≤ top (∏ x ∈ A, (1 + u (dig (r, m)) (dig x))) := by
      by_cases hc : C {d | ∃ y ∈ A, dig y = d} (dig (r, m))
      · exact (ind_le_one _).trans (hC A dig _ hc)
      · unfold ind
        rw [if_neg hc]
        exact top_zero (zero_prod fun x _ => zero_one_add (hu _ _))
    have h3 : Le (∏ x ∈ A, (1 + u (dig (r, m)) (dig x))) (ways u dig (dig (r, m)) A (B.erase (r, m)) w q t) := by
      have p0 : Le 0 (∏ x ∈ A, (1 + u (dig (r, m)) (dig x))) := zero_prod fun x _ => zero_one_add (hu _ _)
      have p1 : Le 1 (∏ y ∈ B.erase (r, m), (1 + MvPolynomial.C w * u (dig (r, m)) (dig y))) := by
        have := prod_le (s := B.erase (r, m)) (f := fun _ => (1 : R k))
          (g := fun y => 1 + MvPolynomial.C w * u (dig (r, m)) (dig y)) (fun _ _ => zero_one)
          (fun y _ => one_le_one_add (zero_mul' (zero_C hw) (hu _ _)))
        rwa [prod_const_one] at this
      have p2 : Le 1 ((1 + mean u (dig (r, m))) ^ q) := by
        have := pow_le zero_one (one_le_one_add (mean_pos hu (dig (r, m)))) q
        rwa [one_pow] at this
      have p3 : Le 1 ((1 + MvPolynomial.C w * mean u (dig (r, m))) ^ t) := by
        have := pow_le zero_one (one_le_one_add (zero_mul' (zero_C hw) (mean_pos hu (dig (r, m))))) t
        rwa [one_pow] at this
      unfold ways
      have h := (((Le.refl _).mul p1 zero_one p0).mul p2 zero_one (zero_mul' p0 (zero_one.trans p1))).mul p3 zero_one
        (zero_mul' (zero_mul' p0 (zero_one.trans p1)) (zero_one.trans p2))
      rwa [mul_one, mul_one, mul_one] at h
    refine (h1.trans h2).trans ((top_le h3).trans ?_)
    unfold potential
    refine le_trans ?_ (le_add_of_nonneg_right (mul_nonneg (Nat.cast_nonneg _)
      (div_nonneg (sum_nonneg fun e _ => top_zero (ways_pos hu _ _ _ _ hw _ _)) (Nat.cast_nonneg _))))
    exact single_le_sum (f := fun z => top (ways u dig (dig z) A (B.erase z) w q t))
      (fun z _ => top_zero (ways_pos hu _ _ _ _ hw _ _)) hB

theorem G_sharp [Nonempty ρ] (Q : Attacker ρ M D) :
    ∀ {q t : ℕ} (_ : Q.Within q t) {dig : ρ × M → D} {A B : Finset (ρ × M)} {S : List (ρ × M)}
      (_ : ∀ z, z ∈ S ↔ z ∈ A) (_ : Disjoint A B),
      G C Q q (known dig (A ∪ B)) S ≤ potential u dig A B (q / Fintype.card ρ) q t := by
  induction Q with
  | forge r m =>
    intro q t ht dig A B S hS hd
    have hw : (0 : ℚ) ≤ q / Fintype.card ρ := by positivity
    by_cases hz : (r, m) ∈ A ∪ B
    · exact G_end hu hC r m hw q t hS hz
    · obtain ⟨t, rfl⟩ : ∃ t', t = t' + 1 := ⟨t - 1, by simp only [Attacker.Within] at ht; omega⟩
      have hz' : (r, m) ∉ A ∧ (r, m) ∉ B := by rw [mem_union] at hz; tauto
      rw [G_fresh C _ q (show known dig (A ∪ B) (r, m) = none from if_neg hz), ← potential_hash hz'.1 hz'.2]
      refine avg_mono fun d => ?_
      rw [known_update dig hz, ← union_insert]
      exact G_end hu hC r m hw q t hS (mem_union_right _ (mem_insert_self _ _))
  | hash r m next ih =>
    intro q t hw dig A B S hS hd
    simp only [Attacker.Within] at hw
    obtain ⟨t, rfl⟩ : ∃ t', t = t' + 1 := ⟨t - 1, by omega⟩
    have step : ∀ (dig : ρ × M → D) (K : Finset (ρ × M)), (r, m) ∈ K →
        G C (.hash r m next) q (known dig K) S = G C (next (dig (r, m))) q (known dig K) S := by
      intro dig K hK
      unfold G
      congr; funext g; congr; funext s
      rw [Attacker.run, over_known hK]
    have hw0 : (0 : ℚ) ≤ q / Fintype.card ρ := by positivity
    by_cases hz : (r, m) ∈ A ∪ B
    · rw [step dig _ hz]
      exact (ih _ (hw.2 _) hS hd).trans (potential_t hu dig A B hw0 q t)
    · have hz' : (r, m) ∉ A ∧ (r, m) ∉ B := by rw [mem_union] at hz; tauto
      rw [G_fresh C _ q (show known dig (A ∪ B) (r, m) = none from if_neg hz), ← potential_hash hz'.1 hz'.2]
      refine avg_mono fun d => ?_
      rw [known_update dig hz, ← union_insert, step _ _ (mem_union_right _ (mem_insert_self _ _))]
      exact ih _ (hw.2 _) hS (disjoint_insert_right.mpr ⟨hz'.1, hd⟩)
  | sign m next ih =>
    intro q t hw dig A B S hS hd
    simp only [Attacker.Within] at hw
    obtain ⟨q, rfl⟩ : ∃ q', q = q' + 1 := ⟨q - 1, by omega⟩
    have hw := hw.2
    simp only [Nat.add_sub_cancel] at hw
    have hw0 : (0 : ℚ) ≤ q / Fintype.card ρ := by positivity
    have hε : (0 : ℚ) ≤ 1 / Fintype.card ρ := by positivity
    -- the first randomiser
    let G' (T : ρ × M → Option D) (r : ρ) : ℚ := avg fun g : ρ × M → D => avg fun s : Fin q → ρ =>
      ind (WonBy C (over T g) ((next r (over T g (r, m))).run (over T g) (List.ofFn s) ((r, m) :: S)))
    have e : G C (.sign m next) (q + 1) (known dig (A ∪ B)) S = avg fun r => G' (known dig (A ∪ B)) r := by
      unfold G G'
      refine Eq.trans ?_ (avg_comm _)
      congr; funext g
      rw [avg_succ]
      congr; funext r; congr; funext s
      rw [List.ofFn_succ, Fin.cons_zero, Attacker.run]
      simp only [Fin.cons_succ]
    have step : ∀ (dig : ρ × M → D) (K : Finset (ρ × M)) (r : ρ), (r, m) ∈ K →
        G' (known dig K) r = G C (next r (dig (r, m))) q (known dig K) ((r, m) :: S) := by
      intro dig K r hK
      unfold G G'
      congr; funext g; congr; funext s
      rw [over_known hK]
    let F := potential u dig A B (q / Fintype.card ρ) (q + 1) t
    let gn := gain u dig A B (q / Fintype.card ρ) (q + 1) t
    have gpos : ∀ y, 0 ≤ gn y := gain_pos hu dig A B hw0 (q + 1) t
    have each : ∀ r, G' (known dig (A ∪ B)) r ≤ F + ∑ y ∈ B, ind ((r, m) = y) * gn y := by
      intro r
      have pos : 0 ≤ ∑ y ∈ B, ind ((r, m) = y) * gn y := sum_nonneg fun y _ => mul_nonneg (ind_nonneg _) (gpos y)
      by_cases hz : (r, m) ∈ A ∪ B
      · rw [step dig _ r hz]
        by_cases hA : (r, m) ∈ A
        · refine le_trans ?_ (le_add_of_nonneg_right pos)
          refine (ih r _ (hw r _) (fun z => ?_) hd).trans (potential_q hu dig A B hw0 q t)
          rw [List.mem_cons, hS]
          exact ⟨fun h => h.elim (fun h => h ▸ hA) id, Or.inr⟩
        · have hB : (r, m) ∈ B := (mem_union.mp hz).resolve_left hA
          have h1 : gn (r, m) ≤ ∑ y ∈ B, ind ((r, m) = y) * gn y := by
            refine le_trans (le_of_eq ?_) (single_le_sum (f := fun y => ind ((r, m) = y) * gn y)
              (fun y _ => mul_nonneg (ind_nonneg _) (gpos y)) hB)
            show gn (r, m) = ind ((r, m) = (r, m)) * gn (r, m)
            unfold ind
            rw [if_pos rfl, one_mul]
          have e1 : A ∪ B = insert (r, m) A ∪ B.erase (r, m) := by
            rw [insert_union, ← union_insert, insert_erase hB]
          have h2 := ih r (dig (r, m)) (hw r _) (dig := dig) (A := insert (r, m) A) (B := B.erase (r, m))
            (S := (r, m) :: S) (fun z => by rw [List.mem_cons, hS, mem_insert])
            (disjoint_insert_left.mpr ⟨notMem_erase _ _, hd.mono_right (erase_subset _ _)⟩)
          rw [← e1] at h2
          have h3 := potential_hit hu dig A B hw0 q t hB hA
          have h4 := potential_hit hu dig A B hw0 (q + 1) t hB hA
          have h5 := potential_q hu dig (insert (r, m) A) (B.erase (r, m)) hw0 q t
          exact h2.trans (h5.trans (h4.trans (add_le_add_right h1 _)))
      · refine le_trans ?_ (le_add_of_nonneg_right pos)
        have hz' : (r, m) ∉ A ∧ (r, m) ∉ B := by rw [mem_union] at hz; tauto
        have e2 : G' (known dig (A ∪ B)) r = avg fun d => G' (Function.update (known dig (A ∪ B)) (r, m) (some d)) r := by
          unfold G'
          rw [avg_update (r, m)]
          congr; funext d; congr; funext g
          rw [over_update (show known dig (A ∪ B) (r, m) = none from if_neg hz)]
        rw [e2]
        refine le_trans ?_ (le_of_eq (potential_sign hz'.1 hz'.2 _ q t))
        refine avg_mono fun d => ?_
        rw [known_update dig hz, ← insert_union, step _ _ r (mem_union_left _ (mem_insert_self _ _))]
        exact ih r _ (hw r _) (fun z => by rw [List.mem_cons, hS, mem_insert]) (disjoint_insert_left.mpr ⟨hz'.2, hd⟩)
    rw [e]
    refine (avg_mono each).trans ?_
    have ew : ((q + 1 : ℕ) : ℚ) / Fintype.card ρ = q / Fintype.card ρ + 1 / Fintype.card ρ := by
      push_cast
      ring
    rw [avg_add, avg_const, avg_sum, ew]
    refine le_trans (add_le_add_right ?_ F) (potential_step hu dig A B hw0 hε (q + 1) t)
    rw [mul_sum]
    refine sum_le_sum fun y _ => ?_
    have e3 : avg (fun r : ρ => ind ((r, m) = y) * gn y) = avg (fun r : ρ => ind ((r, m) = y)) * gn y := by
      unfold avg
      rw [← sum_mul, div_mul_eq_mul_div]
    rw [e3]
    refine mul_le_mul_of_nonneg_right ?_ (gpos y)
    unfold avg
    refine div_le_div_of_nonneg_right ?_ (Nat.cast_nonneg _)
    have h6 : ∑ r : ρ, ind ((r, m) = y) ≤ ∑ r : ρ, if r = y.1 then (1 : ℚ) else 0 := by
      refine sum_le_sum fun r _ => ?_
      unfold ind
      by_cases h : (r, m) = y
      · rw [if_pos h, if_pos (by rw [← h])]
      · rw [if_neg h]
        split <;> norm_num
    refine h6.trans (le_of_eq ?_)
    rw [sum_ite_eq' univ y.1 fun _ => (1 : ℚ), if_pos (mem_univ _)]

/-- From the beginning -/
theorem G_sharp_start [Nonempty ρ] (Q : Attacker ρ M D) {q t : ℕ} (hQ : Q.Within q t) :
    chance (fun w : (ρ × M → D) × (Fin q → ρ) => WonBy C w.1 (Q.run w.1 (List.ofFn w.2) [])) ≤
      t * avg fun e => top ((1 + mean u e) ^ q * (1 + MvPolynomial.C (q / Fintype.card ρ : ℚ) * mean u e) ^ (t - 1)) := by
  have h := G_sharp hu hC Q hQ (dig := fun _ => Classical.choice inferInstance) (A := ∅) (B := ∅) (S := [])
    (fun z => by simp) (disjoint_empty_left _)
  have e1 : chance (fun w : (ρ × M → D) × (Fin q → ρ) => WonBy C w.1 (Q.run w.1 (List.ofFn w.2) [])) =
      G C Q q (known (fun _ => Classical.choice inferInstance) (∅ ∪ ∅)) [] := by
    rw [← avg_ind, avg_prod]
    have e2 : ∀ g : ρ × M → D, over (known (fun _ => Classical.choice inferInstance) (∅ ∪ ∅)) g = g := fun g => by
      funext z
      simp [over, known]
    unfold G
    simp only [e2]
  rw [e1]
  refine h.trans (le_of_eq ?_)
  unfold potential ways
  simp

end

end Spx.Rom
