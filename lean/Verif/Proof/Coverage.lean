import Mathlib.Algebra.BigOperators.Ring.Finset
import Mathlib.Data.Fintype.BigOperators
/-! # Counting covered selections

`D` stands for the digests, `key` and `pick` for what a digest selects; every selection has the same number `N` of
digests. -/

namespace Spx.Cov
open Finset

section
variable {D K B : Type} [Fintype D] [Fintype K] [Fintype B] [DecidableEq D] [DecidableEq K] [DecidableEq B]
  {k N : ℕ} {key : D → K} {pick : D → Fin k → B}

/-- Functions with given values on `I` -/
theorem card_agree (I : Finset (Fin k)) (c : Fin k → B) :
    (univ.filter fun c' : Fin k → B => ∀ i ∈ I, c' i = c i).card * Fintype.card B ^ I.card = Fintype.card B ^ k := by
  have e : (univ.filter fun c' : Fin k → B => ∀ i ∈ I, c' i = c i) =
      Fintype.piFinset fun i => if i ∈ I then {c i} else univ := by
    ext c'
    simp only [mem_filter, mem_univ, true_and, Fintype.mem_piFinset]
    refine forall_congr' fun i => ?_
    by_cases h : i ∈ I <;> simp [h]
  rw [e, Fintype.card_piFinset, ← prod_const]
  have e2 : (∏ _i ∈ I, Fintype.card B) = ∏ i, if i ∈ I then Fintype.card B else 1 := by
    rw [prod_ite_mem, univ_inter]
  rw [e2, ← prod_mul_distrib]
  rw [prod_congr rfl (g := fun _ => Fintype.card B)]
  · simp
  · intro i _
    by_cases h : i ∈ I <;> simp [h]

/-- An event for one of `t` values -/
theorem card_one_of {X : Type} [Fintype X] [DecidableEq X] {t : ℕ} (Z : X → D → Prop) [∀ x d, Decidable (Z x d)] :
    (univ.filter fun x : X × (Fin t → D) => ∃ a, Z x.1 (x.2 a)).card * Fintype.card D ≤
      t * ((univ.filter fun x : X × D => Z x.1 x.2).card * Fintype.card D ^ t) := by
  have h1 : (univ.filter fun x : X × (Fin t → D) => ∃ a, Z x.1 (x.2 a)) ⊆
      univ.biUnion fun a => univ.filter fun x : X × (Fin t → D) => Z x.1 (x.2 a) := by
    intro x hx
    simp only [mem_filter, mem_univ, true_and, mem_biUnion] at hx ⊢
    exact hx
  have h2 : ∀ a : Fin t, (univ.filter fun x : X × (Fin t → D) => Z x.1 (x.2 a)).card * Fintype.card D =
      (univ.filter fun x : X × D => Z x.1 x.2).card * Fintype.card D ^ t := by
    intro a
    rw [card_eq_sum_card_fiberwise (f := fun x : X × (Fin t → D) => (x.1, x.2 a))
      (t := univ.filter fun x : X × D => Z x.1 x.2) (fun x hx => by
        simp only [coe_filter, mem_univ, true_and, Set.mem_ofPred_eq] at hx ⊢; exact hx), sum_mul]
    rw [sum_congr rfl (g := fun _ => Fintype.card D ^ t), sum_const, Nat.nsmul_eq_mul]
    intro z hz
    simp only [mem_filter, mem_univ, true_and] at hz
    rw [← card_agree (B := D) {a} (fun _ => z.2), card_singleton, pow_one]
    congr 1
    refine card_bij (fun x _ => x.2) ?_ ?_ ?_
    · intro x hx
      simp only [mem_filter, mem_univ, true_and, mem_singleton] at hx ⊢
      rintro i rfl
      exact congrArg Prod.snd hx.2
    · intro x hx y hy hxy
      simp only [mem_filter, mem_univ, true_and] at hx hy
      exact Prod.ext ((congrArg Prod.fst hx.2).trans (congrArg Prod.fst hy.2).symm) hxy
    · intro y hy
      simp only [mem_filter, mem_univ, true_and, mem_singleton, forall_eq] at hy
      refine ⟨(z.1, y), ?_, rfl⟩
      simp only [mem_filter, mem_univ, true_and]
      rw [hy]
      exact ⟨hz, rfl⟩
  calc _ ≤ (∑ a : Fin t, (univ.filter fun x : X × (Fin t → D) => Z x.1 (x.2 a)).card) * Fintype.card D :=
        Nat.mul_le_mul_right _ ((card_le_card h1).trans card_biUnion_le)
    _ = _ := by
      rw [sum_mul, sum_congr rfl fun a _ => h2 a, sum_const, Nat.nsmul_eq_mul, card_univ, Fintype.card_fin]

variable (hU : ∀ κ c, (univ.filter fun d => key d = κ ∧ pick d = c).card = N)
include hU

omit [Fintype K] [DecidableEq D] in
theorem card_part (κ : K) (I : Finset (Fin k)) (c : Fin k → B) :
    (univ.filter fun d => key d = κ ∧ ∀ i ∈ I, pick d i = c i).card * Fintype.card B ^ I.card =
      N * Fintype.card B ^ k := by
  have e := card_eq_sum_card_fiberwise (f := pick) (s := univ.filter fun d => key d = κ ∧ ∀ i ∈ I, pick d i = c i)
    (t := univ.filter fun c' : Fin k → B => ∀ i ∈ I, c' i = c i)
    (fun d hd => by simp only [coe_filter, mem_univ, true_and, Set.mem_ofPred_eq] at hd ⊢; exact hd.2)
  have e2 : ∀ c' ∈ univ.filter fun c' : Fin k → B => ∀ i ∈ I, c' i = c i,
      ((univ.filter fun d => key d = κ ∧ ∀ i ∈ I, pick d i = c i).filter fun d => pick d = c').card = N := by
    intro c' hc
    simp only [mem_filter, mem_univ, true_and] at hc
    rw [filter_filter, ← hU κ c']
    congr 1
    ext d
    simp only [mem_filter, mem_univ, true_and]
    exact ⟨fun h => ⟨h.1.1, h.2⟩, fun h => ⟨⟨h.1, fun i hi => by rw [h.2]; exact hc i hi⟩, h.2⟩⟩
  rw [e, sum_congr rfl e2, sum_const, Nat.nsmul_eq_mul, mul_comm _ N, mul_assoc, card_agree]

omit [DecidableEq D] in
/-- The number of digests -/
theorem card_all : Fintype.card D = Fintype.card K * (N * Fintype.card B ^ k) := by
  have e := card_eq_sum_card_fiberwise (f := key) (s := univ) (t := univ) (fun d _ => by simp)
  have e2 : ∀ κ ∈ (univ : Finset K), ((univ : Finset D).filter fun d => key d = κ).card = N * Fintype.card B ^ k := by
    intro κ _
    by_cases hD : Nonempty D
    · obtain ⟨d0⟩ := hD
      have h := card_part hU κ ∅ (pick d0)
      simpa using h
    · by_cases hB : Nonempty (Fin k → B)
      · obtain ⟨c⟩ := hB
        have h := card_part hU κ ∅ c
        simpa using h
      · have hz : Fintype.card (Fin k → B) = 0 := Fintype.card_eq_zero_iff.mpr (not_nonempty_iff.mp hB)
        rw [Fintype.card_fun, Fintype.card_fin] at hz
        rw [hz, Nat.mul_zero, card_eq_zero]
        ext d
        exact absurd ⟨d⟩ hD
  rw [← card_univ, e, sum_congr rfl e2, sum_const, Nat.nsmul_eq_mul, card_univ]

omit [DecidableEq D] in
/-- The queries that cover `d` in the way `f` says -/
theorem card_way {q : ℕ} (f : Fin k → Fin q) (d : D) :
    (univ.filter fun x : Fin q → D => ∀ i, key (x (f i)) = key d ∧ pick (x (f i)) i = pick d i).card *
      (Fintype.card K ^ (univ.image f).card * Fintype.card B ^ k) = Fintype.card D ^ q := by
  have e : (univ.filter fun x : Fin q → D => ∀ i, key (x (f i)) = key d ∧ pick (x (f i)) i = pick d i) =
      Fintype.piFinset fun j => univ.filter fun y => ∀ i, f i = j → key y = key d ∧ pick y i = pick d i := by
    ext x
    simp only [mem_filter, mem_univ, true_and, Fintype.mem_piFinset]
    exact ⟨fun h j i hij => hij ▸ h i, fun h i => h (f i) i rfl⟩
  have e1 : Fintype.card K ^ (univ.image f).card = ∏ j : Fin q, if j ∈ univ.image f then Fintype.card K else 1 := by
    rw [← prod_const, prod_ite_mem, univ_inter]
  have e2 : Fintype.card B ^ k = ∏ j : Fin q, Fintype.card B ^ (univ.filter fun i => f i = j).card := by
    rw [prod_pow_eq_pow_sum, ← card_eq_sum_card_fiberwise (fun i _ => by simp), card_univ, Fintype.card_fin]
  rw [e, Fintype.card_piFinset]
  conv => lhs; rw [e1]; rhs; rhs; rw [e2]
  rw [← prod_mul_distrib, ← prod_mul_distrib, prod_congr rfl (g := fun _ => Fintype.card D)]
  · simp
  · intro j _
    by_cases h : j ∈ univ.image f
    · rw [if_pos h]
      have e3 : (univ.filter fun y => ∀ i, f i = j → key y = key d ∧ pick y i = pick d i) =
          univ.filter fun y => key y = key d ∧ ∀ i ∈ (univ.filter fun i => f i = j), pick y i = pick d i := by
        ext y
        simp only [mem_filter, mem_univ, true_and]
        simp only [mem_image, mem_univ, true_and] at h
        obtain ⟨i0, h0⟩ := h
        exact ⟨fun h => ⟨(h i0 h0).1, fun i hi => (h i hi).2⟩, fun h i hi => ⟨h.1, h.2 i hi⟩⟩
      rw [e3, card_all hU, mul_left_comm, ← card_part hU (key d) (univ.filter fun i => f i = j) (pick d)]
    · have e3 : ∀ i, f i ≠ j := fun i hi => h (by simp [← hi])
      rw [if_neg h]
      simp [e3]

/-- Covered digests, counted with the queries that cover them -/
theorem card_covered (q : ℕ) :
    (univ.filter fun x : (Fin q → D) × D => ∀ i, ∃ j, key (x.1 j) = key x.2 ∧ pick (x.1 j) i = pick x.2 i).card *
      (Fintype.card K ^ k * Fintype.card B ^ k) ≤
    Fintype.card D ^ (q + 1) * ∑ f : Fin k → Fin q, Fintype.card K ^ (k - (univ.image f).card) := by
  have h1 : (univ.filter fun x : (Fin q → D) × D => ∀ i, ∃ j, key (x.1 j) = key x.2 ∧ pick (x.1 j) i = pick x.2 i) ⊆
      univ.biUnion fun f : Fin k → Fin q => univ.filter fun x : (Fin q → D) × D =>
        ∀ i, key (x.1 (f i)) = key x.2 ∧ pick (x.1 (f i)) i = pick x.2 i := by
    intro x hx
    simp only [mem_filter, mem_univ, true_and] at hx
    obtain ⟨f, hf⟩ := Classical.axiomOfChoice hx
    simp only [mem_biUnion, mem_univ, true_and, mem_filter]
    exact ⟨f, hf⟩
  have h2 : ∀ f : Fin k → Fin q, (univ.filter fun x : (Fin q → D) × D =>
        ∀ i, key (x.1 (f i)) = key x.2 ∧ pick (x.1 (f i)) i = pick x.2 i).card *
      (Fintype.card K ^ k * Fintype.card B ^ k) =
      Fintype.card D ^ (q + 1) * Fintype.card K ^ (k - (univ.image f).card) := by
    intro f
    have hle : (univ.image f).card ≤ k := by
      have := card_image_le (s := univ) (f := f)
      rwa [card_univ, Fintype.card_fin] at this
    have e := card_eq_sum_card_fiberwise (f := Prod.snd) (t := univ) (s := univ.filter fun x : (Fin q → D) × D =>
        ∀ i, key (x.1 (f i)) = key x.2 ∧ pick (x.1 (f i)) i = pick x.2 i) (fun d _ => by simp)
    have e2 : ∀ d : D, ((univ.filter fun x : (Fin q → D) × D =>
        ∀ i, key (x.1 (f i)) = key x.2 ∧ pick (x.1 (f i)) i = pick x.2 i).filter fun x => x.2 = d).card =
        (univ.filter fun x : Fin q → D => ∀ i, key (x (f i)) = key d ∧ pick (x (f i)) i = pick d i).card := by
      intro d
      refine card_bij (fun x _ => x.1) ?_ ?_ ?_
      · intro x hx
        simp only [mem_filter, mem_univ, true_and] at hx ⊢
        obtain ⟨h, rfl⟩ := hx
        exact h
      · intro x hx y hy hxy
        simp only [mem_filter, mem_univ, true_and] at hx hy
        exact Prod.ext hxy (hx.2.trans hy.2.symm)
      · intro x hx
        simp only [mem_filter, mem_univ, true_and] at hx
        exact ⟨(x, d), by simp only [mem_filter, mem_univ, true_and]; exact ⟨hx, trivial⟩, rfl⟩
    rw [e, sum_mul]
    have e3 : ∀ d ∈ (univ : Finset D), ((univ.filter fun x : (Fin q → D) × D =>
        ∀ i, key (x.1 (f i)) = key x.2 ∧ pick (x.1 (f i)) i = pick x.2 i).filter fun x => x.2 = d).card *
          (Fintype.card K ^ k * Fintype.card B ^ k) =
        Fintype.card D ^ q * Fintype.card K ^ (k - (univ.image f).card) := by
      intro d _
      rw [e2 d, ← card_way hU f d]
      have e4 : Fintype.card K ^ k = Fintype.card K ^ (univ.image f).card * Fintype.card K ^ (k - (univ.image f).card) := by
        rw [← pow_add, Nat.add_sub_cancel' hle]
      rw [e4]
      ac_rfl
    rw [sum_congr rfl e3, sum_const, Nat.nsmul_eq_mul, card_univ, pow_succ]
    ac_rfl
  calc _ ≤ (∑ f : Fin k → Fin q, (univ.filter fun x : (Fin q → D) × D =>
        ∀ i, key (x.1 (f i)) = key x.2 ∧ pick (x.1 (f i)) i = pick x.2 i).card) *
          (Fintype.card K ^ k * Fintype.card B ^ k) :=
        Nat.mul_le_mul_right _ ((card_le_card h1).trans card_biUnion_le)
    _ = _ := by rw [sum_mul, sum_congr rfl fun f _ => h2 f, mul_sum]

end

/-- One step of the sum over functions: a further argument gets one of the `j` values taken so far, or another. -/
def Φ (q : ℕ) (g : ℕ → ℕ) (j : ℕ) : ℕ := j * g j + (q - j) * g (j + 1)

theorem Φ_mono {q q' : ℕ} (hq : q ≤ q') {g g' : ℕ → ℕ} (hg : ∀ j, g j ≤ g' j) (j : ℕ) : Φ q g j ≤ Φ q' g' j := by
  unfold Φ
  exact Nat.add_le_add (Nat.mul_le_mul_left _ (hg j)) (Nat.mul_le_mul (Nat.sub_le_sub_right hq j) (hg _))

theorem Φ_iter_mono {q q' : ℕ} (hq : q ≤ q') (k : ℕ) {g g' : ℕ → ℕ} (hg : ∀ j, g j ≤ g' j) (j : ℕ) :
    (Φ q)^[k] g j ≤ (Φ q')^[k] g' j := by
  induction k generalizing g g' with
  | zero => exact hg j
  | succ k ih => exact ih (Φ_mono hq hg)

theorem sum_image (q k : ℕ) (g : ℕ → ℕ) :
    ∑ f : Fin k → Fin q, g (univ.image f).card = (Φ q)^[k] g 0 := by
  induction k generalizing g with
  | zero => simp
  | succ k ih =>
    rw [Function.iterate_succ_apply, ← ih]
    rw [← (Fin.consEquiv fun _ => Fin q).sum_comp, Fintype.sum_prod_type, sum_comm]
    refine sum_congr rfl fun f _ => ?_
    have e : ∀ x : Fin q, univ.image ((Fin.consEquiv fun _ => Fin q) (x, f)) = insert x (univ.image f) := by
      intro x
      ext y
      simp only [Fin.consEquiv, Equiv.coe_fn_mk, mem_image, mem_univ, true_and, mem_insert]
      constructor
      · rintro ⟨i, rfl⟩
        induction i using Fin.cases with
        | zero => exact Or.inl rfl
        | succ i => exact Or.inr ⟨i, rfl⟩
      · rintro (rfl | ⟨i, rfl⟩)
        · exact ⟨0, rfl⟩
        · exact ⟨i.succ, rfl⟩
    have e2 : ∀ x ∈ (univ : Finset (Fin q)), g (univ.image ((Fin.consEquiv fun _ => Fin q) (x, f))).card =
        if x ∈ univ.image f then g (univ.image f).card else g ((univ.image f).card + 1) := by
      intro x _
      rw [e]
      by_cases h : x ∈ univ.image f
      · rw [if_pos h, insert_eq_of_mem h]
      · rw [if_neg h, card_insert_of_notMem h]
    rw [sum_congr rfl e2, sum_ite, sum_const, sum_const, Nat.nsmul_eq_mul, Nat.nsmul_eq_mul]
    unfold Φ
    have e3 : (univ.filter fun x => x ∈ univ.image f) = univ.image f := by ext; simp
    have e4 : (univ.filter fun x => ¬ x ∈ univ.image f).card = q - (univ.image f).card := by
      rw [filter_not, e3, card_sdiff_of_subset (subset_univ _), card_univ, Fintype.card_fin]
    rw [e3, e4]

/-- `Φ` on a list of values -/
def row (q : ℕ) : ℕ → List ℕ → List ℕ
  | _, [] => []
  | _, [_] => []
  | j, a :: b :: l => (j * a + (q - j) * b) :: row q (j + 1) (b :: l)

theorem row_map (q : ℕ) (g : ℕ → ℕ) : ∀ n j : ℕ,
    row q j ((List.range' j (n + 1)).map g) = (List.range' j n).map (Φ q g)
  | 0, _ => rfl
  | n + 1, j => congrArg (Φ q g j :: ·) (row_map q g n (j + 1))

theorem row_iter (q : ℕ) (k : ℕ) (g : ℕ → ℕ) :
    (row q 0)^[k] ((List.range' 0 (k + 1)).map g) = [(Φ q)^[k] g 0] := by
  induction k generalizing g with
  | zero => rfl
  | succ k ih => rw [Function.iterate_succ_apply, row_map, ih]; rfl

end Spx.Cov
