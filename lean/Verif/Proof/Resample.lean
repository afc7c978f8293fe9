import Mathlib.Data.Fintype.EquivFin
import Verif.Proof.Interactive
/-! # A random function along a computation

A computation that applies a random function at every node of a graph to the values of earlier nodes has independent
uniform values, and the function is still uniform elsewhere.  An attacker who asks for values elsewhere, and is told
the values of some nodes, does not find collisions with the values of nodes, nor values it is not told. -/

namespace Spx.Rom
open Finset Spec

section
variable {V Z Y : Type}

open Classical in
/-- The function `g`, except that it has the value `val v` at the point of node `v`. -/
noncomputable def patch (pt : (V → Y) → V → Z) (val : V → Y) (g : Z → Y) : Z → Y := fun z =>
  if h : ∃ v, pt val v = z then val h.choose else g z

theorem patch_pt {pt : (V → Y) → V → Z} (h2 : ∀ val v v', pt val v = pt val v' → v = v') (val : V → Y) (g : Z → Y) (v : V) :
    patch pt val g (pt val v) = val v := by
  have h : ∃ v', pt val v' = pt val v := ⟨v, rfl⟩
  unfold patch
  rw [dif_pos h, h2 _ _ _ h.choose_spec]

theorem patch_off {pt : (V → Y) → V → Z} {val : V → Y} {g : Z → Y} {z : Z} (h : ∀ v, pt val v ≠ z) :
    patch pt val g z = g z := dif_neg fun ⟨v, hv⟩ => h v hv

variable [Fintype V] [Fintype Z] [Fintype Y] [Nonempty Y] [DecidableEq V] [DecidableEq Z]

/-- The values of the nodes are independent and uniform, and so is the function elsewhere. -/
theorem resample {pt : (V → Y) → V → Z} (rank : V → ℕ)
    (h1 : ∀ val val' v, (∀ u, rank u < rank v → val u = val' u) → pt val v = pt val' v)
    (h2 : ∀ val v v', pt val v = pt val v' → v = v') (f : (Z → Y) → ℚ) :
    avg f = avg fun val : V → Y => avg fun g => f (patch pt val g) := by
  let Φ : (V → Y) × (Z → Y) → (V → Y) × (Z → Y) := fun x => (fun v => x.2 (pt x.1 v), patch pt x.1 x.2)
  have inj : Function.Injective Φ := by
    intro x x' h
    obtain ⟨he, hO⟩ := Prod.ext_iff.mp h
    change (fun v => x.2 (pt x.1 v)) = fun v => x'.2 (pt x'.1 v) at he
    change patch pt x.1 x.2 = patch pt x'.1 x'.2 at hO
    have hval : ∀ n v, rank v = n → x.1 v = x'.1 v := by
      intro n
      induction n using Nat.strongRecOn with
      | _ n ih =>
        intro v hv
        have e : pt x.1 v = pt x'.1 v := h1 _ _ _ fun u hu => ih (rank u) (hv ▸ hu) u rfl
        rw [← patch_pt h2 x.1 x.2 v, ← patch_pt h2 x'.1 x'.2 v, hO, e]
    have hv : x.1 = x'.1 := funext fun v => hval _ v rfl
    refine Prod.ext hv (funext fun z => ?_)
    by_cases hz : ∃ v, pt x.1 v = z
    · obtain ⟨v, rfl⟩ := hz
      have := congrFun he v
      rw [← hv] at this
      exact this
    · have a := patch_off (g := x.2) fun v hv => hz ⟨v, hv⟩
      have b := patch_off (val := x'.1) (g := x'.2) (z := z) fun v hv' => hz ⟨v, by rw [hv]; exact hv'⟩
      rw [← a, ← b, hO]
  have bij : Function.Bijective Φ := (Finite.injective_iff_bijective).mp inj
  have e := (Equiv.ofBijective Φ bij).sum_comp fun x => f x.2
  have e' : ∑ x : (V → Y) × (Z → Y), f (patch pt x.1 x.2) = ∑ x : (V → Y) × (Z → Y), f x.2 := e
  rw [← avg_prod fun x : (V → Y) × (Z → Y) => f (patch pt x.1 x.2)]
  have : avg (fun x : (V → Y) × (Z → Y) => f (patch pt x.1 x.2)) = avg fun x : (V → Y) × (Z → Y) => f x.2 := by
    unfold avg
    rw [e']
  rw [this, avg_prod]
  exact (avg_const (α := V → Y) (avg f)).symm

end

/-! ## Collisions and guesses -/

/-- An attacker who is told values of nodes, and asks for values of the function elsewhere.  With a question goes the node
whose value must not be hit, and possibly a guess of the value of a node it was not told. -/
inductive Seeker (V Z Y : Type) : Type
  | done
  | reveal (v : V) (next : Y → Seeker V Z Y)
  | ask (z : Z) (guess : Option (V × Y)) (v : V) (next : Y → Seeker V Z Y)

section
variable {V Z Y : Type}

/-- At most `n` questions -/
def Seeker.Within : Seeker V Z Y → ℕ → Prop
  | .done, _ => True
  | .reveal _ next, n => ∀ y, (next y).Within n
  | .ask _ _ _ next, n => 0 < n ∧ ∀ y, (next y).Within (n - 1)

/-- A value is hit or guessed. `K` are the nodes whose values are told, `L` the points asked before. -/
def Seeker.Finds (val : V → Y) (g : Z → Y) : Seeker V Z Y → Set V → Set Z → Prop
  | .done, _, _ => False
  | .reveal v next, K, L => (next (val v)).Finds val g (insert v K) L
  | .ask z guess v next, K, L =>
    (∃ u y, guess = some (u, y) ∧ u ∉ K ∧ val u = y) ∨ (z ∉ L ∧ g z = val v) ∨ (next (g z)).Finds val g K (insert z L)

/-- The values in the table and otherwise those of `g` -/
def fill {A B : Type} (T : A → Option B) (g : A → B) : A → B := fun a => (T a).getD (g a)

/-- Where the table has values -/
def dom {A B : Type} (T : A → Option B) : Set A := {a | T a ≠ none}

theorem fill_update {A B : Type} [DecidableEq A] {T : A → Option B} {a : A} (h : T a = none) (g : A → B) (b : B) :
    fill T (Function.update g a b) = fill (Function.update T a (some b)) g := by
  funext x
  unfold fill
  by_cases hx : x = a
  · subst hx; simp [h]
  · simp [hx]

theorem fill_self {A B : Type} {T : A → Option B} {a : A} {b : B} (h : T a = some b) (g : A → B) : fill T g a = b := by
  unfold fill; rw [h]; rfl

theorem dom_update {A B : Type} [DecidableEq A] (T : A → Option B) (a : A) (b : B) :
    dom (Function.update T a (some b)) = insert a (dom T) := by
  ext x
  unfold dom
  by_cases hx : x = a
  · subst hx; simp
  · simp [hx]

theorem dom_insert {A B : Type} {T : A → Option B} {a : A} (h : T a ≠ none) : insert a (dom T) = dom T :=
  Set.insert_eq_of_mem h

variable [Fintype V] [Fintype Z] [Fintype Y] [Nonempty Y] [DecidableEq V] [DecidableEq Z]

omit [Nonempty Y] in
theorem avg_eq_point (y : Y) : avg (fun d : Y => ind (d = y)) = 1 / Fintype.card Y := by
  classical
  unfold avg ind
  rw [sum_boole, filter_eq' univ y, if_pos (mem_univ y), card_singleton, Nat.cast_one]

theorem avg_nonneg {α : Type} [Fintype α] {f : α → ℚ} (h : ∀ a, 0 ≤ f a) : 0 ≤ avg f :=
  div_nonneg (sum_nonneg fun a _ => h a) (Nat.cast_nonneg _)

theorem ind_or (A B C : Prop) : ind (A ∨ B ∨ C) ≤ ind A + ind B + ind C := by
  have a := ind_nonneg A
  have b := ind_nonneg B
  have c := ind_nonneg C
  by_cases h : A ∨ B ∨ C
  · rcases h with h | h | h
    · exact (ind_mono fun _ => h).trans (by linarith)
    · exact (ind_mono fun _ => h).trans (by linarith)
    · exact (ind_mono fun _ => h).trans (by linarith)
  · rw [show ind (A ∨ B ∨ C) = 0 from if_neg h]
    linarith

/-- The probability to find something from a certain point on -/
noncomputable def find (A : Seeker V Z Y) (K : V → Option Y) (L : Z → Option Y) : ℚ :=
  avg fun val : V → Y => avg fun g : Z → Y => ind (A.Finds (fill K val) (fill L g) (dom K) (dom L))

theorem find_bound (A : Seeker V Z Y) : ∀ {n : ℕ}, A.Within n → ∀ (K : V → Option Y) (L : Z → Option Y),
    find A K L ≤ 2 * n / Fintype.card Y := by
  have hY : (0 : ℚ) < Fintype.card Y := Nat.cast_pos.mpr Fintype.card_pos
  have : Nonempty (V → Y) := inferInstance
  have : Nonempty (Z → Y) := inferInstance
  induction A with
  | done =>
    intro n _ K L
    have : find (Seeker.done : Seeker V Z Y) K L = 0 := by
      unfold find
      have e : ∀ (val : V → Y) (g : Z → Y), ind ((Seeker.done : Seeker V Z Y).Finds (fill K val) (fill L g) (dom K) (dom L)) = 0 :=
        fun _ _ => if_neg id
      simp only [e, avg_const]
    rw [this]
    positivity
  | reveal v next ih =>
    intro n hA K L
    cases hv : K v with
    | some y =>
      have e : find (Seeker.reveal v next) K L = find (next y) K L := by
        unfold find
        simp only [Seeker.Finds, fill_self hv]
        rw [dom_insert (by rw [hv]; simp)]
      rw [e]
      exact ih y (hA y) K L
    | none =>
      have e : find (Seeker.reveal v next) K L = avg fun y => find (next y) (Function.update K v (some y)) L := by
        unfold find
        rw [avg_update v]
        congr; funext y; congr; funext val; congr; funext g
        rw [fill_update hv, dom_update, Seeker.Finds, fill_self (b := y) (by simp)]
      rw [e, ← avg_const (α := Y) (2 * (n : ℚ) / Fintype.card Y)]
      exact avg_mono fun y => ih y (hA y) _ L
  | ask z guess v next ih =>
    intro n hA K L
    have h1 : avg (fun val : V → Y => avg fun _ : Z → Y =>
        ind (∃ u y, guess = some (u, y) ∧ u ∉ dom K ∧ fill K val u = y)) ≤ 1 / Fintype.card Y := by
      simp only [avg_const]
      by_cases h : ∃ u y, guess = some (u, y) ∧ u ∉ dom K
      · obtain ⟨u, y, hg, hu⟩ := h
        have hu' : K u = none := not_not.mp hu
        rw [avg_update u]
        have e2 : ∀ (d : Y) (val : V → Y), ind (∃ u' y, guess = some (u', y) ∧ u' ∉ dom K ∧
            fill K (Function.update val u d) u' = y) ≤ ind (d = y) := by
          intro d val
          refine ind_mono ?_
          rintro ⟨u', y', hg', -, h⟩
          rw [hg] at hg'
          obtain ⟨e1, e2⟩ := Prod.ext_iff.mp (Option.some.inj hg')
          change u = u' at e1
          change y = y' at e2
          rw [e2, ← h, ← e1]
          unfold fill
          simp [hu']
        refine (avg_mono fun d => avg_mono fun val => e2 d val).trans ?_
        simp only [avg_const]
        rw [avg_eq_point]
      · refine le_trans (le_of_eq ?_) (show (0 : ℚ) ≤ 1 / Fintype.card Y by positivity)
        have e : ∀ val : V → Y, ind (∃ u y, guess = some (u, y) ∧ u ∉ dom K ∧ fill K val u = y) = 0 :=
          fun val => if_neg fun ⟨u, y, h1, h2, _⟩ => h ⟨u, y, h1, h2⟩
        simp only [e, avg_const]
    have h2 : avg (fun val : V → Y => avg fun g : Z → Y => ind (z ∉ dom L ∧ fill L g z = fill K val v)) ≤
        1 / Fintype.card Y := by
      rw [← avg_const (α := V → Y) (1 / (Fintype.card Y : ℚ))]
      refine avg_mono fun val => ?_
      by_cases hz : z ∈ dom L
      · have e : ∀ g : Z → Y, ind (z ∉ dom L ∧ fill L g z = fill K val v) = 0 := fun g => if_neg fun h => h.1 hz
        simp only [e, avg_const]
        positivity
      · have hz' : L z = none := not_not.mp hz
        rw [avg_update z]
        have e2 : ∀ (d : Y) (g : Z → Y), ind (z ∉ dom L ∧ fill L (Function.update g z d) z = fill K val v) ≤
            ind (d = fill K val v) := by
          intro d g
          refine ind_mono ?_
          rintro ⟨-, h⟩
          rw [← h]
          unfold fill
          simp [hz']
        refine (avg_mono fun d => avg_mono fun g => e2 d g).trans ?_
        simp only [avg_const]
        rw [avg_eq_point]
    have h3 : avg (fun val : V → Y => avg fun g : Z → Y =>
        ind ((next (fill L g z)).Finds (fill K val) (fill L g) (dom K) (insert z (dom L)))) ≤
        2 * (n - 1 : ℕ) / Fintype.card Y := by
      cases hz : L z with
      | some y =>
        have := ih y (hA.2 y) K L
        unfold find at this
        simp only [fill_self hz]
        rw [dom_insert (by rw [hz]; simp)]
        exact this
      | none =>
        have e : ∀ val : V → Y, (avg fun g : Z → Y =>
            ind ((next (fill L g z)).Finds (fill K val) (fill L g) (dom K) (insert z (dom L)))) =
            avg fun y => avg fun g : Z → Y => ind ((next y).Finds (fill K val) (fill (Function.update L z (some y)) g)
              (dom K) (dom (Function.update L z (some y)))) := by
          intro val
          rw [avg_update z]
          congr; funext y; congr; funext g
          rw [fill_update hz, dom_update, fill_self (b := y) (by simp)]
        simp only [e]
        rw [avg_comm, ← avg_const (α := Y) (2 * ((n - 1 : ℕ) : ℚ) / Fintype.card Y)]
        exact avg_mono fun y => ih y (hA.2 y) K _
    have hsum : find (Seeker.ask z guess v next) K L ≤ 1 / Fintype.card Y + 1 / Fintype.card Y +
        2 * (n - 1 : ℕ) / Fintype.card Y := by
      refine le_trans ?_ (add_le_add (add_le_add h1 h2) h3)
      rw [← avg_add, ← avg_add]
      refine avg_mono fun val => ?_
      rw [← avg_add, ← avg_add]
      exact avg_mono fun g => ind_or _ _ _
    refine hsum.trans (le_of_eq ?_)
    have hn : ((n - 1 : ℕ) : ℚ) = n - 1 := by
      rw [Nat.cast_sub hA.1, Nat.cast_one]
    rw [hn]
    ring

end

end Spx.Rom
