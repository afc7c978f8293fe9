import Verif.Spec.Many
import Verif.Proof.Interactive
/-! # Forgers who attack many keys at once

For each owner such a forger is turned into one of `Verif.Spec.Chosen`, which plays the other owners itself. -/

namespace Spx
open Spec

namespace Many

section
variable {ι β ρ M D : Type} [DecidableEq ι]

/-- The forger for owner `j`, who knows the functions of the others -/
def only (j : ι) (H : ι → ρ × M → D) (T : ι → ADRS → Bytes → Bytes) (signature : ι → β → M → Bytes) :
    ManyForger ι β ρ M D → Chooser β ρ M D
  | .output _ m sig => .output m sig
  | .hash i r m next =>
    if i = j then .hash r m fun d => only j H T signature (next d) else only j H T signature (next (H i (r, m)))
  | .tweak i a x next =>
    if i = j then .tweak a x fun y => only j H T signature (next y) else only j H T signature (next (T i a x))
  | .sign i o m next =>
    if i = j then .sign o m fun sig => only j H T signature (next sig) else only j H T signature (next (signature i o m))

theorem only_within (j : ι) (H : ι → ρ × M → D) (T : ι → ADRS → Bytes → Bytes) (signature : ι → β → M → Bytes)
    (A : ManyForger ι β ρ M D) : ∀ {q t u : ι → Nat}, A.Within q t u →
    (only j H T signature A).Within (q j) (t j) (u j) := by
  induction A with
  | output i m sig => exact fun h => h j
  | hash i r m next ih =>
    intro q t u h
    unfold only
    split
    · next e =>
      subst e
      refine ⟨h.1, fun d => ?_⟩
      have := ih d (h.2 d)
      rwa [Function.update_self] at this
    · next e =>
      have := ih _ (h.2 (H i (r, m)))
      rwa [Function.update_of_ne (Ne.symm e)] at this
  | tweak i a x next ih =>
    intro q t u h
    unfold only
    split
    · next e =>
      subst e
      refine ⟨h.1, fun d => ?_⟩
      have := ih d (h.2 d)
      rwa [Function.update_self] at this
    · next e =>
      have := ih _ (h.2 (T i a x))
      rwa [Function.update_of_ne (Ne.symm e)] at this
  | sign i o m next ih =>
    intro q t u h
    unfold only
    split
    · next e =>
      subst e
      refine ⟨h.1, fun d => ?_⟩
      have := ih d (h.2 d)
      rwa [Function.update_self] at this
    · next e =>
      have := ih _ (h.2 (signature i o m))
      rwa [Function.update_of_ne (Ne.symm e)] at this

/-- The signatures of owner `j` -/
def ofOwner (j : ι) (Q : List (ι × M × Bytes)) : List (M × Bytes) := Q.filterMap fun x => if x.1 = j then some x.2 else none

theorem mem_ofOwner {j : ι} {Q : List (ι × M × Bytes)} {x : M × Bytes} : x ∈ ofOwner j Q ↔ (j, x) ∈ Q := by
  unfold ofOwner
  rw [List.mem_filterMap]
  constructor
  · rintro ⟨⟨i, y⟩, h, e⟩
    split at e
    · next hi =>
      cases e
      subst hi
      exact h
    · cases e
  · exact fun h => ⟨_, h, if_pos rfl⟩

/-- Both do the same. -/
theorem only_run {j : ι} {H H' : ι → ρ × M → D} {T T' : ι → ADRS → Bytes → Bytes} {signature signature' : ι → β → M → Bytes}
    (hH : ∀ i, i ≠ j → H' i = H i) (hT : ∀ i, i ≠ j → T' i = T i) (hs : ∀ i, i ≠ j → signature' i = signature i)
    (A : ManyForger ι β ρ M D) : ∀ Q : List (ι × M × Bytes),
    (only j H' T' signature' A).run (H j) (T j) (signature j) (ofOwner j Q) =
      (ofOwner j (A.run H T signature Q).1, (A.run H T signature Q).2.2) := by
  induction A with
  | output i m sig => exact fun _ => rfl
  | hash i r m next ih =>
    intro Q
    unfold only
    split
    · next e => subst e; exact ih _ Q
    · next e => rw [hH i e]; exact ih _ Q
  | tweak i a x next ih =>
    intro Q
    unfold only
    split
    · next e => subst e; exact ih _ Q
    · next e => rw [hT i e]; exact ih _ Q
  | sign i o m next ih =>
    intro Q
    unfold only
    have h := fun sig => ih sig ((i, m, sig) :: Q)
    split
    · next e =>
      subst e
      have e1 : ∀ sig, ofOwner i ((i, m, sig) :: Q) = (m, sig) :: ofOwner i Q := fun sig => by
        simp [ofOwner]
      simp only [e1] at h
      exact h _
    · next e =>
      have e1 : ∀ sig, ofOwner j ((i, m, sig) :: Q) = ofOwner j Q := fun sig => by
        simp [ofOwner, e]
      simp only [e1] at h
      rw [hs i e]
      exact h _

end

/-- Any of the events has at most the sum of the chances. -/
theorem chance_any {α ι : Type} [Fintype α] [Fintype ι] {X : α → Prop} {Y : ι → α → Prop} (h : ∀ a, X a → ∃ i, Y i a) :
    chance X ≤ ∑ i, chance (Y i) := by
  simp only [← Rom.avg_ind]
  unfold Rom.avg
  rw [← Finset.sum_div, Finset.sum_comm]
  refine div_le_div_of_nonneg_right (Finset.sum_le_sum fun a _ => ?_) (Nat.cast_nonneg _)
  by_cases hX : X a
  · obtain ⟨i, hi⟩ := h a hX
    have : Rom.ind (X a) = Rom.ind (Y i a) := by rw [eq_true hX, eq_true hi]
    rw [this]
    exact Finset.single_le_sum (f := fun i => Rom.ind (Y i a)) (fun _ _ => Rom.ind_nonneg _) (Finset.mem_univ i)
  · have : Rom.ind (X a) = 0 := by unfold Rom.ind; rw [if_neg hX]
    rw [this]
    exact Finset.sum_nonneg fun _ _ => Rom.ind_nonneg _

/-- A chance is bounded if it is for every choice of the other components. -/
theorem chance_component {ι Ω : Type} [Fintype ι] [DecidableEq ι] [Fintype Ω] [Nonempty Ω] (j : ι) {X : (ι → Ω) → Prop} {c : ℚ}
    (h : ∀ w : ι → Ω, chance (fun ω => X (Function.update w j ω)) ≤ c) : chance X ≤ c := by
  rw [← Rom.avg_ind, Rom.avg_update j, Rom.avg_comm]
  refine le_trans (Rom.avg_mono (g := fun _ => c) fun w => ?_) (le_of_eq (Rom.avg_const c))
  rw [Rom.avg_ind]
  exact h w

section
variable {p : Par} {ι : Type} [DecidableEq ι] [Fintype ι] {M : Type} [Fintype M] [DecidableEq M] {text : M → Bytes}

/-- The functions of the scheme of an owner -/
noncomputable abbrev scheme (text : M → Bytes) (ω : Functions p M) : Hash :=
  (Hash.random ω.1).withRandomisers text ω.2.1 ω.2.2

/-- The forger for owner `j` -/
noncomputable def single (seed : ι → Bytes) (text : M → Bytes)
    (F : (ι → Bytes) → ManyForger ι (Value p) (Fin p.n → Fin (2 ^ 8)) M (Digest p)) (w : ι → Functions p M) (j : ι) (pk : Bytes) :
    Chooser (Value p) (Fin p.n → Fin (2 ^ 8)) M (Digest p) :=
  only j (fun i => (w i).2.1) (fun i => (scheme text (w i)).T ((pkOf p (scheme text (w i)) (seed i)).take p.n))
    (fun i o m => sign p (scheme text (w i)) (skOf p (scheme text (w i)) (seed i)) (randomiserBytes o) (text m))
    (F (Function.update (fun i => pkOf p (scheme text (w i)) (seed i)) j pk))

theorem many_bound (seed : ι → Bytes)
    (F : (ι → Bytes) → ManyForger ι (Value p) (Fin p.n → Fin (2 ^ 8)) M (Digest p)) {c : ι → ℚ}
    (h : ∀ j w, chance (fun ω : Functions p M =>
      SucceedsChosen p (seed j) text (single seed text F w j) ω.1 ω.2.1 ω.2.2) ≤ c j) :
    chance (SucceedsMany p seed text F) ≤ ∑ j, c j := by
  refine le_trans (chance_any (Y := fun j w => SucceedsMany p seed text F w ∧
    ((F fun i => pkOf p (scheme text (w i)) (seed i)).run (fun i => (w i).2.1)
      (fun i => (scheme text (w i)).T ((pkOf p (scheme text (w i)) (seed i)).take p.n))
      (fun i o m => sign p (scheme text (w i)) (skOf p (scheme text (w i)) (seed i)) (randomiserBytes o) (text m))
      []).2.1 = j) fun w hw => ⟨_, hw, rfl⟩) (Finset.sum_le_sum fun j _ => ?_)
  refine chance_component j fun w => le_trans ?_ (h j w)
  rw [← Rom.avg_ind, ← Rom.avg_ind]
  refine Rom.avg_mono fun ω => Rom.ind_mono ?_
  rintro ⟨hw, hj⟩
  have hu : ∀ i, i ≠ j → Function.update w j ω i = w i := fun i hi => Function.update_of_ne hi _ _
  have hpk : Function.update (fun i => pkOf p (scheme text (w i)) (seed i)) j (pkOf p (scheme text ω) (seed j)) =
      fun i => pkOf p (scheme text (Function.update w j ω i)) (seed i) := by
    funext i
    by_cases hi : i = j
    · subst hi; simp
    · rw [Function.update_of_ne hi, hu i hi]
  have key := only_run (j := j)
    (H := fun i => (Function.update w j ω i).2.1) (H' := fun i => (w i).2.1)
    (T := fun i => (scheme text (Function.update w j ω i)).T
      ((pkOf p (scheme text (Function.update w j ω i)) (seed i)).take p.n))
    (T' := fun i => (scheme text (w i)).T ((pkOf p (scheme text (w i)) (seed i)).take p.n))
    (signature := fun i o m => sign p (scheme text (Function.update w j ω i))
      (skOf p (scheme text (Function.update w j ω i)) (seed i)) (randomiserBytes o) (text m))
    (signature' := fun i o m => sign p (scheme text (w i)) (skOf p (scheme text (w i)) (seed i)) (randomiserBytes o) (text m))
    (fun i hi => by simp only [hu i hi]) (fun i hi => by simp only [hu i hi]) (fun i hi => by simp only [hu i hi])
    (F fun i => pkOf p (scheme text (Function.update w j ω i)) (seed i)) []
  simp only [Function.update_self] at key
  unfold SucceedsChosen single
  simp only
  rw [hpk]
  unfold SucceedsMany at hw
  simp only at hw
  generalize hr : (F fun i => pkOf p (scheme text (Function.update w j ω i)) (seed i)).run _ _ _ _ = r at hw hj key
  obtain ⟨Q, i, m, sig⟩ := r
  simp only at hj key hw
  subst hj
  simp only [Function.update_self] at hw
  have e0 : ofOwner i ([] : List (ι × M × Bytes)) = [] := rfl
  rw [e0] at key
  rw [key]
  exact ⟨fun h => hw.1 (mem_ofOwner.mp h), hw.2⟩

end

end Many

end Spx
