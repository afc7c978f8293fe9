import Verif.Proof.LeakParallel
/-! # Two runs of the lane-wise loops -/

namespace Spx.Leak

/-- Buffers of the sizes `ls`, lane by lane. -/
abbrev LensN {α β : Type} (ls : List Nat) (x : List (List α)) (y : List (List β)) : Prop :=
  x.map List.length = ls ∧ y.map List.length = ls

theorem LensN.lens {α β : Type} {ls : List Nat} {x : List (List α)} {y : List (List β)} (h : LensN ls x y) :
    Lens x y := h.1.trans h.2.symm

theorem LensN.len {α β : Type} {ls : List Nat} {x : List (List α)} {y : List (List β)} (h : LensN ls x y) :
    Len x y := h.lens.len

theorem LensN.get {α β : Type} {ls : List Nat} {x : List (List α)} {y : List (List β)} (h : LensN ls x y) {i l : Nat}
    {a : List α} {b : List β} (hl : ls[i]? = some l) (ha : x[i]? = some a) (hb : y[i]? = some b) :
    a.length = l ∧ b.length = l := by
  have h1 := congrArg (fun l => l[i]?) h.1
  have h2 := congrArg (fun l => l[i]?) h.2
  simp only [List.getElem?_map, ha, hb, hl, Option.map_some, Option.some.injEq] at h1 h2
  exact ⟨h1, h2⟩

theorem getElem?_of_lt {α : Type} {l : List α} {i : Nat} (h : i < l.length) : ∃ a, l[i]? = some a :=
  ⟨l[i], List.getElem?_eq_getElem h⟩

theorem forall₂_snoc {α β : Type} {R : α → β → Prop} {x : List α} {y : List β} (h : List.Forall₂ R x y) {a : α} {b : β}
    (hab : R a b) : List.Forall₂ R (x ++ [a]) (y ++ [b]) := by
  induction h with
  | nil => exact .cons hab .nil
  | cons h _ ih => exact .cons h ih

theorem forall₂_len {α β : Type} {R : α → β → Prop} {x : List α} {y : List β} (h : List.Forall₂ R x y) : Len x y := by
  induction h with
  | nil => rfl
  | cons _ _ ih => exact congrArg (· + 1) ih

theorem forall₂_map {α β α' β' : Type} {R : α → β → Prop} {S : α' → β' → Prop} {f : α → α'} {g : β → β'} {x : List α}
    {y : List β} (h : List.Forall₂ R x y) (hf : ∀ a b, R a b → S (f a) (g b)) : List.Forall₂ S (x.map f) (y.map g) := by
  induction h with
  | nil => exact .nil
  | cons h _ ih => exact .cons (hf _ _ h) ih

theorem forall₂_flatMap {α β γ δ : Type} {R : α → β → Prop} {f : α → List γ} {g : β → List δ} {n : Nat} {x : List α}
    {y : List β} (h : List.Forall₂ R x y) (hf : ∀ a b, R a b → (f a).length = n ∧ (g b).length = n) :
    (x.flatMap f).length = x.length * n ∧ (y.flatMap g).length = x.length * n := by
  induction h with
  | nil => exact ⟨(Nat.zero_mul n).symm, (Nat.zero_mul n).symm⟩
  | cons h _ ih =>
    have := hf _ _ h
    rw [List.flatMap_cons, List.flatMap_cons, List.length_append, List.length_append, ih.1, ih.2, this.1, this.2,
      List.length_cons, Nat.succ_mul, Nat.add_comm]
    exact ⟨rfl, rfl⟩

/-- Lane-wise results with a relation between corresponding lanes. -/
theorem low_tabulateR {α β : Type} (R : α → β → Prop) {k : Nat} {f : Nat → L α} {f' : Nat → L β}
    (hf : ∀ j, j < k → Rel R (f j) (f' j)) :
    Rel (fun x y => x.length = k ∧ List.Forall₂ R x y) (tabulate k f) (tabulate k f') := by
  unfold tabulate
  refine Rel.forRangeI (R := fun i (x : List α) (y : List β) => x.length = i ∧ List.Forall₂ R x y) rfl ⟨rfl, .nil⟩ ?_
  rintro i s s' hi ⟨hl, hs⟩
  refine Rel.bind (hf i hi) fun a b hab => Rel.ok ⟨?_, ?_⟩
  · rw [List.length_append, hl]; rfl
  · exact forall₂_snoc hs hab

theorem forall₂_get {α β : Type} {R : α → β → Prop} {x : List α} {y : List β} (h : List.Forall₂ R x y) {i : Nat}
    {a : α} {b : β} (ha : x[i]? = some a) (hb : y[i]? = some b) : R a b := by
  induction h generalizing i with
  | nil => cases ha
  | cons h _ ih =>
    cases i with
    | zero => cases ha; cases hb; exact h
    | succ i => exact ih ha hb

/-- Lane-wise results of the sizes `ls`. -/
theorem low_tabulateN {α β : Type} {ls : List Nat} {k : Nat} (hk : ls.length = k) {f : Nat → L (List α)}
    {f' : Nat → L (List β)}
    (hf : ∀ j l, j < k → ls[j]? = some l → Rel (fun a b => a.length = l ∧ b.length = l) (f j) (f' j)) :
    Rel (LensN ls) (tabulate k f) (tabulate k f') := by
  subst hk
  unfold tabulate
  refine (Rel.forRangeI (R := fun i (x : List (List α)) (y : List (List β)) => LensN (ls.take i) x y) rfl
    ⟨rfl, rfl⟩ ?_).weaken fun x y h => by rwa [List.take_length] at h
  rintro i s s' hi ⟨h1, h2⟩
  obtain ⟨l, hl⟩ := getElem?_of_lt hi
  refine Rel.bind (hf i l hi hl) fun a b hab => Rel.ok ⟨?_, ?_⟩
  · rw [List.map_append, h1, List.take_add_one, hl, ← hab.1]; rfl
  · rw [List.map_append, h2, List.take_add_one, hl, ← hab.2]; rfl

theorem lensN_uninit {g g' : Nat → Nat → Byte} {k n : Nat} :
    LensN (List.replicate k n) ((List.range k).map fun j => uninit (g j) n) ((List.range k).map fun j => uninit (g' j) n) := by
  constructor <;>
  · rw [List.map_map]
    refine List.ext_getElem (by simp) fun i h1 h2 => ?_
    simp

end Spx.Leak
