import Verif.Model.LeakBase
import Verif.Proof.Base
/-! # Rules for programs with traces

`x.res` is the program without the trace (tactic `erase`), and `Rel R x y` says that two runs have the
same trace and related results (tactic `low`). -/

namespace Spx.Leak

/-! ## The result without the trace -/

theorem bind_def {α β : Type} (x : L α) (f : α → L β) : (x >>= f) = L.bind x f := rfl

theorem res_L_bind {α β : Type} {x : L α} {f : α → L β} {x' : C α} {f' : α → C β}
    (hx : x.res = x') (hf : ∀ a, (f a).res = f' a) : (L.bind x f).res = (x' >>= f') := by
  subst hx
  unfold L.bind
  cases h : x.res with
  | ok a => exact hf a
  | error e => rfl

theorem res_bind {α β : Type} {x : L α} {f : α → L β} {x' : C α} {f' : α → C β}
    (hx : x.res = x') (hf : ∀ a, (f a).res = f' a) : (x >>= f).res = (x' >>= f') := res_L_bind hx hf

theorem res_ok {α : Type} (a : α) : (L.ok a).res = .ok a := rfl
theorem res_error {α : Type} (e : UB) : (L.error (α := α) e).res = .error e := rfl
theorem res_rd {α : Type} (b : List α) (o n : Nat) : (rd b o n).res = Spx.rd b o n := rfl
theorem res_wr {α : Type} (b : List α) (o : Nat) (d : List α) : (wr b o d).res = Spx.wr b o d := rfl
theorem res_rd1 {α : Type} (b : List α) (o : Nat) : (rd1 b o).res = Spx.rd1 b o := rfl
theorem res_wr1 {α : Type} (b : List α) (o : Nat) (d : α) : (wr1 b o d).res = Spx.wr1 b o d := rfl
theorem res_sub {α : Type} (b : List α) (o : Nat) : (sub b o).res = Spx.sub b o := rfl
theorem res_shl1 (k : Nat) : (shl1 k).res = Spx.shl1 k := rfl

theorem res_withSub {α β : Type} (b : List α) (o : Nat) {f : List α → L (List α × β)}
    {f' : List α → C (List α × β)} (hf : ∀ p, (f p).res = f' p) :
    (withSub b o f).res = Spx.withSub b o f' := by
  unfold withSub Spx.withSub
  rw [res_L_bind (f' := fun p => f' p >>= fun r => .ok (b.take o ++ r.1, r.2)) (res_sub b o)
    (fun p => res_L_bind (hf p) fun r => rfl)]
  unfold Spx.sub
  by_cases h : o ≤ b.length
  · rw [if_pos h, if_pos h]; rfl
  · rw [if_neg h, if_neg h]; rfl

theorem res_iterate {σ : Type} (n : Nat) {body : Nat → σ → L σ} {body' : Nat → σ → C σ}
    (hb : ∀ i s, (body i s).res = body' i s) (s : σ) :
    (iterate n body s).res = Spx.forRange n body' s := by
  induction n with
  | zero => rfl
  | succ n ih => exact res_L_bind ih (hb n)

theorem res_forRange {σ : Type} (n : Nat) {body : Nat → σ → L σ} {body' : Nat → σ → C σ}
    (hb : ∀ i s, (body i s).res = body' i s) (s : σ) :
    (forRange n body s).res = Spx.forRange n body' s :=
  (res_L_bind (x' := .ok ()) (f' := fun _ => Spx.forRange n body' s) rfl
    fun _ => res_iterate n hb s).trans rfl

theorem res_loop {σ ρ : Type} (fuel : Nat) {body : σ → L (σ ⊕ ρ)} {body' : σ → C (σ ⊕ ρ)}
    (hb : ∀ s, (body s).res = body' s) (s : σ) :
    (loop fuel body s).res = Spx.loop fuel body' s := by
  induction fuel generalizing s with
  | zero => rw [loop_zero]; with_unfolding_all rfl
  | succ f ih =>
    rw [loop_succ, Spx.loop_succ]
    refine res_L_bind (hb s) fun r => ?_
    refine (res_L_bind (x' := .ok ()) (f' := fun _ => match r with
      | .inl s' => Spx.loop f body' s'
      | .inr r => .ok r) rfl fun _ => ?_).trans rfl
    cases r with
    | inl s' => exact ih s'
    | inr r => rfl

theorem res_branch {α : Type} {p : Prop} [Decidable p] {x y : L α} {x' y' : C α}
    (hx : x.res = x') (hy : y.res = y') : (branch p x y).res = if p then x' else y' := by
  subst hx hy
  unfold branch L.bind
  by_cases h : p
  · rw [if_pos h, if_pos h]
  · rw [if_neg h, if_neg h]

theorem res_branchAnd {α : Type} {p q : Prop} [Decidable p] [Decidable q] {x y : L α} {x' y' : C α}
    (hx : x.res = x') (hy : y.res = y') : (branchAnd p q x y).res = if p ∧ q then x' else y' := by
  subst hx hy
  unfold branchAnd L.bind
  by_cases h : p ∧ q
  · rw [if_pos h, if_pos h]
  · rw [if_neg h, if_neg h]

theorem res_branchOr {α : Type} {p q : Prop} [Decidable p] [Decidable q] {x y : L α} {x' y' : C α}
    (hx : x.res = x') (hy : y.res = y') : (branchOr p q x y).res = if p ∨ q then x' else y' := by
  subst hx hy
  unfold branchOr L.bind
  by_cases h : p ∨ q
  · rw [if_pos h, if_pos h]
  · rw [if_neg h, if_neg h]

theorem res_branch_bind {α β : Type} {p : Prop} [Decidable p] (a b : α) (f : α → L β) :
    (branch p (L.ok a) (L.ok b) >>= f).res = (f (if p then a else b)).res := by
  by_cases h : p
  · simp only [bind_def, branch, L.bind, L.ok, if_pos h]
  · simp only [bind_def, branch, L.bind, L.ok, if_neg h]

theorem res_prim {α : Type} {f : Fn} {x : L α} {x' : C α} (hx : x.res = x') : (prim f x).res = x' := hx

theorem res_ite {α : Type} {p : Prop} [Decidable p] {x y : L α} {x' y' : C α}
    (hx : x.res = x') (hy : y.res = y') : (if p then x else y).res = if p then x' else y' := by
  subst hx hy
  by_cases h : p
  · rw [if_pos h, if_pos h]
  · rw [if_neg h, if_neg h]

/-- Closes the goal by the erasure lemma of the called function. -/
syntax "erase_leaf" : tactic
macro_rules | `(tactic| erase_leaf) => `(tactic| fail "no erasure lemma")

/-- Proves `(f x).res = Spx.f x` after both sides have been unfolded. -/
macro "erase" : tactic => `(tactic| repeat' first
  | with_reducible exact res_ok _
  | with_reducible exact res_error _
  | with_reducible exact res_rd _ _ _
  | with_reducible exact res_wr _ _ _
  | with_reducible exact res_rd1 _ _
  | with_reducible exact res_wr1 _ _ _
  | with_reducible exact res_sub _ _
  | with_reducible exact res_shl1 _
  | erase_leaf
  | with_reducible apply res_bind
  | with_reducible apply res_withSub
  | with_reducible apply res_forRange
  | with_reducible apply res_loop
  | with_reducible apply res_branch
  | with_reducible apply res_branchAnd
  | with_reducible apply res_branchOr
  | with_reducible apply res_ite
  | with_reducible apply res_prim
  | intro _
  | split
  | with_reducible apply_assumption)

/-! ## Two runs -/

/-- Results of two runs: both normal and related, or the same kind of undefined behaviour. -/
def RelC {α β : Type} (R : α → β → Prop) : C α → C β → Prop
  | .ok a, .ok b => R a b
  | .error e, .error e' => e = e'
  | _, _ => False

/-- Two runs with the same trace and related results. -/
def Rel {α β : Type} (R : α → β → Prop) (x : L α) (y : L β) : Prop := x.tr = y.tr ∧ RelC R x.res y.res

theorem RelC.ok_iff {α β : Type} {R : α → β → Prop} {a : α} {b : β} : RelC R (.ok a) (.ok b) ↔ R a b := Iff.rfl

theorem RelC.mono {α β : Type} {R S : α → β → Prop} {x : C α} {y : C β} (h : RelC R x y)
    (hi : ∀ a b, x = .ok a → y = .ok b → R a b → S a b) : RelC S x y := by
  cases x <;> cases y
  · exact h
  · exact h
  · exact h
  · exact hi _ _ rfl rfl h

/-- Weaken the relation, with knowledge about the results. -/
theorem Rel.mono {α β : Type} {R S : α → β → Prop} {x : L α} {y : L β} (h : Rel R x y)
    (hi : ∀ a b, x.res = .ok a → y.res = .ok b → R a b → S a b) : Rel S x y := ⟨h.1, h.2.mono hi⟩

theorem Rel.weaken {α β : Type} {R S : α → β → Prop} {x : L α} {y : L β} (h : Rel R x y)
    (hi : ∀ a b, R a b → S a b) : Rel S x y := h.mono fun a b _ _ => hi a b

theorem Rel.ok {α β : Type} {R : α → β → Prop} {a : α} {b : β} (h : R a b) : Rel R (L.ok a) (L.ok b) := ⟨rfl, h⟩

theorem Rel.prim {α β : Type} {R : α → β → Prop} {f : Fn} {x : L α} {y : L β} (h : Rel R x y) :
    Rel R (prim f x) (prim f y) := ⟨congrArg _ h.1, h.2⟩

theorem Rel.error {α β : Type} {R : α → β → Prop} (e : UB) :
    Rel R (L.error (α := α) e) (L.error (α := β) e) := ⟨rfl, rfl⟩

theorem Rel.L_bind {α β α' β' : Type} {R : α → α' → Prop} {S : β → β' → Prop} {x : L α} {x' : L α'}
    {f : α → L β} {f' : α' → L β'} (hx : Rel R x x') (hf : ∀ a a', R a a' → Rel S (f a) (f' a')) :
    Rel S (L.bind x f) (L.bind x' f') := by
  obtain ⟨ht, hr⟩ := hx
  unfold L.bind
  cases h : x.res with
  | ok a =>
    cases h' : x'.res with
    | ok a' =>
      rw [h, h'] at hr
      have h2 := hf a a' hr
      exact ⟨by show x.tr ++ _ = x'.tr ++ _; rw [ht, h2.1], h2.2⟩
    | error e => rw [h, h'] at hr; exact hr.elim
  | error e =>
    cases h' : x'.res with
    | ok a' => rw [h, h'] at hr; exact hr.elim
    | error e' => rw [h, h'] at hr; exact ⟨ht, hr⟩

theorem Rel.bind {α β α' β' : Type} {R : α → α' → Prop} {S : β → β' → Prop} {x : L α} {x' : L α'}
    {f : α → L β} {f' : α' → L β'} (hx : Rel R x x') (hf : ∀ a a', R a a' → Rel S (f a) (f' a')) :
    Rel S (x >>= f) (x' >>= f') := Rel.L_bind hx hf

theorem Rel.ev (l : List Ev) : Rel (fun _ _ => True) (⟨l, .ok ()⟩ : L Unit) (⟨l, .ok ()⟩ : L Unit) :=
  ⟨rfl, trivial⟩

/-- Buffers of the same length. -/
abbrev Len {α β : Type} (x : List α) (y : List β) : Prop := x.length = y.length

theorem Rel.rd {α β : Type} {b : List α} {b' : List β} {o n o' n' : Nat} (h : Len b b') (ho : o = o')
    (hn : n = n') :
    Rel (fun x y => x.length = n ∧ y.length = n) (Leak.rd b o n) (Leak.rd b' o' n') := by
  subst ho hn
  refine ⟨rfl, ?_⟩
  unfold Leak.rd Spx.rd
  by_cases hh : o + n ≤ b.length
  · rw [if_pos hh, if_pos (by rw [← h]; exact hh)]
    refine ⟨?_, ?_⟩ <;> rw [List.length_take, List.length_drop] <;> unfold Len at h <;> omega
  · rw [if_neg hh, if_neg (by rw [← h]; exact hh)]; rfl

theorem Rel.wr {α β : Type} {b d : List α} {b' d' : List β} {o o' : Nat} (h : Len b b') (ho : o = o')
    (hd : Len d d') :
    Rel (fun x y => x.length = b.length ∧ y.length = b.length) (Leak.wr b o d) (Leak.wr b' o' d') := by
  subst ho
  unfold Len at h hd
  refine ⟨by show [Ev.wr _ _] = [Ev.wr _ _]; rw [hd], ?_⟩
  unfold Leak.wr Spx.wr
  by_cases hh : o + d.length ≤ b.length
  · rw [if_pos hh, if_pos (by rw [← h, ← hd]; exact hh)]
    refine ⟨?_, ?_⟩ <;> simp only [List.length_append, List.length_take, List.length_drop] <;> omega
  · rw [if_neg hh, if_neg (by rw [← h, ← hd]; exact hh)]; rfl

theorem Rel.rd1 {α β : Type} {b : List α} {b' : List β} {i i' : Nat} (h : Len b b') (hi : i = i') :
    Rel (fun x y => b[i]? = some x ∧ b'[i]? = some y) (Leak.rd1 b i) (Leak.rd1 b' i') := by
  subst hi
  refine ⟨rfl, ?_⟩
  unfold Leak.rd1 Spx.rd1
  unfold Len at h
  by_cases hh : i < b.length
  · rw [List.getElem?_eq_getElem hh, List.getElem?_eq_getElem (h ▸ hh)]; exact ⟨rfl, rfl⟩
  · rw [List.getElem?_eq_none (by omega), List.getElem?_eq_none (by omega)]; rfl

theorem Rel.wr1 {α β : Type} {b : List α} {b' : List β} {i i' : Nat} {x : α} {y : β} (h : Len b b')
    (hi : i = i') :
    Rel (fun s t => s = b.set i x ∧ t = b'.set i y) (Leak.wr1 b i x) (Leak.wr1 b' i' y) := by
  subst hi
  refine ⟨rfl, ?_⟩
  unfold Leak.wr1 Spx.wr1
  unfold Len at h
  by_cases hh : i < b.length
  · rw [if_pos hh, if_pos (h ▸ hh)]; exact ⟨rfl, rfl⟩
  · rw [if_neg hh, if_neg (by omega)]; rfl

theorem Rel.wr1_len {α β : Type} {b : List α} {b' : List β} {i i' : Nat} {x : α} {y : β} (h : Len b b')
    (hi : i = i') :
    Rel (fun s t => s.length = b.length ∧ t.length = b.length) (Leak.wr1 b i x) (Leak.wr1 b' i' y) :=
  (Rel.wr1 h hi).weaken fun s t ⟨h1, h2⟩ => by
    subst h1 h2; exact ⟨List.length_set, by rw [List.length_set]; exact h.symm⟩

theorem Rel.sub {α β : Type} {b : List α} {b' : List β} {o o' : Nat} (h : Len b b') (ho : o = o') :
    Rel (fun x y => x = b.drop o ∧ y = b'.drop o ∧ o ≤ b.length) (Leak.sub b o) (Leak.sub b' o') := by
  subst ho
  refine ⟨rfl, ?_⟩
  unfold Leak.sub Spx.sub
  by_cases hh : o ≤ b.length
  · rw [if_pos hh, if_pos (by rw [← h]; exact hh)]; exact ⟨rfl, rfl, hh⟩
  · rw [if_neg hh, if_neg (by rw [← h]; exact hh)]; rfl

theorem Rel.sub_len {α β : Type} {b : List α} {b' : List β} {o o' : Nat} (h : Len b b') (ho : o = o') :
    Rel (fun x y => x.length = b.length - o ∧ y.length = b.length - o) (Leak.sub b o) (Leak.sub b' o') :=
  (Rel.sub h ho).weaken fun x y ⟨h1, h2, _⟩ => by
    subst h1 h2; rw [List.length_drop, List.length_drop, ← h]; exact ⟨rfl, rfl⟩

theorem Rel.shl1 (k : Nat) : Rel (fun x y => x = y ∧ y = 2 ^ k) (Leak.shl1 k) (Leak.shl1 k) := by
  refine ⟨rfl, ?_⟩
  unfold Leak.shl1 Spx.shl1
  by_cases h : k < 31
  · rw [if_pos h]; exact ⟨rfl, rfl⟩
  · rw [if_neg h]; rfl

/-- `withSub`: the function works on the two rests; the buffers in front of them are unchanged. -/
theorem Rel.withSub {α β α' β' : Type} {b : List α} {b' : List α'} {o o' : Nat} (h : Len b b')
    (ho : o = o') {R : β → β' → Prop} {f : List α → L (List α × β)} {f' : List α' → L (List α' × β')}
    (hf : ∀ p p', p.length = b.length - o → p'.length = b.length - o →
      Rel (fun r r' => (r.1.length = b.length - o ∧ r'.1.length = b.length - o) ∧ R r.2 r'.2) (f p) (f' p')) :
    Rel (fun r r' => (r.1.length = b.length ∧ r'.1.length = b.length) ∧ R r.2 r'.2)
      (Leak.withSub b o f) (Leak.withSub b' o' f') := by
  subst ho
  unfold Leak.withSub
  refine Rel.L_bind (Rel.sub h rfl) fun p p' ⟨h1, h2, h3⟩ => ?_
  subst h1 h2
  refine Rel.L_bind (hf _ _ (List.length_drop) (by rw [List.length_drop, h])) fun r r' ⟨⟨h4, h5⟩, h6⟩ => ?_
  refine Rel.ok ⟨⟨?_, ?_⟩, h6⟩
  · show (b.take o ++ r.1).length = _
    rw [List.length_append, List.length_take, h4]; omega
  · show (b'.take o ++ r'.1).length = _
    rw [List.length_append, List.length_take, h5]; unfold Len at h; omega

theorem Rel.iterate {σ τ : Type} {R : Nat → σ → τ → Prop} {n : Nat} {body : Nat → σ → L σ}
    {body' : Nat → τ → L τ} {s : σ} {s' : τ} (h0 : R 0 s s')
    (hb : ∀ i s s', i < n → R i s s' → Rel (R (i + 1)) (body i s) (body' i s')) :
    Rel (R n) (Leak.iterate n body s) (Leak.iterate n body' s') := by
  induction n with
  | zero => exact Rel.ok h0
  | succ n ih =>
    exact Rel.L_bind (ih fun i s s' hi => hb i s s' (by omega)) fun s s' h => hb n s s' (by omega) h

/-- Counted loops, with a relation which depends on the counter. -/
theorem Rel.forRangeI {σ τ : Type} {R : Nat → σ → τ → Prop} {n n' : Nat} {body : Nat → σ → L σ}
    {body' : Nat → τ → L τ} {s : σ} {s' : τ} (hn : n = n') (h0 : R 0 s s')
    (hb : ∀ i s s', i < n → R i s s' → Rel (R (i + 1)) (body i s) (body' i s')) :
    Rel (R n) (Leak.forRange n body s) (Leak.forRange n' body' s') := by
  subst hn
  exact Rel.L_bind (Rel.ev _) fun _ _ _ => Rel.iterate h0 hb

theorem Rel.forRange {σ τ : Type} (R : σ → τ → Prop) {n n' : Nat} {body : Nat → σ → L σ}
    {body' : Nat → τ → L τ} {s : σ} {s' : τ} (hn : n = n') (h0 : R s s')
    (hb : ∀ i s s', i < n → R s s' → Rel R (body i s) (body' i s')) :
    Rel R (Leak.forRange n body s) (Leak.forRange n' body' s') :=
  Rel.forRangeI (R := fun _ => R) hn h0 hb

/-- Related outcomes of a loop body. -/
def SumRel {σ τ ρ ρ' : Type} (R : σ → τ → Prop) (Q : ρ → ρ' → Prop) : σ ⊕ ρ → τ ⊕ ρ' → Prop
  | .inl s, .inl s' => R s s'
  | .inr r, .inr r' => Q r r'
  | _, _ => False

theorem Rel.loop {σ τ ρ ρ' : Type} (R : σ → τ → Prop) (Q : ρ → ρ' → Prop) {fuel fuel' : Nat}
    {body : σ → L (σ ⊕ ρ)} {body' : τ → L (τ ⊕ ρ')} {s : σ} {s' : τ} (hn : fuel = fuel') (h0 : R s s')
    (hb : ∀ s s', R s s' → Rel (SumRel R Q) (body s) (body' s')) :
    Rel Q (Leak.loop fuel body s) (Leak.loop fuel' body' s') := by
  subst hn
  induction fuel generalizing s s' with
  | zero => rw [loop_zero, loop_zero]; exact Rel.error _
  | succ f ih =>
    rw [Leak.loop_succ, Leak.loop_succ]
    refine Rel.L_bind (hb s s' h0) fun r r' h => ?_
    cases r with
    | inl s1 =>
      cases r' with
      | inl s2 => exact Rel.L_bind (Rel.ev _) fun _ _ _ => ih h
      | inr r2 => exact h.elim
    | inr r1 =>
      cases r' with
      | inl s2 => exact h.elim
      | inr r2 => exact Rel.L_bind (Rel.ev _) fun _ _ _ => Rel.ok h

theorem Rel.branch {α β : Type} {R : α → β → Prop} {p p' : Prop} [Decidable p] [Decidable p']
    {x y : L α} {x' y' : L β} (hp : p ↔ p') (hx : p → Rel R x x') (hy : ¬p → Rel R y y') :
    Rel R (Leak.branch p x y) (Leak.branch p' x' y') := by
  unfold Leak.branch
  rw [show decide p' = decide p from decide_eq_decide.mpr hp.symm]
  refine Rel.L_bind (Rel.ev _) fun _ _ _ => ?_
  by_cases h : p
  · rw [if_pos h, if_pos (hp.mp h)]; exact hx h
  · rw [if_neg h, if_neg (fun h' => h (hp.mpr h'))]; exact hy h

theorem Rel.branchAnd {α β : Type} {R : α → β → Prop} {p q p' q' : Prop} [Decidable p] [Decidable q]
    [Decidable p'] [Decidable q'] {x y : L α} {x' y' : L β} (hp : p ↔ p') (hq : q ↔ q')
    (hx : p ∧ q → Rel R x x') (hy : ¬(p ∧ q) → Rel R y y') :
    Rel R (Leak.branchAnd p q x y) (Leak.branchAnd p' q' x' y') := by
  have e1 : decide p' = decide p := decide_eq_decide.mpr hp.symm
  have e2 : decide q' = decide q := decide_eq_decide.mpr hq.symm
  have e3 : (if p' then [Ev.br (decide q')] else []) = (if p then [Ev.br (decide q)] else []) := by
    rw [e2]
    by_cases h : p
    · rw [if_pos h, if_pos (hp.mp h)]
    · rw [if_neg h, if_neg (fun h' => h (hp.mpr h'))]
  unfold Leak.branchAnd
  rw [e1, e3]
  refine Rel.L_bind (Rel.ev _) fun _ _ _ => ?_
  by_cases h : p ∧ q
  · rw [if_pos h, if_pos ⟨hp.mp h.1, hq.mp h.2⟩]; exact hx h
  · rw [if_neg h, if_neg (fun h' => h ⟨hp.mpr h'.1, hq.mpr h'.2⟩)]; exact hy h

/-- Both runs evaluate the same condition. -/
theorem Rel.branchOr {α β : Type} {R : α → β → Prop} {p q : Prop} [Decidable p] [Decidable q]
    {x y : L α} {x' y' : L β} (hx : p ∨ q → Rel R x x') (hy : ¬(p ∨ q) → Rel R y y') :
    Rel R (Leak.branchOr p q x y) (Leak.branchOr p q x' y') := by
  unfold Leak.branchOr
  refine Rel.L_bind (Rel.ev _) fun _ _ _ => ?_
  by_cases h : p ∨ q
  · rw [if_pos h, if_pos h]; exact hx h
  · rw [if_neg h, if_neg h]; exact hy h

theorem Rel.ite {α β : Type} {R : α → β → Prop} {p : Prop} [Decidable p] {x y : L α} {x' y' : L β}
    (hx : p → Rel R x x') (hy : ¬p → Rel R y y') :
    Rel R (if p then x else y) (if p then x' else y') := by
  by_cases h : p
  · rw [if_pos h, if_pos h]; exact hx h
  · rw [if_neg h, if_neg h]; exact hy h

/-- The same deterministic run. -/
theorem Rel.refl {α : Type} (x : L α) : Rel (fun a b => a = b) x x := by
  refine ⟨rfl, ?_⟩
  cases x.res <;> rfl

end Spx.Leak
