import Verif.Proof.Base
/-! Two runs of C code with related results. -/

namespace Spx

/-- Both runs succeed with related results, or both have the same undefined behaviour. -/
def Sim {α β : Type} (R : α → β → Prop) : C α → C β → Prop
  | .ok a, .ok b => R a b
  | .error e, .error e' => e = e'
  | _, _ => False

/-- Related results of loop bodies. -/
def SumRel {α β γ δ : Type} (R : α → β → Prop) (S : γ → δ → Prop) : α ⊕ γ → β ⊕ δ → Prop
  | .inl a, .inl b => R a b
  | .inr c, .inr d => S c d
  | _, _ => False

unseal loop in
theorem loop_zero {σ ρ : Type} (body : σ → C (σ ⊕ ρ)) (s : σ) : loop 0 body s = .error .fuel := rfl

namespace Sim
variable {α β γ δ : Type} {R : α → β → Prop} {S : γ → δ → Prop}

theorem of_eq {x y : C α} (h : x = y) : Sim Eq x y := by
  subst h
  cases x <;> exact rfl

theorem eq {x y : C α} (h : Sim Eq x y) : x = y := by
  cases x <;> cases y
  · exact congrArg _ h
  · exact h.elim
  · exact h.elim
  · exact congrArg _ h

theorem bind {x : C α} {y : C β} {f : α → C γ} {g : β → C δ} (h : Sim R x y)
    (hf : ∀ a b, R a b → Sim S (f a) (g b)) : Sim S (x >>= f) (y >>= g) := by
  cases x <;> cases y
  · exact h
  · exact h.elim
  · exact h.elim
  · exact hf _ _ h

theorem bind_eq {x y : C α} {f : α → C γ} {g : α → C δ} (h : x = y)
    (hf : ∀ a, Sim S (f a) (g a)) : Sim S (x >>= f) (y >>= g) :=
  (of_eq h).bind fun _ _ e => e ▸ hf _

theorem ite {p : Prop} [Decidable p] {x x' : C α} {y y' : C β} (h : p → Sim R x y) (h' : ¬p → Sim R x' y') :
    Sim R (if p then x else x') (if p then y else y') := by
  by_cases c : p
  · rw [if_pos c, if_pos c]; exact h c
  · rw [if_neg c, if_neg c]; exact h' c

theorem forRange {n : Nat} {f : Nat → α → C α} {g : Nat → β → C β} {s : α} {t : β} (h : R s t)
    (hf : ∀ i a b, i < n → R a b → Sim R (f i a) (g i b)) : Sim R (Spx.forRange n f s) (Spx.forRange n g t) := by
  induction n with
  | zero => exact h
  | succ n ih => exact (ih fun i a b hi => hf i a b (by omega)).bind fun a b => hf n a b (Nat.lt_succ_self n)

theorem loop {n : Nat} {f : α → C (α ⊕ γ)} {g : β → C (β ⊕ δ)} {s : α} {t : β} (h : R s t)
    (hf : ∀ a b, R a b → Sim (SumRel R S) (f a) (g b)) : Sim S (Spx.loop n f s) (Spx.loop n g t) := by
  induction n generalizing s t with
  | zero => rw [loop_zero, loop_zero]; exact rfl
  | succ n ih =>
    rw [loop_succ, loop_succ]
    refine (hf s t h).bind ?_
    rintro (a | c) (b | d) k
    · exact ih k
    · exact k.elim
    · exact k.elim
    · exact k

theorem fst {x : C (α × γ)} {y : C (β × δ)} (h : Sim (fun r s => R r.1 s.1 ∧ S r.2 s.2) x y) :
    Sim R (x >>= fun r => .ok r.1) (y >>= fun r => .ok r.1) := h.bind fun _ _ k => k.1

end Sim
end Spx
