import Verif.Proof.Base
/-! Any sequence of absorb and squeeze calls on an incremental hash. -/

namespace Spx

/-- Absorb calls, each with a buffer and a length. -/
def absorbAll {σ : Type} (f : σ → Bytes → Nat → C σ) : List (Bytes × Nat) → σ → C σ
  | [], s => .ok s
  | q :: qs, s => do absorbAll f qs (← f s q.1 q.2)

/-- Squeeze calls, each with an output buffer and a length; the result has the buffers afterwards. -/
def squeezeAll {σ : Type} (f : Bytes → Nat → σ → C (Bytes × σ)) : List (Bytes × Nat) → σ → C (List Bytes × σ)
  | [], s => .ok ([], s)
  | q :: qs, s => do
    let (h, s) ← f q.1 q.2 s
    let (hs, s) ← squeezeAll f qs s
    .ok (h :: hs, s)

/-- The input of a sequence of absorb calls: the pieces one after the other. -/
def absorbed (qs : List (Bytes × Nat)) : Bytes := (qs.map fun q => q.1.take q.2).flatten

/-- Number of bytes asked for. -/
def requested (qs : List (Bytes × Nat)) : Nat := (qs.map Prod.snd).sum

theorem absorb_all {σ : Type} {f : σ → Bytes → Nat → C σ} {Inv : σ → Bytes → Prop}
    (hf : ∀ s m x n, Inv s m → n ≤ x.length → ∃ s', f s x n = .ok s' ∧ Inv s' (m ++ x.take n)) :
    ∀ (qs : List (Bytes × Nat)) (s : σ) (m : Bytes), Inv s m → (∀ q ∈ qs, q.2 ≤ q.1.length) →
    ∃ s', absorbAll f qs s = .ok s' ∧ Inv s' (m ++ absorbed qs) := by
  intro qs
  induction qs with
  | nil => intro s m h _; exact ⟨s, rfl, by simpa [absorbed] using h⟩
  | cons q qs ih =>
    intro s m h hq
    obtain ⟨s1, e1, h1⟩ := hf s m q.1 q.2 h (hq q (by simp))
    obtain ⟨s2, e2, h2⟩ := ih s1 _ h1 (fun q' h' => hq q' (by simp [h']))
    refine ⟨s2, by rw [absorbAll, e1, ok_bind, e2], ?_⟩
    simpa [absorbed] using h2

theorem squeeze_all {σ : Type} {f : Bytes → Nat → σ → C (Bytes × σ)} {Inv : σ → Nat → Prop} {S : Nat → Bytes}
    (hS : ∀ n, (S n).length = n) (hpre : ∀ a b, a ≤ b → S a = (S b).take a)
    (hf : ∀ s k h n, Inv s k → n ≤ h.length →
      ∃ s', f h n s = .ok ((S (k + n)).drop k ++ h.drop n, s') ∧ Inv s' (k + n)) :
    ∀ (qs : List (Bytes × Nat)) (s : σ) (k : Nat), Inv s k → (∀ q ∈ qs, q.2 ≤ q.1.length) →
    ∃ outs s', squeezeAll f qs s = .ok (outs, s') ∧ Inv s' (k + requested qs) ∧ outs.length = qs.length ∧
      (List.zipWith (fun o (q : Bytes × Nat) => o.take q.2) outs qs).flatten = (S (k + requested qs)).drop k ∧
      List.zipWith (fun o (q : Bytes × Nat) => o.drop q.2) outs qs = qs.map fun q => q.1.drop q.2 := by
  intro qs
  induction qs with
  | nil =>
    intro s k h _
    exact ⟨[], s, rfl, by simpa [requested] using h, rfl, by simp [requested, hS], rfl⟩
  | cons q qs ih =>
    intro s k h hq
    obtain ⟨s1, e1, h1⟩ := hf s k q.1 q.2 h (hq q (by simp))
    obtain ⟨outs, s2, e2, h2, h3, h4, h5⟩ := ih s1 _ h1 (fun q' h' => hq q' (by simp [h']))
    have hr : k + q.2 + requested qs = k + requested (q :: qs) := by simp [requested]; omega
    have hl : ((S (k + q.2)).drop k).length = q.2 := by simp [hS]
    refine ⟨((S (k + q.2)).drop k ++ q.1.drop q.2) :: outs, s2, ?_, by rw [← hr]; exact h2, by simp [h3], ?_, ?_⟩
    · rw [squeezeAll, e1, ok_bind]
      simp only []
      rw [e2, ok_bind]
    · rw [List.zipWith_cons_cons, List.flatten_cons, h4, hr, List.take_left' hl,
        hpre (k + q.2) (k + requested (q :: qs)) (by omega)]
      rw [List.drop_take, show k + q.2 - k = q.2 by omega, ← List.drop_drop, List.take_append_drop]
    · rw [List.zipWith_cons_cons, h5, List.map_cons, List.drop_left' hl]

end Spx
