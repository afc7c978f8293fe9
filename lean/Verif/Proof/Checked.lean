import Verif.Proof.Seek
/-! # The calls of a verification can be made one after the other -/

namespace Spx.Rom
open Spec

/-- Every call of the list is determined by the answers to the calls before it. -/
def Pre (pub : Bytes) (C : Spec.Hash → List HashCall) : Prop :=
  ∀ S S' i, Agree S S' pub ((C S).take i) → (C S').take (i + 1) = (C S).take (i + 1)

/-- The result is determined by the answers to the calls. -/
def Dep {α : Type} (pub : Bytes) (C : Spec.Hash → List HashCall) (R : Spec.Hash → α) : Prop :=
  ∀ S S', Agree S S' pub (C S) → R S' = R S

section
variable {pub : Bytes}

theorem Pre.full {C : Spec.Hash → List HashCall} (h : Pre pub C) {S S' : Spec.Hash} (hA : Agree S S' pub (C S)) :
    C S' = C S := by
  have e := h S S' (C S).length (by rw [List.take_length]; exact hA)
  rw [List.take_of_length_le (l := C S) (Nat.le_succ _)] at e
  have hl : (C S').length ≤ (C S).length + 1 := by
    have := congrArg List.length e
    rw [List.length_take] at this
    omega
  rw [List.take_of_length_le hl] at e
  exact e

theorem Pre.append {α : Type} {A : Spec.Hash → List HashCall} {R : Spec.Hash → α} {B : α → Spec.Hash → List HashCall}
    (hA : Pre pub A) (hR : Dep pub A R) (hB : ∀ r, Pre pub (B r)) : Pre pub fun S => A S ++ B (R S) S := by
  intro S S' i h
  simp only at h ⊢
  by_cases hi : i < (A S).length
  · rw [List.take_append_of_le_length (by omega)] at h
    have e := hA S S' i h
    have hl : i + 1 ≤ (A S').length := by
      have := congrArg List.length e
      rw [List.length_take, List.length_take] at this
      omega
    rw [List.take_append_of_le_length hl, List.take_append_of_le_length (by omega), e]
  · have hi := Nat.not_lt.mp hi
    have hall : Agree S S' pub (A S) := fun c hc => h c (by
      rw [List.take_append, List.take_of_length_le hi]
      exact List.mem_append_left _ hc)
    have e := hA.full hall
    rw [e, hR S S' hall, List.take_append, List.take_append]
    congr 1
    have := hB (R S) S S' (i - (A S).length) fun c hc => h c (by
      rw [List.take_append]
      exact List.mem_append_right _ hc)
    rw [show i + 1 - (A S).length = i - (A S).length + 1 by omega]
    exact this

theorem Pre.const (l : List HashCall) : Pre pub fun _ => l := fun _ _ _ _ => rfl

theorem Dep.unit (C : Spec.Hash → List HashCall) : Dep pub C fun _ => () := fun _ _ _ => rfl

theorem flatMap_succ {α β : Type} (f : Nat → List β) (k : Nat) (_ : α) :
    (List.range (k + 1)).flatMap f = (List.range k).flatMap f ++ f k := by
  rw [List.range_succ, List.flatMap_append]
  simp

theorem Pre.flatMap {C : Nat → Spec.Hash → List HashCall} (h : ∀ i, Pre pub (C i)) (k : Nat) :
    Pre pub fun S => (List.range k).flatMap fun i => C i S := by
  induction k with
  | zero => exact Pre.const []
  | succ k ih =>
    have := Pre.append (B := fun (_ : Unit) => C k) ih (Dep.unit _) fun _ => h k
    intro S S' i hA
    simp only [flatMap_succ _ k ()] at hA ⊢
    exact this S S' i hA

theorem Dep.cat {C : Nat → Spec.Hash → List HashCall} {R : Nat → Spec.Hash → Bytes} (h : ∀ i, Dep pub (C i) (R i)) (k : Nat) :
    Dep pub (fun S => (List.range k).flatMap fun i => C i S) fun S => Spx.cat k fun i => R i S := by
  intro S S' hA
  exact cat_congr fun i hi => h i S S' fun c hc => hA c (List.mem_flatMap.mpr ⟨i, List.mem_range.mpr hi, hc⟩)

/-- A list of calls each of which is determined by what went before -/
theorem Pre.steps {α : Type} {f : Nat → α → HashCall} {R : Nat → Spec.Hash → α}
    (hR : ∀ k, Dep pub (fun S => (List.range k).map fun j => f j (R j S)) (R k)) (k : Nat) :
    Pre pub fun S => (List.range k).map fun j => f j (R j S) := by
  induction k with
  | zero => exact Pre.const []
  | succ k ih =>
    have := Pre.append (B := fun r _ => [f k r]) ih (hR k) fun r => Pre.const _
    intro S S' i hA
    simp only [List.range_succ, List.map_append, List.map_cons, List.map_nil] at hA ⊢
    exact this S S' i hA

section
variable (p : Par)

/-- The calls of one chain -/
def stepCalls (layer tree kp i : Nat) (x : Bytes) (a s : Nat) (S : Spec.Hash) : List HashCall :=
  (List.range s).map fun j => (.wotsHash layer tree kp i (a + j), chain (wotsF S pub layer tree kp i) x a j)

theorem dep_chain (layer tree kp i : Nat) (x : Bytes) (a s : Nat) :
    Dep pub (stepCalls (pub := pub) layer tree kp i x a s) fun S => chain (wotsF S pub layer tree kp i) x a s :=
  fun _ _ h => chain_agree fun t ht => h _ (List.mem_map.mpr ⟨t, List.mem_range.mpr ht, rfl⟩)

theorem pre_chain (layer tree kp i : Nat) (x : Bytes) (a s : Nat) :
    Pre pub (stepCalls (pub := pub) layer tree kp i x a s) :=
  Pre.steps (f := fun j r => (.wotsHash layer tree kp i (a + j), r))
    (R := fun j S => chain (wotsF S pub layer tree kp i) x a j) (fun k => dep_chain layer tree kp i x a k) s

theorem dep_climb {pos : Nat → Nat → Position} {H : Spec.Hash → Nat → Nat → Bytes → Bytes → Bytes}
    (hH : ∀ S h i l r, H S h i l r = S.T pub (pos h i).adrs (l ++ r)) (i : Nat) (path : Nat → Bytes) (v : Bytes) (t : Nat) :
    Dep pub (fun S => climbCalls pos (H S) i path v t) fun S => climb (H S) i path v t :=
  fun S S' h => climb_agree' (pos := pos) (hH S) (hH S') h

theorem pre_climb {pos : Nat → Nat → Position} {H : Spec.Hash → Nat → Nat → Bytes → Bytes → Bytes}
    (hH : ∀ S h i l r, H S h i l r = S.T pub (pos h i).adrs (l ++ r)) (i : Nat) (path : Nat → Bytes) (v : Bytes) (t : Nat) :
    Pre pub fun S => climbCalls pos (H S) i path v t :=
  Pre.steps (f := fun h r => (pos (h + 1) (i / 2 ^ (h + 1)), if i / 2 ^ h % 2 = 0 then r ++ path h else path h ++ r))
    (R := fun h S => climb (H S) i path v h) (fun k => dep_climb hH i path v k) t

theorem pre_wots (layer tree kp : Nat) (sig m : Bytes) : Pre pub fun S => wotsCalls p S pub layer tree kp sig m :=
  Pre.append (B := fun r _ => [(.wotsPk layer tree kp, r)])
    (Pre.flatMap (C := fun i => stepCalls (pub := pub) layer tree kp i (chunk p.n sig i) ((lengths p m).getD i 0)
      (p.w - 1 - (lengths p m).getD i 0)) (fun _ => pre_chain _ _ _ _ _ _ _) p.len)
    (Dep.cat (fun i => dep_chain _ _ _ i _ _ _) p.len) fun _ => Pre.const _

theorem dep_wots (layer tree kp : Nat) (sig m : Bytes) :
    Dep pub (fun S => wotsCalls p S pub layer tree kp sig m) fun S => wotsPkFromSig p S pub layer tree kp sig m :=
  fun _ _ h => wots_agree h

theorem pre_xmss (layer tree leaf : Nat) (sig m : Bytes) : Pre pub fun S => xmssCalls p S pub layer tree leaf sig m :=
  Pre.append (B := fun r S => climbCalls (.treeNode layer tree) (treeH S pub layer tree) leaf
      (chunk p.n (sig.drop (p.len * p.n))) r p.h')
    (pre_wots p _ _ _ _ _) (dep_wots p _ _ _ _ _)
    fun _ => pre_climb (pos := .treeNode layer tree) (H := fun S => treeH S pub layer tree) (fun _ _ _ _ _ => rfl) _ _ _ _

theorem pre_ht (tree leaf : Nat) (sig m : Bytes) (k : Nat) :
    Pre pub fun S => (List.range k).flatMap fun j =>
      xmssCalls p S pub j (treeAt p tree j) (leafAt p tree leaf j) (sig.drop (j * xmssBytes p))
        (htRoot p S pub tree leaf sig m j) := by
  induction k with
  | zero => exact Pre.const []
  | succ k ih =>
    have hR : Dep pub (fun S => (List.range k).flatMap fun j =>
        xmssCalls p S pub j (treeAt p tree j) (leafAt p tree leaf j) (sig.drop (j * xmssBytes p))
          (htRoot p S pub tree leaf sig m j)) fun S => htRoot p S pub tree leaf sig m k := by
      intro S S' h
      have : ∀ j, j ≤ k → htRoot p S' pub tree leaf sig m j = htRoot p S pub tree leaf sig m j := by
        intro j
        induction j with
        | zero => intro _; rfl
        | succ j ih =>
          intro hj
          rw [htRoot, htRoot, ih (by omega)]
          exact xmss_agree fun c hc => h c (List.mem_flatMap.mpr ⟨j, List.mem_range.mpr hj, hc⟩)
      exact this k (Nat.le_refl _)
    have := Pre.append (B := fun r S => xmssCalls p S pub k (treeAt p tree k) (leafAt p tree leaf k)
      (sig.drop (k * xmssBytes p)) r) ih hR fun _ => pre_xmss p _ _ _ _ _
    intro S S' i hA
    simp only [flatMap_succ _ k ()] at hA ⊢
    exact this S S' i hA

/-- The calls for one FORS tree -/
def treeCalls (tree kp : Nat) (s : Bytes) (j : Nat) (S : Spec.Hash) : List HashCall :=
  (.forsLeaf tree kp j, s.take p.n) ::
    climbCalls (.forsNode tree kp) (forsH S pub tree kp) j (chunk p.n (s.drop p.n))
      (forsLeafOf S pub tree kp j (s.take p.n)) p.a

theorem pre_tree (tree kp : Nat) (s : Bytes) (j : Nat) : Pre pub (treeCalls (pub := pub) p tree kp s j) :=
  Pre.append (A := fun _ => [(.forsLeaf tree kp j, s.take p.n)]) (R := fun S => forsLeafOf S pub tree kp j (s.take p.n))
    (B := fun r S => climbCalls (.forsNode tree kp) (forsH S pub tree kp) j (chunk p.n (s.drop p.n)) r p.a)
    (Pre.const _) (fun _ _ h => h _ (List.mem_singleton.mpr rfl))
    fun _ => pre_climb (pos := .forsNode tree kp) (H := fun S => forsH S pub tree kp) (fun _ _ _ _ _ => rfl) _ _ _ _

theorem dep_tree (tree kp : Nat) (s : Bytes) (j : Nat) : Dep pub (treeCalls (pub := pub) p tree kp s j) fun S =>
    climb (forsH S pub tree kp) j (chunk p.n (s.drop p.n)) (forsLeafOf S pub tree kp j (s.take p.n)) p.a := by
  intro S S' h
  have e : forsLeafOf S' pub tree kp j (s.take p.n) = forsLeafOf S pub tree kp j (s.take p.n) := h _ List.mem_cons_self
  simp only
  rw [e]
  exact climb_agree' (pos := .forsNode tree kp) (fun _ _ _ _ => rfl) (fun _ _ _ _ => rfl)
    fun c hc => h c (List.mem_cons_of_mem _ hc)

theorem pre_fors (tree kp : Nat) (sig md : Bytes) : Pre pub fun S => forsCalls p S pub tree kp sig md :=
  Pre.append (B := fun r _ => [(.forsRoots tree kp, r)])
    (Pre.flatMap (C := fun i => treeCalls (pub := pub) p tree kp (sig.drop (i * ((p.a + 1) * p.n)))
      (i * 2 ^ p.a + forsIdx p md i)) (fun _ => pre_tree p _ _ _ _) p.k)
    (Dep.cat (fun _ => dep_tree p _ _ _ _) p.k) fun _ => Pre.const _

/-- The calls of a verification, if the digest is known -/
def verifyCallsOf (md : Bytes) (tree leaf : Nat) (sig : Bytes) (S : Spec.Hash) : List HashCall :=
  forsCalls p S pub tree leaf (sig.drop p.n) md ++
    htCalls p S pub tree leaf (sig.drop (p.n + forsBytes p)) (forsPkFromSig p S pub tree leaf (sig.drop p.n) md)

theorem pre_verify (md : Bytes) (tree leaf : Nat) (sig : Bytes) : Pre pub (verifyCallsOf (pub := pub) p md tree leaf sig) :=
  Pre.append (B := fun r S => htCalls p S pub tree leaf (sig.drop (p.n + forsBytes p)) r) (pre_fors p _ _ _ _)
    (fun _ _ h => fors_agree h) fun _ => pre_ht p _ _ _ _ _

theorem length_flatMap_le {α : Type} {f : Nat → List α} {b : Nat} (h : ∀ i, (f i).length ≤ b) (k : Nat) :
    ((List.range k).flatMap f).length ≤ k * b := by
  induction k with
  | zero => simp
  | succ k ih =>
    rw [flatMap_succ _ k (), List.length_append, Nat.succ_mul]
    exact Nat.add_le_add ih (h k)

theorem verifyCallsOf_length (md : Bytes) (tree leaf : Nat) (sig : Bytes) (S : Spec.Hash) :
    (verifyCallsOf (pub := pub) p md tree leaf sig S).length ≤ maxCalls p := by
  have hw : ∀ l t k s m, (wotsCalls p S pub l t k s m).length ≤ p.len * (p.w - 1) + 1 := by
    intro l t k s m
    unfold wotsCalls
    rw [List.length_append, List.length_singleton]
    refine Nat.add_le_add_right (length_flatMap_le (fun i => ?_) _) _
    rw [List.length_map, List.length_range]
    omega
  unfold verifyCallsOf maxCalls
  rw [List.length_append]
  refine Nat.add_le_add ?_ ?_
  · unfold forsCalls
    rw [List.length_append, List.length_singleton]
    refine Nat.add_le_add_right (length_flatMap_le (fun i => ?_) _) _
    simp [climbCalls]
  · unfold htCalls
    refine length_flatMap_le (fun j => ?_) _
    unfold xmssCalls
    rw [List.length_append]
    refine Nat.add_le_add (hw ..) ?_
    simp [climbCalls]

end
end

section
variable {ρ M D : Type}

/-- Make the calls of a list, and go on with `e`.  `T0` has the answers so far. -/
def askAll (C : (ADRS → Bytes → Bytes) → List HashCall) (e : Adversary ρ M D) :
    Nat → (ADRS → Bytes → Bytes) → Nat → Adversary ρ M D
  | 0, _, _ => e
  | n + 1, T0, i =>
    match (C T0)[i]? with
    | none => e
    | some c => .tweak c.1.adrs c.2 fun y =>
      askAll C e n (fun a x => if a = c.1.adrs ∧ x = c.2 then y else T0 a x) (i + 1)

theorem up {F : Adversary ρ M D} : ∀ {q t u u' : Nat}, F.Within q t u → u ≤ u' → F.Within q t u' := by
  induction F with
  | output m sig => exact fun h _ => h
  | hash r m next ih => exact fun h hu => ⟨h.1, fun d => ih d (h.2 d) hu⟩
  | tweak a x next ih => exact fun h hu => ⟨by have := h.1; omega, fun y => ih y (h.2 y) (by omega)⟩
  | sign m next ih => exact fun h hu => ⟨h.1, fun y => ih y (h.2 y) hu⟩

theorem askAll_within {C : (ADRS → Bytes → Bytes) → List HashCall} {e : Adversary ρ M D} {q t u : Nat} (h : e.Within q t u) :
    ∀ n T0 i, (askAll C e n T0 i).Within q t (u + n) := by
  intro n
  induction n with
  | zero => exact fun _ _ => h
  | succ n ih =>
    intro T0 i
    rw [askAll]
    split
    · exact up h (Nat.le_add_right _ _)
    · exact ⟨by omega, fun y => ih _ _⟩

theorem askAll_run {C : (ADRS → Bytes → Bytes) → List HashCall} {e : Adversary ρ M D} {H : ρ × M → D}
    {T : ADRS → Bytes → Bytes} {signature : ρ → M → Bytes} {s : List ρ} {Q : List (M × Bytes)} :
    ∀ n T0 i, (askAll C e n T0 i).run H T signature s Q = e.run H T signature s Q := by
  intro n
  induction n with
  | zero => exact fun _ _ => rfl
  | succ n ih =>
    intro T0 i
    rw [askAll]
    split
    · rfl
    · exact ih _ _

/-- The forger who makes the calls `C m sig` before it ends with `m` and `sig`. -/
def checked (C : M → Bytes → (ADRS → Bytes → Bytes) → List HashCall) (n : Nat) : Adversary ρ M D → Adversary ρ M D
  | .output m sig => askAll (C m sig) (.output m sig) n (fun _ _ => []) 0
  | .hash r m next => .hash r m fun d => checked C n (next d)
  | .tweak a x next => .tweak a x fun y => checked C n (next y)
  | .sign m next => .sign m fun sig => checked C n (next sig)

theorem checked_within {C : M → Bytes → (ADRS → Bytes → Bytes) → List HashCall} {n : Nat} (F : Adversary ρ M D) :
    ∀ {q t u : Nat}, F.Within q t u → (checked C n F).Within q t (u + n) := by
  induction F with
  | output m sig => exact fun h => askAll_within h _ _ _
  | hash r m next ih => exact fun h => ⟨h.1, fun d => ih d (h.2 d)⟩
  | tweak a x next ih =>
    intro q t u h
    refine ⟨by have := h.1; omega, fun y => ?_⟩
    have := ih y (h.2 y)
    rwa [show u - 1 + n = u + n - 1 by have := h.1; omega] at this
  | sign m next ih => exact fun h => ⟨h.1, fun y => ih y (h.2 y)⟩

theorem checked_run {C : M → Bytes → (ADRS → Bytes → Bytes) → List HashCall} {n : Nat} {H : ρ × M → D}
    {T : ADRS → Bytes → Bytes} {signature : ρ → M → Bytes} (F : Adversary ρ M D) : ∀ {s : List ρ} {Q : List (M × Bytes)},
    (checked C n F).run H T signature s Q = F.run H T signature s Q := by
  induction F with
  | output m sig => exact askAll_run _ _ _
  | hash r m next ih => exact ih _
  | tweak a x next ih => exact ih _
  | sign m next ih =>
    intro s Q
    cases s with
    | nil => rfl
    | cons r s => exact ih _

end

section
variable {p : Par} {M : Type} {H : (Fin p.n → Fin (2 ^ 8)) × M → Digest p} {T : ADRS → Bytes → Bytes}
    {signature : (Fin p.n → Fin (2 ^ 8)) → M → Bytes}

theorem askAll_opened {C : (ADRS → Bytes → Bytes) → List HashCall} {e : Adversary (Fin p.n → Fin (2 ^ 8)) M (Digest p)}
    {s : List (Fin p.n → Fin (2 ^ 8))} {R : Set Position} :
    ∀ n T0 i, openedBy H T signature (askAll C e n T0 i) s R = openedBy H T signature e s R := by
  intro n
  induction n with
  | zero => exact fun _ _ => rfl
  | succ n ih =>
    intro T0 i
    rw [askAll]
    split
    · rfl
    · exact ih _ _

theorem checked_opened {C : M → Bytes → (ADRS → Bytes → Bytes) → List HashCall} {n : Nat}
    (F : Adversary (Fin p.n → Fin (2 ^ 8)) M (Digest p)) : ∀ {s : List (Fin p.n → Fin (2 ^ 8))} {R : Set Position},
    openedBy H T signature (checked C n F) s R = openedBy H T signature F s R := by
  induction F with
  | output m sig => exact askAll_opened _ _ _
  | hash r m next ih => exact ih _
  | tweak a x next ih => exact ih _
  | sign m next ih =>
    intro s R
    cases s with
    | nil => rfl
    | cons r s => exact ih _

/-- All calls are made. -/
theorem askAll_asked {C : (ADRS → Bytes → Bytes) → List HashCall} {e : Adversary (Fin p.n → Fin (2 ^ 8)) M (Digest p)}
    {s : List (Fin p.n → Fin (2 ^ 8))}
    (hC : ∀ T0 i, (∀ c ∈ (C T).take i, T0 c.1.adrs c.2 = T c.1.adrs c.2) → (C T0).take (i + 1) = (C T).take (i + 1)) :
    ∀ n T0 i, (∀ c ∈ (C T).take i, T0 c.1.adrs c.2 = T c.1.adrs c.2) → (C T).length ≤ i + n →
      ∀ c ∈ (C T).drop i, (c.1.adrs, c.2) ∈ asked H T signature (askAll C e n T0 i) s := by
  intro n
  induction n with
  | zero =>
    intro T0 i _ hl c hc
    rw [List.drop_of_length_le (by omega)] at hc
    cases hc
  | succ n ih =>
    intro T0 i hT hl c hc
    have e1 := hC T0 i hT
    have hi : i < (C T).length := by
      have := List.length_pos_of_mem hc
      rw [List.length_drop] at this
      omega
    have e2 : (C T0)[i]? = some (C T)[i] := by
      have := congrArg (fun l => l[i]?) e1
      simp only [List.getElem?_take, Nat.lt_succ_self, if_true] at this
      rw [this, List.getElem?_eq_getElem hi]
    rw [askAll, e2]
    simp only [asked]
    rw [List.drop_eq_getElem_cons hi] at hc
    rcases List.mem_cons.mp hc with rfl | hc
    · exact List.mem_cons_self
    · refine List.mem_cons_of_mem _ (ih _ _ ?_ (by omega) c hc)
      intro c' hc'
      split
      · next h => rw [h.1, h.2]
      · next h =>
        rw [List.take_succ_eq_append_getElem hi, List.mem_append] at hc'
        rcases hc' with hc' | hc'
        · exact hT c' hc'
        · rw [List.mem_singleton.mp hc'] at h
          exact absurd ⟨rfl, rfl⟩ h

theorem checked_asked {C : M → Bytes → (ADRS → Bytes → Bytes) → List HashCall} {n : Nat}
    (hC : ∀ m sig T0 i, (∀ c ∈ (C m sig T).take i, T0 c.1.adrs c.2 = T c.1.adrs c.2) →
      (C m sig T0).take (i + 1) = (C m sig T).take (i + 1)) (hn : ∀ m sig, (C m sig T).length ≤ n)
    {Q' : List (M × Bytes)} {m' : M} {sig' : Bytes}
    (F : Adversary (Fin p.n → Fin (2 ^ 8)) M (Digest p)) : ∀ {s : List (Fin p.n → Fin (2 ^ 8))} {Q : List (M × Bytes)},
    F.run H T signature s Q = some (Q', m', sig') →
      ∀ c ∈ C m' sig' T, (c.1.adrs, c.2) ∈ asked H T signature (checked C n F) s := by
  induction F with
  | output m sig =>
    intro s Q h c hc
    simp only [Adversary.run, Option.some.injEq, Prod.mk.injEq] at h
    obtain ⟨-, rfl, rfl⟩ := h
    exact askAll_asked (hC m sig) n _ 0 (by simp) (by simpa using hn m sig) c hc
  | hash r m next ih => exact fun h => ih _ h
  | tweak a x next ih => exact fun h c hc => List.mem_cons_of_mem _ (ih _ h c hc)
  | sign m next ih =>
    intro s Q h
    cases s with
    | nil => cases h
    | cons r s => exact ih _ h

end

end Spx.Rom
