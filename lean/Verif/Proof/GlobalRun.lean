import Verif.Spec.Global
import Verif.Proof.Resample
import Verif.Proof.Many
import Mathlib.Tactic.Linarith
/-! # Forgers that compute the secret functions -/

namespace Spx.Rom
open Spec

section
variable {ι κ β ρ M D : Type}

/-- The forger for many keys that makes the computations for other public seeds, and those of the secret functions, itself,
with the functions given here -/
def reduce (own : κ → Option ι) (H : κ → ρ × M → D) (T : κ → ADRS → Bytes → Bytes) (prf : κ → κ → ADRS → Bytes)
    (prfmsg : κ → β → M → Bytes) : GlobalForger ι κ β ρ M D → ManyForger ι β ρ M D
  | .output i m sig => .output i m sig
  | .hash pub r m next =>
    match own pub with
    | some i => .hash i r m fun d => reduce own H T prf prfmsg (next d)
    | none => reduce own H T prf prfmsg (next (H pub (r, m)))
  | .tweak pub a x next =>
    match own pub with
    | some i => .tweak i a x fun y => reduce own H T prf prfmsg (next y)
    | none => reduce own H T prf prfmsg (next (T pub a x))
  | .prf pub sk a next => reduce own H T prf prfmsg (next (prf pub sk a))
  | .prfmsg k o m next => reduce own H T prf prfmsg (next (prfmsg k o m))
  | .sign i o m next => .sign i o m fun y => reduce own H T prf prfmsg (next y)

/-- A function for all public seeds from those of the owners and one for other seeds -/
def joined {γ : Type} (own : κ → Option ι) (f : ι → γ) (g : κ → γ) (pub : κ) : γ :=
  match own pub with
  | some i => f i
  | none => g pub

theorem reduce_run {own : κ → Option ι} {H : κ → ρ × M → D} {T : κ → ADRS → Bytes → Bytes} {prf : κ → κ → ADRS → Bytes}
    {prfmsg : κ → β → M → Bytes} {H' : ι → ρ × M → D} {T' : ι → ADRS → Bytes → Bytes} {signature : ι → β → M → Bytes}
    (F : GlobalForger ι κ β ρ M D) : ∀ Q,
      (reduce own H T prf prfmsg F).run H' T' signature Q =
        F.run (joined own H' H) (joined own T' T) prf prfmsg signature Q := by
  induction F with
  | output i m sig => exact fun Q => rfl
  | hash pub r m next ih =>
    intro Q
    rw [reduce, GlobalForger.run]
    unfold joined
    cases h : own pub with
    | none => exact ih _ Q
    | some i => exact ih _ Q
  | tweak pub a x next ih =>
    intro Q
    rw [reduce, GlobalForger.run]
    unfold joined
    cases h : own pub with
    | none => exact ih _ Q
    | some i => exact ih _ Q
  | prf pub sk a next ih => exact fun Q => ih _ Q
  | prfmsg k o m next ih => exact fun Q => ih _ Q
  | sign i o m next ih => exact fun Q => ih _ _

theorem reduce_within [DecidableEq ι] [DecidableEq κ] {pubs : ι → κ} (hinj : Function.Injective pubs) {own : κ → Option ι}
    (hown : ∀ k i, own k = some i → pubs i = k)
    {H : κ → ρ × M → D} {T : κ → ADRS → Bytes → Bytes} {prf : κ → κ → ADRS → Bytes}
    {prfmsg : κ → β → M → Bytes} (F : GlobalForger ι κ β ρ M D) : ∀ {q : ι → Nat} {t : κ → Nat} {t' : ι → Nat}
      {u u' g g' : Nat}, F.Within q t u g g' → (∀ i, t (pubs i) ≤ t' i) → u ≤ u' →
      (reduce own H T prf prfmsg F).WithinShared q t' u' := by
  induction F with
  | output i m sig => exact fun h ht _ j => lt_of_lt_of_le (h _) (ht j)
  | hash pub r m next ih =>
    intro q t t' u u' g g' h ht hu
    rw [reduce]
    cases ho : own pub with
    | none =>
      refine ih _ (h.2 _) (fun i => le_trans ?_ (ht i)) hu
      by_cases e : pubs i = pub
      · rw [← e, Function.update_self]
        omega
      · rw [Function.update_of_ne e]
    | some i =>
      have e := hown _ _ ho
      subst e
      have := ht i
      refine ⟨by have := h.1; omega, fun d => ih d (h.2 d) (fun j => ?_) hu⟩
      by_cases e : j = i
      · subst e
        rw [Function.update_self, Function.update_self]
        omega
      · rw [Function.update_of_ne e, Function.update_of_ne (hinj.ne e)]
        exact ht j
  | tweak pub a x next ih =>
    intro q t t' u u' g g' h ht hu
    have h1 := h.1
    rw [reduce]
    cases ho : own pub with
    | none => exact ih _ (h.2 _) ht (by omega)
    | some i => exact ⟨by omega, fun y => ih y (h.2 y) ht (by omega)⟩
  | prf pub sk a next ih => exact fun h ht hu => ih _ (h.2 _) ht hu
  | prfmsg k o m next ih => exact fun h ht hu => ih _ (h.2 _) ht hu
  | sign i o m next ih => exact fun h ht hu => ⟨h.1, fun y => ih y (h.2 y) ht hu⟩

/-- The keys with which the pseudorandom function is computed, and those for the randomisers -/
def keysOf (H : κ → ρ × M → D) (T : κ → ADRS → Bytes → Bytes) (prf : κ → κ → ADRS → Bytes) (prfmsg : κ → β → M → Bytes)
    (signature : ι → β → M → Bytes) : GlobalForger ι κ β ρ M D → List (κ × κ) × List κ
  | .output _ _ _ => ([], [])
  | .hash pub r m next => keysOf H T prf prfmsg signature (next (H pub (r, m)))
  | .tweak pub a x next => keysOf H T prf prfmsg signature (next (T pub a x))
  | .prf pub sk a next =>
    let y := keysOf H T prf prfmsg signature (next (prf pub sk a))
    ((pub, sk) :: y.1, y.2)
  | .prfmsg k o m next =>
    let y := keysOf H T prf prfmsg signature (next (prfmsg k o m))
    (y.1, k :: y.2)
  | .sign i o m next => keysOf H T prf prfmsg signature (next (signature i o m))

theorem keysOf_length [DecidableEq ι] [DecidableEq κ] {H : κ → ρ × M → D} {T : κ → ADRS → Bytes → Bytes}
    {prf : κ → κ → ADRS → Bytes} {prfmsg : κ → β → M → Bytes} {signature : ι → β → M → Bytes}
    (F : GlobalForger ι κ β ρ M D) : ∀ {q : ι → Nat} {t : κ → Nat} {u g g' : Nat}, F.Within q t u g g' →
      (keysOf H T prf prfmsg signature F).1.length ≤ g ∧ (keysOf H T prf prfmsg signature F).2.length ≤ g' := by
  induction F with
  | output i m sig => exact fun _ => ⟨Nat.zero_le _, Nat.zero_le _⟩
  | hash pub r m next ih => exact fun h => ih _ (h.2 _)
  | tweak pub a x next ih => exact fun h => ih _ (h.2 _)
  | prf pub sk a next ih =>
    intro q t u g g' h
    have h1 := h.1
    have := ih _ (h.2 (prf pub sk a))
    simp only [keysOf, List.length_cons]
    omega
  | prfmsg k o m next ih =>
    intro q t u g g' h
    have h1 := h.1
    have := ih _ (h.2 (prfmsg k o m))
    simp only [keysOf, List.length_cons]
    omega
  | sign i o m next ih => exact fun h => ih _ (h.2 _)

/-- Other secret functions make no difference if the forger does not use the keys where they differ. -/
theorem run_unless {H : κ → ρ × M → D} {T : κ → ADRS → Bytes → Bytes} {prf prf' : κ → κ → ADRS → Bytes}
    {prfmsg prfmsg' : κ → β → M → Bytes} {signature : ι → β → M → Bytes} (F : GlobalForger ι κ β ρ M D) : ∀ Q,
      (∀ x ∈ (keysOf H T prf prfmsg signature F).1, prf x.1 x.2 = prf' x.1 x.2) →
      (∀ k ∈ (keysOf H T prf prfmsg signature F).2, prfmsg k = prfmsg' k) →
      F.run H T prf' prfmsg' signature Q = F.run H T prf prfmsg signature Q := by
  induction F with
  | output i m sig => exact fun Q _ _ => rfl
  | hash pub r m next ih => exact fun Q h1 h2 => ih _ Q h1 h2
  | tweak pub a x next ih => exact fun Q h1 h2 => ih _ Q h1 h2
  | prf pub sk a next ih =>
    intro Q h1 h2
    have e := h1 (pub, sk) (List.mem_cons_self ..)
    rw [GlobalForger.run, GlobalForger.run, ← e]
    exact ih _ Q (fun x hx => h1 x (List.mem_cons_of_mem _ hx)) h2
  | prfmsg k o m next ih =>
    intro Q h1 h2
    have e := h2 k (List.mem_cons_self ..)
    rw [GlobalForger.run, GlobalForger.run, ← e]
    exact ih _ Q h1 fun x hx => h2 x (List.mem_cons_of_mem _ hx)
  | sign i o m next ih => exact fun Q h1 h2 => ih _ _ h1 h2

end

/-! ## Averages -/

/-- Averaging over `r` as well makes no difference. -/
def Resamples {R A : Type} [Fintype R] [Fintype A] (m : R → A → A) : Prop :=
  ∀ f : A → ℚ, avg f = avg fun r => avg fun a => f (m r a)

theorem Resamples.prod {R A R' A' : Type} [Fintype R] [Fintype A] [Fintype R'] [Fintype A'] {m : R → A → A}
    {m' : R' → A' → A'} (h : Resamples m) (h' : Resamples m') :
    Resamples fun (r : R × R') (a : A × A') => (m r.1 a.1, m' r.2 a.2) := by
  intro f
  rw [avg_prod, h]
  have e : ∀ b : A, avg (fun a' => f (b, a')) = avg fun r' => avg fun a' => f (b, m' r' a') := fun b => h' _
  simp only [e]
  rw [avg_prod]
  refine congrArg avg (funext fun r => ?_)
  rw [avg_comm]
  refine congrArg avg (funext fun r' => ?_)
  rw [avg_prod]

/-- The values of a random function at given different places are independent. -/
theorem resamples_patch {ι K A : Type} [Fintype ι] [Fintype K] [Fintype A] [Nonempty A] [DecidableEq ι] [DecidableEq K]
    {idx : ι → K} (h : Function.Injective idx) :
    Resamples fun (r : ι → A) (g : K → A) => patch (fun _ => idx) r g :=
  fun f => resample (fun _ => 0) (fun _ _ _ _ => rfl) (fun _ _ _ e => h e) f

section
variable {V ι : Type} [Fintype V] [Nonempty V] [Fintype ι] [DecidableEq ι]

/-- A component of a random family -/
theorem avg_component (i : ι) (f : V → ℚ) : avg (fun k : ι → V => f (k i)) = avg f := by
  classical
  rw [avg_update i]
  simp only [Function.update_self]
  rw [avg_comm, avg_const]

/-- Guessing a component -/
theorem guess_one (i : ι) (x : V) : avg (fun k : ι → V => ind (k i = x)) = 1 / Fintype.card V := by
  rw [avg_component i fun v => ind (v = x), avg_eq_point]

theorem ind_le_sum {α : Type} {L : List α} {X : Prop} {Y : α → Prop} (h : X → ∃ x ∈ L, Y x) :
    ind X ≤ (L.map fun x => ind (Y x)).sum := by
  induction L generalizing X with
  | nil =>
    have : ¬X := fun hx => by simpa using h hx
    simp [ind, this]
  | cons a L ih =>
    rw [List.map_cons, List.sum_cons]
    have := @ih (∃ x ∈ L, Y x) id
    by_cases ha : Y a
    · have hn : 0 ≤ (L.map fun x => ind (Y x)).sum := List.sum_nonneg fun y hy => by
        obtain ⟨x, _, rfl⟩ := List.mem_map.mp hy
        unfold ind
        split <;> norm_num
      have e : ind (Y a) = 1 := if_pos ha
      have : ind X ≤ 1 := by unfold ind; split <;> norm_num
      linarith
    · have e : ind (Y a) = 0 := if_neg ha
      rw [e, zero_add]
      refine le_trans ?_ this
      unfold ind
      by_cases hX : X
      · obtain ⟨x, hx, hy⟩ := h hX
        rcases List.mem_cons.mp hx with rfl | hx
        · exact absurd hy ha
        · rw [if_pos hX, if_pos ⟨x, hx, hy⟩]
      · rw [if_neg hX]
        split <;> norm_num

theorem avg_list {α A : Type} [Fintype A] (L : List α) (f : A → α → ℚ) (c : ℚ) (h : ∀ x ∈ L, avg (fun a => f a x) ≤ c) :
    avg (fun a => (L.map (f a)).sum) ≤ L.length * c := by
  induction L with
  | nil =>
    simp only [List.map_nil, List.sum_nil, List.length_nil, Nat.cast_zero, zero_mul]
    unfold avg
    simp
  | cons x L ih =>
    simp only [List.map_cons, List.sum_cons, List.length_cons]
    rw [avg_add]
    have := ih fun y hy => h y (List.mem_cons_of_mem _ hy)
    have := h x (List.mem_cons_self ..)
    push_cast
    linarith

/-- Guessing the secret seed that belongs to a public seed, with a list of guesses -/
theorem guess_pair {K : Type} {pubs : ι → K} (hinj : Function.Injective pubs) (L : List (K × V)) :
    avg (fun sk : ι → V => ind (∃ x ∈ L, ∃ i, x = (pubs i, sk i))) ≤ L.length * (1 / Fintype.card V) := by
  refine le_trans (avg_mono fun sk => ind_le_sum (L := L) (Y := fun x => ∃ i, x = (pubs i, sk i)) id)
    (avg_list L (fun (sk : ι → V) x => ind (∃ i, x = (pubs i, sk i))) _ fun x _ => ?_)
  by_cases h : ∃ i, pubs i = x.1
  · obtain ⟨i, hi⟩ := h
    rw [← guess_one i x.2]
    refine avg_mono fun sk => ?_
    unfold ind
    by_cases e : ∃ j, x = (pubs j, sk j)
    · obtain ⟨j, hj⟩ := e
      have : j = i := hinj (by rw [hi, hj])
      subst this
      rw [if_pos ⟨j, hj⟩, if_pos (by rw [hj])]
    · rw [if_neg e]
      split <;> norm_num
  · have : ∀ sk : ι → V, ind (∃ i, x = (pubs i, sk i)) = 0 := fun sk =>
      if_neg fun ⟨i, hi⟩ => h ⟨i, by rw [hi]⟩
    simp only [this]
    rw [avg_const]
    positivity

/-- Guessing any of the keys, with a list of guesses -/
theorem guess_any (L : List V) :
    avg (fun k : ι → V => ind (∃ x ∈ L, ∃ i, x = k i)) ≤ L.length * (Fintype.card ι / Fintype.card V) := by
  refine le_trans (avg_mono fun k => ind_le_sum (L := L) (Y := fun x => ∃ i, x = k i) id)
    (avg_list L (fun (k : ι → V) x => ind (∃ i, x = k i)) _ fun x _ => ?_)
  rw [avg_ind]
  refine le_trans (Many.chance_any (Y := fun i (k : ι → V) => k i = x) fun k ⟨i, hi⟩ => ⟨i, hi.symm⟩) ?_
  simp only [← avg_ind, guess_one]
  rw [Finset.sum_const, Finset.card_univ, nsmul_eq_mul]
  exact le_of_eq (by ring)

/-- The probability that two owners have the same value -/
theorem collision : avg (fun k : ι → V => ind (¬Function.Injective k)) ≤ (Fintype.card ι : ℚ) ^ 2 / Fintype.card V := by
  rw [avg_ind]
  refine le_trans (Many.chance_any (ι := ι × ι) (Y := fun ij (k : ι → V) => ij.1 ≠ ij.2 ∧ k ij.1 = k ij.2) fun k hk => ?_) ?_
  · unfold Function.Injective at hk
    push Not at hk
    obtain ⟨i, j, h, hn⟩ := hk
    exact ⟨(i, j), hn, h⟩
  · refine le_trans (Finset.sum_le_sum fun (ij : ι × ι) _ => (?_ : _ ≤ 1 / (Fintype.card V : ℚ))) ?_
    · rw [← avg_ind]
      by_cases e : ij.1 = ij.2
      · have : ∀ k : ι → V, ind (ij.1 ≠ ij.2 ∧ k ij.1 = k ij.2) = 0 := fun k => if_neg fun h => h.1 e
        simp only [this]
        rw [avg_const]
        positivity
      · rw [avg_update ij.1, avg_comm]
        refine le_trans (avg_mono fun k => (?_ : _ ≤ 1 / (Fintype.card V : ℚ))) (le_of_eq (avg_const _))
        rw [← avg_eq_point (k ij.2)]
        refine avg_mono fun d => ?_
        rw [Function.update_self, Function.update_of_ne (Ne.symm e)]
        unfold ind
        split
        · rw [if_pos (by tauto)]
        · split <;> norm_num
    · rw [Finset.sum_const, Finset.card_univ, nsmul_eq_mul, Fintype.card_prod]
      push_cast
      exact le_of_eq (by ring)

/-- The average over functions and seeds.  `A` is what happens without a guess; `L` and `L'` are the guesses. -/
theorem global_avg [DecidableEq V] {E H G : Type} [Fintype E] [Nonempty E] [Fintype H] [Nonempty H] [Fintype G] [Nonempty G]
    {X : (V → E × H) × (V × V → E) × (V → G) → (ι → V) → (ι → V) → (ι → V) → Prop}
    {A : (ι → V) → (V → E × H) × (V × V → E) × (V → G) → (ι → E × H) × (ι → E) × (ι → G) → Prop}
    {L : (ι → V) → (V → E × H) × (V × V → E) × (V → G) → (ι → E × H) × (ι → E) × (ι → G) → List (V × V)}
    {L' : (ι → V) → (V → E × H) × (V × V → E) × (V → G) → (ι → E × H) × (ι → E) × (ι → G) → List V}
    (hX : ∀ sk k pub W r, Function.Injective pub → Function.Injective k →
      X (patch (fun _ => pub) r.1 W.1, patch (fun _ i => (pub i, sk i)) r.2.1 W.2.1, patch (fun _ => k) r.2.2 W.2.2) sk k pub →
      A pub W r ∨ (∃ x ∈ L pub W r, ∃ i, x = (pub i, sk i)) ∨ ∃ x ∈ L' pub W r, ∃ i, x = k i)
    {c : ℚ} (c0 : 0 ≤ c) (hA : ∀ pub W, Function.Injective pub → avg (fun r => ind (A pub W r)) ≤ c)
    {g g' : ℕ} (hL : ∀ pub W r, (L pub W r).length ≤ g) (hL' : ∀ pub W r, (L' pub W r).length ≤ g') :
    avg (fun x : ((V → E × H) × (V × V → E) × (V → G)) × (ι → V) × (ι → V) × (ι → V) =>
      ind (X x.1 x.2.1 x.2.2.1 x.2.2.2)) ≤
      c + g / Fintype.card V + g' * Fintype.card ι / Fintype.card V + 2 * (Fintype.card ι : ℚ) ^ 2 / Fintype.card V := by
  have n0 : ∀ Y : Prop, 0 ≤ ind Y := fun Y => by unfold ind; split <;> norm_num
  have n1 : ∀ Y : Prop, ind Y ≤ 1 := fun Y => by unfold ind; split <;> norm_num
  let B : (ι → V) → (ι → V) → ℚ := fun pub sk => avg fun r => avg fun W =>
    ind (Function.Injective pub ∧ ∃ x ∈ L pub W r, ∃ i, x = (pub i, sk i))
  let C : (ι → V) → (ι → V) → ℚ := fun pub k => avg fun r => avg fun W => ind (∃ x ∈ L' pub W r, ∃ i, x = k i)
  have hB0 : ∀ pub sk, 0 ≤ B pub sk := fun _ _ => avg_nonneg fun _ => avg_nonneg fun _ => n0 _
  have hC0 : ∀ pub k, 0 ≤ C pub k := fun _ _ => avg_nonneg fun _ => avg_nonneg fun _ => n0 _
  have key : ∀ sk k pub, avg (fun W => ind (X W sk k pub)) ≤
      ind (¬Function.Injective pub) + ind (¬Function.Injective k) + c + B pub sk + C pub k := by
    intro sk k pub
    have triv : avg (fun W => ind (X W sk k pub)) ≤ 1 :=
      le_trans (avg_mono fun W => n1 _) (le_of_eq (avg_const _))
    have := hB0 pub sk
    have := hC0 pub k
    have := n0 (¬Function.Injective pub)
    have := n0 (¬Function.Injective k)
    by_cases h1 : Function.Injective pub
    · by_cases h2 : Function.Injective k
      · have h3 : Function.Injective fun i => (pub i, sk i) := fun i j e => h1 (Prod.ext_iff.mp e).1
        rw [(resamples_patch h1).prod ((resamples_patch h3).prod (resamples_patch h2))]
        have e : avg (fun r : (ι → E × H) × (ι → E) × (ι → G) =>
            avg fun W : (V → E × H) × (V × V → E) × (V → G) => ind (A pub W r)) ≤ c := by
          rw [avg_comm]
          exact le_trans (avg_mono fun W => hA pub W h1) (le_of_eq (avg_const _))
        refine le_trans (avg_mono fun r => avg_mono fun W => (?_ : _ ≤ ind (A pub W r) +
          ind (Function.Injective pub ∧ ∃ x ∈ L pub W r, ∃ i, x = (pub i, sk i)) +
          ind (∃ x ∈ L' pub W r, ∃ i, x = k i))) ?_
        · have a1 := n0 (A pub W r)
          have a2 := n0 (Function.Injective pub ∧ ∃ x ∈ L pub W r, ∃ i, x = (pub i, sk i))
          have a3 := n0 (∃ x ∈ L' pub W r, ∃ i, x = k i)
          by_cases hx : X (patch (fun _ => pub) r.1 W.1, patch (fun _ i => (pub i, sk i)) r.2.1 W.2.1,
              patch (fun _ => k) r.2.2 W.2.2) sk k pub
          · have b := n1 (X (patch (fun _ => pub) r.1 W.1, patch (fun _ i => (pub i, sk i)) r.2.1 W.2.1,
              patch (fun _ => k) r.2.2 W.2.2) sk k pub)
            rcases hX sk k pub W r h1 h2 hx with h | h | h
            · have : ind (A pub W r) = 1 := if_pos h
              linarith
            · have : ind (Function.Injective pub ∧ ∃ x ∈ L pub W r, ∃ i, x = (pub i, sk i)) = 1 := if_pos ⟨h1, h⟩
              linarith
            · have : ind (∃ x ∈ L' pub W r, ∃ i, x = k i) = 1 := if_pos h
              linarith
          · have b : ind (X (patch (fun _ => pub) r.1 W.1, patch (fun _ i => (pub i, sk i)) r.2.1 W.2.1,
              patch (fun _ => k) r.2.2 W.2.2) sk k pub) = 0 := if_neg hx
            linarith
        · simp only [avg_add]
          change _ + B pub sk + C pub k ≤ _
          linarith
      · have : ind (¬Function.Injective k) = 1 := if_pos h2
        linarith
    · have : ind (¬Function.Injective pub) = 1 := if_pos h1
      linarith
  rw [avg_prod, avg_comm, avg_prod]
  have e2 : ∀ f : (ι → V) × (ι → V) → ℚ, avg f = avg fun k => avg fun pub => f (k, pub) := fun f => avg_prod f
  simp only [e2]
  refine le_trans (avg_mono fun sk => avg_mono fun k => avg_mono fun pub => key sk k pub) ?_
  simp only [avg_add, avg_const]
  have bB : avg (fun sk => avg fun pub => B pub sk) ≤ g / Fintype.card V := by
    rw [avg_comm]
    refine le_trans (avg_mono fun pub => (?_ : _ ≤ (g : ℚ) / Fintype.card V)) (le_of_eq (avg_const _))
    change avg (fun sk => avg fun r => avg fun W => ind _) ≤ _
    rw [avg_comm]
    refine le_trans (avg_mono fun r => (?_ : _ ≤ (g : ℚ) / Fintype.card V)) (le_of_eq (avg_const _))
    rw [avg_comm]
    refine le_trans (avg_mono fun W => (?_ : _ ≤ (g : ℚ) / Fintype.card V)) (le_of_eq (avg_const _))
    by_cases h : Function.Injective pub
    · simp only [h, true_and]
      refine le_trans (guess_pair h (L pub W r)) ?_
      rw [mul_one_div]
      exact div_le_div_of_nonneg_right (Nat.cast_le.mpr (hL pub W r)) (Nat.cast_nonneg _)
    · have : ∀ sk : ι → V, ind (Function.Injective pub ∧ ∃ x ∈ L pub W r, ∃ i, x = (pub i, sk i)) = 0 := fun sk =>
        if_neg fun h' => h h'.1
      simp only [this]
      rw [avg_const]
      positivity
  have bC : avg (fun k => avg fun pub => C pub k) ≤ g' * Fintype.card ι / Fintype.card V := by
    rw [avg_comm]
    refine le_trans (avg_mono fun pub => (?_ : _ ≤ (g' : ℚ) * Fintype.card ι / Fintype.card V)) (le_of_eq (avg_const _))
    change avg (fun k => avg fun r => avg fun W => ind _) ≤ _
    rw [avg_comm]
    refine le_trans (avg_mono fun r => (?_ : _ ≤ (g' : ℚ) * Fintype.card ι / Fintype.card V)) (le_of_eq (avg_const _))
    rw [avg_comm]
    refine le_trans (avg_mono fun W => (?_ : _ ≤ (g' : ℚ) * Fintype.card ι / Fintype.card V)) (le_of_eq (avg_const _))
    refine le_trans (guess_any (L' pub W r)) ?_
    rw [mul_div_assoc]
    exact mul_le_mul_of_nonneg_right (Nat.cast_le.mpr (hL' pub W r)) (by positivity)
  have c1 := collision (V := V) (ι := ι)
  have : 2 * (Fintype.card ι : ℚ) ^ 2 / Fintype.card V = (Fintype.card ι : ℚ) ^ 2 / Fintype.card V +
    (Fintype.card ι : ℚ) ^ 2 / Fintype.card V := by ring
  linarith

end

end Spx.Rom
