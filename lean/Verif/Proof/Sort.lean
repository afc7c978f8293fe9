import Verif.Proof.Lanes
import Verif.Proof.Digits
/-! The counting sort of the parallel WOTS+ code. -/

namespace Spx

/-- Number of `i < m` with `st i = l`. -/
def cntEq (st : Nat → Nat) : Nat → Nat → Nat
  | 0, _ => 0
  | m + 1, l => cntEq st m l + if st m = l then 1 else 0

/-- Number of `i < m` with `v ≤ st i`. -/
def cntGe (st : Nat → Nat) : Nat → Nat → Nat
  | 0, _ => 0
  | m + 1, v => cntGe st m v + if v ≤ st m then 1 else 0

theorem cntEq_le (st : Nat → Nat) (m l : Nat) : cntEq st m l ≤ m := by
  induction m with
  | zero => simp [cntEq]
  | succ m ih => simp only [cntEq]; split <;> omega

theorem cntGe_le (st : Nat → Nat) (m v : Nat) : cntGe st m v ≤ m := by
  induction m with
  | zero => simp [cntGe]
  | succ m ih => simp only [cntGe]; split <;> omega

theorem cntGe_split (st : Nat → Nat) (m v : Nat) : cntGe st m v = cntEq st m v + cntGe st m (v + 1) := by
  induction m with
  | zero => rfl
  | succ m ih =>
    simp only [cntGe, cntEq]
    by_cases h1 : st m = v
    · rw [if_pos (by omega), if_pos h1, if_neg (by omega)]; omega
    · by_cases h2 : v ≤ st m
      · rw [if_pos h2, if_neg h1, if_pos (by omega)]; omega
      · rw [if_neg h2, if_neg h1, if_neg (by omega)]; omega

theorem cntGe_anti (st : Nat → Nat) (m : Nat) {u v : Nat} (h : u ≤ v) : cntGe st m v ≤ cntGe st m u := by
  induction m with
  | zero => simp [cntGe]
  | succ m ih => simp only [cntGe]; split <;> split <;> omega

theorem cntGe_top {st : Nat → Nat} {m v : Nat} (h : ∀ i, i < m → st i < v) : cntGe st m v = 0 := by
  induction m with
  | zero => rfl
  | succ m ih =>
    have := h m (by omega)
    simp only [cntGe]
    rw [ih (fun i hi => h i (by omega)), if_neg (by omega)]

theorem cntEq_mono (st : Nat → Nat) (l : Nat) {m m' : Nat} (h : m ≤ m') : cntEq st m l ≤ cntEq st m' l := by
  induction m' with
  | zero => have : m = 0 := by omega
            subst this; omega
  | succ k ih =>
    rcases Nat.eq_or_lt_of_le h with rfl | h1
    · omega
    · have := ih (by omega)
      simp only [cntEq]; split <;> omega

theorem cntEq_lt {st : Nat → Nat} {i m : Nat} (h : i < m) : cntEq st i (st i) < cntEq st m (st i) := by
  have h1 : cntEq st (i + 1) (st i) = cntEq st i (st i) + 1 := by simp [cntEq]
  have := cntEq_mono st (st i) (show i + 1 ≤ m from h)
  omega

/-- Position of chain `i` in the sorted order. -/
def rank (st : Nat → Nat) (len i : Nat) : Nat := cntGe st len (st i + 1) + cntEq st i (st i)

theorem rank_lt_ge {st : Nat → Nat} {len i : Nat} (h : i < len) : rank st len i < cntGe st len (st i) := by
  have h1 := cntEq_lt (st := st) h
  have h2 := cntGe_split st len (st i)
  unfold rank; omega

theorem rank_lt {st : Nat → Nat} {len i : Nat} (h : i < len) : rank st len i < len :=
  Nat.lt_of_lt_of_le (rank_lt_ge h) (cntGe_le ..)

theorem rank_of_gt {st : Nat → Nat} {len i j : Nat} (hi : i < len) (h : st j < st i) :
    rank st len i < rank st len j := by
  have h1 := rank_lt_ge (st := st) hi
  have h2 := cntGe_anti st len (show st j + 1 ≤ st i from h)
  have h3 : cntGe st len (st j + 1) ≤ rank st len j := by unfold rank; omega
  omega

theorem rank_inj {st : Nat → Nat} {len i j : Nat} (hi : i < len) (hj : j < len)
    (h : rank st len i = rank st len j) : i = j := by
  rcases Nat.lt_trichotomy (st i) (st j) with h1 | h1 | h1
  · have := rank_of_gt hj h1; omega
  · unfold rank at h
    rw [h1] at h
    rcases Nat.lt_trichotomy i j with h2 | h2 | h2
    · have := cntEq_lt (st := st) h2
      rw [h1] at this
      omega
    · exact h2
    · have := cntEq_lt (st := st) h2
      omega
  · have := rank_of_gt hi h1; omega

/-- An injection of `[0, n)` into itself is onto. -/
theorem surj_of_inj : ∀ (n : Nat) (f : Nat → Nat), (∀ i, i < n → f i < n) →
    (∀ i j, i < n → j < n → f i = f j → i = j) → ∀ p, p < n → ∃ i, i < n ∧ f i = p := by
  intro n
  induction n with
  | zero => intro f _ _ p hp; omega
  | succ n ih =>
    intro f hf hinj p hp
    have hfn := hf n (by omega)
    obtain ih := ih (fun i => if f i = n then f n else f i) (by
      intro i hi
      have h1 := hf i (by omega)
      have h2 := hinj i n (by omega) (by omega)
      split
      · omega
      · omega) (by
      intro i j hi hj
      have h1 := hinj i n (by omega) (by omega)
      have h2 := hinj j n (by omega) (by omega)
      have h3 := hinj i j (by omega) (by omega)
      split <;> split <;> omega)
    by_cases hpn : p = f n
    · exact ⟨n, by omega, hpn.symm⟩
    · by_cases hp2 : p = n
      · subst hp2
        by_cases hex : ∃ i, i < p ∧ f i = p
        · obtain ⟨i, hi, e⟩ := hex
          exact ⟨i, by omega, e⟩
        · exfalso
          obtain ⟨i, hi, e⟩ := ih (f p) (by omega)
          split at e
          · exact hex ⟨i, hi, by assumption⟩
          · have := hinj i p (by omega) (by omega) e
            omega
      · obtain ⟨i, hi, e⟩ := ih p (by omega)
        split at e
        · omega
        · exact ⟨i, by omega, e⟩

variable (E : EnvX)

/-- The result of the sort: a permutation of the chains with the longest first. -/
structure Sorted (st : Nat → Nat) (len : Nat) (idxs : List Nat) : Prop where
  hlen : idxs.length = len
  lt : ∀ p, p < len → idxs.getD p 0 < len
  inj : ∀ p q, p < len → q < len → idxs.getD p 0 = idxs.getD q 0 → p = q
  surj : ∀ c, c < len → ∃ p, p < len ∧ idxs.getD p 0 = c
  mono : ∀ p q, p ≤ q → q < len → st (idxs.getD q 0) ≤ st (idxs.getD p 0)

theorem sort_chains_spec {steps : List Nat} (hw : E.P.w < 2 ^ 16) (hlen : E.P.wotsLen < 2 ^ 16)
    (hsl : steps.length = E.P.wotsLen) (hst : ∀ i, i < E.P.wotsLen → steps.getD i 0 < E.P.w) :
    ∃ idxs, sort_chains E steps = .ok idxs ∧ Sorted (fun i => steps.getD i 0) E.P.wotsLen idxs := by
  generalize hs : (fun i => steps.getD i 0) = st at *
  have hst' : ∀ i, i < E.P.wotsLen → st i < E.P.w := by intro i hi; rw [← hs]; exact hst i hi
  generalize hn : E.P.wotsLen = len at *
  generalize hwv : E.P.w = w at *
  have hsti : ∀ i (hi : i < len), steps[i]'(by omega) = st i := by
    intro i hi; rw [← hs]; exact (getD_lt (by omega)).symm
  have e1 : forRange len (fun i (counts : List Nat) => (do
      let st ← rd1 steps i
      wr1 counts st (((← rd1 counts st) + 1) % 2 ^ 16) : C (List Nat))) (List.replicate w 0) =
      .ok ((List.range w).map (cntEq st len)) := by
    refine forRange_eq' (fun m => (List.range w).map (cntEq st m)) (by rw [replicate_map]; rfl) rfl ?_
    intro m hm
    have := hst' m hm
    have hle := cntEq_le st m (st m)
    rw [rd1_ok (by omega)]
    simp only [ok_bind, hsti m hm]
    rw [rd1_ok (by simpa using this)]
    simp only [ok_bind, List.getElem_map, List.getElem_range]
    rw [wr1_ok (by simpa using this), map_range_set, Nat.mod_eq_of_lt (by omega)]
    congr 1
    apply List.map_congr_left
    intro l _
    simp only [cntEq]
    by_cases h : l = st m
    · subst h; simp
    · rw [if_neg h, if_neg (Ne.symm h), Nat.add_zero]
  have e2 : forRange w (fun t (s : List Nat × Nat) => (do
      let (counts, total) := s
      let l := w - 1 - t
      let newTotal := ((← rd1 counts l) + total) % 2 ^ 16
      let counts ← wr1 counts l total
      .ok (counts, newTotal) : C (List Nat × Nat))) ((List.range w).map (cntEq st len), 0) =
      .ok ((List.range w).map (fun l => cntGe st len (l + 1)), cntGe st len 0) := by
    refine forRange_eq' (fun t => ((List.range w).map
      (fun l => if w - t ≤ l then cntGe st len (l + 1) else cntEq st len l), cntGe st len (w - t))) ?_ ?_ ?_
    · rw [Nat.sub_zero, cntGe_top hst']
      congr 1
      apply List.map_congr_left
      intro l hl
      have := List.mem_range.mp hl
      rw [if_neg (by omega)]
    · rw [Nat.sub_self]
      simp
    · intro t ht
      have hle := cntGe_le st len (w - 1 - t)
      have hsp := cntGe_split st len (w - 1 - t)
      rw [show w - 1 - t + 1 = w - t by omega] at hsp
      simp only
      rw [rd1_ok (by simp; omega)]
      simp only [ok_bind, List.getElem_map, List.getElem_range]
      rw [wr1_ok (by simp; omega), map_range_set, if_neg (by omega), Nat.mod_eq_of_lt (by omega)]
      simp only [ok_bind]
      rw [show w - (t + 1) = w - 1 - t by omega, ← hsp]
      congr 2
      apply List.map_congr_left
      intro l hl
      have := List.mem_range.mp hl
      by_cases h : l = w - 1 - t
      · subst h
        rw [if_pos rfl, if_pos (Nat.le_refl _)]
        congr 1
        omega
      · rw [if_neg h]
        by_cases h2 : w - t ≤ l
        · rw [if_pos h2, if_pos (by omega)]
        · rw [if_neg h2, if_neg (by omega)]
  obtain ⟨⟨idxs, counts⟩, e3, h1, h2, h3⟩ := forRange_inv (n := len)
    (body := fun i (s : List Nat × List Nat) => (do
      let (idxs, counts) := s
      let st ← rd1 steps i
      let c ← rd1 counts st
      let idxs ← wr1 idxs c (i % 2 ^ 16)
      let counts ← wr1 counts st ((c + 1) % 2 ^ 16)
      .ok (idxs, counts) : C (List Nat × List Nat)))
    (s := (uninit (fun i => (E.G 32 i).toNat) len, (List.range w).map (fun l => cntGe st len (l + 1))))
    (fun m s => s.1.length = len ∧ s.2 = (List.range w).map (fun l => cntGe st len (l + 1) + cntEq st m l) ∧
      ∀ i, i < m → s.1.getD (rank st len i) 0 = i)
    ⟨by simp, rfl, fun i hi => by omega⟩ (by
      rintro m ⟨idxs, counts⟩ hm ⟨h1, h2, h3⟩
      simp only at h1 h2 h3
      have hw1 := hst' m hm
      have hr := rank_lt (st := st) hm
      have hrk : cntGe st len (st m + 1) + cntEq st m (st m) = rank st len m := rfl
      simp only
      rw [rd1_ok (by omega), h2]
      simp only [ok_bind, hsti m hm]
      rw [rd1_ok (by simpa using hw1)]
      simp only [ok_bind, List.getElem_map, List.getElem_range]
      rw [hrk, wr1_ok (by omega)]
      simp only [ok_bind]
      rw [wr1_ok (by simpa using hw1), map_range_set, Nat.mod_eq_of_lt (by omega), Nat.mod_eq_of_lt (by omega)]
      simp only [ok_bind]
      refine ⟨_, rfl, by simp [h1], ?_, ?_⟩
      · simp only
        apply List.map_congr_left
        intro l _
        simp only [cntEq]
        by_cases h : l = st m
        · subst h
          rw [if_pos rfl, if_pos rfl, ← hrk]
          omega
        · rw [if_neg h, if_neg (Ne.symm h)]; omega
      · intro i hi
        simp only
        have hri := rank_lt (st := st) (len := len) (i := i) (by omega)
        by_cases h : i = m
        · subst h
          rw [getD_lt (by simp; omega)]
          simp
        · have hne : rank st len m ≠ rank st len i := fun hc => h (rank_inj (by omega) hm hc.symm)
          rw [getD_lt (by simp; omega), List.getElem_set, if_neg hne]
          have := h3 i (by omega)
          rw [getD_lt (by omega)] at this
          exact this)
  simp only at h1 h2 h3
  refine ⟨idxs, ?_, ?_⟩
  · unfold sort_chains
    simp only
    rw [hn, hwv, e1]
    simp only [ok_bind]
    rw [e2]
    simp only [ok_bind]
    rw [e3]
    rfl
  · have hsurj := surj_of_inj len (rank st len) (fun i hi => rank_lt hi) (fun i j hi hj h => rank_inj hi hj h)
    refine ⟨h1, ?_, ?_, ?_, ?_⟩
    · intro p hp
      obtain ⟨i, hi, rfl⟩ := hsurj p hp
      rw [h3 i hi]; exact hi
    · intro p q hp hq h
      obtain ⟨i, hi, rfl⟩ := hsurj p hp
      obtain ⟨j, hj, rfl⟩ := hsurj q hq
      rw [h3 i hi, h3 j hj] at h
      rw [h]
    · intro c hc
      exact ⟨rank st len c, rank_lt hc, h3 c hc⟩
    · intro p q hpq hq
      obtain ⟨i, hi, rfl⟩ := hsurj p (by omega)
      obtain ⟨j, hj, rfl⟩ := hsurj q hq
      rw [h3 i hi, h3 j hj]
      rcases Nat.lt_or_ge (st i) (st j) with h | h
      · have := rank_of_gt hj h
        omega
      · exact h

end Spx
