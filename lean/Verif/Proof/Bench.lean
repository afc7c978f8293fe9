import Verif.Model.Bench
import Verif.Spec.Bench
import Verif.Proof.KatText
/-! Printing, sorting and sampling in the benchmark programs. -/

namespace Spx.Bench
open Kat Spec

/-! ## Printing -/

theorem pct_u_ge {n : Nat} (h : 10 ≤ n) : pct_u n = pct_u (n / 10) ++ [BitVec.ofNat 8 (48 + n % 10)] := by
  rw [pct_u, if_neg (by omega)]

theorem pct_u_lt {n : Nat} (h : n < 10) : pct_u n = [BitVec.ofNat 8 (48 + n)] := by
  rw [pct_u, if_pos h]

theorem pct_03u_eq {r : Nat} (h : r < 1000) : pct_03u r =
    [BitVec.ofNat 8 (48 + r / 100), BitVec.ofNat 8 (48 + r / 10 % 10), BitVec.ofNat 8 (48 + r % 10)] := by
  unfold pct_03u
  by_cases h1 : r < 10
  · rw [pct_u_lt h1, show r / 100 = 0 by omega, show r / 10 % 10 = 0 by omega, Nat.mod_eq_of_lt h1]
    rfl
  · by_cases h2 : r < 100
    · rw [pct_u_ge (by omega), pct_u_lt (by omega), show r / 100 = 0 by omega, Nat.mod_eq_of_lt (show r / 10 < 10 by omega)]
      rfl
    · rw [pct_u_ge (by omega), pct_u_ge (by omega), pct_u_lt (by omega), Nat.div_div_eq_div_mul]
      rfl

theorem pct_u_thousands {n : Nat} (h : 1000 ≤ n) : pct_u n = pct_u (n / 1000) ++ pct_03u (n % 1000) := by
  rw [pct_03u_eq (by omega), pct_u_ge (by omega), pct_u_ge (n := n / 10) (by omega), pct_u_ge (n := n / 10 / 10) (by omega),
    Nat.div_div_eq_div_mul, Nat.div_div_eq_div_mul n 10 10, Nat.div_div_eq_div_mul n, show n % 1000 / 100 = n / 100 % 10 by omega,
    show n % 1000 / 10 % 10 = n / 10 % 10 by omega, show n % 1000 % 10 = n % 10 by omega]
  simp

theorem not_comma {d : Nat} (h : d < 10) : BitVec.ofNat 8 (48 + d) ≠ 44#8 := by
  revert d
  decide

theorem pct_u_not_comma (n : Nat) : ∀ c ∈ pct_u n, c ≠ 44#8 := by
  intro c hc h
  have := (pct_u_digits n).1 c hc
  rw [h] at this
  revert this
  decide

theorem pct_03u_not_comma {r : Nat} (h : r < 1000) : ∀ c ∈ pct_03u r, c ≠ 44#8 := by
  rw [pct_03u_eq h]
  intro c hc
  simp only [List.mem_cons, List.not_mem_nil, or_false] at hc
  rcases hc with rfl | rfl | rfl <;> exact not_comma (by omega)

theorem filter_all {l : Bytes} (h : ∀ c ∈ l, c ≠ 44#8) : l.filter (· ≠ 44#8) = l :=
  List.filter_eq_self.mpr fun c hc => by simpa using h c hc

theorem printfcomma_lt {n : Nat} (h : n < 1000) : printfcomma n = pct_u n := by rw [printfcomma, if_pos h]

theorem printfcomma_ge {n : Nat} (h : 1000 ≤ n) :
    printfcomma n = printfcomma (n / 1000) ++ asc "," ++ pct_03u (n % 1000) := by
  rw [printfcomma, if_neg (by omega)]

theorem asc_comma : asc "," = [44#8] := by decide

theorem printfcomma_digits (n : Nat) : (printfcomma n).filter (· ≠ 44#8) = pct_u n := by
  induction n using Nat.strongRecOn with
  | _ n ih =>
    by_cases h : n < 1000
    · rw [printfcomma_lt h, filter_all (pct_u_not_comma n)]
    · rw [printfcomma_ge (by omega), List.filter_append, List.filter_append, ih _ (by omega),
        filter_all (pct_03u_not_comma (by omega)), pct_u_thousands (n := n) (by omega), asc_comma]
      simp

theorem pct_u_length_le {k n : Nat} (h : n < 10 ^ (k + 1)) : (pct_u n).length ≤ k + 1 := by
  induction k generalizing n with
  | zero => rw [pct_u_lt (by simpa using h)]; simp
  | succ k ih =>
    by_cases h1 : n < 10
    · rw [pct_u_lt h1]; simp
    · rw [pct_u_ge (by omega), List.length_append]
      have := ih (n := n / 10) (by rw [Nat.div_lt_iff_lt_mul (by omega), ← Nat.pow_succ]; exact h)
      simp
      omega

theorem pct_u_pos (n : Nat) : 1 ≤ (pct_u n).length := by
  have := (pct_u_digits n).2.1
  rcases h : pct_u n with _ | ⟨c, l⟩
  · exact absurd h this
  · simp

theorem pct_03u_length {r : Nat} (h : r < 1000) : (pct_03u r).length = 3 := by rw [pct_03u_eq h]; rfl

theorem printfcomma_length (n : Nat) : (printfcomma n).length = (pct_u n).length + ((pct_u n).length - 1) / 3 := by
  induction n using Nat.strongRecOn with
  | _ n ih =>
    by_cases h : n < 1000
    · have h1 := pct_u_length_le (k := 2) (n := n) (by omega)
      have h2 := pct_u_pos n
      rw [printfcomma_lt h]
      omega
    · have h2 := pct_u_pos (n / 1000)
      rw [printfcomma_ge (by omega), pct_u_thousands (n := n) (by omega), List.length_append, List.length_append,
        List.length_append, ih _ (by omega), asc_comma, pct_03u_length (by omega)]
      simp
      omega

theorem printfcomma_commas (n i : Nat) (hi : i < (printfcomma n).length) :
    (printfcomma n).reverse[i]? = some 44#8 ↔ i % 4 = 3 := by
  induction n using Nat.strongRecOn generalizing i with
  | _ n ih =>
    by_cases h : n < 1000
    · rw [printfcomma_lt h] at hi ⊢
      have h1 := pct_u_length_le (k := 2) (n := n) (by omega)
      refine ⟨fun e => ?_, by omega⟩
      exact absurd rfl (pct_u_not_comma n _ (List.mem_reverse.mp (List.mem_of_getElem? e)))
    · have hl := pct_03u_length (r := n % 1000) (by omega)
      rw [printfcomma_ge (by omega)] at hi ⊢
      rw [asc_comma] at hi ⊢
      simp only [List.length_append, hl, List.length_singleton] at hi
      rw [List.reverse_append, List.reverse_append, List.reverse_singleton]
      by_cases h3 : i < 3
      · rw [List.getElem?_append_left (by rw [List.length_reverse, hl]; exact h3)]
        refine ⟨fun e => ?_, by omega⟩
        exact absurd rfl (pct_03u_not_comma (r := n % 1000) (by omega) _ (List.mem_reverse.mp (List.mem_of_getElem? e)))
      · rw [List.getElem?_append_right (by rw [List.length_reverse, hl]; omega), List.length_reverse, hl]
        by_cases h4 : i = 3
        · subst h4; simp
        · rw [List.getElem?_append_right (by simp; omega), List.length_singleton, ih _ (by omega) _ (by omega)]
          omega

theorem int_ok {x : Int} (h1 : -2 ^ 31 ≤ x) (h2 : x < 2 ^ 31) : int x = .ok x := if_pos ⟨h1, h2⟩

theorem align_while_run (k : Nat) : ∀ (f n : Nat) (len i : Int), (pct_u n).length = k + 1 → k < f → -2 ^ 31 + k ≤ len →
    len < 2 ^ 31 → 0 ≤ i → i + k < 2 ^ 31 → loop f align_while (n, len, i) = .ok (len - k, i + k) := by
  induction k with
  | zero =>
    intro f n len i hn hf h1 h2 h3 h4
    obtain ⟨f, rfl⟩ : ∃ m, f = m + 1 := ⟨f - 1, by omega⟩
    have : n < 10 := by
      refine Nat.lt_of_not_le fun h => ?_
      have := pct_u_pos (n / 10)
      rw [pct_u_ge (by omega), List.length_append, List.length_singleton] at hn
      omega
    rw [loop_succ]
    unfold align_while
    simp only
    rw [if_neg (by omega)]
    simp
  | succ k ih =>
    intro f n len i hn hf h1 h2 h3 h4
    obtain ⟨f, rfl⟩ : ∃ m, f = m + 1 := ⟨f - 1, by omega⟩
    have h10 : 10 ≤ n := by
      refine Nat.le_of_not_lt fun h => ?_
      rw [pct_u_lt (by omega)] at hn
      simp at hn
    rw [loop_succ]
    unfold align_while
    simp only
    rw [if_pos (by omega), int_ok (by omega) (by omega), ok_bind, int_ok (by omega) (by omega), ok_bind, ok_bind]
    have := ih f (n / 10) (len - 1) (i + 1) (by
      rw [pct_u_ge h10, List.length_append] at hn
      simpa using hn) (by omega) (by omega) (by omega) (by omega) (by omega)
    simp only
    unfold align_while at this
    rw [this]
    congr 1
    simp only [Prod.mk.injEq]
    omega

theorem align_for_run (len : Int) (hl : len < 2 ^ 31) (k : Nat) : ∀ (f : Nat) (i : Int) (out : Bytes), (len - i).toNat = k → k < f →
    -2 ^ 31 ≤ i → loop f (align_for len) (i, out) = .ok (out ++ List.replicate k 32#8) := by
  induction k with
  | zero =>
    intro f i out hk hf h1
    obtain ⟨f, rfl⟩ : ∃ m, f = m + 1 := ⟨f - 1, by omega⟩
    rw [loop_succ]
    unfold align_for
    simp only
    rw [if_neg (by omega)]
    simp
  | succ k ih =>
    intro f i out hk hf h1
    obtain ⟨f, rfl⟩ : ∃ m, f = m + 1 := ⟨f - 1, by omega⟩
    rw [loop_succ]
    have := ih f (i + 1) (out ++ asc " ") (by omega) (by omega) (by omega)
    unfold align_for at this ⊢
    simp only
    rw [if_pos (by omega), int_ok (by omega) (by omega), ok_bind, ok_bind]
    simp only
    rw [this, List.replicate_succ, List.append_assoc]
    rfl

theorem printfalignedcomma_ok {n : Nat} (hn : n < 2 ^ 64) {len : Int} (h1 : -2 ^ 31 + 19 ≤ len) (h2 : len < 2 ^ 31) :
    printfalignedcomma n len =
      .ok (List.replicate (len + 2 - (printfcomma n).length).toNat 32#8 ++ printfcomma n) := by
  have hd := pct_u_length_le (k := 19) (n := n) (by omega)
  have hp := pct_u_pos n
  unfold printfalignedcomma
  rw [align_while_run ((pct_u n).length - 1) 64 n len 0 (by omega) (by omega) (by omega) h2 (by omega) (by omega), ok_bind]
  simp only
  rw [Int.tdiv_eq_ediv_of_nonneg (by omega), int_ok (by omega) (by omega), ok_bind,
    align_for_run _ (by omega) _ _ _ _ rfl (by omega) (by omega), ok_bind, List.nil_append, printfcomma_length]
  congr 3
  omega

/-! ## Sorting -/

theorem cmp_llu_le (a b : Nat) : cmp_llu a b ≤ 0 ↔ a ≤ b := by
  unfold cmp_llu
  split
  · omega
  · split <;> omega

theorem cmp_llu_consistent : Consistent cmp_llu where
  anti a b := by
    unfold cmp_llu
    split <;> split <;> (try split) <;> (try split) <;> omega
  trans a b c h1 h2 := by
    rw [cmp_llu_le] at *
    omega

theorem isMedian_perm {m : Nat} {l l' : List Nat} (h : l.Perm l') (hm : IsMedian m l) : IsMedian m l' := by
  unfold IsMedian at *
  rwa [← h.length_eq, ← h.countP_eq, ← h.countP_eq]

theorem countP_take_le {p : Nat → Bool} {l : List Nat} {k : Nat} (h : ∀ i (hi : i < l.length), i < k → p l[i]) (hk : k ≤ l.length) :
    k ≤ l.countP p := by
  have h1 : (l.take k).countP p = (l.take k).length := by
    rw [List.countP_eq_length]
    intro a ha
    obtain ⟨i, hi, rfl⟩ := List.getElem_of_mem ha
    rw [List.length_take] at hi
    rw [List.getElem_take]
    exact h i (by omega) (by omega)
  have h2 := (List.take_sublist k l).countP_le (p := p)
  rw [h1, List.length_take] at h2
  omega

theorem countP_drop_le {p : Nat → Bool} {l : List Nat} {k : Nat} (h : ∀ i (hi : i < l.length), k ≤ i → p l[i]) :
    l.length - k ≤ l.countP p := by
  have h1 : (l.drop k).countP p = (l.drop k).length := by
    rw [List.countP_eq_length]
    intro a ha
    obtain ⟨i, hi, rfl⟩ := List.getElem_of_mem ha
    rw [List.length_drop] at hi
    rw [List.getElem_drop]
    exact h _ _ (by omega)
  have h2 := (List.drop_sublist k l).countP_le (p := p)
  rw [h1, List.length_drop] at h2
  omega

theorem median_ok {qsort : (Nat → Nat → Int) → List Nat → List Nat} (hq : IsQsort qsort) {l : List Nat} {llen : Nat}
    (h1 : 1 ≤ llen) (hl : llen ≤ l.length) (h64 : llen < 2 ^ 64) :
    ∃ m, median qsort l llen = .ok (m, qsort cmp_llu (l.take llen) ++ l.drop llen) ∧
      ((∀ x ∈ l.take llen, x < 2 ^ 64) → m < 2 ^ 64) ∧
      ((l.take llen).Pairwise (fun a b => a + b < 2 ^ 64) → IsMedian m (l.take llen)) := by
  obtain ⟨hp, hs⟩ := hq cmp_llu cmp_llu_consistent (l.take llen)
  unfold median
  rw [rd_ok (by omega), ok_bind, List.drop_zero]
  generalize qsort cmp_llu (l.take llen) = s at hp hs ⊢
  have hsl : s.length = llen := by rw [hp.length_eq, List.length_take]; omega
  have hle : ∀ i j (hi : i < s.length) (hj : j < s.length), i ≤ j → s[i] ≤ s[j] := by
    intro i j hi hj hij
    by_cases h : i = j
    · subst h; exact Nat.le_refl _
    · have := List.pairwise_iff_getElem.mp hs i j hi hj (by omega)
      rwa [cmp_llu_le] at this
  rw [wr_ok (by omega), ok_bind, List.take_zero, List.nil_append, hsl, Nat.zero_add]
  have hget : ∀ i (hi : i < s.length), rd1 (s ++ l.drop llen) i = .ok s[i] := by
    intro i hi
    rw [rd1_ok (by rw [List.length_append]; omega), List.getElem_append_left hi]
  by_cases hodd : llen % 2 = 0
  · rw [if_neg (by omega), Nat.mod_eq_sub_mod (by omega), show llen / 2 + 2 ^ 64 - 1 - 2 ^ 64 = llen / 2 - 1 by omega,
      Nat.mod_eq_of_lt (show llen / 2 - 1 < 2 ^ 64 by omega), hget _ (by omega), ok_bind, hget _ (by omega), ok_bind]
    refine ⟨_, rfl, fun _ => ?_, fun hpw => isMedian_perm hp ?_⟩
    · have := Nat.mod_lt (s[llen / 2 - 1] + s[llen / 2]) (show 0 < 2 ^ 64 by omega)
      omega
    · have hpw' : s.Pairwise fun a b => a + b < 2 ^ 64 :=
        (hp.pairwise_iff (fun {a b} h => by omega)).mpr hpw
      have hsum := List.pairwise_iff_getElem.mp hpw' (llen / 2 - 1) (llen / 2) (by omega) (by omega) (by omega)
      have hxy := hle (llen / 2 - 1) (llen / 2) (by omega) (by omega) (by omega)
      rw [Nat.mod_eq_of_lt hsum]
      generalize hm : (s[llen / 2 - 1] + s[llen / 2]) / 2 = m
      constructor
      · have := countP_take_le (p := (· ≤ m)) (l := s) (k := llen / 2) (fun i hi hik => by
          have := hle i (llen / 2 - 1) hi (by omega) (by omega)
          simp only [decide_eq_true_eq]
          omega) (by omega)
        omega
      · have := countP_drop_le (p := (m ≤ ·)) (l := s) (k := llen / 2) (fun i hi hik => by
          have := hle (llen / 2) i (by omega) hi hik
          simp only [decide_eq_true_eq]
          omega)
        omega
  · rw [if_pos hodd, hget _ (by omega), ok_bind]
    refine ⟨_, rfl, fun hx => ?_, fun _ => isMedian_perm hp ⟨?_, ?_⟩⟩
    · exact hx _ (hp.mem_iff.mp (List.getElem_mem _))
    · have := countP_take_le (p := (· ≤ s[llen / 2])) (l := s) (k := llen / 2 + 1) (fun i hi hik => by
        simpa using hle i (llen / 2) hi (by omega) (by omega)) (by omega)
      omega
    · have := countP_drop_le (p := (s[llen / 2] ≤ ·)) (l := s) (k := llen / 2) (fun i hi hik => by
        simpa using hle (llen / 2) i (by omega) hi hik)
      omega

/-! ## Samples -/

/-- The differences of consecutive values, with the result of `delta` for `k` values. -/
theorem delta_ok {l : List Nat} {k : Nat} (hl : k < l.length) (h64 : k + 1 < 2 ^ 64) :
    delta l (k + 1) = .ok (((List.range k).map fun i => ((l.getD (i + 1) 0) + 2 ^ 64 - l.getD i 0) % 2 ^ 64) ++ l.drop k) := by
  unfold delta
  rw [Nat.mod_eq_sub_mod (by omega), show k + 1 + 2 ^ 64 - 1 - 2 ^ 64 = k by omega, Nat.mod_eq_of_lt (by omega)]
  refine forRange_eq' (fun j => ((List.range j).map fun i => ((l.getD (i + 1) 0) + 2 ^ 64 - l.getD i 0) % 2 ^ 64) ++ l.drop j)
    (by simp) rfl ?_
  intro i hi
  have hr : ((List.range i).map fun i => ((l.getD (i + 1) 0) + 2 ^ 64 - l.getD i 0) % 2 ^ 64).length = i := by simp
  generalize hd : ((List.range i).map fun i => ((l.getD (i + 1) 0) + 2 ^ 64 - l.getD i 0) % 2 ^ 64) = d at hr
  have hg : ∀ j, i ≤ j → j < l.length → rd1 (d ++ l.drop i) j = .ok (l.getD j 0) := by
    intro j h1 h2
    rw [rd1_ok (by rw [List.length_append, List.length_drop]; omega), List.getElem_append_right (by omega)]
    simp only [hr, List.getElem_drop]
    rw [List.getD_eq_getElem?_getD, List.getElem?_eq_getElem h2]
    simp only [Option.getD_some]
    congr 2
    omega
  rw [hg _ (by omega) (by omega), ok_bind, hg _ (by omega) (by omega), ok_bind,
    wr1_ok (by rw [List.length_append, List.length_drop]; omega), List.range_succ, List.map_append, hd,
    List.set_append_right _ _ (by omega), hr, Nat.sub_self, List.drop_eq_getElem_cons (by omega : i < l.length),
    List.set_cons_zero]
  simp

theorem samples_ok {σ : Type} {corr : Nat} {clk : Clock} {call : Nat → σ → C σ} {t : List Nat} (ht : t.length = 11)
    (Inv : Nat → σ → Prop) {s : σ} (h0 : Inv 0 s)
    (hs : ∀ i s, i < 10 → Inv i s → ∃ s', call i s = .ok s' ∧ Inv (i + 1) s') :
    ∃ s', samples corr clk call t s =
      .ok (((List.range 10).map fun i => clk.cycles i / corr) ++ [clk.cycles 10], s') ∧ Inv 10 s' := by
  obtain ⟨⟨t', s'⟩, e, ht', hs'⟩ := forRange_inv (n := NTESTS) (s := (t, s)) (body := fun i (ts : List Nat × σ) => do
      let t ← wr1 ts.1 i (clk.cycles i / corr)
      .ok (t, ← call i ts.2))
    (fun i ts => ts.1 = ((List.range i).map fun i => clk.cycles i / corr) ++ t.drop i ∧ Inv i ts.2) ⟨by simp, h0⟩
    (by
      rintro i ⟨t', s'⟩ hi ⟨rfl, hI⟩
      have hi : i < 10 := hi
      obtain ⟨s'', e, hI'⟩ := hs i s' hi hI
      refine ⟨((((List.range i).map fun i => clk.cycles i / corr) ++ t.drop i).set i (clk.cycles i / corr), s''), ?_, ?_, hI'⟩
      · dsimp only
        rw [wr1_ok (by simp; omega), ok_bind, e, ok_bind]
      · dsimp only
        rw [List.set_append_right _ _ (by simp), List.length_map, List.length_range, Nat.sub_self,
          List.drop_eq_getElem_cons (by omega : i < t.length), List.set_cons_zero, List.range_succ, List.map_append]
        simp)
  refine ⟨s', ?_, hs'⟩
  unfold samples
  rw [e, ok_bind]
  dsimp only
  dsimp only at ht'
  rw [ht', wr1_ok (by simp [NTESTS]; omega), ok_bind]
  obtain ⟨x, hx⟩ := List.length_eq_one_iff.mp (show (t.drop 10).length = 1 by rw [List.length_drop]; omega)
  show Except.ok (((((List.range 10).map fun i => clk.cycles i / corr) ++ t.drop 10)).set 10 _, s') = _
  rw [hx, List.set_append_right _ _ (by simp)]
  rfl

/-- What `printfalignedcomma(n, 12)` prints. -/
def field (n : Nat) : Bytes := List.replicate (14 - (printfcomma n).length) 32#8 ++ printfcomma n

theorem printfalignedcomma_12 {n : Nat} (hn : n < 2 ^ 64) : printfalignedcomma n 12 = .ok (field n) := by
  rw [printfalignedcomma_ok hn (by omega) (by omega)]
  unfold field
  congr 3
  omega

/-- What `display_result` prints. -/
def line (avg : Bytes) (med mul : Nat) : Bytes :=
  avg ++ field med ++ asc " cycles,  " ++ List.replicate (5 - (pct_u mul).length) 32#8 ++ pct_u mul ++ asc "x: " ++
    field (mul * med % 2 ^ 64) ++ asc " cycles\n"

theorem display_ok {qsort : (Nat → Nat → Int) → List Nat → List Nat} (hq : IsQsort qsort) (avg : Bytes) (mul : Nat)
    {t : List Nat} (ht : t.length = 11) :
    ∃ med t', display_result qsort avg t 10 mul = .ok (t', line avg med mul) ∧ t'.length = 11 ∧
      (((List.range 10).map fun i => (t.getD (i + 1) 0 + 2 ^ 64 - t.getD i 0) % 2 ^ 64).Pairwise (fun a b => a + b < 2 ^ 64) →
        IsMedian med ((List.range 10).map fun i => (t.getD (i + 1) 0 + 2 ^ 64 - t.getD i 0) % 2 ^ 64)) := by
  generalize hd : ((List.range 10).map fun i => (t.getD (i + 1) 0 + 2 ^ 64 - t.getD i 0) % 2 ^ 64) = d
  have hdl : d.length = 10 := by rw [← hd]; simp
  have hdb : ∀ x ∈ d, x < 2 ^ 64 := by
    rw [← hd]
    intro x hx
    obtain ⟨i, -, rfl⟩ := List.mem_map.mp hx
    exact Nat.mod_lt _ (by omega)
  obtain ⟨med, e, hb, hm⟩ := median_ok hq (l := d ++ t.drop 10) (llen := 10) (by omega) (by simp [hdl]) (by omega)
  rw [List.take_left' hdl] at hm hb
  obtain ⟨hp, -⟩ := hq cmp_llu cmp_llu_consistent ((d ++ t.drop 10).take 10)
  have hb := hb hdb
  refine ⟨med, qsort cmp_llu ((d ++ t.drop 10).take 10) ++ (d ++ t.drop 10).drop 10, ?_, ?_, hm⟩
  · unfold display_result
    rw [delta_ok (k := NTESTS) (by show 10 < _; omega) (by show 10 + 1 < _; omega)]
    show (do let (med, l) ← median qsort (((List.range 10).map _) ++ t.drop 10) 10; _) = _
    rw [hd, e, ok_bind]
    dsimp only
    rw [printfalignedcomma_12 hb, ok_bind, printfalignedcomma_12 (Nat.mod_lt _ (by omega)), ok_bind]
    rfl
  · rw [List.length_append, hp.length_eq]
    simp [hdl, ht]

theorem le_sum : ∀ {l : List Nat} {b : Nat}, b ∈ l → b ≤ l.sum
  | a :: l, b, h => by
    rw [List.sum_cons]
    rcases List.mem_cons.mp h with rfl | h
    · omega
    · have := le_sum h
      omega

theorem pairwise_of_sum {B : Nat} : ∀ {l : List Nat}, l.sum < B → l.Pairwise fun a b => a + b < B
  | [], _ => List.Pairwise.nil
  | a :: l, h => by
    rw [List.sum_cons] at h
    refine List.Pairwise.cons (fun b hb => ?_) (pairwise_of_sum (by omega))
    have := le_sum hb
    omega

/-- The samples `MEASURE_GENERIC` takes the median of. -/
def diffs (corr : Nat) (c : Nat → Nat) : List Nat :=
  ((List.range 9).map fun i => c (i + 1) / corr - c i / corr) ++ [c 10 - c 9 / corr]

theorem getD_samples (corr : Nat) (c : Nat → Nat) (i : Nat) (h : i < 10) :
    (((List.range 10).map fun i => c i / corr) ++ [c 10]).getD i 0 = c i / corr := by
  rw [List.getD_eq_getElem?_getD, List.getElem?_append_left (by simpa using h), List.getElem?_map,
    List.getElem?_range h]
  rfl

theorem wrapped_diffs {corr : Nat} {c : Nat → Nat} (hc : ∀ i, i < 10 → c i ≤ c (i + 1)) (h64 : c 10 < 2 ^ 64) :
    ((List.range 10).map fun i => ((((List.range 10).map fun i => c i / corr) ++ [c 10]).getD (i + 1) 0 + 2 ^ 64 -
      (((List.range 10).map fun i => c i / corr) ++ [c 10]).getD i 0) % 2 ^ 64) = diffs corr c := by
  have hb' : ∀ k i, i + k = 10 → c i < 2 ^ 64 := by
    intro k
    induction k with
    | zero => intro i hi; rw [show i = 10 by omega]; exact h64
    | succ k ih => intro i hi; exact Nat.lt_of_le_of_lt (hc i (by omega)) (ih (i + 1) (by omega))
  have hb : ∀ i, i ≤ 10 → c i < 2 ^ 64 := fun i hi => hb' (10 - i) i (by omega)
  have key : ∀ x y, x ≤ y → y < 2 ^ 64 → (y + 2 ^ 64 - x) % 2 ^ 64 = y - x := by
    intro x y h1 h2
    rw [show y + 2 ^ 64 - x = 2 ^ 64 + (y - x) by omega, Nat.add_mod_left, Nat.mod_eq_of_lt (by omega)]
  rw [List.range_succ, List.map_append]
  unfold diffs
  congr 1
  · apply List.map_congr_left
    intro i hi
    have hi := List.mem_range.mp hi
    rw [← List.range_succ, getD_samples _ _ _ (by omega), getD_samples _ _ _ (by omega)]
    exact key _ _ (Nat.div_le_div_right (hc i (by omega)))
      (Nat.lt_of_le_of_lt (Nat.div_le_self _ _) (hb (i + 1) (by omega)))
  · rw [← List.range_succ, List.map_singleton, getD_samples corr c 9 (by omega)]
    congr 1
    refine Eq.trans ?_ (key _ _ (Nat.le_trans (Nat.div_le_self _ _) (hc 9 (by omega))) h64)
    congr 2

theorem diffs_sum {corr : Nat} {c : Nat → Nat} (hc : ∀ i, i < 10 → c i ≤ c (i + 1)) :
    (diffs corr c).sum = c 10 - c 0 / corr := by
  have hd : ∀ i, i < 9 → c i / corr ≤ c (i + 1) / corr := fun i hi => Nat.div_le_div_right (hc i (by omega))
  have h : c 9 ≤ c 10 := hc 9 (by omega)
  have h' := Nat.div_le_self (c 9) corr
  unfold diffs
  have : ∀ k, k ≤ 9 → ((List.range k).map fun i => c (i + 1) / corr - c i / corr).sum = c k / corr - c 0 / corr ∧
      c 0 / corr ≤ c k / corr := by
    intro k
    induction k with
    | zero => intro _; simp
    | succ k ih =>
      intro hk
      obtain ⟨i1, i2⟩ := ih (by omega)
      have := hd k (by omega)
      rw [List.range_succ, List.map_append, List.sum_append, i1]
      simp only [List.map_cons, List.map_nil, List.sum_cons, List.sum_nil]
      omega
  obtain ⟨h1, h2⟩ := this 9 (by omega)
  rw [List.sum_append, h1]
  simp only [List.sum_cons, List.sum_nil]
  generalize c 9 / corr = x at *
  generalize c 0 / corr = y at *
  omega

theorem measure_ok {σ : Type} {qsort : (Nat → Nat → Int) → List Nat → List Nat} (hq : IsQsort qsort) (text : String)
    (mul corr : Nat) (clk : Clock) {call : Nat → σ → C σ} {t : List Nat} (ht : t.length = 11) (out : Bytes)
    (Inv : Nat → σ → Prop) {s : σ} (h0 : Inv 0 s)
    (hs : ∀ i s, i < 10 → Inv i s → ∃ s', call i s = .ok s' ∧ Inv (i + 1) s') :
    ∃ t' med s', measure qsort text mul corr clk call ((t, out), s) =
        .ok ((t', out ++ asc text ++ line clk.avg med mul), s') ∧ t'.length = 11 ∧ Inv 10 s' ∧
      ((∀ i, i < 10 → clk.cycles i ≤ clk.cycles (i + 1)) → clk.cycles 10 < 2 ^ 64 →
        IsMedian med (diffs corr clk.cycles)) := by
  obtain ⟨s', e, hI⟩ := samples_ok (corr := corr) (clk := clk) ht Inv h0 hs
  obtain ⟨med, t', e', ht', hm⟩ := display_ok hq clk.avg mul
    (t := ((List.range 10).map fun i => clk.cycles i / corr) ++ [clk.cycles 10]) (by simp)
  refine ⟨t', med, s', ?_, ht', hI, fun hc h64 => ?_⟩
  · unfold measure
    dsimp only
    rw [e, ok_bind]
    dsimp only
    rw [show NTESTS = 10 from rfl, e', ok_bind]
  · rw [wrapped_diffs hc h64] at hm
    refine hm (pairwise_of_sum ?_)
    rw [diffs_sum hc]
    exact Nat.lt_of_le_of_lt (Nat.sub_le _ _) h64

end Spx.Bench
