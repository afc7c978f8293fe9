import Verif.Proof.BenchCalls
/-! # The benchmark programs: C68, C69, C70, C71, C72 -/

namespace Spx
open Spec Spec.Bench Bench

/-! ## Printing -/

/-- A number has only one representation in groups of three digits. -/
theorem Spec.Bench.Grouped.unique {n : Nat} {s t : Bytes} (hs : Grouped n s) (ht : Grouped n t) : s = t := by
  -- the characters from the right, cut into digits and commas
  have key : ∀ (L : Nat) (s : Bytes), s.length = L → (∀ i, i < s.length → (s[i]? = some 44#8 ↔ i % 4 = 3)) →
      (s.filter (· ≠ 44#8)).length = L - L / 4 ∧
        ∀ i, i < L → i % 4 ≠ 3 → s[i]? = (s.filter (· ≠ 44#8))[i - i / 4]? := by
    intro L
    induction L with
    | zero =>
      intro s h _
      rw [List.length_eq_zero_iff] at h
      subst h
      exact ⟨rfl, by omega⟩
    | succ L ih =>
      intro s h hc
      obtain ⟨s, c, rfl⟩ : ∃ s' c, s = s' ++ [c] := by
        have hne : s ≠ [] := by intro h'; rw [h'] at h; cases h
        exact ⟨s.dropLast, s.getLast hne, (List.dropLast_concat_getLast hne).symm⟩
      have hl : s.length = L := by simpa using h
      obtain ⟨i1, i2⟩ := ih s hl (fun i hi => by
        rw [← hc i (by simp; omega), List.getElem?_append_left hi])
      have hcL := hc L (by simp; omega)
      rw [List.getElem?_append_right (by omega), hl, Nat.sub_self] at hcL
      simp only [List.getElem?_cons_zero, Option.some.injEq] at hcL
      rw [List.filter_append]
      by_cases h3 : L % 4 = 3
      · rw [List.filter_cons_of_neg (by simpa using hcL.mpr h3), List.filter_nil, List.append_nil]
        refine ⟨by omega, fun i hi hi3 => ?_⟩
        rw [List.getElem?_append_left (by omega)]
        exact i2 i (by omega) hi3
      · rw [List.filter_cons_of_pos (by simpa using fun h => h3 (hcL.mp h)), List.filter_nil]
        refine ⟨by rw [List.length_append, i1, List.length_singleton]; omega, fun i hi hi3 => ?_⟩
        by_cases hiL : i < L
        · rw [List.getElem?_append_left (by omega), List.getElem?_append_left (by omega)]
          exact i2 i hiL hi3
        · have : i = L := by omega
          subst this
          rw [List.getElem?_append_right (by omega), List.getElem?_append_right (by omega), hl, i1]
          congr 1
          omega
  have hne : ∀ {s : Bytes}, Grouped n s → s.length % 4 ≠ 0 ∨ s = [] := by
    intro s h
    rcases s with _ | ⟨c, s⟩
    · exact .inr rfl
    · refine .inl fun h4 => h.first ?_
      have := (h.commas s.length (by simp)).mpr (by simp at h4; omega)
      rw [List.reverse_cons, List.getElem?_append_right (by simp)] at this
      simpa using this
  have hlen : ∀ {s : Bytes}, Grouped n s → (s.reverse.filter (· ≠ 44#8)) = (Kat.ascii (toString n)).reverse := by
    intro s h
    rw [List.filter_reverse, h.digits]
  have ks := key _ s.reverse (by rw [List.length_reverse]) (fun i hi => hs.commas i (by simpa using hi))
  have kt := key _ t.reverse (by rw [List.length_reverse]) (fun i hi => ht.commas i (by simpa using hi))
  rw [hlen hs] at ks
  rw [hlen ht] at kt
  have hL : s.length = t.length := by
    have e := ks.1.symm.trans kt.1
    rcases hne hs with h1 | rfl <;> rcases hne ht with h2 | rfl <;> (try simp at e ⊢) <;> omega
  rw [← List.reverse_inj]
  apply List.ext_getElem?
  intro i
  by_cases hi : i < s.length
  · by_cases h3 : i % 4 = 3
    · rw [(hs.commas i hi).mpr h3, (ht.commas i (by omega)).mpr h3]
    · rw [ks.2 i hi h3, kt.2 i (by omega) h3]
  · rw [List.getElem?_eq_none (by simp; omega), List.getElem?_eq_none (by simp; omega)]

/-- C68.  `printfcomma` prints the number in decimal, in groups of three digits. -/
theorem C68_printfcomma (n : Nat) : Grouped n (printfcomma n) where
  digits := by
    rw [printfcomma_digits]
    exact (Kat.asc_toString n).symm
  commas := fun i hi => printfcomma_commas n i hi
  first := fun h => by
    have hc := (printfcomma_commas n ((printfcomma n).length - 1)
      (by rcases hp : printfcomma n with _ | ⟨c, l⟩ <;> rw [hp] at h <;> simp at h ⊢)).mp (by
        rcases hp : printfcomma n with _ | ⟨c, l⟩
        · rw [hp] at h; cases h
        · rw [hp] at h
          rw [List.reverse_cons, List.getElem?_append_right (by simp)]
          simpa using h)
    rw [printfcomma_length] at hc
    have := pct_u_pos n
    omega

example : printfcomma 1234567 = Kat.asc "1,234,567" := by decide +kernel
example : printfcomma 1000 = Kat.asc "1,000" := by decide +kernel
example : printfcomma 999 = Kat.asc "999" := by decide +kernel
example : ¬ Grouped 123 (Kat.asc ",123") := fun h => h.first (by decide)

/-- C69.  `printfalignedcomma(n, len)` runs without overflow and prints the number with spaces in front up to the width
`len + 2`, or the number alone if it is as wide. -/
theorem C69_aligned {n : Nat} (hn : n < 2 ^ 64) {len : Int} (h1 : -2 ^ 31 + 19 ≤ len) (h2 : len < 2 ^ 31) :
    ∃ s, Grouped n s ∧ printfalignedcomma n len = .ok (pad (len + 2).toNat s) := by
  refine ⟨_, C68_printfcomma n, ?_⟩
  rw [printfalignedcomma_ok hn h1 h2]
  unfold pad
  congr 3
  omega

/-- C69.  The calls in `display_result`: a number of up to eleven digits takes up 14 columns, any other at most 26. -/
theorem C69_width {n : Nat} (hn : n < 2 ^ 64) : ∃ out, printfalignedcomma n 12 = .ok out ∧
    (n < 10 ^ 11 → out.length = 14) ∧ 14 ≤ out.length ∧ out.length ≤ 26 := by
  have hlen := printfcomma_length n
  have hpos := pct_u_pos n
  have h20 := pct_u_length_le (k := 19) (n := n) (by omega)
  refine ⟨field n, printfalignedcomma_12 hn, fun h => ?_, ?_, ?_⟩
  · have h11 := pct_u_length_le (k := 10) (n := n) h
    unfold field
    rw [List.length_append, List.length_replicate]
    omega
  all_goals
    unfold field
    rw [List.length_append, List.length_replicate]
    omega

example : printfalignedcomma 1234567 12 = .ok (Kat.asc "     1,234,567") := by
  rw [printfalignedcomma_12 (by decide)]
  decide +kernel

/-! ## Measuring -/

/-- C70.  `median` returns a median, unless the sum of two of the values exceeds the range of the type. -/
theorem C70_median {qsort : (Nat → Nat → Int) → List Nat → List Nat} (hq : IsQsort qsort) {l : List Nat} {llen : Nat}
    (h1 : 1 ≤ llen) (hl : llen ≤ l.length) (h64 : llen < 2 ^ 64) :
    ∃ m l', median qsort l llen = .ok (m, l') ∧ l'.Perm l ∧
      ((l.take llen).Pairwise (fun a b => a + b < 2 ^ 64) → IsMedian m (l.take llen)) := by
  obtain ⟨m, e, -, h⟩ := median_ok hq h1 hl h64
  refine ⟨m, _, e, ?_, h⟩
  have hp := (hq cmp_llu cmp_llu_consistent (l.take llen)).1
  exact (hp.append_right _).trans (by rw [List.take_append_drop])

theorem median_two {qsort : (Nat → Nat → Int) → List Nat → List Nat} {x : Nat} (h : qsort cmp_llu [x, x] = [x, x]) :
    median qsort [x, x] 2 = .ok ((x + x) % 2 ^ 64 / 2, [x, x]) := by
  unfold median
  rw [rd_ok (by simp), ok_bind]
  simp only [List.drop_zero, List.take_succ_cons, List.take_zero]
  rw [h]
  rfl

/-- C70.  If it does, the mean of the two middle values wraps around. -/
theorem C70_median_wraps {qsort : (Nat → Nat → Int) → List Nat → List Nat} (hq : IsQsort qsort) :
    median qsort [2 ^ 63, 2 ^ 63] 2 = .ok (0, [2 ^ 63, 2 ^ 63]) ∧ ¬ IsMedian 0 [2 ^ 63, 2 ^ 63] := by
  have hp := (hq cmp_llu cmp_llu_consistent [2 ^ 63, 2 ^ 63]).1
  refine ⟨median_two (List.perm_replicate.mp
    (show List.Perm (qsort cmp_llu [2 ^ 63, 2 ^ 63]) (List.replicate 2 (2 ^ 63)) from hp)), ?_⟩
  unfold IsMedian
  decide +kernel

/-- C70.  `delta` replaces the values by the differences of consecutive ones. -/
theorem C70_delta {l : List Nat} {k : Nat} (hl : l.length = k + 1) (h64 : k + 1 < 2 ^ 64)
    (hm : l.Pairwise (· ≤ ·)) (hb : ∀ x ∈ l, x < 2 ^ 64) :
    ∃ d, delta l (k + 1) = .ok d ∧ d.length = k + 1 ∧ d[k]? = l[k]? ∧
      ∀ i, i < k → ∃ x y, l[i]? = some x ∧ l[i + 1]? = some y ∧ d[i]? = some (y - x) := by
  refine ⟨_, delta_ok (by omega) h64, by simp; omega, ?_, fun i hi => ?_⟩
  · rw [List.getElem?_append_right (by simp)]
    simp
  · have h1 : i < l.length := by omega
    have h2 : i + 1 < l.length := by omega
    refine ⟨l[i], l[i + 1], List.getElem?_eq_getElem h1, List.getElem?_eq_getElem h2, ?_⟩
    have hle := List.pairwise_iff_getElem.mp hm i (i + 1) h1 h2 (by omega)
    have hlt := hb _ (List.getElem_mem h2)
    rw [List.getElem?_append_left (by simpa using hi), List.getElem?_map, List.getElem?_range hi]
    simp only [Option.map_some, List.getD_eq_getElem?_getD, List.getElem?_eq_getElem h1, List.getElem?_eq_getElem h2,
      Option.getD_some]
    generalize l[i] = x at hle ⊢
    generalize l[i + 1] = y at hle hlt ⊢
    rw [show y + 2 ^ 64 - x = 2 ^ 64 + (y - x) by omega, Nat.add_mod_left, Nat.mod_eq_of_lt (by omega)]

theorem diffs_one (c : Nat → Nat) : diffs 1 c = elapsed c := by
  unfold diffs elapsed
  simp only [Nat.div_one]
  rw [List.range_succ (n := 9), List.map_append]
  rfl

theorem line_row (text : String) (avg : Bytes) (med mul : Nat) : Row text avg mul med (Kat.asc text ++ line avg med mul) := by
  refine ⟨_, _, C68_printfcomma _, C68_printfcomma _, ?_⟩
  have e : Kat.ascii (toString mul) = Kat.pct_u mul := Kat.asc_toString mul
  unfold line field pad
  rw [e]
  simp only [List.append_assoc]
  rfl

theorem measured1000_of {c : Nat → Nat} {med : Nat} (h : IsMedian med (diffs 1000 c)) :
    4 ≤ ((elapsed c).take 9).countP (· < 1000 * (med + 1)) ∧
      4 ≤ ((elapsed c).take 9).countP (1000 * med < · + 1000) := by
  have he : (elapsed c).take 9 = (List.range 9).map fun i => c (i + 1) - c i := by
    unfold elapsed
    rw [← List.map_take]
    rfl
  have hlen : (diffs 1000 c).length = 10 := by simp [diffs]
  obtain ⟨h1, h2⟩ := h
  rw [hlen] at h1 h2
  unfold diffs at h1 h2
  rw [List.countP_append, List.countP_map] at h1 h2
  rw [he, List.countP_map, List.countP_map]
  have s1 := List.countP_le_length (p := (· ≤ med)) (l := [c 10 - c 9 / 1000])
  have s2 := List.countP_le_length (p := (med ≤ ·)) (l := [c 10 - c 9 / 1000])
  rw [List.length_singleton] at s1 s2
  have m1 : (List.range 9).countP ((· ≤ med) ∘ fun i => c (i + 1) / 1000 - c i / 1000) ≤
      (List.range 9).countP ((· < 1000 * (med + 1)) ∘ fun i => c (i + 1) - c i) := List.countP_mono_left fun i _ h => by
    simp only [Function.comp, decide_eq_true_eq] at h ⊢
    omega
  have m2 : (List.range 9).countP ((med ≤ ·) ∘ fun i => c (i + 1) / 1000 - c i / 1000) ≤
      (List.range 9).countP ((1000 * med < · + 1000) ∘ fun i => c (i + 1) - c i) := List.countP_mono_left fun i _ h => by
    simp only [Function.comp, decide_eq_true_eq] at h ⊢
    omega
  omega

section
variable {σ : Type} {qsort : (Nat → Nat → Int) → List Nat → List Nat} (hq : IsQsort qsort) (text : String) (clk : Clock)
  {call : Nat → σ → C σ} {t : List Nat} (ht : t.length = 11) (out : Bytes) (Inv : Nat → σ → Prop) {s : σ} (h0 : Inv 0 s)
  (hs : ∀ i s, i < 10 → Inv i s → ∃ s', call i s = .ok s' ∧ Inv (i + 1) s')
include hq ht h0 hs

/-- C70.  `MEASURE` makes the ten calls in turn and prints a line with the median of the cycles they took. -/
theorem C70_measure (mul : Nat) : ∃ t' row s', measure qsort text mul 1 clk call ((t, out), s) = .ok ((t', out ++ row), s') ∧
    t'.length = 11 ∧ Inv 10 s' ∧ Measured text clk.avg mul clk.cycles row := by
  obtain ⟨t', med, s', e, h1, h2, h3⟩ := measure_ok hq text mul 1 clk ht out Inv h0 hs
  rw [diffs_one] at h3
  exact ⟨t', _, s', by rw [e, List.append_assoc], h1, h2, med, line_row .., fun h => h3 h.1 h.2⟩

/-- C70.  `MEASURT` prints about a median of the cycles of a single call, the last sample not being reliable. -/
theorem C70_measure1000 : ∃ t' row s', measure qsort text 1 1000 clk call ((t, out), s) = .ok ((t', out ++ row), s') ∧
    t'.length = 11 ∧ Inv 10 s' ∧ Measured1000 text clk.avg clk.cycles row := by
  obtain ⟨t', med, s', e, h1, h2, h3⟩ := measure_ok hq text 1 1000 clk ht out Inv h0 hs
  exact ⟨t', _, s', by rw [e, List.append_assoc], h1, h2, med, line_row .., fun h => measured1000_of (h3 h.1 h.2)⟩

end

/-- C70.  The last reading of `MEASURT` is not divided: where every call takes 1000 cycles, the tenth sample is
9991000. -/
theorem C70_last_sample : (do
    let (t, _) ← samples 1000 ⟨fun i => 1000000 * i, []⟩ (fun _ s => .ok s) (List.replicate 11 0) ()
    delta t 11) = .ok (List.replicate 9 1000 ++ [9991000, 10000000]) := by decide +kernel

/-- A function as the C library has to have it. -/
def Bench.sortC (cmp : Nat → Nat → Int) (l : List Nat) : List Nat := l.mergeSort fun a b => decide (cmp a b ≤ 0)

theorem Bench.sortC_ok : IsQsort Bench.sortC := by
  intro cmp hc l
  refine ⟨List.mergeSort_perm _ _, ?_⟩
  have := List.pairwise_mergeSort (le := fun a b => decide (cmp a b ≤ 0))
    (fun a b c h1 h2 => by simpa using hc.trans a b c (by simpa using h1) (by simpa using h2))
    (fun a b => by
      have := hc.anti b a
      by_cases h : cmp a b ≤ 0
      · simp [h]
      · simp [h]
        omega) l
  exact this.imp fun h => by simpa using h

example : IsMedian 6 [9, 1, 8, 5] ∧ IsMedian 7 [9, 1, 8, 5] ∧ ¬ IsMedian 9 [9, 1, 8, 5] := by
  unfold IsMedian
  decide

example : Steady fun i => 100 * i + 7 := ⟨fun i _ => by omega, by decide⟩

/-! ## The factors -/

/-- C71.  The number of lanes times the factor printed is the number of WOTS public keys which the key generation computes
(those of one tree) and which signing computes (those of `d` trees), in ref and in the optimised implementations other than
haraka-aesni. -/
theorem C71_factors {P : Params} (hP : P ∈ shipped) :
    (refVariant.mul1 P = 2 ^ P.treeHeight ∧ refVariant.mul2 P = P.d * 2 ^ P.treeHeight) ∧
    (2 * shakeA64Variant.mul1 P = 2 ^ P.treeHeight ∧ 2 * shakeA64Variant.mul2 P = P.d * 2 ^ P.treeHeight) ∧
    (4 * shakeAvx2Variant.mul1 P = 2 ^ P.treeHeight ∧ 4 * shakeAvx2Variant.mul2 P = P.d * 2 ^ P.treeHeight) ∧
    (8 * sha2Avx2Variant.mul1 P = 2 ^ P.treeHeight ∧ 8 * sha2Avx2Variant.mul2 P = P.d * 2 ^ P.treeHeight) := by
  revert P
  decide +kernel

/-- C71.  The benchmark of haraka-aesni has the factors of ref, though it measures four public keys at a time: it shows
four times the cycles. -/
theorem C71_aesni {P : Params} (hP : P ∈ shipped) :
    4 * harakaAesniVariant.mul1 P = 4 * 2 ^ P.treeHeight ∧ 4 * harakaAesniVariant.mul1 P ≠ 2 ^ P.treeHeight ∧
      4 * harakaAesniVariant.mul2 P = 4 * (P.d * 2 ^ P.treeHeight) ∧ 4 * harakaAesniVariant.mul2 P ≠ P.d * 2 ^ P.treeHeight := by
  revert P
  decide +kernel

/-! ## The programs -/

theorem header_eq (P : Params) : Bench.header P =
    Spec.Bench.header P.n P.fullHeight P.d P.forsHeight P.forsTrees P.w := by
  have ha : ∀ s, Kat.ascii s = Kat.asc s := fun _ => rfl
  have ts : ∀ s : String, toString s = s := fun _ => rfl
  have hn : Kat.asc "\nRunning 10 iterations.\n" = Kat.asc "\n" ++ Kat.asc "Running " ++ Kat.pct_d NTESTS ++ Kat.asc " iterations.\n" := by
    decide +kernel
  unfold Bench.header Spec.Bench.header
  simp only [ha, Kat.asc_append, Kat.asc_toString, ts, Kat.pct_d_nat, hn, List.append_assoc]

theorem footer_eq (P : Params) (W : World) : Bench.footer P W = Spec.Bench.footer W.kib P.spxBytes P.pkBytes P.skBytes := by
  have ha : ∀ s, Kat.ascii s = Kat.asc s := fun _ => rfl
  have ts : ∀ s : String, toString s = s := fun _ => rfl
  have h1 : Kat.asc " KiB)\nPublic key size: " = Kat.asc " KiB)\n" ++ Kat.asc "Public key size: " := by decide +kernel
  have h2 : Kat.asc " KiB)\nSecret key size: " = Kat.asc " KiB)\n" ++ Kat.asc "Secret key size: " := by decide +kernel
  unfold Bench.footer Spec.Bench.footer
  simp only [ha, Kat.asc_append, Kat.asc_toString, ts, Kat.pct_d_nat, h1, h2, List.append_assoc]

theorem row1000 {clk : Clock} {text : String} {out : Bytes} (h : Row1000 clk text out) :
    Measured1000 text clk.avg clk.cycles out := by
  obtain ⟨med, rfl, h⟩ := h
  exact ⟨med, line_row .., fun k => measured1000_of (h k)⟩

/-- What the program prints from the key generation on. -/
structure Bench.Table (P : Params) (V : Variant) (W : World) (out : Bytes) : Prop where
  rows : ∃ r0 r1 r2 r3 r4 r5, out = r0 ++ r1 ++ r2 ++ r3 ++ r4 ++ r5 ∧
    Measured "Generating keypair.. " (W.clk 0).avg 1 (W.clk 0).cycles r0 ∧
    Measured V.text1 (W.clk 1).avg (V.mul1 P) (W.clk 1).cycles r1 ∧
    Measured "Signing..            " (W.clk 2).avg 1 (W.clk 2).cycles r2 ∧
    Measured "  - FORS signing..   " (W.clk 3).avg 1 (W.clk 3).cycles r3 ∧
    Measured V.text2 (W.clk 4).avg (V.mul2 P) (W.clk 4).cycles r4 ∧
    Measured "Verifying..          " (W.clk 5).avg 1 (W.clk 5).cycles r5

/-- The program has ended, and what it has computed is right: the signed message is that of the last key pair, and opening it
has given the message. -/
structure Bench.Done (P : Params) (lay : Tests.Lay) (W : World) (s : Bench.St) : Prop where
  pk : s.M.rd lay.pk P.pkBytes = .ok (pkOf P.toSpec (specHash P) (W.seed 9))
  smlen : s.smlen = P.spxBytes + 32
  sm : s.M.rd lay.sm (P.spxBytes + 32) =
    .ok (Spec.sign P.toSpec (specHash P) (skOf P.toSpec (specHash P) (W.seed 9)) (W.optrand 9) W.m ++ W.m)
  mlen : s.mlen = 32
  mout : s.M.rd lay.mout 32 = .ok W.m

/-- The last calls measured of the functions that get the uninitialised context: their results are in the arrays. -/
structure Bench.Called (P : Params) (F : Calls) (c : Ctx) (fors_m : Bytes) (W : World) (s : Bench.St) : Prop where
  wots : ∃ b, F.wots_gen_pk 49 b c (W.addr.take 32) = .ok s.wots_pk
  fors : ∃ b, F.fors_sign 9 b fors_m c (W.addr.take 32) = .ok (s.fors_sig, s.fors_pk)

/-- The texts and factors of the benchmark of an optimised implementation. -/
def Bench.variantOf : Leak.Opt → Variant
  | .shakeA64 => shakeA64Variant
  | .shakeAvx2 => shakeAvx2Variant
  | .harakaAesni => harakaAesniVariant
  | .sha2Avx2 => sha2Avx2Variant

/-- The bytes delivered by `randombytes` are as many as asked for. -/
structure Bench.World.OK (P : Params) (naddr : Nat) (W : World) : Prop where
  m : W.m.length = 32
  addr : W.addr.length = 32 * naddr
  seed : ∀ i, (W.seed i).length = P.seedBytes
  optrand : ∀ i, (W.optrand i).length = P.n

section
variable {qsort : (Nat → Nat → Int) → List Nat → List Nat} (hq : IsQsort qsort) {P : Params} (hP : P ∈ shipped)
  {c : Ctx} (hc : Leak.Sized P c) {lay : Tests.Lay} (hl : Tests.LayOK P lay) (G g : Nat → Nat → Nat → Byte)
  (g' h : Nat → Nat → Byte) {W : World} {s : Bench.St} (hs : Fit P s) (hal : Al P lay s.M)
include hq hP hc hl hs hal

omit hc in
theorem run_ok (V : Variant) {F : Calls} (hF : CallsOK P F c) {naddr : Nat} (hn : 1 ≤ naddr) (hW : W.OK P naddr)
    {first : Bytes → (List Nat × Bytes) × Bench.St → C ((List Nat × Bytes) × Bench.St)} {Q : Bytes → Bytes → List (BitVec 64) → Bytes → Bytes → List (BitVec 64) → Prop}
    (hfi : FirstOK P first naddr Q) :
    ∃ s' top table, main qsort P V F lay g' W c naddr first s =
        .ok (s', Spec.Bench.header P.n P.fullHeight P.d P.forsHeight P.forsTrees P.w ++ top ++ table ++
          Spec.Bench.footer W.kib P.spxBytes P.pkBytes P.skBytes, 0) ∧
      Q W.addr s.block s.statex2 top s'.block s'.statex2 ∧ Table P V W table ∧ Done P lay W s' ∧
      Called P F c (uninit (g' 1) P.forsMsgBytes) W s' := by
  obtain ⟨s', top, med, e, h1, h2, h3, h4, h5⟩ := main_ok hq hP V hF hl g' hW.m hn hW.addr hW.seed hW.optrand hfi hs hal
  simp only [diffs_one] at h2
  refine ⟨s', top, _, by rw [e, header_eq, footer_eq]; rfl, h1, ⟨_, _, _, _, _, _, rfl, ⟨med 0, line_row .., h2 0 (by decide)⟩,
    ⟨med 1, line_row .., h2 1 (by decide)⟩, ⟨med 2, line_row .., h2 2 (by decide)⟩, ⟨med 3, line_row .., h2 3 (by decide)⟩,
    ⟨med 4, line_row .., h2 4 (by decide)⟩, ⟨med 5, line_row .., h2 5 (by decide)⟩⟩,
    ⟨h3.pk, h3.len, h3.sm, h3.mlen (by decide), h3.mout (by decide)⟩, h4, h5⟩

/-- C72.  ref/test/benchmark.c, which never initialises the context it passes to `thash`, `wots_gen_leafx1` and `fors_sign`
and passes random bytes as the address, runs without undefined behaviour whatever is in the memory, returns 0 and prints
the medians. -/
theorem C72_ref (hW : W.OK P 1) :
    ∃ s' top table, main qsort P refVariant (refCalls P G g) lay g' W c 1 (refFirst qsort (implOf P h) W c) s =
        .ok (s', Spec.Bench.header P.n P.fullHeight P.d P.forsHeight P.forsTrees P.w ++ top ++ table ++
          Spec.Bench.footer W.kib P.spxBytes P.pkBytes P.skBytes, 0) ∧
      Measured1000 "thash                " (W.clk 6).avg (W.clk 6).cycles top ∧ Table P refVariant W table ∧ Done P lay W s' ∧
      Called P (refCalls P G g) c (uninit (g' 1) P.forsMsgBytes) W s' ∧
      Steps (fun b => (implOf P h).thash b 1 c (W.addr.take 32)) 10000 s.block s'.block := by
  obtain ⟨s', top, table, e, ⟨h1, h4⟩, h2, h3, h5⟩ := run_ok hq hP hl g' hs hal refVariant (refCalls_ok hP G g hc) (Nat.le_refl 1) hW
    (refFirst_ok hq (by have := shipped_n hP; omega) (ref_runs hP h hc) W (Nat.le_refl 1))
  exact ⟨s', top, table, e, row1000 h1, h2, h3, h5, h4⟩

/-- C72.  The same for shake-avx2, haraka-aesni and sha2-avx2 (and for shake-a64 without the three measurements it starts
with). -/
theorem C72_avx (o : Leak.Opt) (hf : P.fam = o.fam) (hW : W.OK P 1) :
    ∃ s' table, main qsort P (variantOf o) (optCalls o P G g) lay g' W c 1 noFirst s =
        .ok (s', Spec.Bench.header P.n P.fullHeight P.d P.forsHeight P.forsTrees P.w ++ table ++
          Spec.Bench.footer W.kib P.spxBytes P.pkBytes P.skBytes, 0) ∧
      Table P (variantOf o) W table ∧ Done P lay W s' ∧ Called P (optCalls o P G g) c (uninit (g' 1) P.forsMsgBytes) W s' := by
  obtain ⟨s', top, table, e, ⟨rfl, -, -⟩, h2⟩ := run_ok hq hP hl g' hs hal (variantOf o) (optCalls_ok o hP hf G g hc) (Nat.le_refl 1) hW
    (noFirst_ok P 1)
  rw [List.append_nil] at e
  exact ⟨s', table, e, h2⟩

/-- C72.  The same for shake-a64, with the three measurements it starts with. -/
theorem C72_a64 (hf : P.fam = .shake) (hW : W.OK P 2) :
    ∃ s' r0 r1 r2 table, main qsort P shakeA64Variant (optCalls .shakeA64 P G g) lay g' W c 2
          (a64First qsort (A64.impl P h) (A64.lanes P h) W c) s =
        .ok (s', Spec.Bench.header P.n P.fullHeight P.d P.forsHeight P.forsTrees P.w ++ (r0 ++ r1 ++ r2) ++ table ++
          Spec.Bench.footer W.kib P.spxBytes P.pkBytes P.skBytes, 0) ∧
      Measured1000 "thash                " (W.clk 6).avg (W.clk 6).cycles r0 ∧
      Measured1000 "f1600x2              " (W.clk 7).avg (W.clk 7).cycles r1 ∧
      Measured1000 "thashx2              " (W.clk 8).avg (W.clk 8).cycles r2 ∧ Table P shakeA64Variant W table ∧ Done P lay W s' ∧
      Called P (optCalls .shakeA64 P G g) c (uninit (g' 1) P.forsMsgBytes) W s' ∧ Steps f1600x2 10000 s.statex2 s'.statex2 ∧
      ∃ b1, Steps (fun b => (A64.impl P h).thash b 1 c (W.addr.take 32)) 10000 s.block b1 ∧
        Steps (second (A64.lanes P h) c W.addr) 10000 b1 s'.block := by
  have hR := opt_runs .shakeA64 hP hf (fun _ _ => 0) h hc
  have hX := opt_runsX .shakeA64 hP hf (fun _ _ => 0) h hc
  obtain ⟨s', top, table, e, ⟨⟨r0, r1, r2, rfl, k0, k1, k2⟩, h3, h4⟩, h2, h5, h6⟩ := run_ok hq hP hl g' hs hal shakeA64Variant
    (optCalls_ok .shakeA64 hP hf G g hc) (by decide) hW (a64First_ok hq (by have := shipped_n hP; omega) hR hX W)
  exact ⟨s', r0, r1, r2, table, e, row1000 k0, row1000 k1, row1000 k2, h2, h5, h6, h3, h4⟩

end

/-! The hypotheses are met, by a counter that stands still once. -/

def Bench.lay0 : Tests.Lay := ⟨0, 100, 1000, 10000, 100000⟩

theorem Bench.lay0_ok {P : Params} (hP : P ∈ shipped) : Tests.LayOK P lay0 := by
  have h1 : P.spxBytes < 60000 := by revert P; decide +kernel
  have h2 := shipped_n hP
  have hp : P.pkBytes = 2 * P.n := rfl
  have hs : P.skBytes = 2 * P.n + 2 * P.n := rfl
  constructor <;> unfold Mem.Disj lay0 <;> simp only [hp, hs] <;> omega

def Bench.world0 (P : Params) (naddr : Nat) : World where
  m := (List.range 32).map (BitVec.ofNat 8)
  addr := List.replicate (32 * naddr) 0xff
  seed i := List.replicate P.seedBytes (BitVec.ofNat 8 i)
  optrand i := List.replicate P.n (BitVec.ofNat 8 (i + 1))
  clk k := ⟨fun i => 1000 * k + 100 * (i - 1), Kat.asc "avg. "⟩
  kib _ := Kat.asc "1.00"

theorem Bench.world0_ok (P : Params) (naddr : Nat) : (world0 P naddr).OK P naddr :=
  ⟨by simp [world0], by simp [world0], by simp [world0], by simp [world0]⟩

def Bench.st0 (P : Params) : Bench.St where
  M := Mem.filled fun a => BitVec.ofNat 8 (7 * a)
  block := List.replicate P.n 1
  statex2 := List.replicate 50 2
  wots_pk := List.replicate (8 * P.wotsBytes) 3
  fors_sig := List.replicate P.forsBytes 4
  fors_pk := List.replicate P.n 5
  smlen := 6
  mlen := 7

theorem Bench.st0_fit (P : Params) : Fit P (st0 P) :=
  ⟨by simp [st0], by simp [st0], by simp [st0]; omega, by simp [st0], by simp [st0]⟩

theorem Bench.st0_al (P : Params) (lay : Tests.Lay) : Al P lay (st0 P).M :=
  ⟨Mem.filled_alloc _ _ _, Mem.filled_alloc _ _ _, Mem.filled_alloc _ _ _, Mem.filled_alloc _ _ _, Mem.filled_alloc _ _ _⟩

def Bench.ctx0 (P : Params) : Ctx where
  pub_seed := List.replicate P.n 0xaa
  sk_seed := List.replicate P.n 0xbb
  state_seeded := List.replicate 40 1
  state_seeded_512 := List.replicate 72 2
  tweaked512_rc64 := List.replicate 80 3
  tweaked256_rc32 := List.replicate 80 4
  rc := List.replicate 640 5

theorem Bench.ctx0_sized (P : Params) : Leak.Sized P (ctx0 P) := by
  constructor <;> exact List.length_replicate

example : Steady ((world0 (sha2_128f true) 1).clk 3).cycles := ⟨fun i _ => by simp only [world0]; omega, by simp [world0]⟩

example : ∃ s' out, main sortC (sha2_128f true) refVariant (refCalls (sha2_128f true) (fun k i _ => BitVec.ofNat 8 (k + i)) fun k _ _ =>
      BitVec.ofNat 8 k) lay0 (fun _ _ => 9) (world0 (sha2_128f true) 1) (ctx0 (sha2_128f true)) 1 (refFirst sortC (implOf (sha2_128f true) fun _ _ => 1) (world0 (sha2_128f true) 1)
      (ctx0 (sha2_128f true))) (st0 (sha2_128f true)) = .ok (s', out, 0) ∧ s'.mlen = 32 := by
  obtain ⟨s', top, table, e, -, -, h, -⟩ := C72_ref sortC_ok (P := sha2_128f true) (by decide) (ctx0_sized _) (lay0_ok (by decide))
    (fun k i _ => BitVec.ofNat 8 (k + i)) (fun k _ _ => BitVec.ofNat 8 k) (fun _ _ => 9) (fun _ _ => 1) (st0_fit _) (st0_al _ _)
    (world0_ok _ 1)
  exact ⟨s', _, e, h.mlen⟩

example (o : Leak.Opt) {P : Params} (hP : P ∈ shipped) (hf : P.fam = o.fam) : ∃ s' out, main sortC P (variantOf o)
      (optCalls o P (fun k i _ => BitVec.ofNat 8 (k + i)) fun k _ _ => BitVec.ofNat 8 k) lay0 (fun _ _ => 9) (world0 P 1) (ctx0 P) 1
      noFirst (st0 P) = .ok (s', out, 0) ∧ s'.smlen = P.spxBytes + 32 := by
  obtain ⟨s', table, e, -, h, -⟩ := C72_avx sortC_ok hP (ctx0_sized _) (lay0_ok hP)
    (fun k i _ => BitVec.ofNat 8 (k + i)) (fun k _ _ => BitVec.ofNat 8 k) (fun _ _ => 9) (st0_fit _) (st0_al _ _) o hf
    (world0_ok _ 1)
  exact ⟨s', _, e, h.smlen⟩

example : ∃ s' out, main sortC (shake_192s true) shakeA64Variant (optCalls .shakeA64 (shake_192s true) (fun _ _ _ => 1) fun _ _ _ => 2)
      lay0 (fun _ _ => 9) (world0 (shake_192s true) 2) (ctx0 (shake_192s true)) 2 (a64First sortC (A64.impl (shake_192s true) fun _ _ => 1) (A64.lanes (shake_192s true) fun _ _ => 1) (world0 (shake_192s true) 2)
      (ctx0 (shake_192s true))) (st0 (shake_192s true)) = .ok (s', out, 0) ∧ s'.M.rd lay0.mout 32 = .ok (world0 (shake_192s true) 2).m := by
  obtain ⟨s', r0, r1, r2, table, e, -, -, -, -, h, -⟩ := C72_a64 sortC_ok (P := shake_192s true) (by decide) (ctx0_sized _)
    (lay0_ok (by decide)) (fun _ _ _ => 1) (fun _ _ _ => 2) (fun _ _ => 9) (fun _ _ => 1) (st0_fit _) (st0_al _ _) rfl
    (world0_ok _ 2)
  exact ⟨s', _, e, h.mout⟩

end Spx
