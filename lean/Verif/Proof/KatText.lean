import Verif.Model.Kat
import Verif.Spec.Kat
import Verif.Proof.Bytes
/-! Reading and writing the fields of the known-answer files. -/

namespace Spx.Kat
open Spec Spec.Kat

/-! ## Printing -/

theorem asc_append (a b : String) : asc (a ++ b) = asc a ++ asc b := by
  unfold asc
  rw [String.toList_append, List.map_append]

theorem asc_toString (n : Nat) : asc (toString n) = pct_u n := by
  show asc n.repr = _
  unfold asc
  rw [Nat.toList_repr]
  induction n using Nat.strongRecOn with
  | _ n ih =>
    rw [pct_u, Nat.toDigits_eq_if (by decide)]
    have hd : ∀ d, d < 10 → BitVec.ofNat 8 (Nat.digitChar d).toNat = BitVec.ofNat 8 (48 + d) := by decide
    by_cases h : n < 10
    · rw [if_pos h, if_pos h, List.map_cons, hd n h]
      rfl
    · rw [if_neg h, if_neg h, List.map_append, ih _ (by omega), List.map_cons, hd _ (by omega)]
      rfl

theorem pct_d_nat (n : Nat) : pct_d n = pct_u n := by
  unfold pct_d
  rw [if_neg (by omega)]
  rfl

theorem asc_hex (b : Bytes) : asc (hex b) = b.flatMap pct_02X := by
  unfold asc hex
  rw [String.toList_ofList]
  have hd : ∀ d, d < 16 → BitVec.ofNat 8 (hexDigit d).toNat = pct_X1 d := by decide
  induction b with
  | nil => rfl
  | cons x b ih =>
    rw [List.flatMap_cons, List.flatMap_cons, List.map_append, ih]
    have hx := x.isLt
    show [BitVec.ofNat 8 (hexDigit _).toNat, BitVec.ofNat 8 (hexDigit _).toNat] ++ _ = pct_02X x ++ _
    rw [hd _ (by omega), hd _ (by omega)]
    rfl

theorem put_put (fs : FS) (n a b : Bytes) : (fs.put n a).put n b = fs.put n (a ++ b) := by
  funext f
  unfold FS.put
  by_cases h : f = n
  · simp [h]
  · simp [h]

theorem put_nil_of {fs : FS} {n x : Bytes} (h : fs n = some x) : fs.put n [] = fs := by
  funext f
  unfold FS.put
  by_cases hf : f = n
  · rw [if_pos hf, hf, h]; simp
  · rw [if_neg hf]

theorem fprintBstr_ok (fs : FS) (fp S : Bytes) {A : Bytes} {L : Nat} (hA : L ≤ A.length) (h0 : 0 < L) :
    fprintBstr fs fp S A L = .ok (fs.put fp (S ++ (A.take L).flatMap pct_02X ++ asc "\n")) := by
  unfold fprintBstr
  dsimp only
  rw [forRange_eq' (fun i => fs.put fp (S ++ (A.take i).flatMap pct_02X)) (t := fs.put fp (S ++ (A.take L).flatMap pct_02X))
    (by simp) rfl ?_]
  · simp only [ok_bind]
    rw [if_neg (by omega), put_put]
  · intro i hi
    rw [rd1_ok (by omega), ok_bind, put_put, List.take_add_one, List.getElem?_eq_getElem (by omega), List.flatMap_append,
      List.append_assoc]
    simp

/-! ## Numbers -/

theorem pct_u_digits (n : Nat) : (∀ c ∈ pct_u n, isdigit c = true) ∧ pct_u n ≠ [] ∧ digits_val (pct_u n) = n := by
  have hd : ∀ d, d < 10 → isdigit (BitVec.ofNat 8 (48 + d)) = true ∧ (BitVec.ofNat 8 (48 + d)).toNat - 48 = d := by decide
  induction n using Nat.strongRecOn with
  | _ n ih =>
    rw [pct_u]
    by_cases h : n < 10
    · rw [if_pos h]
      refine ⟨fun c hc => ?_, by simp, ?_⟩
      · rw [List.mem_singleton.1 hc]; exact (hd n h).1
      · show 10 * 0 + _ = n
        rw [(hd n h).2]; omega
    · rw [if_neg h]
      obtain ⟨h1, h2, h3⟩ := ih (n / 10) (by omega)
      refine ⟨fun c hc => ?_, by simp, ?_⟩
      · rcases List.mem_append.1 hc with hc | hc
        · exact h1 c hc
        · rw [List.mem_singleton.1 hc]; exact (hd _ (by omega)).1
      · unfold digits_val at h3 ⊢
        rw [List.foldl_append, h3]
        show 10 * (n / 10) + _ = n
        rw [(hd _ (by omega)).2]; omega

theorem scan_pct_u (n : Nat) {c : Byte} (hc : isdigit c = false) (rest : Bytes) :
    scan_number (pct_u n ++ c :: rest) = (some (false, n), c :: rest) := by
  obtain ⟨h1, h2, h3⟩ := pct_u_digits n
  have hsp : ∀ b : Byte, isdigit b = true → isspace b = false ∧ b ≠ 45#8 ∧ b ≠ 43#8 := by
    intro b hb
    unfold isdigit at hb
    unfold isspace
    simp only [decide_eq_true_eq, decide_eq_false_iff_not] at *
    refine ⟨by omega, ?_, ?_⟩ <;> rintro rfl <;> simp at hb
  generalize pct_u n = ds at *
  cases ds with
  | nil => exact absurd rfl h2
  | cons d ds =>
    obtain ⟨e1, e2, e3⟩ := hsp d (h1 d List.mem_cons_self)
    have ht : (d :: ds ++ c :: rest).takeWhile isdigit = d :: ds := by
      rw [List.takeWhile_append_of_pos h1, List.takeWhile_cons_of_neg (by simp [hc]), List.append_nil]
    have hdr : (d :: ds ++ c :: rest).dropWhile isdigit = c :: rest := by
      rw [List.dropWhile_append_of_pos h1, List.dropWhile_cons_of_neg (by simp [hc])]
    unfold scan_number
    have hdw : (d :: ds ++ c :: rest).dropWhile isspace = d :: ds ++ c :: rest := by
      rw [List.cons_append, List.dropWhile_cons_of_neg (by simp [e1])]
    have hm : scan_sign (d :: ds ++ c :: rest) = (false, d :: ds ++ c :: rest) := by
      rw [List.cons_append, scan_sign, if_neg e2, if_neg e3]
    rw [hdw]
    simp only [hm, ht, hdr]
    rw [if_neg (by simp), h3]

theorem fscanf_d_ok {n : Nat} (h : n < 2 ^ 31) {c : Byte} (hc : isdigit c = false) (rest : Bytes) (v : Int) :
    fscanf_d (pct_u n ++ c :: rest) v = .ok ((n : Int), c :: rest) := by
  unfold fscanf_d
  rw [scan_pct_u n hc]
  simp only [Bool.false_eq_true, if_false]
  rw [if_pos (by omega)]

theorem fscanf_llu_ok {n : Nat} (h : n < 2 ^ 64) {c : Byte} (hc : isdigit c = false) (rest : Bytes) (v : Nat) :
    fscanf_llu (pct_u n ++ c :: rest) v = .ok (n, c :: rest) := by
  unfold fscanf_llu
  rw [scan_pct_u n hc]
  simp only [Bool.false_eq_true, if_false]
  rw [if_pos h]

/-! ## The marker -/

theorem afterFirst_nil (s : Bytes) : afterFirst [] s = some s := by
  cases s <;> simp [afterFirst]

theorem afterFirst_short {k : Bytes} : ∀ {s : Bytes}, s.length < k.length → afterFirst k s = none := by
  intro s
  induction s with
  | nil => intro h; unfold afterFirst; rw [if_neg]; rintro rfl; simp at h
  | cons c s ih =>
    intro h
    unfold afterFirst
    rw [if_neg (fun hp => by have := hp.length_le; omega)]
    exact ih (by simp at h; omega)

theorem strncmp_eq_ok {a b : Bytes} {k : Nat} : ∀ {n i : Nat}, n + i = k → k ≤ a.length → k ≤ b.length →
    (∀ j, j < k → b[j]? ≠ some 0#8) →
    strncmp_eq a b n i = .ok (decide ((a.drop i).take n = (b.drop i).take n)) := by
  intro n
  induction n with
  | zero => intro i _ _ _ _; simp [strncmp_eq]
  | succ n ih =>
    intro i hi ha hb h0
    unfold strncmp_eq
    rw [rd1_ok (by omega), ok_bind, rd1_ok (by omega), ok_bind, List.drop_eq_getElem_cons (by omega : i < a.length),
      List.drop_eq_getElem_cons (by omega : i < b.length), List.take_succ_cons, List.take_succ_cons]
    by_cases h : a[i]'(by omega) = b[i]'(by omega)
    · rw [if_neg (by simpa using h), if_neg, ih (by omega) ha hb h0]
      · simp [h]
      · rw [h]
        intro h'
        exact h0 i (by omega) (by rw [List.getElem?_eq_getElem (by omega), h'])
    · rw [if_pos h]
      simp [h]

theorem shift_line {line : Bytes} {n : Nat} (h : n < line.length) :
    forRange n (fun i line => do wr1 line i (← rd1 line (i + 1))) line =
      .ok ((line.drop 1).take n ++ line.drop n) := by
  refine forRange_eq' (fun i => (line.drop 1).take i ++ line.drop i) (by simp) rfl ?_
  intro i hi
  have hl : ((line.drop 1).take i).length = i := by simp; omega
  have hg : ((line.drop 1).take i ++ line.drop i)[i + 1]? = some (line[i + 1]'(by omega)) := by
    rw [List.getElem?_append_right (by omega), hl, List.getElem?_drop, List.getElem?_eq_getElem (by omega)]
    congr 2
    omega
  rw [rd1, hg]
  simp only [ok_bind]
  rw [wr1_ok (by simp; omega), List.set_append_right _ _ (by omega), hl, Nat.sub_self,
    List.drop_eq_getElem_cons (by omega : i < line.length), List.set_cons_zero, List.take_add_one,
    List.getElem?_drop, List.getElem?_eq_getElem (by omega)]
  simp [Nat.add_comm]

theorem slide_ok {marker : Bytes} {len : Nat} (hlen : len ≤ 49) (hml : len ≤ marker.length) (h0 : 0#8 ∉ marker) :
    ∀ (infile line : Bytes), line.length = 50 →
      loop (infile.length + 1) (slide_body marker len) (line, infile) =
        .ok (match afterFirst (marker.take len) (line.take len ++ infile) with
          | some r => (1, r)
          | none => (0, [])) := by
  intro infile
  have hk : (marker.take len).length = len := by simp; omega
  have hcmp : ∀ line : Bytes, line.length = 50 →
      strncmp_eq line (marker ++ [0#8]) len 0 = .ok (decide (line.take len = marker.take len)) := by
    intro line hl
    rw [strncmp_eq_ok (k := len) (by omega) (by omega) (by simp; omega) (fun j hj h => by
      rw [List.getElem?_append_left (by omega)] at h
      exact h0 (List.mem_of_getElem? h)), List.drop_zero, List.drop_zero, List.take_append_of_le_length hml]
  have hpre : ∀ (w t : Bytes), w.length = len → (marker.take len <+: w ++ t ↔ w = marker.take len) := by
    intro w t hw
    constructor
    · intro h
      have := List.prefix_of_prefix_length_le h (List.prefix_append w t) (by omega)
      exact (this.eq_of_length (by omega)).symm
    · rintro rfl; exact List.prefix_append _ _
  have hhit : ∀ (w t : Bytes), w = marker.take len → afterFirst (marker.take len) (w ++ t) = some t := by
    intro w t hw
    subst hw
    cases hw : marker.take len with
    | nil => rw [List.nil_append, afterFirst_nil]
    | cons c w =>
      rw [List.cons_append, afterFirst, if_pos (by rw [← List.cons_append]; exact List.prefix_append _ _),
        ← List.cons_append, List.drop_left]
  induction infile with
  | nil =>
    intro line hl
    rw [loop_succ]
    unfold slide_body
    simp only []
    rw [hcmp line hl, ok_bind]
    by_cases h : line.take len = marker.take len
    · rw [if_pos (by simpa using h), hhit _ _ h]
      rfl
    · rw [if_neg (by simpa using h)]
      have hpos : 0 < len := by
        rcases Nat.eq_zero_or_pos len with h' | h'
        · subst h'; exact absurd rfl h
        · exact h'
      have e1 : (len + 2 ^ 64 - 1) % 2 ^ 64 = len - 1 := by omega
      have hn : afterFirst (marker.take len) (line.take len ++ []) = none := by
        rw [List.append_nil]
        cases hw : line.take len with
        | nil => exact afterFirst_short (by rw [hk]; simpa using hpos)
        | cons c w =>
          have hwl : (c :: w).length = len := by rw [← hw]; simp; omega
          show (if _ then _ else _) = _
          rw [if_neg (fun hp => h (by rw [hw]; exact (hpre (c :: w) [] hwl).1 (by rwa [List.append_nil])))]
          exact afterFirst_short (by rw [hk]; simp at hwl; omega)
      rw [hn, e1, shift_line (by omega)]
      simp only [ok_bind, fgetc]
      rw [wr1_ok (by simp; omega)]
      rfl
  | cons c infile ih =>
    intro line hl
    rw [List.length_cons, loop_succ]
    by_cases h : line.take len = marker.take len
    · have hb : slide_body marker len (line, c :: infile) = .ok (.inr (1, c :: infile)) := by
        unfold slide_body
        simp only []
        rw [hcmp line hl, ok_bind, if_pos (by simpa using h)]
      rw [hb, hhit _ _ h]
      rfl
    · have hpos : 0 < len := by
        rcases Nat.eq_zero_or_pos len with h' | h'
        · subst h'; exact absurd rfl h
        · exact h'
      have e1 : (len + 2 ^ 64 - 1) % 2 ^ 64 = len - 1 := by omega
      have hl2 : ((line.drop 1).take (len - 1)).length = len - 1 := by simp; omega
      have hb : slide_body marker len (line, c :: infile) =
          .ok (.inl (((line.drop 1).take (len - 1) ++ c :: line.drop len).set len 0#8, infile)) := by
        unfold slide_body
        simp only []
        rw [hcmp line hl, ok_bind, if_neg (by simpa using h), e1, shift_line (by omega)]
        simp only [ok_bind, fgetc]
        rw [wr1_ok (by simp; omega), ok_bind, List.set_append_right _ _ (by omega), hl2, Nat.sub_self,
          List.drop_eq_getElem_cons (by omega : len - 1 < line.length), List.set_cons_zero, show len - 1 + 1 = len by omega,
          wr1_ok (by simp; omega)]
        rfl
      rw [hb]
      simp only [ok_bind]
      rw [ih _ (by simp; omega)]
      have hw : line.take len = line[0]'(by omega) :: (line.drop 1).take (len - 1) := by
        obtain ⟨x, t, rfl⟩ : ∃ x t, line = x :: t := by
          cases line with
          | nil => simp at hl
          | cons x t => exact ⟨x, t, rfl⟩
        obtain ⟨n, rfl⟩ : ∃ n, len = n + 1 := ⟨len - 1, by omega⟩
        rfl
      have e2 : afterFirst (marker.take len) (line.take len ++ c :: infile) =
          afterFirst (marker.take len) ((line.drop 1).take (len - 1) ++ c :: infile) := by
        rw [hw, List.cons_append, afterFirst, if_neg (fun hp => h (by
          rw [hw]
          exact (hpre (line[0]'(by omega) :: (line.drop 1).take (len - 1)) (c :: infile) (by simp; omega)).1 hp))]
      have e3 : (((line.drop 1).take (len - 1) ++ c :: line.drop len).set len 0#8).take len =
          (line.drop 1).take (len - 1) ++ [c] := by
        rw [List.take_set_of_le (by omega)]
        rw [List.take_append, hl2, List.take_of_length_le (by omega), show len - (len - 1) = 1 by omega]
        rfl
      rw [e2, e3, List.append_assoc, List.singleton_append]

theorem fill_ok (len : Nat) {line : Bytes} (hl : len ≤ line.length) :
    ∀ (k i : Nat) (infile pre : Bytes), k + i = len → pre.length = i → 
      loop (k + 1) (fill_body len) (i, pre ++ line.drop i, infile) =
        .ok (if infile.length < k then none else some (pre ++ infile.take k ++ line.drop len, infile.drop k)) := by
  intro k
  induction k with
  | zero =>
    intro i infile pre h hp
    rw [loop_succ]
    unfold fill_body
    simp only []
    rw [if_neg (by omega), if_neg (by omega), show i = len by omega]
    simp
  | succ k ih =>
    intro i infile pre h hp
    rw [loop_succ]
    cases infile with
    | nil =>
      unfold fill_body
      simp only []
      rw [if_pos (by omega)]
      simp only [fgetc]
      rw [wr1_ok (by simp; omega), if_pos (by simp)]
      rfl
    | cons c infile =>
      have hb : fill_body len (i, pre ++ line.drop i, c :: infile) =
          .ok (.inl (i + 1, pre ++ c :: line.drop (i + 1), infile)) := by
        unfold fill_body
        simp only []
        rw [if_pos (by omega)]
        simp only [fgetc]
        rw [wr1_ok (by simp; omega), ok_bind, List.set_append_right _ _ (by omega), hp, Nat.sub_self,
          List.drop_eq_getElem_cons (by omega : i < line.length), List.set_cons_zero]
      rw [hb]
      simp only [ok_bind]
      have := ih (i + 1) infile (pre ++ [c]) (by omega) (by simp; omega)
      rw [List.append_assoc, List.singleton_append] at this
      rw [this]
      simp [Nat.succ_lt_succ_iff]

/-- `FindMarker` finds the first occurrence of the first 49 characters of the marker. -/
theorem FindMarker_ok (g : Nat → Byte) (infile : Bytes) {marker : Bytes} (h0 : 0#8 ∉ marker) :
    FindMarker g infile marker = .ok (match afterFirst (marker.take 49) infile with
      | some r => (1, r)
      | none => (0, [])) := by
  have hlen : (if marker.length > MAX_MARKER_LEN - 1 then MAX_MARKER_LEN - 1 else marker.length) = min marker.length 49 := by
    unfold MAX_MARKER_LEN
    split <;> omega
  have htk : marker.take (min marker.length 49) = marker.take 49 := by
    rw [Nat.min_comm, ← List.take_eq_take_min]
  unfold FindMarker
  simp only []
  rw [hlen]
  have hf := fill_ok (min marker.length 49) (line := uninit g MAX_MARKER_LEN) (by rw [uninit_length]; unfold MAX_MARKER_LEN; omega)
    (min marker.length 49) 0 infile [] (by omega) rfl
  rw [List.drop_zero, List.nil_append] at hf
  rw [hf, ok_bind]
  by_cases h : infile.length < min marker.length 49
  · rw [if_pos h, afterFirst_short (by simp; omega)]
  · rw [if_neg h]
    simp only [List.nil_append]
    have hll : (infile.take (min marker.length 49) ++ (uninit g MAX_MARKER_LEN).drop (min marker.length 49)).length = 50 := by
      simp [MAX_MARKER_LEN]; omega
    rw [wr1_ok (by rw [hll]; omega), ok_bind, slide_ok (by omega) (by omega) h0 _ _ (by rw [List.length_set, hll]),
      List.take_set_of_le (by omega), List.take_append_of_le_length (by simp; omega), List.take_take, Nat.min_self,
      List.take_append_drop, htk]

end Spx.Kat
