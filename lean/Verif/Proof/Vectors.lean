import Verif.Model.Vectors
import Verif.Spec.Vectors
/-! # Lines of files of sums -/

namespace Spx.Vectors
open Kat Spec Spec.Kat Spec.Vectors

theorem findstring_iff {t s : Bytes} : findstring t s = true ↔ t <:+: s := by
  induction s with
  | nil => simp [findstring]
  | cons c s ih => rw [findstring, Bool.or_eq_true, ih, List.infix_cons_iff, List.isPrefixOf_iff_prefix]

theorem hex_byte : ∀ x : Byte, ascii (String.ofList [("0123456789abcdef".toList.getD (x.toNat / 16) '?'),
    ("0123456789abcdef".toList.getD (x.toNat % 16) '?')]) =
    [if x.toNat / 16 < 10 then BitVec.ofNat 8 (48 + x.toNat / 16) else BitVec.ofNat 8 (97 + (x.toNat / 16 - 10)),
     if x.toNat % 16 < 10 then BitVec.ofNat 8 (48 + x.toNat % 16) else BitVec.ofNat 8 (97 + (x.toNat % 16 - 10))] := by
  have h : ∀ d < 16, BitVec.ofNat 8 ("0123456789abcdef".toList.getD d '?').toNat =
      if d < 10 then BitVec.ofNat 8 (48 + d) else BitVec.ofNat 8 (97 + (d - 10)) := by decide
  intro x
  unfold ascii
  rw [String.toList_ofList, List.map_cons, List.map_cons, List.map_nil, h _ (by have := x.isLt; omega),
    h _ (by have := x.isLt; omega)]

theorem hexdigest_eq (b : Bytes) : hexdigest b = lowerHex b := by
  unfold hexdigest lowerHex
  exact congrArg (fun f => b.flatMap f) (funext fun x => (hex_byte x).symm)

theorem lowerHex_cons (x : Byte) (b : Bytes) : ∃ c d, lowerHex (x :: b) = c :: d :: lowerHex b ∧
    c ≠ 32 ∧ d ≠ 32 ∧ c ≠ 10 ∧ d ≠ 10 ∧
    c.toNat = (if x.toNat / 16 < 10 then 48 + x.toNat / 16 else 97 + (x.toNat / 16 - 10)) ∧
    d.toNat = (if x.toNat % 16 < 10 then 48 + x.toNat % 16 else 97 + (x.toNat % 16 - 10)) := by
  have hx := x.isLt
  have e : ∀ k < 16, (if k < 10 then BitVec.ofNat 8 (48 + k) else BitVec.ofNat 8 (97 + (k - 10))).toNat =
      if k < 10 then 48 + k else 97 + (k - 10) := by decide
  have n1 : ∀ k < 16, (if k < 10 then BitVec.ofNat 8 (48 + k) else BitVec.ofNat 8 (97 + (k - 10))) ≠ 32 := by decide
  have n2 : ∀ k < 16, (if k < 10 then BitVec.ofNat 8 (48 + k) else BitVec.ofNat 8 (97 + (k - 10))) ≠ 10 := by decide
  refine ⟨_, _, ?_, n1 (x.toNat / 16) (by omega), n1 (x.toNat % 16) (by omega), n2 _ (by omega), n2 _ (by omega),
    e _ (by omega), e _ (by omega)⟩
  unfold lowerHex
  rw [List.flatMap_cons, hex_byte]
  rfl

theorem length_lowerHex (b : Bytes) : (lowerHex b).length = 2 * b.length := by
  induction b with
  | nil => rfl
  | cons x b ih =>
    obtain ⟨c, d, e, -⟩ := lowerHex_cons x b
    rw [e]
    simp only [List.length_cons, ih]
    omega

theorem not_mem_lowerHex (b : Bytes) : 32#8 ∉ lowerHex b ∧ 10#8 ∉ lowerHex b := by
  induction b with
  | nil => exact ⟨List.not_mem_nil, List.not_mem_nil⟩
  | cons x b ih =>
    obtain ⟨c, d, e, h1, h2, h3, h4, -⟩ := lowerHex_cons x b
    rw [e]
    simp only [List.mem_cons, not_or]
    exact ⟨⟨h1.symm, h2.symm, ih.1⟩, h3.symm, h4.symm, ih.2⟩

theorem lowerHex_injective : ∀ {a b : Bytes}, lowerHex a = lowerHex b → a = b
  | [], [] => fun _ => rfl
  | [], y :: b => fun h => by have := congrArg List.length h; rw [length_lowerHex, length_lowerHex] at this; simp at this
  | x :: a, [] => fun h => by have := congrArg List.length h; rw [length_lowerHex, length_lowerHex] at this; simp at this
  | x :: a, y :: b => fun h => by
    obtain ⟨c, d, e, -, -, -, -, hc, hd⟩ := lowerHex_cons x a
    obtain ⟨c', d', e', -, -, -, -, hc', hd'⟩ := lowerHex_cons y b
    rw [e, e', List.cons.injEq, List.cons.injEq] at h
    obtain ⟨rfl, rfl, h⟩ := h
    rw [hc] at hc'
    rw [hd] at hd'
    have hx := x.isLt
    have hy := y.isLt
    have : x.toNat = y.toNat := by
      split at hc' <;> split at hc' <;> split at hd' <;> split at hd' <;> omega
    rw [BitVec.eq_of_toNat_eq this, lowerHex_injective h]

/-- The end of a line shows where the line is. -/
theorem suffix_of_infix {body : Bytes} (hb : 10#8 ∉ body) : ∀ {es : List (Bytes × Bytes)} {u v : Bytes},
    (∀ e ∈ es, 10#8 ∉ line e) → u ++ (body ++ 10#8 :: v) = file es → ∃ e ∈ es, body <:+ line e
  | [], u, v, _, h => by simp [file] at h
  | e :: es, u, v, he, h => by
    have hf : file (e :: es) = line e ++ 10#8 :: file es := by simp [file]
    rw [hf, ← List.append_assoc, List.append_eq_append_iff] at h
    rcases h with ⟨a, h1, h2⟩ | ⟨c, h1, h2⟩
    · cases a with
      | nil => exact ⟨e, List.mem_cons_self, u, by rw [h1, List.append_nil]⟩
      | cons x a =>
        rw [List.cons_append, List.cons.injEq] at h2
        refine absurd ?_ (he e List.mem_cons_self)
        rw [h1, ← h2.1]
        simp
    · cases c with
      | nil => exact ⟨e, List.mem_cons_self, u, by rw [h1, List.append_nil]⟩
      | cons x c =>
        rw [List.cons_append, List.cons.injEq] at h2
        rw [← h2.1] at h1
        have hn : ∃ u', u = line e ++ 10#8 :: u' ∧ u' ++ body = c := by
          rw [List.append_eq_append_iff] at h1
          rcases h1 with ⟨a, h3, h4⟩ | ⟨a, h3, h4⟩
          · exact absurd (h4 ▸ by simp) hb
          · cases a with
            | nil =>
              rw [List.nil_append] at h4
              exact absurd (h4 ▸ List.mem_cons_self) hb
            | cons y a =>
              rw [List.cons_append, List.cons.injEq] at h4
              exact ⟨a, by rw [h3, h4.1], h4.2.symm⟩
        obtain ⟨u', -, rfl⟩ := hn
        obtain ⟨e', h5, h6⟩ := suffix_of_infix hb (fun e' h' => he e' (List.mem_cons_of_mem _ h'))
          (show u' ++ (body ++ 10#8 :: v) = file es by rw [h2.2, List.append_assoc])
        exact ⟨e', List.mem_cons_of_mem _ h5, h6⟩

theorem line_of_suffix {e e' : Bytes × Bytes} (h : Entry e) (h' : Entry e') (hs : line e <:+ line e') : e = e' := by
  obtain ⟨u, hs⟩ := hs
  have hl : (lowerHex e.1).length = (lowerHex e'.1).length := by
    rw [length_lowerHex, length_lowerHex, h.1, h'.1]
  unfold line at hs
  rw [← List.append_assoc] at hs
  have key : u ++ lowerHex e.1 = lowerHex e'.1 ∧ e.2 = e'.2 := by
    rcases List.append_eq_append_iff.mp hs with ⟨a, h1, h2⟩ | ⟨a, h1, h2⟩
    · cases a with
      | nil =>
        rw [List.nil_append, List.cons.injEq] at h2
        exact ⟨by rw [h1, List.append_nil], h2.2⟩
      | cons x a =>
        rw [List.cons_append, List.cons.injEq] at h2
        refine absurd ?_ (not_mem_lowerHex e'.1).1
        rw [h1, ← h2.1]
        simp
    · cases a with
      | nil =>
        rw [List.nil_append, List.cons.injEq] at h2
        exact ⟨by rw [h1, List.append_nil], h2.2.symm⟩
      | cons x a =>
        rw [List.cons_append, List.cons.injEq] at h2
        exact absurd (h2.2 ▸ by simp) h'.2.1
  have hu : u = [] := by
    have := congrArg List.length key.1
    rw [List.length_append, hl] at this
    exact List.eq_nil_of_length_eq_zero (by omega)
  rw [hu, List.nil_append] at key
  exact Prod.ext (lowerHex_injective key.1) key.2

/-- Looking for a line finds lines only. -/
theorem findstring_line {es : List (Bytes × Bytes)} (hes : ∀ e ∈ es, Entry e) {e : Bytes × Bytes} (he : Entry e) :
    findstring (line e ++ [10#8]) (file es) = true ↔ e ∈ es := by
  have hn : ∀ e : Bytes × Bytes, Entry e → 10#8 ∉ line e := fun e he h => by
    rcases List.mem_append.mp h with h | h
    · exact (not_mem_lowerHex _).2 h
    · rcases List.mem_cons.mp h with h | h
      · revert h; decide
      · exact he.2.2 h
  rw [findstring_iff]
  constructor
  · rintro ⟨u, v, h⟩
    obtain ⟨e', h1, h2⟩ := suffix_of_infix (hn e he) (u := u) (v := v) (fun e h => hn e (hes e h))
      (by rw [← h]; simp)
    rwa [line_of_suffix he (hes e' h1) h2]
  · intro h
    obtain ⟨a, b, rfl⟩ := List.append_of_mem h
    exact ⟨file a, file b, by simp [file]⟩

end Spx.Vectors
