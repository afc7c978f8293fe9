import Verif.Proof.Base
import Verif.Spec.Sponge
/-! Byte-wise view of the sponge construction. -/

namespace Spx
open Spec

/-- Exclusive or of `t` into the state from position `c` on, byte by byte. -/
def xorAt (st : Bytes) (c : Nat) : Bytes → Bytes
  | [] => st
  | b :: t => xorAt (st.modify c (· ^^^ b)) (c + 1) t

/-- Absorb one byte; the second component counts the bytes of the current block. -/
def absB (f : Bytes → Bytes) (r : Nat) (x : Bytes × Nat) (b : Byte) : Bytes × Nat :=
  if x.2 + 1 = r then (f (x.1.modify x.2 (· ^^^ b)), 0) else (x.1.modify x.2 (· ^^^ b), x.2 + 1)

@[simp] theorem xorAt_length (st : Bytes) (c : Nat) (t : Bytes) : (xorAt st c t).length = st.length := by
  induction t generalizing st c with
  | nil => rfl
  | cons b t ih => simp [xorAt, ih]

theorem xorAt_append (st : Bytes) (c : Nat) (t u : Bytes) :
    xorAt st c (t ++ u) = xorAt (xorAt st c t) (c + t.length) u := by
  induction t generalizing st c with
  | nil => simp [xorAt]
  | cons b t ih => simp [xorAt, ih]; congr 1; omega

theorem xorAt_snoc (st : Bytes) (c : Nat) (t : Bytes) (b : Byte) :
    xorAt st c (t ++ [b]) = (xorAt st c t).modify (c + t.length) (· ^^^ b) := by
  simp [xorAt_append, xorAt]

theorem modify_zero (st : Bytes) (c : Nat) : st.modify c (· ^^^ (0#8)) = st := by
  apply List.ext_getElem?
  intro i
  rw [List.getElem?_modify]
  split <;> simp

theorem xorAt_zero (st : Bytes) (c k : Nat) : xorAt st c (List.replicate k 0#8) = st := by
  induction k generalizing st c with
  | zero => rfl
  | succ k ih => rw [List.replicate_succ, xorAt, modify_zero, ih]

theorem foldl_absB_lt (f : Bytes → Bytes) (r : Nat) (st : Bytes) (c : Nat) (t : Bytes)
    (h : c + t.length < r) : t.foldl (absB f r) (st, c) = (xorAt st c t, c + t.length) := by
  induction t generalizing st c with
  | nil => rfl
  | cons b t ih =>
    simp only [List.length_cons] at h
    rw [List.foldl_cons, absB, if_neg (by simp; omega), ih _ _ (by omega)]
    simp [xorAt]; omega

theorem foldl_absB_eq (f : Bytes → Bytes) (r : Nat) (st : Bytes) (c : Nat) (t : Bytes)
    (hc : c < r) (h : c + t.length = r) : t.foldl (absB f r) (st, c) = (f (xorAt st c t), 0) := by
  have hne : t ≠ [] := by rintro rfl; simp at h; omega
  obtain ⟨u, b, rfl⟩ : ∃ u b, t = u ++ [b] := ⟨t.dropLast, t.getLast hne, (List.dropLast_concat_getLast hne).symm⟩
  simp only [List.length_append, List.length_singleton] at h
  rw [List.foldl_append, foldl_absB_lt f r st c u (by omega), xorAt_snoc]
  simp [absB, show c + u.length + 1 = r by omega]

theorem foldl_absB_snd (f : Bytes → Bytes) {r : Nat} (t : Bytes) {x : Bytes × Nat} (h : x.2 < r) :
    (t.foldl (absB f r) x).2 < r := by
  induction t generalizing x with
  | nil => exact h
  | cons b t ih =>
    apply ih
    unfold absB
    split
    · simp; omega
    · simp; omega

theorem foldl_absB_length {f : Bytes → Bytes} {r b : Nat} (hf : ∀ s, s.length = b → (f s).length = b)
    (t : Bytes) {x : Bytes × Nat} (h : x.1.length = b) : (t.foldl (absB f r) x).1.length = b := by
  induction t generalizing x with
  | nil => exact h
  | cons b t ih =>
    apply ih
    unfold absB
    split
    · exact hf _ (by simpa using h)
    · simpa using h

theorem xorInto_eq (s t : Bytes) (h : t.length ≤ s.length) : xorInto s t = xorAt s 0 t := by
  have key : ∀ (t : Bytes) (pre s : Bytes), t.length ≤ s.length →
      pre ++ xorInto s t = xorAt (pre ++ s) pre.length t := by
    intro t
    induction t with
    | nil => intro pre s _; simp [xorInto, xorBytes, xorAt]
    | cons b t ih =>
      intro pre s h
      cases s with
      | nil => simp at h
      | cons a s =>
        have := ih (pre ++ [a ^^^ b]) s (by simpa using h)
        simp only [xorAt]
        have e : (pre ++ a :: s).modify pre.length (· ^^^ b) = (pre ++ [a ^^^ b]) ++ s := by
          simp [List.modify_eq_take_drop]
        rw [e]
        simpa [xorInto, xorBytes] using this
  simpa using key t [] s h

theorem absorbBlocks_length {f : Bytes → Bytes} {r b : Nat} (hf : ∀ s, s.length = b → (f s).length = b)
    (hr : r ≤ b) {s m : Bytes} (hs : s.length = b) {k : Nat} (hk : k * r ≤ m.length) :
    (absorbBlocks f r s m k).length = b := by
  induction k with
  | zero => exact hs
  | succ k ih =>
    have hk' : k * r ≤ m.length := by rw [Nat.succ_mul] at hk; omega
    apply hf
    rw [xorInto_eq _ _ (by rw [ih hk', chunk_length hk]; omega)]
    simp [ih hk']

theorem absorbBlocks_append {f : Bytes → Bytes} {r : Nat} {s m x : Bytes} {k : Nat} (hk : k * r ≤ m.length) :
    absorbBlocks f r s (m ++ x) k = absorbBlocks f r s m k := by
  induction k with
  | zero => rfl
  | succ k ih =>
    rw [Nat.succ_mul] at hk
    rw [absorbBlocks, absorbBlocks, ih (by omega)]
    congr 2
    rw [chunk, chunk, List.drop_append_of_le_length (by omega), List.take_append_of_le_length (by simp; omega)]

/-- Absorbing byte by byte: complete blocks, then the rest. -/
theorem foldl_absB (f : Bytes → Bytes) {r b : Nat} (hf : ∀ s, s.length = b → (f s).length = b)
    (hr0 : 0 < r) (hr : r ≤ b) {s : Bytes} (hs : s.length = b) (m : Bytes) :
    m.foldl (absB f r) (s, 0) =
      (xorAt (absorbBlocks f r s m (m.length / r)) 0 (m.drop (m.length / r * r)), m.length % r) := by
  generalize hq : m.length / r = q
  have hql : q * r ≤ m.length := by rw [← hq]; exact Nat.div_mul_le_self _ _
  have hmod : m.length - q * r = m.length % r := by
    have := Nat.div_add_mod m.length r
    rw [hq, Nat.mul_comm] at this; omega
  have key : ∀ k, k ≤ q → (m.take (k * r)).foldl (absB f r) (s, 0) = (absorbBlocks f r s m k, 0) := by
    intro k
    induction k with
    | zero => intro _; simp [absorbBlocks]
    | succ k ih =>
      intro hk
      have hkl : (k + 1) * r ≤ m.length := Nat.le_trans (Nat.mul_le_mul_right r hk) hql
      have hc : (chunk r m k).length = r := chunk_length hkl
      have hkl' : k * r ≤ m.length := by rw [Nat.succ_mul] at hkl; omega
      rw [Nat.succ_mul, List.take_add, List.foldl_append, ih (by omega)]
      show List.foldl (absB f r) _ (chunk r m k) = _
      rw [foldl_absB_eq f r _ 0 _ hr0 (by omega), absorbBlocks,
        xorInto_eq _ _ (by rw [hc, absorbBlocks_length hf hr hs hkl']; exact hr)]
  conv => lhs; rw [← List.take_append_drop (q * r) m]
  rw [List.foldl_append, key q (Nat.le_refl _), foldl_absB_lt]
  · simp; omega
  · simp only [List.length_drop, hmod, Nat.zero_add]; exact Nat.mod_lt _ hr0

/-- The state after the padding has been added, before the last permutation. -/
def padState (r : Nat) (dom : Byte) (x : Bytes × Nat) : Bytes :=
  (x.1.modify x.2 (· ^^^ dom)).modify (r - 1) (· ^^^ 0x80#8)

theorem modify_modify_xor (l : Bytes) (i : Nat) (a b : Byte) :
    (l.modify i (· ^^^ a)).modify i (· ^^^ b) = l.modify i (· ^^^ (a ^^^ b)) := by
  apply List.ext_getElem?
  intro j
  simp only [List.getElem?_modify]
  split <;> cases l[j]? <;> simp [BitVec.xor_assoc]

theorem foldl_padding (f : Bytes → Bytes) {r : Nat} {dom : Byte} (st : Bytes) (len : Nat) (hr : 0 < r) :
    (padding r dom len).foldl (absB f r) (st, len % r) = (f (padState r dom (st, len % r)), 0) ∧
      (padding r dom len).length = r - len % r := by
  have hc : len % r < r := Nat.mod_lt _ hr
  generalize hcd : len % r = c at *
  by_cases h1 : r - c = 1
  · have : c = r - 1 := by omega
    simp only [padding, hcd, if_pos h1]
    constructor
    · rw [foldl_absB_eq f r st c _ hc (by simp; omega)]
      simp [xorAt, padState, this, modify_modify_xor]
    · simp [h1]
  · simp only [padding, hcd, if_neg h1]
    constructor
    · rw [foldl_absB_eq f r st c _ hc (by simp; omega)]
      rw [xorAt, xorAt_append, xorAt_zero]
      simp [xorAt, padState, show c + 1 + (r - c - 2) = r - 1 by omega]
    · simp; omega

/-- Output byte `j` of the sponge with (unpermuted) final state `fin`. -/
def stream (f : Bytes → Bytes) (r : Nat) (fin : Bytes) (j : Nat) : Byte :=
  (iter f (j / r + 1) fin).getD (j % r) 0

theorem iter_succ' {α : Type} (f : α → α) (k : Nat) (x : α) : iter f (k + 1) x = iter f k (f x) := by
  induction k with
  | zero => rfl
  | succ k ih => rw [iter, ih, iter]

/-- The sponge, by way of the byte machine. -/
theorem sponge_eq {f : Bytes → Bytes} {r b : Nat} {dom : Byte}
    (hf : ∀ s, s.length = b → (f s).length = b) (hr0 : 0 < r) (hr : r ≤ b) (m : Bytes) (outlen : Nat) :
    sponge f b r dom m outlen = (List.range outlen).map
      (stream f r (padState r dom (m.foldl (absB f r) (List.replicate b 0#8, 0)))) := by
  have hs : (List.replicate b 0#8).length = b := by simp
  have hp := foldl_padding f (dom := dom)
    (m.foldl (absB f r) (List.replicate b 0#8, 0)).1 m.length hr0
  have h2 : (m.foldl (absB f r) (List.replicate b 0#8, 0)).2 = m.length % r := by
    rw [foldl_absB f hf hr0 hr hs m]
  have hlen : (m ++ padding r dom m.length).length = (m.length / r + 1) * r := by
    rw [List.length_append, hp.2, Nat.succ_mul]
    have := Nat.div_add_mod m.length r
    rw [Nat.mul_comm] at this
    have := Nat.mod_lt m.length hr0
    omega
  have ha := foldl_absB f hf hr0 hr hs (m ++ padding r dom m.length)
  rw [hlen, Nat.mul_div_cancel _ hr0, ← hlen, List.drop_length, List.foldl_append] at ha
  have e : (m.foldl (absB f r) (List.replicate b 0#8, 0)) =
      ((m.foldl (absB f r) (List.replicate b 0#8, 0)).1, m.length % r) := by rw [← h2]
  rw [e, hp.1, ← h2] at ha
  unfold sponge squeeze
  simp only [hlen, Nat.mul_div_cancel _ hr0]
  have ha1 := congrArg Prod.fst ha
  simp only [xorAt] at ha1
  rw [← ha1]
  apply List.map_congr_left
  intro j _
  rw [stream, iter_succ']

theorem sponge_length (f : Bytes → Bytes) (b r : Nat) (dom : Byte) (m : Bytes) (outlen : Nat) :
    (sponge f b r dom m outlen).length = outlen := by simp [sponge, squeeze]

end Spx
