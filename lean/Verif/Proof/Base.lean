import Verif.Base
/-! Lemmas about buffers and loops. -/

namespace Spx

@[simp] theorem ok_bind {α β : Type} (a : α) (f : α → C β) :
    ((Except.ok a : C α) >>= f) = f a := rfl

@[simp] theorem error_bind {α β : Type} (e : UB) (f : α → C β) :
    ((Except.error e : C α) >>= f) = .error e := rfl

@[simp] theorem pure_eq_ok {α : Type} (a : α) : (pure a : C α) = .ok a := rfl

theorem rd_ok {α : Type} {b : List α} {off len : Nat} (h : off + len ≤ b.length) :
    rd b off len = .ok ((b.drop off).take len) := by simp [rd, h]

theorem wr_ok {α : Type} {b d : List α} {off : Nat} (h : off + d.length ≤ b.length) :
    wr b off d = .ok (b.take off ++ d ++ b.drop (off + d.length)) := by simp only [wr, h, if_true]

theorem rd1_ok {α : Type} {b : List α} {i : Nat} (h : i < b.length) :
    rd1 b i = .ok b[i] := by simp [rd1, h]

theorem wr1_ok {α : Type} {b : List α} {i : Nat} {x : α} (h : i < b.length) :
    wr1 b i x = .ok (b.set i x) := by simp [wr1, h]

theorem sub_ok {α : Type} {b : List α} {off : Nat} (h : off ≤ b.length) :
    sub b off = .ok (b.drop off) := by simp [sub, h]

theorem withSub_ok {α β : Type} {b : List α} {off : Nat} {f : List α → C (List α × β)}
    {d : List α} {x : β} (h : off ≤ b.length) (hf : f (b.drop off) = .ok (d, x)) :
    withSub b off f = .ok (b.take off ++ d, x) := by simp [withSub, h, hf]

theorem shl1_ok {k : Nat} (h : k < 31) : shl1 k = .ok (2 ^ k) := by simp [shl1, h]

@[simp] theorem uninit_length {α : Type} (g : Nat → α) (n : Nat) : (uninit g n).length = n := by
  simp [uninit]

/-- Loop with an explicitly known sequence of states. -/
theorem forRange_eq {σ : Type} {n : Nat} {body : Nat → σ → C σ} (S : Nat → σ)
    (hs : ∀ i, i < n → body i (S i) = .ok (S (i + 1))) :
    forRange n body (S 0) = .ok (S n) := by
  induction n with
  | zero => rfl
  | succ n ih =>
    rw [forRange, ih (fun i hi => hs i (by omega))]
    exact hs n (by omega)

theorem forRange_eq' {σ : Type} {n : Nat} {body : Nat → σ → C σ} (S : Nat → σ) {s t : σ}
    (h0 : s = S 0) (hn : t = S n)
    (hs : ∀ i, i < n → body i (S i) = .ok (S (i + 1))) :
    forRange n body s = .ok t := by
  subst h0; subst hn; exact forRange_eq S hs

/-- Loop with a relational invariant. -/
theorem forRange_inv {σ : Type} {n : Nat} {body : Nat → σ → C σ} {s : σ} (Inv : Nat → σ → Prop)
    (h0 : Inv 0 s)
    (hs : ∀ i s, i < n → Inv i s → ∃ s', body i s = .ok s' ∧ Inv (i + 1) s') :
    ∃ s', forRange n body s = .ok s' ∧ Inv n s' := by
  induction n with
  | zero => exact ⟨s, rfl, h0⟩
  | succ n ih =>
    obtain ⟨s1, h1, i1⟩ := ih (fun i s hi => hs i s (by omega))
    obtain ⟨s2, h2, i2⟩ := hs n s1 (by omega) i1
    exact ⟨s2, by rw [forRange, h1]; exact h2, i2⟩

theorem forRange_congr {σ : Type} {n : Nat} {f g : Nat → σ → C σ} {s : σ}
    (h : ∀ i s, i < n → f i s = g i s) : forRange n f s = forRange n g s := by
  induction n with
  | zero => rfl
  | succ n ih =>
    rw [forRange, forRange, ih (fun i s hi => h i s (by omega))]
    congr 1
    funext s
    exact h n s (by omega)

/-- Fuelled loop with a relational invariant and known number of iterations. -/
theorem loop_inv {σ ρ : Type} {body : σ → C (σ ⊕ ρ)} (Inv : Nat → σ → Prop)
    (Post : ρ → Prop) (k : Nat)
    (step : ∀ i s, i < k → Inv i s → ∃ s', body s = .ok (.inl s') ∧ Inv (i + 1) s')
    (last : ∀ s, Inv k s → ∃ r, body s = .ok (.inr r) ∧ Post r)
    {fuel : Nat} (hf : k < fuel) {s : σ} (h0 : Inv 0 s) :
    ∃ r, loop fuel body s = .ok r ∧ Post r := by
  suffices h : ∀ j fuel s, j ≤ k → k - j < fuel → Inv j s →
      ∃ r, loop fuel body s = .ok r ∧ Post r by
    exact h 0 fuel s (by omega) (by omega) h0
  intro j
  induction hj : k - j generalizing j with
  | zero =>
    intro fuel s hjk hfu hi
    have : j = k := by omega
    subst this
    obtain ⟨r, hr, hp⟩ := last s hi
    cases fuel with
    | zero => omega
    | succ f => exact ⟨r, by rw [loop_succ, hr]; rfl, hp⟩
  | succ m ih =>
    intro fuel s hjk hfu hi
    obtain ⟨s', hs', hi'⟩ := step j s (by omega) hi
    cases fuel with
    | zero => omega
    | succ f =>
      obtain ⟨r, hr, hp⟩ := ih (j + 1) (by omega) f s' (by omega) (by omega) hi'
      exact ⟨r, by rw [loop_succ, hs']; exact hr, hp⟩

/-- Fuelled loop with explicitly known states. -/
theorem loop_eq {σ ρ : Type} {body : σ → C (σ ⊕ ρ)} (S : Nat → σ) (k : Nat) {r : ρ}
    (step : ∀ i, i < k → body (S i) = .ok (.inl (S (i + 1))))
    (last : body (S k) = .ok (.inr r))
    {fuel : Nat} (hf : k < fuel) :
    loop fuel body (S 0) = .ok r := by
  obtain ⟨r', h, hp⟩ := loop_inv (body := body) (fun i s => s = S i) (fun x => x = r) k
    (fun i s hi hs => ⟨_, by rw [hs]; exact step i hi, rfl⟩)
    (fun s hs => ⟨r, by rw [hs]; exact last, rfl⟩) hf (s := S 0) rfl
  rw [h, hp]

theorem cat_length {α : Type} {k n : Nat} {f : Nat → List α} (h : ∀ i, i < k → (f i).length = n) :
    (cat k f).length = k * n := by
  induction k with
  | zero => simp [cat]
  | succ k ih =>
    simp [cat, ih (fun i hi => h i (by omega)), h k (by omega), Nat.succ_mul]

theorem cat_congr {α : Type} {k : Nat} {f g : Nat → List α} (h : ∀ i, i < k → f i = g i) :
    cat k f = cat k g := by
  induction k with
  | zero => rfl
  | succ k ih => rw [cat, cat, ih (fun i hi => h i (by omega)), h k (by omega)]

theorem cat_split {α : Type} {f : Nat → List α} (j k : Nat) :
    cat (j + k) f = cat j f ++ cat k (fun i => f (j + i)) := by
  induction k with
  | zero => simp [cat]
  | succ k ih => rw [← Nat.add_assoc, cat, ih, cat, List.append_assoc]

/-- A chunk of a concatenation of equally long pieces. -/
theorem cat_chunk {α : Type} {k n : Nat} {f : Nat → List α} (h : ∀ i, i < k → (f i).length = n)
    {i : Nat} (hi : i < k) (rest : List α) :
    ((cat k f ++ rest).drop (i * n)).take n = f i := by
  obtain ⟨m, rfl⟩ : ∃ m, k = i + (1 + m) := ⟨k - i - 1, by omega⟩
  have h1 : (cat i f).length = i * n := cat_length (fun j hj => h j (by omega))
  rw [cat_split, cat_split, List.append_assoc, List.append_assoc,
    List.drop_append_of_le_length (by omega), ← h1, List.drop_length, List.nil_append]
  have h2 : (f i).length = n := h i hi
  simp [cat, h2]

theorem chunk_length {α : Type} {n : Nat} {b : List α} {i : Nat} (h : (i + 1) * n ≤ b.length) :
    (chunk n b i).length = n := by
  rw [Nat.succ_mul] at h
  simp [chunk]; omega

theorem cat_chunks {α : Type} (n k : Nat) (b : List α) (h : k * n ≤ b.length) :
    cat k (chunk n b) = b.take (k * n) := by
  induction k with
  | zero => simp [cat]
  | succ k ih =>
    rw [Nat.succ_mul] at h
    rw [cat, ih (by omega), chunk, Nat.succ_mul, List.take_add]

/-- Sequential filling: writing piece `i` after pieces `0..i-1`. -/
theorem wr_fill {α : Type} {n i : Nat} {f : Nat → List α} {b : List α}
    (hl : ∀ j, j ≤ i → (f j).length = n) (hb : (i + 1) * n ≤ b.length) :
    wr (cat i f ++ b.drop (i * n)) (i * n) (f i) = .ok (cat (i + 1) f ++ b.drop ((i + 1) * n)) := by
  have h1 : (cat i f).length = i * n := cat_length (fun j hj => hl j (by omega))
  have h2 : (f i).length = n := hl i (by omega)
  rw [Nat.succ_mul] at *
  rw [wr_ok (by simp [h1, h2]; omega), ← h1, List.take_left, h2, List.drop_append]
  simp [cat, h1]

theorem wr_length {α : Type} {b d b' : List α} {off : Nat} (h : wr b off d = .ok b') :
    b'.length = b.length := by
  unfold wr at h
  split at h
  · injection h with h; subst h; simp; omega
  · cases h

theorem wr_chunk_same {α : Type} {n i : Nat} {b d : List α} (hd : d.length = n)
    (hb : (i + 1) * n ≤ b.length) {b' : List α} (h : wr b (i * n) d = .ok b') :
    chunk n b' i = d := by
  rw [Nat.succ_mul] at hb
  rw [wr_ok (by omega)] at h
  injection h with h; subst h
  have : (b.take (i * n)).length = i * n := by simp; omega
  rw [chunk, List.append_assoc, List.drop_append_of_le_length (by omega)]
  simp [← hd]

theorem wr_get {α : Type} {b d b' : List α} {off : Nat} (h : wr b off d = .ok b') (j : Nat)
    (hj : j < off ∨ off + d.length ≤ j) : b'[j]? = b[j]? := by
  unfold wr at h
  split at h
  case isFalse => cases h
  case isTrue hle =>
    injection h with h; subst h
    rw [List.append_assoc]
    rcases hj with hj | hj
    · rw [List.getElem?_append_left (by simp; omega)]
      simp [hj]
    · rw [List.getElem?_append_right (by simp; omega), List.getElem?_append_right (by simp; omega)]
      simp only [List.length_take, List.getElem?_drop]
      congr 1
      omega

theorem wr_chunk_other {α : Type} {n i j : Nat} {b d : List α} (hd : d.length = n) (hij : i ≠ j)
    {b' : List α} (h : wr b (i * n) d = .ok b') :
    chunk n b' j = chunk n b j := by
  apply List.ext_getElem?
  intro k
  unfold chunk
  rw [List.getElem?_take, List.getElem?_take]
  split
  case isFalse => rfl
  case isTrue hk =>
    rw [List.getElem?_drop, List.getElem?_drop]
    apply wr_get h
    rcases Nat.lt_or_gt_of_ne hij with hlt | hgt
    · right
      have : (i + 1) * n ≤ j * n := Nat.mul_le_mul_right _ hlt
      rw [Nat.succ_mul] at this; omega
    · left
      have : (j + 1) * n ≤ i * n := Nat.mul_le_mul_right _ hgt
      rw [Nat.succ_mul] at this; omega

theorem wr_drop {α : Type} {b d b' : List α} {off k : Nat} (h : wr b off d = .ok b')
    (hk : off + d.length ≤ k) : b'.drop k = b.drop k := by
  apply List.ext_getElem?
  intro j
  rw [List.getElem?_drop, List.getElem?_drop]
  exact wr_get h _ (by omega)

theorem wr_exists {α : Type} {b d : List α} {off : Nat} (h : off + d.length ≤ b.length) :
    ∃ b', wr b off d = .ok b' := ⟨_, wr_ok h⟩

theorem rd_chunk {α : Type} {n i : Nat} {b : List α} (h : (i + 1) * n ≤ b.length) :
    rd b (i * n) n = .ok (chunk n b i) := by
  rw [Nat.succ_mul] at h
  rw [rd_ok h]; rfl

/-- A buffer is determined by its chunks and the rest. -/
theorem eq_of_chunks {α : Type} {n k : Nat} {b : List α} {f : Nat → List α} (hb : k * n ≤ b.length)
    (h : ∀ i, i < k → chunk n b i = f i) : b = cat k f ++ b.drop (k * n) := by
  rw [← cat_congr h, cat_chunks n k b hb, List.take_append_drop]

theorem getD_lt {α : Type} {l : List α} {i : Nat} {d : α} (h : i < l.length) : l.getD i d = l[i] := by
  simp [List.getD, h]

theorem getD_ge {α : Type} {l : List α} {i : Nat} {d : α} (h : l.length ≤ i) : l.getD i d = d := by
  simp [List.getD, List.getElem?_eq_none h]

theorem getD_append_left {α : Type} {l t : List α} {i : Nat} {d : α} (h : i < l.length) :
    (l ++ t).getD i d = l.getD i d := by
  simp [List.getD, List.getElem?_append_left h]

theorem getD_append_right {α : Type} {l t : List α} {i : Nat} {d : α} (h : l.length ≤ i) :
    (l ++ t).getD i d = t.getD (i - l.length) d := by
  simp [List.getD, List.getElem?_append_right h]

end Spx
