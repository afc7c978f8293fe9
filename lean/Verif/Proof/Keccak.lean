import Verif.Proof.KeccakRound
/-! The permutation of ref/fips202.c on words and bytes. -/

namespace Spx
open Spec Spec.Keccak

/-- Byte `c` of a word, least significant first. -/
def byteOf (w : BitVec 64) (c : Nat) : Byte := (w >>> (8 * c)).truncate 8

/-- Words as little-endian bytes. -/
def wordsB (s : List (BitVec 64)) : Bytes :=
  (List.range (8 * s.length)).map fun j => byteOf (s.getD (j / 8) 0) (j % 8)

@[simp] theorem wordsB_length (s : List (BitVec 64)) : (wordsB s).length = 8 * s.length := by
  simp [wordsB]

theorem toLE_eq_map (k x : Nat) :
    toLE k x = (List.range k).map fun i => BitVec.ofNat 8 (x / 256 ^ i) := by
  induction k generalizing x with
  | zero => rfl
  | succ k ih =>
    rw [toLE, ih, List.range_succ_eq_map]
    simp only [List.map_cons, List.map_map, Nat.pow_zero, Nat.div_one]
    congr 1
    apply List.map_congr_left
    intro i _
    simp [Nat.pow_succ, Nat.div_div_eq_div_mul, Nat.mul_comm]

theorem byteOf_eq (w : BitVec 64) (c : Nat) : byteOf w c = BitVec.ofNat 8 (w.toNat / 256 ^ c) := by
  apply BitVec.eq_of_toNat_eq
  simp [byteOf, Nat.shiftRight_eq_div_pow, Nat.pow_mul]

theorem toLE8_eq (w : BitVec 64) : toLE 8 w.toNat = (List.range 8).map (byteOf w) := by
  rw [toLE_eq_map]
  apply List.map_congr_left
  intro i _
  rw [byteOf_eq]

theorem wordsB_append (s t : List (BitVec 64)) : wordsB (s ++ t) = wordsB s ++ wordsB t := by
  unfold wordsB
  rw [List.length_append, Nat.mul_add, List.range_add, List.map_append, List.map_map]
  congr 1
  · apply List.map_congr_left
    intro j hj
    have : j < 8 * s.length := List.mem_range.1 hj
    rw [getD_append_left (by omega)]
  · apply List.map_congr_left
    intro j hj
    simp only [Function.comp]
    rw [getD_append_right (by omega)]
    congr 1
    · congr 1; omega
    · omega

theorem wordsB_cat (s : List (BitVec 64)) :
    wordsB s = cat s.length fun i => toLE 8 (s.getD i 0).toNat := by
  induction hn : s.length generalizing s with
  | zero => rw [List.length_eq_zero_iff.1 hn]; rfl
  | succ n ih =>
    have hne : s ≠ [] := by intro h; simp [h] at hn
    obtain ⟨u, b, rfl⟩ : ∃ u b, s = u ++ [b] :=
      ⟨s.dropLast, s.getLast hne, (List.dropLast_concat_getLast hne).symm⟩
    simp at hn
    rw [wordsB_append, ih u hn, cat]
    congr 1
    · apply cat_congr
      intro i hi
      rw [getD_append_left (by omega)]
    · rw [toLE8_eq, getD_append_right (by omega)]
      simp only [wordsB, hn, Nat.sub_self, List.length_singleton, Nat.mul_one, List.getD_cons_zero]
      apply List.map_congr_left
      intro j hj
      have hj : j < 8 := List.mem_range.1 hj
      rw [show j / 8 = 0 by omega, Nat.mod_eq_of_lt hj]
      rfl

theorem ofBytes_wordsB {s : List (BitVec 64)} (h : s.length = 25) :
    LaneEq (ofBytes (wordsB s)) (fun x y => s.getD (5 * y + x) 0) := by
  intro x y hx hy
  have hc := cat_chunk (k := 25) (n := 8) (f := fun i => toLE 8 (s.getD i 0).toNat) (fun i _ => toLE_length _ _)
    (i := 5 * y + x) (by omega) []
  rw [List.append_nil, ← h, ← wordsB_cat] at hc
  simp only [ofBytes, chunk]
  rw [hc, leNat_toLE, Nat.mod_eq_of_lt (by have := (s.getD (5 * y + x) 0).isLt; omega)]
  simp

theorem Lanes.load_ok {s : List (BitVec 64)} (h : 25 ≤ s.length) :
    ∃ L, Lanes.load s = .ok L ∧ L.toList = s.take 25 := by
  obtain ⟨ba, s, rfl⟩ := List.exists_cons_of_length_pos (l := s) (by (try simp only [List.length_cons] at h); omega)
  obtain ⟨be, s, rfl⟩ := List.exists_cons_of_length_pos (l := s) (by (try simp only [List.length_cons] at h); omega)
  obtain ⟨bi, s, rfl⟩ := List.exists_cons_of_length_pos (l := s) (by (try simp only [List.length_cons] at h); omega)
  obtain ⟨bo, s, rfl⟩ := List.exists_cons_of_length_pos (l := s) (by (try simp only [List.length_cons] at h); omega)
  obtain ⟨bu, s, rfl⟩ := List.exists_cons_of_length_pos (l := s) (by (try simp only [List.length_cons] at h); omega)
  obtain ⟨ga, s, rfl⟩ := List.exists_cons_of_length_pos (l := s) (by (try simp only [List.length_cons] at h); omega)
  obtain ⟨ge, s, rfl⟩ := List.exists_cons_of_length_pos (l := s) (by (try simp only [List.length_cons] at h); omega)
  obtain ⟨gi, s, rfl⟩ := List.exists_cons_of_length_pos (l := s) (by (try simp only [List.length_cons] at h); omega)
  obtain ⟨go, s, rfl⟩ := List.exists_cons_of_length_pos (l := s) (by (try simp only [List.length_cons] at h); omega)
  obtain ⟨gu, s, rfl⟩ := List.exists_cons_of_length_pos (l := s) (by (try simp only [List.length_cons] at h); omega)
  obtain ⟨ka, s, rfl⟩ := List.exists_cons_of_length_pos (l := s) (by (try simp only [List.length_cons] at h); omega)
  obtain ⟨ke, s, rfl⟩ := List.exists_cons_of_length_pos (l := s) (by (try simp only [List.length_cons] at h); omega)
  obtain ⟨ki, s, rfl⟩ := List.exists_cons_of_length_pos (l := s) (by (try simp only [List.length_cons] at h); omega)
  obtain ⟨ko, s, rfl⟩ := List.exists_cons_of_length_pos (l := s) (by (try simp only [List.length_cons] at h); omega)
  obtain ⟨ku, s, rfl⟩ := List.exists_cons_of_length_pos (l := s) (by (try simp only [List.length_cons] at h); omega)
  obtain ⟨ma, s, rfl⟩ := List.exists_cons_of_length_pos (l := s) (by (try simp only [List.length_cons] at h); omega)
  obtain ⟨me, s, rfl⟩ := List.exists_cons_of_length_pos (l := s) (by (try simp only [List.length_cons] at h); omega)
  obtain ⟨mi, s, rfl⟩ := List.exists_cons_of_length_pos (l := s) (by (try simp only [List.length_cons] at h); omega)
  obtain ⟨mo, s, rfl⟩ := List.exists_cons_of_length_pos (l := s) (by (try simp only [List.length_cons] at h); omega)
  obtain ⟨mu, s, rfl⟩ := List.exists_cons_of_length_pos (l := s) (by (try simp only [List.length_cons] at h); omega)
  obtain ⟨sa, s, rfl⟩ := List.exists_cons_of_length_pos (l := s) (by (try simp only [List.length_cons] at h); omega)
  obtain ⟨se, s, rfl⟩ := List.exists_cons_of_length_pos (l := s) (by (try simp only [List.length_cons] at h); omega)
  obtain ⟨si, s, rfl⟩ := List.exists_cons_of_length_pos (l := s) (by (try simp only [List.length_cons] at h); omega)
  obtain ⟨so, s, rfl⟩ := List.exists_cons_of_length_pos (l := s) (by (try simp only [List.length_cons] at h); omega)
  obtain ⟨su, s, rfl⟩ := List.exists_cons_of_length_pos (l := s) (by (try simp only [List.length_cons] at h); omega)
  exact ⟨⟨ba, be, bi, bo, bu, ga, ge, gi, go, gu, ka, ke, ki, ko, ku, ma, me, mi, mo, mu, sa, se, si, so, su⟩, rfl, rfl⟩

theorem rd_RC {k : Nat} (h : k < 24) : rd1 KeccakF_RoundConstants k = .ok (RC k) := by
  rw [← rcTable, rd1_ok (by simpa using h)]
  simp

theorem rounds_congr {A B : State} (h : LaneEq A B) (k : Nat) : LaneEq (rounds A k) (rounds B k) := by
  induction k with
  | zero => exact h
  | succ k ih => exact round_congr k ih

theorem keccak_rounds (L : Lanes) :
    ∃ L', forRange 12 keccak_loop_body L = .ok L' ∧ LaneEq L'.lane (f1600 L.lane) := by
  have step : ∀ i (M : Lanes), i < 12 → LaneEq M.lane (rounds L.lane (2 * i)) →
      ∃ M', keccak_loop_body i M = .ok M' ∧ LaneEq M'.lane (rounds L.lane (2 * (i + 1))) := by
    intro i M hi hM
    have h1 : LaneEq (keccak_round_even (RC (2 * i)) M).lane (rounds L.lane (2 * i + 1)) := by
      intro x y hx hy
      rw [round_even_lane _ _ x y hx hy]
      exact round_congr _ hM x y hx hy
    refine ⟨keccak_round_odd (RC (2 * i + 1)) (keccak_round_even (RC (2 * i)) M), ?_, ?_⟩
    · unfold keccak_loop_body
      rw [rd_RC (by omega), ok_bind, rd_RC (by omega), ok_bind]
    · intro x y hx hy
      rw [round_odd_lane _ _ x y hx hy]
      exact round_congr (2 * i + 1) h1 x y hx hy
  obtain ⟨L', h1, h2⟩ := forRange_inv (fun i (M : Lanes) => LaneEq M.lane (rounds L.lane (2 * i)))
    (s := L) (fun x y _ _ => rfl) step
  exact ⟨L', h1, h2⟩

theorem f1600_congr {A B : State} (h : LaneEq A B) : LaneEq (f1600 A) (f1600 B) := by
  unfold f1600
  exact rounds_congr h 24

/-- The permutation on the word level. -/
theorem KeccakF1600_spec {s : List (BitVec 64)} (h : 25 ≤ s.length) :
    ∃ t, KeccakF1600_StatePermute s = .ok (t ++ s.drop 25) ∧ t.length = 25 ∧
      wordsB t = keccakF (wordsB (s.take 25)) := by
  obtain ⟨L, h1, h2⟩ := Lanes.load_ok h
  obtain ⟨L', h3, h4⟩ := keccak_rounds L
  have hl : L'.toList.length = 25 := rfl
  have hl' : (s.take 25).length = 25 := by simp; omega
  refine ⟨L'.toList, ?_, hl, ?_⟩
  · unfold KeccakF1600_StatePermute
    rw [h1, ok_bind, h3, ok_bind, wr_ok (by omega)]
    simp [hl]
  · rw [wordsB_cat, hl, keccakF, toBytes]
    apply cat_congr
    intro i hi
    have e := h4 (i % 5) (i / 5) (by omega) (by omega)
    rw [Lanes.lane, show 5 * (i / 5) + i % 5 = i by omega] at e
    rw [e]
    refine congrArg (fun w : BitVec 64 => toLE 8 w.toNat) ?_
    have e2 : LaneEq L.lane (ofBytes (wordsB (s.take 25))) := by
      intro x y hx hy
      rw [ofBytes_wordsB hl' x y hx hy, Lanes.lane, h2]
    exact f1600_congr e2 (i % 5) (i / 5) (by omega) (by omega)

theorem keccakF_length (s : Bytes) : (keccakF s).length = 200 := by
  rw [keccakF, toBytes, cat_length (n := 8) (by simp)]

end Spx
