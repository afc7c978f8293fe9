import Verif.Proof.HarakaOrtho
/-! Loading bytes into the bitsliced form and storing them again. -/

namespace Spx.Haraka
open Spec

/-- Bit position of byte `p` of the 64-byte state. -/
def pi64 (p : Nat) : Nat := 16 * (p % 4) + 4 * (p / 4 % 4) + p / 16

/-- Bit position of byte `p` of the 32-byte state. -/
def pi32 (p : Nat) : Nat := 8 * (p % 4) + 2 * (p / 4 % 4) + p / 16

theorem mkB_bits : ∀ b : Byte, mkB (b.getLsbD 0) (b.getLsbD 1) (b.getLsbD 2) (b.getLsbD 3) (b.getLsbD 4)
    (b.getLsbD 5) (b.getLsbD 6) (b.getLsbD 7) = b := by decide +kernel

theorem byteAt_eq {w : Nat} {q : Q8 w} {i : Nat} {b : Byte}
    (h : ∀ j, j < 8 → (q.get j).getLsbD i = b.getLsbD j) : byteAt q i = b := by
  rw [← mkB_bits b]
  unfold byteAt
  rw [← h 0 (by omega), ← h 1 (by omega), ← h 2 (by omega), ← h 3 (by omega), ← h 4 (by omega),
    ← h 5 (by omega), ← h 6 (by omega), ← h 7 (by omega)]
  rfl

theorem byteAt_bit {w : Nat} (q : Q8 w) (i : Nat) {j : Nat} (hj : j < 8) :
    (byteAt q i).getLsbD j = (q.get j).getLsbD i := by
  unfold byteAt mkB
  simp only [BitVec.getLsbD_cons]
  interval_cases j <;> rfl

/-- The value read by `br_dec32le`. -/
def leWord (src : Bytes) : BitVec 32 :=
  (src.getD 0 0#8).zeroExtend 32 ||| ((src.getD 1 0#8).zeroExtend 32 <<< 8) |||
    ((src.getD 2 0#8).zeroExtend 32 <<< 16) ||| ((src.getD 3 0#8).zeroExtend 32 <<< 24)

theorem leWord_bit (src : Bytes) {k : Nat} (hk : k < 32) :
    (leWord src).getLsbD k = (src.getD (k / 8) 0#8).getLsbD (k % 8) := by
  unfold leWord
  simp only [BitVec.getLsbD_or, BitVec.getLsbD_shiftLeft, BitVec.truncate_eq_setWidth, BitVec.getLsbD_setWidth]
  interval_cases k <;> simp

theorem br_dec32le_spec {src : Bytes} (h : 4 ≤ src.length) : br_dec32le src = .ok (leWord src) := by
  unfold br_dec32le leWord
  rw [rd1_ok (by omega), ok_bind, rd1_ok (by omega), ok_bind, rd1_ok (by omega), ok_bind, rd1_ok (by omega), ok_bind,
    getD_lt (by omega), getD_lt (by omega), getD_lt (by omega), getD_lt (by omega)]

theorem getD_drop {α : Type} (l : List α) (k i : Nat) (d : α) : (l.drop k).getD i d = l.getD (k + i) d := by
  simp [List.getD]

theorem leWord_drop_bit (src : Bytes) (off : Nat) {k : Nat} (hk : k < 32) :
    (leWord (src.drop off)).getLsbD k = (src.getD (off + k / 8) 0#8).getLsbD (k % 8) := by
  rw [leWord_bit _ hk, getD_drop]

theorem br_range_dec32le_spec {num : Nat} {src : Bytes} (h : 4 * num ≤ src.length) :
    br_range_dec32le num src = .ok ((List.range num).map fun i => leWord (src.drop (4 * i))) := by
  unfold br_range_dec32le
  refine forRange_eq' (fun k => (List.range k).map fun i => leWord (src.drop (4 * i))) rfl rfl ?_
  intro i hi
  rw [sub_ok (by omega), ok_bind, br_dec32le_spec (by simp; omega), ok_bind, List.range_succ, List.map_append]
  rfl

theorem interleave_bit (a b : BitVec 32) {k : Nat} (hk : k < 64) :
    (spread a ||| spread b <<< 8).getLsbD k =
      if k / 8 % 2 = 0 then a.getLsbD (k / 16 * 8 + k % 8) else b.getLsbD (k / 16 * 8 + k % 8) := by
  unfold spread
  simp only [BitVec.getLsbD_or, BitVec.getLsbD_and, BitVec.getLsbD_shiftLeft]
  interval_cases k <;> simp

theorem slice64_spec {src : Bytes} (h : 64 ≤ src.length) :
    ∃ q, slice64 src = .ok q ∧ ∀ p, p < 64 → byteAt q (pi64 p) = src.getD p 0#8 := by
  let W : Nat → BitVec 32 := fun i => leWord (src.drop (4 * i))
  let Q : Nat → BitVec 64 := fun c => spread (W (4 * (c % 4) + c / 4)) |||
    spread (W (4 * (c % 4) + 2 + c / 4)) <<< 8
  have e : slice64 src = .ok (br_aes_ct64_ortho ⟨Q 0, Q 1, Q 2, Q 3, Q 4, Q 5, Q 6, Q 7⟩) := by
    unfold slice64
    rw [br_range_dec32le_spec h]
    rfl
  refine ⟨_, e, ?_⟩
  intro p hp
  apply byteAt_eq
  intro j hj
  have hp64 : pi64 p < 64 := by unfold pi64; omega
  rw [ortho64_bit _ hj hp64]
  have hget : ∀ c, c < 8 → (⟨Q 0, Q 1, Q 2, Q 3, Q 4, Q 5, Q 6, Q 7⟩ : Q8 64).get c = Q c := by
    intro c hc
    interval_cases c <;> rfl
  rw [hget _ (by omega)]
  have key : ∀ p < 64, ∀ j < 8, (pi64 p / 8 * 8 + j) / 8 % 2 = p / 8 % 2 ∧
      (pi64 p / 8 * 8 + j) / 16 * 8 + (pi64 p / 8 * 8 + j) % 8 = 8 * (p % 4) + j ∧
      4 * (4 * (pi64 p % 8 % 4) + (p / 8 % 2) * 2 + pi64 p % 8 / 4) + p % 4 = p := by decide +kernel
  obtain ⟨k1, k2, k3⟩ := key p hp j hj
  simp only [Q]
  rw [interleave_bit _ _ (by omega), k1, k2]
  simp only [W]
  by_cases h8 : p / 8 % 2 = 0
  · rw [h8, Nat.zero_mul, Nat.add_zero] at k3
    rw [if_pos h8, leWord_drop_bit _ _ (by omega), show (8 * (p % 4) + j) / 8 = p % 4 by omega, k3,
      show (8 * (p % 4) + j) % 8 = j by omega]
  · rw [show p / 8 % 2 = 1 by omega, Nat.one_mul] at k3
    rw [if_neg h8, leWord_drop_bit _ _ (by omega), show (8 * (p % 4) + j) / 8 = p % 4 by omega, k3,
      show (8 * (p % 4) + j) % 8 = j by omega]

theorem slice32_spec {src : Bytes} (h : 32 ≤ src.length) :
    ∃ q, slice32 src = .ok q ∧ ∀ p, p < 32 → byteAt q (pi32 p) = src.getD p 0#8 := by
  let Q : Nat → BitVec 32 := fun c => leWord (src.drop (4 * (c / 2) + 16 * (c % 2)))
  have e : slice32 src = .ok (br_aes_ct_ortho ⟨Q 0, Q 1, Q 2, Q 3, Q 4, Q 5, Q 6, Q 7⟩) := by
    unfold slice32
    have hs : ∀ off, off + 4 ≤ 32 → (do br_dec32le (← sub src off)) = .ok (leWord (src.drop off)) := by
      intro off ho
      rw [sub_ok (by omega), ok_bind, br_dec32le_spec (by simp; omega)]
    simp only [sub_ok (show 0 ≤ src.length by omega), sub_ok (show 16 ≤ src.length by omega),
      sub_ok (show 4 ≤ src.length by omega), sub_ok (show 20 ≤ src.length by omega),
      sub_ok (show 8 ≤ src.length by omega), sub_ok (show 24 ≤ src.length by omega),
      sub_ok (show 12 ≤ src.length by omega), sub_ok (show 28 ≤ src.length by omega), ok_bind,
      br_dec32le_spec (show 4 ≤ (src.drop 0).length by simp; omega),
      br_dec32le_spec (show 4 ≤ (src.drop 16).length by simp; omega),
      br_dec32le_spec (show 4 ≤ (src.drop 4).length by simp; omega),
      br_dec32le_spec (show 4 ≤ (src.drop 20).length by simp; omega),
      br_dec32le_spec (show 4 ≤ (src.drop 8).length by simp; omega),
      br_dec32le_spec (show 4 ≤ (src.drop 24).length by simp; omega),
      br_dec32le_spec (show 4 ≤ (src.drop 12).length by simp; omega),
      br_dec32le_spec (show 4 ≤ (src.drop 28).length by simp; omega)]
    rfl
  refine ⟨_, e, ?_⟩
  intro p hp
  apply byteAt_eq
  intro j hj
  have hp32 : pi32 p < 32 := by unfold pi32; omega
  rw [ortho32_bit _ hj hp32]
  have hget : ∀ c, c < 8 → (⟨Q 0, Q 1, Q 2, Q 3, Q 4, Q 5, Q 6, Q 7⟩ : Q8 32).get c = Q c := by
    intro c hc
    interval_cases c <;> rfl
  rw [hget _ (by omega)]
  have key : ∀ p < 32, ∀ j < 8, pi32 p / 8 * 8 + j < 32 ∧ (pi32 p / 8 * 8 + j) % 8 = j ∧
      4 * (pi32 p % 8 / 2) + 16 * (pi32 p % 8 % 2) + (pi32 p / 8 * 8 + j) / 8 = p := by decide +kernel
  obtain ⟨k1, k2, k3⟩ := key p hp j hj
  simp only [Q]
  rw [leWord_drop_bit _ _ k1, k2, k3]

/-- Word `i` of the output of the interleaving. -/
def outWord (q : Q8 64) (i : Nat) : BitVec 32 :=
  gather ((q.get (i / 4 + 4 * (i % 2))) >>> (8 * (i / 2 % 2)) &&& 0x00FF00FF00FF00FF#64)

theorem gather_bit (x : BitVec 64) {k : Nat} (hk : k < 32) :
    (gather (x &&& 0x00FF00FF00FF00FF#64)).getLsbD k = x.getLsbD (k / 8 * 16 + k % 8) := by
  unfold gather
  simp only [BitVec.truncate_eq_setWidth, BitVec.getLsbD_or, BitVec.getLsbD_setWidth, BitVec.getLsbD_and,
    BitVec.getLsbD_ushiftRight]
  interval_cases k <;> simp

theorem outWord_bit (q : Q8 64) {i k : Nat} (hi : i < 16) (hk : k < 32) :
    (outWord (br_aes_ct64_ortho q) i).getLsbD k = (byteAt q (pi64 (4 * i + k / 8))).getLsbD (k % 8) := by
  unfold outWord
  have key : ∀ i < 16, ∀ k < 32, (8 * (i / 2 % 2) + (k / 8 * 16 + k % 8)) % 8 = k % 8 ∧
      (8 * (i / 2 % 2) + (k / 8 * 16 + k % 8)) / 8 * 8 + (i / 4 + 4 * (i % 2)) = pi64 (4 * i + k / 8) := by
    decide +kernel
  obtain ⟨k1, k2⟩ := key i hi k hk
  rw [gather_bit _ hk, BitVec.getLsbD_ushiftRight, ortho64_bit _ (by omega) (by omega), byteAt_bit _ _ (by omega),
    k1, k2]

theorem enc32le_of_bits {x : BitVec 32} {f : Nat → Byte}
    (h : ∀ k, k < 32 → x.getLsbD k = (f (k / 8)).getLsbD (k % 8)) :
    br_enc32le x = [f 0, f 1, f 2, f 3] := by
  have hb : ∀ t, t < 4 → ((x >>> (8 * t)).truncate 8 : Byte) = f t := by
    intro t ht
    apply BitVec.eq_of_getLsbD_eq
    intro j hj
    simp only [BitVec.truncate_eq_setWidth, BitVec.getLsbD_setWidth, BitVec.getLsbD_ushiftRight]
    rw [h _ (by omega), show (8 * t + j) / 8 = t by omega, show (8 * t + j) % 8 = j by omega]
    simp [hj]
  unfold br_enc32le
  have h0 := hb 0 (by omega)
  rw [Nat.mul_zero, BitVec.ushiftRight_zero] at h0
  rw [h0, ← hb 1 (by omega), ← hb 2 (by omega), ← hb 3 (by omega)]

theorem unslice64_spec (q : Q8 64) :
    (let q := br_aes_ct64_ortho q
     br_range_enc32le 16 (br_aes_ct64_interleave_out q.q0 q.q4 ++ br_aes_ct64_interleave_out q.q1 q.q5 ++
      br_aes_ct64_interleave_out q.q2 q.q6 ++ br_aes_ct64_interleave_out q.q3 q.q7)) =
    .ok ((List.range 64).map fun p => byteAt q (pi64 p)) := by
  extract_lets q'
  have hw : (br_aes_ct64_interleave_out q'.q0 q'.q4 ++ br_aes_ct64_interleave_out q'.q1 q'.q5 ++
      br_aes_ct64_interleave_out q'.q2 q'.q6 ++ br_aes_ct64_interleave_out q'.q3 q'.q7) =
      (List.range 16).map (outWord q') := by
    simp [br_aes_ct64_interleave_out, List.range, List.range.loop, outWord, Q8.get]
  rw [hw]
  unfold br_range_enc32le
  refine forRange_eq' (fun i => (List.range (4 * i)).map fun p => byteAt q (pi64 p)) rfl rfl ?_
  intro i hi
  rw [rd1_ok (by simp; omega), ok_bind]
  simp only [List.getElem_map, List.getElem_range]
  rw [enc32le_of_bits (f := fun t => byteAt q (pi64 (4 * i + t))) (fun k hk => outWord_bit q hi hk)]
  simp [Nat.mul_succ, List.range_succ]

theorem unslice32_spec (q : Q8 32) :
    (let q := br_aes_ct_ortho q
     br_enc32le q.q0 ++ br_enc32le q.q2 ++ br_enc32le q.q4 ++ br_enc32le q.q6 ++
      br_enc32le q.q1 ++ br_enc32le q.q3 ++ br_enc32le q.q5 ++ br_enc32le q.q7) =
    (List.range 32).map fun p => byteAt q (pi32 p) := by
  extract_lets q'
  have h : ∀ i, i < 8 → br_enc32le (q'.get (2 * (i % 4) + i / 4)) =
      [byteAt q (pi32 (4 * i)), byteAt q (pi32 (4 * i + 1)), byteAt q (pi32 (4 * i + 2)), byteAt q (pi32 (4 * i + 3))] := by
    intro i hi
    refine enc32le_of_bits (f := fun t => byteAt q (pi32 (4 * i + t))) ?_
    intro k hk
    simp only [q']
    have key : ∀ i < 8, ∀ k < 32, k / 8 * 8 + (2 * (i % 4) + i / 4) = pi32 (4 * i + k / 8) := by decide +kernel
    rw [ortho32_bit _ (by omega) hk, byteAt_bit _ _ (by omega), key i hi k hk]
  have h0 := h 0 (by omega)
  have h1 := h 1 (by omega)
  have h2 := h 2 (by omega)
  have h3 := h 3 (by omega)
  have h4 := h 4 (by omega)
  have h5 := h 5 (by omega)
  have h6 := h 6 (by omega)
  have h7 : br_enc32le q'.q7 = _ := h 7 (by omega)
  simp only [Q8.get] at h0 h1 h2 h3 h4 h5 h6
  rw [h0, h1, h2, h3, h4, h5, h6, h7]
  rfl

end Spx.Haraka
