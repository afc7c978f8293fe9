import Verif.Proof.HarakaLin
/-! Conversion to and from the bitsliced form. -/

namespace Spx.Haraka
open Spec

/-- Element `j` of the array `q`. -/
def Q8.get {w : Nat} (q : Q8 w) : Nat → BitVec w
  | 0 => q.q0
  | 1 => q.q1
  | 2 => q.q2
  | 3 => q.q3
  | 4 => q.q4
  | 5 => q.q5
  | 6 => q.q6
  | _ => q.q7

/-- Exchange of the bit with value `s` of an index `x` for that of `y`. -/
def lvl (x y s : Nat) : Nat := x - x / s % 2 * s + y / s % 2 * s

theorem swapX64_1 (a b : BitVec 64) {i : Nat} (h : i < 64) : (swapnX 0x5555555555555555#64 1 a b).getLsbD i =
    if i / 1 % 2 = 0 then a.getLsbD i else b.getLsbD (i - 1) := by
  unfold swapnX
  simp only [BitVec.getLsbD_or, BitVec.getLsbD_and, BitVec.getLsbD_shiftLeft]
  interval_cases i <;> simp

theorem swapY64_1 (a b : BitVec 64) {i : Nat} (h : i < 64) : (swapnY 0xAAAAAAAAAAAAAAAA#64 1 a b).getLsbD i =
    if i / 1 % 2 = 0 then a.getLsbD (i + 1) else b.getLsbD i := by
  unfold swapnY
  simp only [BitVec.getLsbD_or, BitVec.getLsbD_and, BitVec.getLsbD_ushiftRight]
  interval_cases i <;> simp

theorem ortho64_2_bit (q : Q8 64) {j i : Nat} (hj : j < 8) (hi : i < 64) :
    ((ortho64_2 q).get j).getLsbD i =
      (q.get (lvl j i 1)).getLsbD (lvl i j 1) := by
  unfold ortho64_2
  have h01 : i % 2 = 0 ∨ i % 2 = 1 := by omega
  rcases h01 with h | h
  · rw [show lvl i j 1 = i + j / 1 % 2 * 1 by unfold lvl; omega]
    interval_cases j <;> simp [lvl, Q8.get, swapX64_1 _ _ hi, swapY64_1 _ _ hi, h]
  · have hs : i - 1 + 1 = i := by omega
    interval_cases j <;> simp [lvl, Q8.get, swapX64_1 _ _ hi, swapY64_1 _ _ hi, h, hs]

theorem swapX64_2 (a b : BitVec 64) {i : Nat} (h : i < 64) : (swapnX 0x3333333333333333#64 2 a b).getLsbD i =
    if i / 2 % 2 = 0 then a.getLsbD i else b.getLsbD (i - 2) := by
  unfold swapnX
  simp only [BitVec.getLsbD_or, BitVec.getLsbD_and, BitVec.getLsbD_shiftLeft]
  interval_cases i <;> simp

theorem swapY64_2 (a b : BitVec 64) {i : Nat} (h : i < 64) : (swapnY 0xCCCCCCCCCCCCCCCC#64 2 a b).getLsbD i =
    if i / 2 % 2 = 0 then a.getLsbD (i + 2) else b.getLsbD i := by
  unfold swapnY
  simp only [BitVec.getLsbD_or, BitVec.getLsbD_and, BitVec.getLsbD_ushiftRight]
  interval_cases i <;> simp

theorem ortho64_4_bit (q : Q8 64) {j i : Nat} (hj : j < 8) (hi : i < 64) :
    ((ortho64_4 q).get j).getLsbD i =
      (q.get (lvl j i 2)).getLsbD (lvl i j 2) := by
  unfold ortho64_4
  have h01 : i / 2 % 2 = 0 ∨ i / 2 % 2 = 1 := by omega
  rcases h01 with h | h
  · rw [show lvl i j 2 = i + j / 2 % 2 * 2 by unfold lvl; omega]
    interval_cases j <;> simp [lvl, Q8.get, swapX64_2 _ _ hi, swapY64_2 _ _ hi, h]
  · have hs : i - 2 + 2 = i := by omega
    interval_cases j <;> simp [lvl, Q8.get, swapX64_2 _ _ hi, swapY64_2 _ _ hi, h, hs]

theorem swapX64_4 (a b : BitVec 64) {i : Nat} (h : i < 64) : (swapnX 0x0F0F0F0F0F0F0F0F#64 4 a b).getLsbD i =
    if i / 4 % 2 = 0 then a.getLsbD i else b.getLsbD (i - 4) := by
  unfold swapnX
  simp only [BitVec.getLsbD_or, BitVec.getLsbD_and, BitVec.getLsbD_shiftLeft]
  interval_cases i <;> simp

theorem swapY64_4 (a b : BitVec 64) {i : Nat} (h : i < 64) : (swapnY 0xF0F0F0F0F0F0F0F0#64 4 a b).getLsbD i =
    if i / 4 % 2 = 0 then a.getLsbD (i + 4) else b.getLsbD i := by
  unfold swapnY
  simp only [BitVec.getLsbD_or, BitVec.getLsbD_and, BitVec.getLsbD_ushiftRight]
  interval_cases i <;> simp

theorem ortho64_8_bit (q : Q8 64) {j i : Nat} (hj : j < 8) (hi : i < 64) :
    ((ortho64_8 q).get j).getLsbD i =
      (q.get (lvl j i 4)).getLsbD (lvl i j 4) := by
  unfold ortho64_8
  have h01 : i / 4 % 2 = 0 ∨ i / 4 % 2 = 1 := by omega
  rcases h01 with h | h
  · rw [show lvl i j 4 = i + j / 4 % 2 * 4 by unfold lvl; omega]
    interval_cases j <;> simp [lvl, Q8.get, swapX64_4 _ _ hi, swapY64_4 _ _ hi, h]
  · have hs : i - 4 + 4 = i := by omega
    interval_cases j <;> simp [lvl, Q8.get, swapX64_4 _ _ hi, swapY64_4 _ _ hi, h, hs]

theorem ortho64_bit (q : Q8 64) {j i : Nat} (hj : j < 8) (hi : i < 64) :
    ((br_aes_ct64_ortho q).get j).getLsbD i = (q.get (i % 8)).getLsbD (i / 8 * 8 + j) := by
  have key : ∀ j < 8, ∀ i < 64, lvl j i 4 < 8 ∧ lvl i j 4 < 64 ∧
      lvl (lvl j i 4) (lvl i j 4) 2 < 8 ∧ lvl (lvl i j 4) (lvl j i 4) 2 < 64 ∧
      lvl (lvl (lvl j i 4) (lvl i j 4) 2) (lvl (lvl i j 4) (lvl j i 4) 2) 1 = i % 8 ∧
      lvl (lvl (lvl i j 4) (lvl j i 4) 2) (lvl (lvl j i 4) (lvl i j 4) 2) 1 = i / 8 * 8 + j := by
    decide +kernel
  obtain ⟨h1, h2, h3, h4, h5, h6⟩ := key j hj i hi
  unfold br_aes_ct64_ortho
  rw [ortho64_8_bit _ hj hi, ortho64_4_bit _ h1 h2, ortho64_2_bit _ h3 h4, h5, h6]

theorem swapX32_1 (a b : BitVec 32) {i : Nat} (h : i < 32) : (swapnX 0x55555555#32 1 a b).getLsbD i =
    if i / 1 % 2 = 0 then a.getLsbD i else b.getLsbD (i - 1) := by
  unfold swapnX
  simp only [BitVec.getLsbD_or, BitVec.getLsbD_and, BitVec.getLsbD_shiftLeft]
  interval_cases i <;> simp

theorem swapY32_1 (a b : BitVec 32) {i : Nat} (h : i < 32) : (swapnY 0xAAAAAAAA#32 1 a b).getLsbD i =
    if i / 1 % 2 = 0 then a.getLsbD (i + 1) else b.getLsbD i := by
  unfold swapnY
  simp only [BitVec.getLsbD_or, BitVec.getLsbD_and, BitVec.getLsbD_ushiftRight]
  interval_cases i <;> simp

theorem ortho32_2_bit (q : Q8 32) {j i : Nat} (hj : j < 8) (hi : i < 32) :
    ((ortho32_2 q).get j).getLsbD i =
      (q.get (lvl j i 1)).getLsbD (lvl i j 1) := by
  unfold ortho32_2
  have h01 : i % 2 = 0 ∨ i % 2 = 1 := by omega
  rcases h01 with h | h
  · rw [show lvl i j 1 = i + j / 1 % 2 * 1 by unfold lvl; omega]
    interval_cases j <;> simp [lvl, Q8.get, swapX32_1 _ _ hi, swapY32_1 _ _ hi, h]
  · have hs : i - 1 + 1 = i := by omega
    interval_cases j <;> simp [lvl, Q8.get, swapX32_1 _ _ hi, swapY32_1 _ _ hi, h, hs]

theorem swapX32_2 (a b : BitVec 32) {i : Nat} (h : i < 32) : (swapnX 0x33333333#32 2 a b).getLsbD i =
    if i / 2 % 2 = 0 then a.getLsbD i else b.getLsbD (i - 2) := by
  unfold swapnX
  simp only [BitVec.getLsbD_or, BitVec.getLsbD_and, BitVec.getLsbD_shiftLeft]
  interval_cases i <;> simp

theorem swapY32_2 (a b : BitVec 32) {i : Nat} (h : i < 32) : (swapnY 0xCCCCCCCC#32 2 a b).getLsbD i =
    if i / 2 % 2 = 0 then a.getLsbD (i + 2) else b.getLsbD i := by
  unfold swapnY
  simp only [BitVec.getLsbD_or, BitVec.getLsbD_and, BitVec.getLsbD_ushiftRight]
  interval_cases i <;> simp

theorem ortho32_4_bit (q : Q8 32) {j i : Nat} (hj : j < 8) (hi : i < 32) :
    ((ortho32_4 q).get j).getLsbD i =
      (q.get (lvl j i 2)).getLsbD (lvl i j 2) := by
  unfold ortho32_4
  have h01 : i / 2 % 2 = 0 ∨ i / 2 % 2 = 1 := by omega
  rcases h01 with h | h
  · rw [show lvl i j 2 = i + j / 2 % 2 * 2 by unfold lvl; omega]
    interval_cases j <;> simp [lvl, Q8.get, swapX32_2 _ _ hi, swapY32_2 _ _ hi, h]
  · have hs : i - 2 + 2 = i := by omega
    interval_cases j <;> simp [lvl, Q8.get, swapX32_2 _ _ hi, swapY32_2 _ _ hi, h, hs]

theorem swapX32_4 (a b : BitVec 32) {i : Nat} (h : i < 32) : (swapnX 0x0F0F0F0F#32 4 a b).getLsbD i =
    if i / 4 % 2 = 0 then a.getLsbD i else b.getLsbD (i - 4) := by
  unfold swapnX
  simp only [BitVec.getLsbD_or, BitVec.getLsbD_and, BitVec.getLsbD_shiftLeft]
  interval_cases i <;> simp

theorem swapY32_4 (a b : BitVec 32) {i : Nat} (h : i < 32) : (swapnY 0xF0F0F0F0#32 4 a b).getLsbD i =
    if i / 4 % 2 = 0 then a.getLsbD (i + 4) else b.getLsbD i := by
  unfold swapnY
  simp only [BitVec.getLsbD_or, BitVec.getLsbD_and, BitVec.getLsbD_ushiftRight]
  interval_cases i <;> simp

theorem ortho32_8_bit (q : Q8 32) {j i : Nat} (hj : j < 8) (hi : i < 32) :
    ((ortho32_8 q).get j).getLsbD i =
      (q.get (lvl j i 4)).getLsbD (lvl i j 4) := by
  unfold ortho32_8
  have h01 : i / 4 % 2 = 0 ∨ i / 4 % 2 = 1 := by omega
  rcases h01 with h | h
  · rw [show lvl i j 4 = i + j / 4 % 2 * 4 by unfold lvl; omega]
    interval_cases j <;> simp [lvl, Q8.get, swapX32_4 _ _ hi, swapY32_4 _ _ hi, h]
  · have hs : i - 4 + 4 = i := by omega
    interval_cases j <;> simp [lvl, Q8.get, swapX32_4 _ _ hi, swapY32_4 _ _ hi, h, hs]

theorem ortho32_bit (q : Q8 32) {j i : Nat} (hj : j < 8) (hi : i < 32) :
    ((br_aes_ct_ortho q).get j).getLsbD i = (q.get (i % 8)).getLsbD (i / 8 * 8 + j) := by
  have key : ∀ j < 8, ∀ i < 32, lvl j i 4 < 8 ∧ lvl i j 4 < 32 ∧
      lvl (lvl j i 4) (lvl i j 4) 2 < 8 ∧ lvl (lvl i j 4) (lvl j i 4) 2 < 32 ∧
      lvl (lvl (lvl j i 4) (lvl i j 4) 2) (lvl (lvl i j 4) (lvl j i 4) 2) 1 = i % 8 ∧
      lvl (lvl (lvl i j 4) (lvl j i 4) 2) (lvl (lvl j i 4) (lvl i j 4) 2) 1 = i / 8 * 8 + j := by
    decide +kernel
  obtain ⟨h1, h2, h3, h4, h5, h6⟩ := key j hj i hi
  unfold br_aes_ct_ortho
  rw [ortho32_8_bit _ hj hi, ortho32_4_bit _ h1 h2, ortho32_2_bit _ h3 h4, h5, h6]

end Spx.Haraka
