import Verif.Proof.HarakaSbox
import Verif.Proof.Base
import Mathlib.Tactic.IntervalCases
/-! Bit positions under the linear parts of the bitsliced AES round. -/

namespace Spx.Haraka
open Spec

/-- Source position of position `i` under `shift_row`. -/
def sig64 (i : Nat) : Nat := i / 16 * 16 + (i / 4 + i / 16) % 4 * 4 + i % 4

/-- Source position of position `i` under `shift_row32`. -/
def sig32 (i : Nat) : Nat := i / 8 * 8 + (i / 2 + i / 8) % 4 * 2 + i % 2

/-- Source position of position `i` under `mix64`. -/
def mu64 (i : Nat) : Nat := i / 16 * 16 + [12, 2, 6, 8, 14, 0, 4, 10, 13, 3, 7, 9, 15, 1, 5, 11].getD (i % 16) 0

/-- Source position of position `i` under `mix32`. -/
def mu32 (i : Nat) : Nat := i / 8 * 8 + [0, 4, 1, 5, 2, 6, 3, 7].getD (i % 8) 0

theorem shift_row_bit (x : BitVec 64) {i : Nat} (h : i < 64) :
    (shift_row x).getLsbD i = x.getLsbD (sig64 i) := by
  unfold shift_row sig64
  simp only [BitVec.getLsbD_or, BitVec.getLsbD_and, BitVec.getLsbD_shiftLeft, BitVec.getLsbD_ushiftRight]
  interval_cases i <;> simp

theorem shift_row32_bit (x : BitVec 32) {i : Nat} (h : i < 32) :
    (shift_row32 x).getLsbD i = x.getLsbD (sig32 i) := by
  unfold shift_row32 sig32
  simp only [BitVec.getLsbD_or, BitVec.getLsbD_and, BitVec.getLsbD_shiftLeft, BitVec.getLsbD_ushiftRight]
  interval_cases i <;> simp

theorem mix64_bit (x : BitVec 64) {i : Nat} (h : i < 64) : (mix64 x).getLsbD i = x.getLsbD (mu64 i) := by
  unfold mix64 mu64
  simp only [BitVec.getLsbD_or, BitVec.getLsbD_and, BitVec.getLsbD_shiftLeft, BitVec.getLsbD_ushiftRight]
  interval_cases i <;> simp

theorem mix32_bit (x : BitVec 32) {i : Nat} (h : i < 32) : (mix32 x).getLsbD i = x.getLsbD (mu32 i) := by
  unfold mix32 mu32
  simp only [BitVec.getLsbD_or, BitVec.getLsbD_and, BitVec.getLsbD_shiftLeft, BitVec.getLsbD_ushiftRight]
  interval_cases i <;> simp

theorem rot_bit (w k : Nat) (x : BitVec w) {i : Nat} (hk : k ≤ w) (h : i < w) :
    (x >>> k ||| x <<< (w - k)).getLsbD i = x.getLsbD ((i + k) % w) := by
  simp only [BitVec.getLsbD_or, BitVec.getLsbD_shiftLeft, BitVec.getLsbD_ushiftRight]
  by_cases hlt : i + k < w
  · rw [Nat.mod_eq_of_lt hlt, Nat.add_comm k i]
    simp [show i < w - k by omega]
  · rw [Nat.mod_eq_sub_mod (by omega), Nat.mod_eq_of_lt (by omega), show i - (w - k) = i + k - w by omega,
      BitVec.getLsbD_of_ge x (k + i) (by omega)]
    simp [h, show ¬ i < w - k by omega]

theorem mkB_xor (a0 a1 a2 a3 a4 a5 a6 a7 b0 b1 b2 b3 b4 b5 b6 b7 : Bool) :
    mkB (a0 ^^ b0) (a1 ^^ b1) (a2 ^^ b2) (a3 ^^ b3) (a4 ^^ b4) (a5 ^^ b5) (a6 ^^ b6) (a7 ^^ b7) =
      mkB a0 a1 a2 a3 a4 a5 a6 a7 ^^^ mkB b0 b1 b2 b3 b4 b5 b6 b7 := by
  apply BitVec.eq_of_getLsbD_eq
  intro i hi
  rw [BitVec.getLsbD_xor]
  unfold mkB
  simp only [BitVec.getLsbD_cons]
  interval_cases i <;> rfl

theorem gmul2_mkB : ∀ a0 a1 a2 a3 a4 a5 a6 a7 : Bool, Aes.gmul 2#8 (mkB a0 a1 a2 a3 a4 a5 a6 a7) =
    mkB a7 (a0 ^^ a7) a1 (a2 ^^ a7) (a3 ^^ a7) a4 a5 a6 := by decide +kernel

theorem gmul3_mkB : ∀ a0 a1 a2 a3 a4 a5 a6 a7 : Bool, Aes.gmul 3#8 (mkB a0 a1 a2 a3 a4 a5 a6 a7) =
    mkB a7 (a0 ^^ a7) a1 (a2 ^^ a7) (a3 ^^ a7) a4 a5 a6 ^^^ mkB a0 a1 a2 a3 a4 a5 a6 a7 := by decide +kernel

theorem byteAt_shift_rows (q : Q8 64) {i : Nat} (h : i < 64) :
    byteAt (shift_rows q) i = byteAt q (sig64 i) := by
  simp only [byteAt, shift_rows, Q8.map, shift_row_bit _ h]

theorem byteAt_shift_rows32 (q : Q8 32) {i : Nat} (h : i < 32) :
    byteAt (shift_rows32 q) i = byteAt q (sig32 i) := by
  simp only [byteAt, shift_rows32, Q8.map, shift_row32_bit _ h]

theorem byteAt_mix64 (q : Q8 64) {i : Nat} (h : i < 64) : byteAt (q.map mix64) i = byteAt q (mu64 i) := by
  simp only [byteAt, Q8.map, mix64_bit _ h]

theorem byteAt_mix32 (q : Q8 32) {i : Nat} (h : i < 32) : byteAt (q.map mix32) i = byteAt q (mu32 i) := by
  simp only [byteAt, Q8.map, mix32_bit _ h]

theorem byteAt_add_round_key (q k : Q8 64) (i : Nat) :
    byteAt (add_round_key q k) i = byteAt q i ^^^ byteAt k i := by
  simp only [byteAt, add_round_key, BitVec.getLsbD_xor, mkB_xor]

theorem byteAt_add_round_key32 (q k : Q8 32) (i : Nat) :
    byteAt (add_round_key32 q k) i = byteAt q i ^^^ byteAt k i := by
  simp only [byteAt, add_round_key32, BitVec.getLsbD_xor, mkB_xor]

/-- The column sum of MixColumns, on bits. -/
theorem mixcol_bits (a0 a1 a2 a3 a4 a5 a6 a7 b0 b1 b2 b3 b4 b5 b6 b7
    c0 c1 c2 c3 c4 c5 c6 c7 d0 d1 d2 d3 d4 d5 d6 d7 : Bool) :
    mkB (a7 ^^ b7 ^^ b0 ^^ (c0 ^^ d0)) (a0 ^^ b0 ^^ a7 ^^ b7 ^^ b1 ^^ (c1 ^^ d1))
      (a1 ^^ b1 ^^ b2 ^^ (c2 ^^ d2)) (a2 ^^ b2 ^^ a7 ^^ b7 ^^ b3 ^^ (c3 ^^ d3))
      (a3 ^^ b3 ^^ a7 ^^ b7 ^^ b4 ^^ (c4 ^^ d4)) (a4 ^^ b4 ^^ b5 ^^ (c5 ^^ d5))
      (a5 ^^ b5 ^^ b6 ^^ (c6 ^^ d6)) (a6 ^^ b6 ^^ b7 ^^ (c7 ^^ d7)) =
    Aes.gmul 2#8 (mkB a0 a1 a2 a3 a4 a5 a6 a7) ^^^ Aes.gmul 3#8 (mkB b0 b1 b2 b3 b4 b5 b6 b7) ^^^
      mkB c0 c1 c2 c3 c4 c5 c6 c7 ^^^ mkB d0 d1 d2 d3 d4 d5 d6 d7 := by
  rw [gmul2_mkB, gmul3_mkB]
  simp only [← mkB_xor]
  congr 1 <;> simp only [Bool.xor_left_comm, Bool.xor_comm]

theorem byteAt_mix_columns (q : Q8 64) {i : Nat} (h : i < 64) : byteAt (mix_columns q) i =
    Aes.gmul 2#8 (byteAt q i) ^^^ Aes.gmul 3#8 (byteAt q ((i + 16) % 64)) ^^^ byteAt q ((i + 32) % 64) ^^^
      byteAt q ((i + 48) % 64) := by
  have h1 : ∀ x : BitVec 64, ∀ j, j < 64 → (x >>> 16 ||| x <<< 48).getLsbD j = x.getLsbD ((j + 16) % 64) :=
    fun x j hj => rot_bit 64 16 x (by omega) hj
  have h2 : ∀ x : BitVec 64, ∀ j, j < 64 → (rotr32 x).getLsbD j = x.getLsbD ((j + 32) % 64) := by
    intro x j hj
    rw [rotr32, BitVec.or_comm]
    exact rot_bit 64 32 x (by omega) hj
  have e : ((i + 32) % 64 + 16) % 64 = (i + 48) % 64 := by omega
  simp only [byteAt, mix_columns, BitVec.getLsbD_xor, h1 _ _ h, h2 _ _ h, h1 _ _ (Nat.mod_lt _ (by omega : 64 > 0)), e]
  exact mixcol_bits _ _ _ _ _ _ _ _ _ _ _ _ _ _ _ _ _ _ _ _ _ _ _ _ _ _ _ _ _ _ _ _

theorem byteAt_mix_columns32 (q : Q8 32) {i : Nat} (h : i < 32) : byteAt (mix_columns32 q) i =
    Aes.gmul 2#8 (byteAt q i) ^^^ Aes.gmul 3#8 (byteAt q ((i + 8) % 32)) ^^^ byteAt q ((i + 16) % 32) ^^^
      byteAt q ((i + 24) % 32) := by
  have h1 : ∀ x : BitVec 32, ∀ j, j < 32 → (x >>> 8 ||| x <<< 24).getLsbD j = x.getLsbD ((j + 8) % 32) :=
    fun x j hj => rot_bit 32 8 x (by omega) hj
  have h2 : ∀ x : BitVec 32, ∀ j, j < 32 → (rotr16 x).getLsbD j = x.getLsbD ((j + 16) % 32) := by
    intro x j hj
    rw [rotr16, BitVec.or_comm]
    exact rot_bit 32 16 x (by omega) hj
  have e : ((i + 16) % 32 + 8) % 32 = (i + 24) % 32 := by omega
  simp only [byteAt, mix_columns32, BitVec.getLsbD_xor, h1 _ _ h, h2 _ _ h, h1 _ _ (Nat.mod_lt _ (by omega : 32 > 0)), e]
  exact mixcol_bits _ _ _ _ _ _ _ _ _ _ _ _ _ _ _ _ _ _ _ _ _ _ _ _ _ _ _ _ _ _ _ _

end Spx.Haraka
