import Verif.Proof.Base
import Verif.Spec.Bytes
import Verif.Model.Utils
/-! Byte strings and numbers. -/

namespace Spx
open Spec

@[simp] theorem toBE_length (k x : Nat) : (toBE k x).length = k := by
  induction k generalizing x with
  | zero => rfl
  | succ k ih => simp [toBE, ih]

theorem toBE_cons (k x : Nat) : toBE (k + 1) x = BitVec.ofNat 8 (x / 256 ^ k) :: toBE k x := by
  induction k generalizing x with
  | zero => simp [toBE]
  | succ k ih =>
    rw [toBE, ih, toBE, List.cons_append, Nat.pow_succ, Nat.mul_comm (256 ^ k), Nat.div_div_eq_div_mul]

theorem ofNat_and_ff (y : Nat) : BitVec.ofNat 8 (y &&& 0xff) = BitVec.ofNat 8 y := by
  have : (0xff : Nat) = 2 ^ 8 - 1 := rfl
  rw [this, Nat.and_two_pow_sub_one_eq_mod]
  apply BitVec.eq_of_toNat_eq; simp

theorem ull_to_bytes_spec (out : Bytes) (k x : Nat) (h : k ≤ out.length) :
    ull_to_bytes out k x = .ok (toBE k x ++ out.drop k) := by
  unfold ull_to_bytes
  -- after j iterations the last j of the first k bytes are written
  suffices hh : ∀ j, j ≤ k → forRange j (fun j (s : Bytes × Nat) => do
      let i := k - 1 - j
      let out ← wr1 s.1 i (BitVec.ofNat 8 (s.2 &&& 0xff))
      (.ok (out, s.2 >>> 8) : C (Bytes × Nat))) (out, x) =
      .ok (out.take (k - j) ++ (toBE j x ++ out.drop k), x / 256 ^ j) by
    have := hh k (Nat.le_refl _)
    simp only [this]
    simp
  intro j
  induction j with
  | zero => intro _; simp [forRange, toBE]
  | succ j ih =>
    intro hj
    have hlen : (out.take (k - j)).length = k - j := by simp; omega
    have hidx : k - 1 - j < (out.take (k - j)).length := by omega
    rw [forRange, ih (by omega)]
    simp only [ok_bind]
    rw [wr1_ok (by simp only [List.length_append, toBE_length, List.length_drop]; omega)]
    simp only [ok_bind, ofNat_and_ff]
    congr 2
    · rw [List.set_append_left _ _ hidx, toBE_cons]
      apply List.ext_getElem?
      intro i
      simp only [List.getElem?_append, List.getElem?_set, List.length_set, hlen,
        List.length_take, List.getElem?_take, List.cons_append, List.getElem?_cons]
      grind
    · rw [Nat.shiftRight_eq_div_pow, Nat.div_div_eq_div_mul, Nat.pow_succ 256 j]

theorem beNat_append (a b : Bytes) : beNat (a ++ b) = beNat a * 256 ^ b.length + beNat b := by
  have h : ∀ (b : Bytes) (s : Nat), b.foldl (fun a b => a * 256 + b.toNat) s
      = s * 256 ^ b.length + b.foldl (fun a b => a * 256 + b.toNat) 0 := by
    intro b
    induction b with
    | nil => simp
    | cons x xs ih =>
      intro s
      simp only [List.foldl_cons, List.length_cons]
      rw [ih (s * 256 + x.toNat), ih (0 * 256 + x.toNat)]
      grind
  unfold beNat
  rw [List.foldl_append, h]

@[simp] theorem beNat_nil : beNat [] = 0 := rfl
@[simp] theorem beNat_singleton (b : Byte) : beNat [b] = b.toNat := by simp [beNat]

theorem beNat_cons (x : Byte) (b : Bytes) : beNat (x :: b) = x.toNat * 256 ^ b.length + beNat b := by
  have := beNat_append [x] b
  simpa using this

theorem beNat_lt (b : Bytes) : beNat b < 256 ^ b.length := by
  induction b with
  | nil => simp
  | cons x xs ih =>
    rw [beNat_cons, List.length_cons, Nat.pow_succ]
    have := x.isLt
    have h2 : x.toNat + 1 ≤ 256 := by omega
    calc x.toNat * 256 ^ xs.length + beNat xs < (x.toNat + 1) * 256 ^ xs.length := by
          rw [Nat.add_mul]; omega
      _ ≤ 256 * 256 ^ xs.length := Nat.mul_le_mul_right _ h2
      _ = 256 ^ xs.length * 256 := Nat.mul_comm _ _

theorem beNat_toBE (k x : Nat) : beNat (toBE k x) = x % 256 ^ k := by
  induction k generalizing x with
  | zero => simp [toBE, Nat.mod_one]
  | succ k ih =>
    rw [toBE, beNat_append, ih]
    simp only [beNat_singleton, BitVec.toNat_ofNat, List.length_singleton, Nat.pow_one]
    rw [Nat.pow_succ 256 k, Nat.mul_comm (256 ^ k) 256, Nat.mod_mul]
    omega

theorem toBE_beNat (b : Bytes) : toBE b.length (beNat b) = b := by
  induction b with
  | nil => rfl
  | cons x xs ih =>
    rw [List.length_cons, toBE_cons, beNat_cons]
    have hlt := beNat_lt xs
    have hpos : 0 < 256 ^ xs.length := Nat.pow_pos (by omega)
    have h1 : (x.toNat * 256 ^ xs.length + beNat xs) / 256 ^ xs.length = x.toNat := by
      rw [Nat.mul_comm, Nat.mul_add_div hpos, Nat.div_eq_of_lt hlt]; omega
    rw [h1]
    have h2 : ∀ k y z : Nat, toBE k (y * 256 ^ k + z) = toBE k z := by
      intro k
      induction k with
      | zero => intros; rfl
      | succ k ihk =>
        intro y z
        rw [toBE, toBE]
        have e1 : (y * 256 ^ (k + 1) + z) / 256 = y * 256 ^ k + z / 256 := by
          rw [Nat.pow_succ]
          have : y * (256 ^ k * 256) = 256 * (y * 256 ^ k) := by grind
          rw [this]; omega
        have e2 : BitVec.ofNat 8 (y * 256 ^ (k + 1) + z) = BitVec.ofNat 8 z := by
          apply BitVec.eq_of_toNat_eq
          have : y * 256 ^ (k + 1) = 256 * (y * 256 ^ k) := by rw [Nat.pow_succ]; grind
          simp only [BitVec.toNat_ofNat, this]
          omega
        rw [e1, ihk, e2]
    rw [h2, ih]
    simp

theorem beNat_inj {a b : Bytes} (hl : a.length = b.length) (h : beNat a = beNat b) : a = b := by
  rw [← toBE_beNat a, ← toBE_beNat b, hl, h]

theorem u32_to_bytes_spec (out : Bytes) (x : Nat) (h : 4 ≤ out.length) :
    u32_to_bytes out x = .ok (toBE 4 x ++ out.drop 4) := by
  obtain ⟨a, b, c, d, rest, rfl⟩ : ∃ a b c d rest, out = a :: b :: c :: d :: rest := by
    match out, h with
    | a :: b :: c :: d :: rest, _ => exact ⟨a, b, c, d, rest, rfl⟩
  simp [u32_to_bytes, wr1, toBE, Nat.shiftRight_eq_div_pow, Nat.div_div_eq_div_mul]

theorem or_shift_add {a b k : Nat} (ha : a % 2 ^ k = 0) (hb : b < 2 ^ k) : a ||| b = a + b := by
  obtain ⟨c, rfl⟩ : ∃ c, a = 2 ^ k * c := ⟨a / 2 ^ k, by
    have := Nat.div_add_mod a (2 ^ k); omega⟩
  exact (Nat.two_pow_add_eq_or_of_lt hb c).symm

theorem bytes_to_ull_spec (inp : Bytes) (k : Nat) (h : k ≤ inp.length) (hk : k ≤ 8) :
    bytes_to_ull inp k = .ok (beNat (inp.take k)) := by
  unfold bytes_to_ull
  refine forRange_eq' (fun i => beNat (inp.take i) * 256 ^ (k - i)) (by simp) (by simp) ?_
  intro i hi
  rw [rd1_ok (by omega)]
  simp only [ok_bind]
  rw [if_pos (by omega)]
  congr 1
  have hb : (inp[i]'(by omega)).toNat < 256 := (inp[i]'(by omega)).isLt
  have hp : 2 ^ (8 * (k - 1 - i)) = 256 ^ (k - 1 - i) := by rw [Nat.pow_mul]
  have hpp : 256 ^ (k - i) = 256 ^ (k - 1 - i) * 256 := by
    rw [← Nat.pow_succ]; congr 1; omega
  have hle : 256 ^ (k - i) ≤ 256 ^ 8 := Nat.pow_le_pow_right (by omega) (by omega)
  have hpos : 0 < 256 ^ (k - 1 - i) := Nat.pow_pos (by omega)
  have hlt : (inp[i]'(by omega)).toNat * 256 ^ (k - 1 - i) < 256 ^ (k - i) := by
    rw [hpp, Nat.mul_comm _ 256]
    exact Nat.mul_lt_mul_of_pos_right hb hpos
  rw [Nat.shiftLeft_eq, hp, Nat.mod_eq_of_lt (by
    have : (256 : Nat) ^ 8 = 2 ^ 64 := by decide
    omega)]
  have hp8 : 256 ^ (k - i) = 2 ^ (8 * (k - i)) := by rw [Nat.pow_mul]
  rw [or_shift_add (k := 8 * (k - i)) (by rw [hp8]; simp) (by rw [← hp8]; exact hlt)]
  rw [List.take_succ_eq_append_getElem (by omega), beNat_append, hpp,
    show k - (i + 1) = k - 1 - i by omega]
  simp only [List.length_singleton, Nat.pow_one, beNat_singleton]
  grind

@[simp] theorem toLE_length (k x : Nat) : (toLE k x).length = k := by
  induction k generalizing x with
  | zero => rfl
  | succ k ih => simp [toLE, ih]

theorem leNat_lt (b : Bytes) : leNat b < 256 ^ b.length := by
  induction b with
  | nil => simp [leNat]
  | cons x xs ih =>
    have := x.isLt
    rw [leNat, List.length_cons, Nat.pow_succ]
    omega

theorem leNat_toLE (k x : Nat) : leNat (toLE k x) = x % 256 ^ k := by
  induction k generalizing x with
  | zero => simp [toLE, leNat, Nat.mod_one]
  | succ k ih =>
    rw [toLE, leNat, ih, Nat.pow_succ, Nat.mul_comm _ 256, Nat.mod_mul]
    simp

theorem toLE_leNat (b : Bytes) : toLE b.length (leNat b) = b := by
  induction b with
  | nil => rfl
  | cons x xs ih =>
    have := x.isLt
    rw [List.length_cons, leNat, toLE]
    congr 1
    · apply BitVec.eq_of_toNat_eq; simp; omega
    · rw [show (x.toNat + 256 * leNat xs) / 256 = leNat xs by omega, ih]

theorem toLE_reverse (k x : Nat) : (toLE k x).reverse = toBE k x := by
  induction k generalizing x with
  | zero => rfl
  | succ k ih => rw [toLE, toBE, List.reverse_cons, ih]

end Spx
