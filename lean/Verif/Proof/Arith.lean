import Verif.Spec.Merkle
/-! Arithmetic of tree indices. -/

namespace Spx
open Spec

theorem succ_div_pow_ones {i h : Nat} (hm : i % 2 ^ h = 2 ^ h - 1) : (i + 1) / 2 ^ h = i / 2 ^ h + 1 := by
  have hp : 0 < 2 ^ h := Nat.two_pow_pos h
  have := Nat.div_add_mod i (2 ^ h)
  have e : i + 1 = 2 ^ h * (i / 2 ^ h + 1) := by rw [Nat.mul_add]; omega
  rw [e, Nat.mul_div_cancel_left _ hp]

theorem succ_div_pow_other {i h : Nat} (hm : i % 2 ^ h ≠ 2 ^ h - 1) : (i + 1) / 2 ^ h = i / 2 ^ h := by
  have hp : 0 < 2 ^ h := Nat.two_pow_pos h
  have h1 := Nat.div_add_mod i (2 ^ h)
  have h2 := Nat.mod_lt i hp
  generalize 2 ^ h = p at *
  have e : i + 1 = p * (i / p) + (i % p + 1) := by omega
  have h3 : (i % p + 1) / p = 0 := Nat.div_eq_of_lt (by omega)
  conv => lhs; rw [e]
  rw [Nat.mul_add_div hp, h3]
  omega

theorem div_pow_succ (i h : Nat) : i / 2 ^ (h + 1) = i / 2 ^ h / 2 := by
  rw [Nat.pow_succ, Nat.div_div_eq_div_mul]

theorem mod_pow_succ (i h : Nat) : i % 2 ^ (h + 1) = i % 2 ^ h + 2 ^ h * (i / 2 ^ h % 2) := by
  rw [Nat.pow_succ, Nat.mod_mul]

theorem ones_of_bits {i t : Nat} (h : ∀ j, j < t → i / 2 ^ j % 2 = 1) : i % 2 ^ t = 2 ^ t - 1 := by
  induction t with
  | zero => simp [Nat.mod_one]
  | succ t ih =>
    rw [mod_pow_succ, ih (fun j hj => h j (by omega)), h t (by omega)]
    have : 0 < 2 ^ t := Nat.two_pow_pos t
    rw [Nat.pow_succ]; omega

theorem bits_of_ones {i t : Nat} (h : i % 2 ^ t = 2 ^ t - 1) {j : Nat} (hj : j < t) :
    i / 2 ^ j % 2 = 1 := by
  induction t with
  | zero => omega
  | succ t ih =>
    rw [mod_pow_succ, Nat.pow_succ] at h
    have hp : 0 < 2 ^ t := Nat.two_pow_pos t
    have hlt : i % 2 ^ t < 2 ^ t := Nat.mod_lt _ hp
    rcases Nat.mod_two_eq_zero_or_one (i / 2 ^ t) with hb | hb
    · rw [hb] at h; omega
    · rw [hb] at h
      by_cases hjt : j = t
      · subst hjt; exact hb
      · exact ih (by omega) (by omega)

/-- Number of trailing one bits, at most `th`. -/
theorem exists_trailing (i th : Nat) :
    ∃ t, t ≤ th ∧ (∀ j, j < t → i / 2 ^ j % 2 = 1) ∧ (t = th ∨ i / 2 ^ t % 2 = 0) := by
  induction th with
  | zero => exact ⟨0, by omega, fun j hj => by omega, Or.inl rfl⟩
  | succ th ih =>
    obtain ⟨t, h1, h2, h3⟩ := ih
    rcases h3 with h3 | h3
    · subst h3
      rcases Nat.mod_two_eq_zero_or_one (i / 2 ^ t) with hb | hb
      · exact ⟨t, by omega, h2, Or.inr hb⟩
      · refine ⟨t + 1, by omega, fun j hj => ?_, Or.inl rfl⟩
        by_cases hjt : j = t
        · subst hjt; exact hb
        · exact h2 j (by omega)
    · exact ⟨t, by omega, h2, Or.inr h3⟩

theorem xor_eq_one_iff (q l : Nat) : q ^^^ l = 1 ↔ q = sibling l := by
  have h1 : (q ^^^ l) / 2 = q / 2 ^^^ l / 2 := Nat.xor_div_two
  have h2 : (q ^^^ l) % 2 = (q % 2 ^^^ l % 2) := by
    rw [← Nat.pow_one 2, Nat.xor_mod_two_pow]
  unfold sibling
  constructor
  · intro h
    rw [h] at h1 h2
    have h3 : q / 2 = l / 2 := by
      have : q / 2 ^^^ l / 2 = 0 := by rw [← h1]
      have h4 := congrArg (· ^^^ l / 2) this
      simpa [Nat.xor_assoc] using h4
    rcases Nat.mod_two_eq_zero_or_one q with hq | hq <;>
    rcases Nat.mod_two_eq_zero_or_one l with hl | hl <;>
    simp [hq, hl] at h2 ⊢ <;> omega
  · intro h
    have h3 : q / 2 = l / 2 := by split at h <;> omega
    rw [h3, Nat.xor_self] at h1
    have h4 : q % 2 ≠ l % 2 := by split at h <;> omega
    generalize q ^^^ l = z at *
    rcases Nat.mod_two_eq_zero_or_one q with hq | hq <;>
    rcases Nat.mod_two_eq_zero_or_one l with hl | hl <;>
    rw [hq, hl] at h2 h4 <;> first | exact absurd rfl h4 | (have h5 : z % 2 = 1 := h2; omega)

theorem and_one (x : Nat) : x &&& 1 = x % 2 := Nat.and_one_is_mod x

theorem shiftRight_one_div (i h : Nat) : (i / 2 ^ h) >>> 1 = i / 2 ^ (h + 1) := by
  rw [Nat.shiftRight_eq_div_pow, div_pow_succ i h, Nat.pow_one]

end Spx
