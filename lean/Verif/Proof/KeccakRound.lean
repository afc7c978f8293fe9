import Verif.Proof.Base
import Verif.Proof.Sponge
import Verif.Proof.Bytes
import Verif.Model.Fips202
import Verif.Spec.Keccak
/-! The permutation of ref/fips202.c is Keccak-f[1600]. -/

namespace Spx
open Spec Spec.Keccak

theorem ROL_eq (a : BitVec 64) {k : Nat} (h0 : 0 < k) (h : k < 64) : ROL a k = a.rotateLeft k := by
  apply BitVec.eq_of_getLsbD_eq
  intro i hi
  simp only [ROL, BitVec.getLsbD_xor, BitVec.getLsbD_shiftLeft, BitVec.getLsbD_ushiftRight,
    BitVec.getLsbD_rotateLeft, Nat.mod_eq_of_lt h]
  by_cases hik : i < k
  · simp [hik, hi]
  · simp [hik, hi, BitVec.getLsbD_of_ge a (64 - k + i) (by omega)]

/-- Lane (x,y) of the local variables. -/
def Lanes.lane (L : Lanes) (x y : Nat) : BitVec 64 := L.toList.getD (5 * y + x) 0

/-- Two states agree on the 25 lanes. -/
def LaneEq (A B : State) : Prop := ∀ x y, x < 5 → y < 5 → A x y = B x y

theorem round_congr (ir : Nat) {A B : State} (h : LaneEq A B) : LaneEq (round ir A) (round ir B) := by
  intro x y hx hy
  have m : ∀ k, k % 5 < 5 := fun k => Nat.mod_lt _ (by decide)
  have hC : ∀ x, x < 5 → thetaC A x = thetaC B x := by
    intro x hx
    simp [thetaC, h x _ hx]
  have hD : ∀ x, x < 5 → thetaD A x = thetaD B x := by
    intro x hx
    simp [thetaD, hC _ (m _)]
  have hpr : ∀ x y, x < 5 → y < 5 → pi (rho (theta A)) x y = pi (rho (theta B)) x y := by
    intro x y hx hy
    simp [pi, rho, theta, h _ _ (m _) hx, hD _ (m _)]
  simp [round, iota, chi, hpr _ _ hx hy, hpr _ _ (m _) hy]

theorem rhoTable : (List.range 25).map (fun i => rhoOffset (i % 5) (i / 5)) =
    [0, 1, 62, 28, 27, 36, 44, 6, 55, 20, 3, 10, 43, 25, 39, 41, 45, 15, 21, 8, 18, 2, 61, 56, 14] := by
  decide +kernel

theorem rcTable : (List.range 24).map RC = KeccakF_RoundConstants := by decide +kernel

theorem rhoOffset_eq (x y : Nat) (hx : x < 5) (hy : y < 5) : rhoOffset x y =
    [0, 1, 62, 28, 27, 36, 44, 6, 55, 20, 3, 10, 43, 25, 39, 41, 45, 15, 21, 8, 18, 2, 61, 56,
      14].getD (5 * y + x) 0 := by
  rw [← rhoTable]
  have h : 5 * y + x < 25 := by omega
  have h1 : (5 * y + x) % 5 = x := by omega
  have h2 : (5 * y + x) / 5 = y := by omega
  simp [List.getD, h, h1, h2]

theorem rotateLeft_zero (a : BitVec 64) : a.rotateLeft 0 = a := by
  apply BitVec.eq_of_getLsbD_eq
  intro i hi
  simp [hi]

theorem round_even_lane (ir : Nat) (L : Lanes) :
    LaneEq (keccak_round_even (RC ir) L).lane (round ir L.lane) := by
  obtain ⟨Aba, Abe, Abi, Abo, Abu, Aga, Age, Agi, Ago, Agu, Aka, Ake, Aki, Ako, Aku, Ama, Ame, Ami, Amo,
    Amu, Asa, Ase, Asi, Aso, Asu⟩ := L
  intro x y hx hy
  have h1 : x = 0 ∨ x = 1 ∨ x = 2 ∨ x = 3 ∨ x = 4 := by omega
  have h2 : y = 0 ∨ y = 1 ∨ y = 2 ∨ y = 3 ∨ y = 4 := by omega
  rcases h1 with rfl | rfl | rfl | rfl | rfl <;> rcases h2 with rfl | rfl | rfl | rfl | rfl <;>
  · simp only [round, iota, chi, pi, rho]
    rw [rhoOffset_eq _ _ (by decide) (by decide), rhoOffset_eq _ _ (by decide) (by decide),
      rhoOffset_eq _ _ (by decide) (by decide)]
    simp [theta, thetaC, thetaD, Lanes.lane, keccak_round_even, Lanes.toList, ROL_eq, rotateLeft_zero]

theorem round_odd_lane (ir : Nat) (L : Lanes) :
    LaneEq (keccak_round_odd (RC ir) L).lane (round ir L.lane) := by
  obtain ⟨Aba, Abe, Abi, Abo, Abu, Aga, Age, Agi, Ago, Agu, Aka, Ake, Aki, Ako, Aku, Ama, Ame, Ami, Amo,
    Amu, Asa, Ase, Asi, Aso, Asu⟩ := L
  intro x y hx hy
  have h1 : x = 0 ∨ x = 1 ∨ x = 2 ∨ x = 3 ∨ x = 4 := by omega
  have h2 : y = 0 ∨ y = 1 ∨ y = 2 ∨ y = 3 ∨ y = 4 := by omega
  rcases h1 with rfl | rfl | rfl | rfl | rfl <;> rcases h2 with rfl | rfl | rfl | rfl | rfl <;>
  · simp only [round, iota, chi, pi, rho]
    rw [rhoOffset_eq _ _ (by decide) (by decide), rhoOffset_eq _ _ (by decide) (by decide),
      rhoOffset_eq _ _ (by decide) (by decide)]
    simp [theta, thetaC, thetaD, Lanes.lane, keccak_round_odd, Lanes.toList, ROL_eq, rotateLeft_zero]

end Spx
