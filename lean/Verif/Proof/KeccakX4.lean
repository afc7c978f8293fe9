import Verif.Proof.KeccakX
import Verif.Proof.Shake
/-! The AVX2 permutation is Keccak-f[1600] in every lane. -/

namespace Spx
open Spec Spec.Keccak

theorem byteOf_rotl8 (w : BitVec 64) {k c : Nat} (hk : k < 8) (hc : c < 8) :
    byteOf (w.rotateLeft (8 * k)) c = byteOf w ((c + 8 - k) % 8) := by
  apply BitVec.eq_of_getLsbD_eq
  intro i hi
  simp only [byteOf, BitVec.truncate, BitVec.getLsbD_setWidth, BitVec.getLsbD_ushiftRight, hi, decide_true,
    Bool.true_and, BitVec.getLsbD_rotateLeft, Nat.mod_eq_of_lt (show 8 * k < 64 by omega)]
  by_cases h : 8 * c + i < 8 * k
  · rw [show 8 * ((c + 8 - k) % 8) + i = 64 - 8 * k + (8 * c + i) by omega]
    simp [h]
  · rw [show 8 * ((c + 8 - k) % 8) + i = 8 * c + i - 8 * k by omega]
    simp [h, show 8 * c + i < 64 by omega]

/-- A shuffle whose mask, in lane `l`, selects byte `σ c` of the same lane. -/
theorem shuffle_lane {a m : VReg} {l : Nat} {σ : Nat → Nat} (hσ : ∀ c, c < 8 → σ c < 8)
    (hm : ∀ c, c < 8 → vbyte (m l) c = BitVec.ofNat 8 (16 * (l / 2) + 8 * (l % 2) + σ c)) (hl : l < 4) :
    ∀ c, c < 8 → byteOf (shuffle_epi8 a m l) c = byteOf (a l) (σ c) := by
  have key : ∀ k, k ≤ 8 → ∀ c, c < 8 → byteOf ((List.range k).foldl (fun (w : BitVec 64) c =>
      let s := vbyte (m l) c
      let k := (s &&& 15#8).toNat
      let b : Byte := if s.getLsbD 7 then 0#8 else vbyte (a (2 * (l / 2) + k / 8)) (k % 8)
      w ||| (b.zeroExtend 64 <<< (8 * c))) 0#64) c = if c < k then byteOf (a l) (σ c) else 0#8 := by
    intro k
    induction k with
    | zero => intro _ c _; simp [byteOf]
    | succ k ih =>
      intro hk c hc
      rw [List.range_succ, List.foldl_append]
      simp only [List.foldl_cons, List.foldl_nil]
      rw [byteOf_or, ih (by omega) c hc, byteOf_shl _ _ _ (by omega) hc, hm k (by omega)]
      have h8 := hσ k (by omega)
      have e1 : (BitVec.ofNat 8 (16 * (l / 2) + 8 * (l % 2) + σ k)).getLsbD 7 = false := by
        rw [BitVec.getLsbD_ofNat]
        simp only [show (7 < 8) = True by simp, decide_true, Bool.true_and]
        exact Nat.testBit_lt_two_pow (show 16 * (l / 2) + 8 * (l % 2) + σ k < 2 ^ 7 by omega)
      have e2 : (BitVec.ofNat 8 (16 * (l / 2) + 8 * (l % 2) + σ k) &&& 15#8).toNat = 8 * (l % 2) + σ k := by
        rw [BitVec.toNat_and, BitVec.toNat_ofNat, Nat.mod_eq_of_lt (by omega)]
        show _ &&& 2 ^ 4 - 1 = _
        rw [Nat.and_two_pow_sub_one_eq_mod]
        omega
      have e3 : (8 * (l % 2) + σ k) / 8 = l % 2 := by omega
      have e4 : (8 * (l % 2) + σ k) % 8 = σ k := by omega
      rw [e1, e2, e3, e4, show 2 * (l / 2) + l % 2 = l by omega]
      by_cases h1 : c = k
      · subst h1; simp [vbyte, byteOf]
      · by_cases h2 : c < k
        · simp [h1, h2, show c < k + 1 by omega]
        · simp [h1, h2, show ¬ c < k + 1 by omega]
  intro c hc
  have := key 8 (by omega) c hc
  rw [if_pos hc] at this
  exact this

theorem rho8_mask : ∀ l, l < 4 → ∀ c, c < 8 → vbyte (rho8.getD l 0) c =
    BitVec.ofNat 8 (16 * (l / 2) + 8 * (l % 2) + (c + 8 - 1) % 8) := by decide +kernel
theorem rho56_mask : ∀ l, l < 4 → ∀ c, c < 8 → vbyte (rho56.getD l 0) c =
    BitVec.ofNat 8 (16 * (l / 2) + 8 * (l % 2) + (c + 8 - 7) % 8) := by decide +kernel

theorem ROL64in256_8_apply (a : VReg) {l : Nat} (hl : l < 4) : ROL64in256_8 a l = (a l).rotateLeft 8 := by
  apply word_ext
  intro c hc
  rw [ROL64in256_8, shuffle_lane (σ := fun c => (c + 8 - 1) % 8) (fun c _ => Nat.mod_lt _ (by omega))
    (rho8_mask l hl) hl c hc]
  exact (byteOf_rotl8 (k := 1) (a l) (by omega) hc).symm

theorem ROL64in256_56_apply (a : VReg) {l : Nat} (hl : l < 4) : ROL64in256_56 a l = (a l).rotateLeft 56 := by
  apply word_ext
  intro c hc
  rw [ROL64in256_56, shuffle_lane (σ := fun c => (c + 8 - 7) % 8) (fun c _ => Nat.mod_lt _ (by omega))
    (rho56_mask l hl) hl c hc]
  exact (byteOf_rotl8 (k := 7) (a l) (by omega) hc).symm

/-- The column parities of one lane. -/
structure ColsOK (K : VCols) (V : VLanes) (l : Nat) : Prop where
  a : K.a l = thetaC (V.at l).lane 0
  e : K.e l = thetaC (V.at l).lane 1
  i : K.i l = thetaC (V.at l).lane 2
  o : K.o l = thetaC (V.at l).lane 3
  u : K.u l = thetaC (V.at l).lane 4

theorem prepareTheta_ok (V : VLanes) (l : Nat) : ColsOK (prepareTheta V) V l := by
  obtain ⟨Aba, Abe, Abi, Abo, Abu, Aga, Age, Agi, Ago, Agu, Aka, Ake, Aki, Ako, Aku, Ama, Ame, Ami, Amo,
    Amu, Asa, Ase, Asi, Aso, Asu⟩ := V
  constructor <;> simp [prepareTheta, thetaC, Lanes.lane, VLanes.at, Lanes.toList, vxor, BitVec.xor_assoc]

theorem last_round_lane (ir : Nat) {K : VCols} {V : VLanes} {l : Nat} (hl : l < 4) (hK : ColsOK K V l) :
    LaneEq ((thetaRhoPiChiIota (RC ir) K V).at l).lane (round ir (V.at l).lane) := by
  obtain ⟨Aba, Abe, Abi, Abo, Abu, Aga, Age, Agi, Ago, Agu, Aka, Ake, Aki, Ako, Aku, Ama, Ame, Ami, Amo,
    Amu, Asa, Ase, Asi, Aso, Asu⟩ := V
  obtain ⟨Ca, Ce, Ci, Co, Cu⟩ := K
  obtain ⟨ha, he, hi, ho, hu⟩ := hK
  simp only at ha he hi ho hu
  intro x y hx hy
  have h1 : x = 0 ∨ x = 1 ∨ x = 2 ∨ x = 3 ∨ x = 4 := by omega
  have h2 : y = 0 ∨ y = 1 ∨ y = 2 ∨ y = 3 ∨ y = 4 := by omega
  rcases h1 with rfl | rfl | rfl | rfl | rfl <;> rcases h2 with rfl | rfl | rfl | rfl | rfl <;>
  · simp only [round, iota, chi, pi, rho]
    rw [rhoOffset_eq _ _ (by decide) (by decide), rhoOffset_eq _ _ (by decide) (by decide),
      rhoOffset_eq _ _ (by decide) (by decide)]
    simp only [theta, thetaD, Nat.reduceAdd, Nat.reduceMul, Nat.reduceMod, ← ha, ← he, ← hi, ← ho, ← hu]
    simp [Lanes.lane, VLanes.at, thetaRhoPiChiIota, Lanes.toList, ROL64in256_apply, ROL64in256_8_apply _ hl,
      ROL64in256_56_apply _ hl, rotateLeft_zero, vxor, vandn, vdup]

theorem round4_fst (rc : BitVec 64) (K : VCols) (V : VLanes) :
    (thetaRhoPiChiIotaPrepareTheta rc K V).2 = thetaRhoPiChiIota rc K V := rfl

theorem round4_cols (rc : BitVec 64) (K : VCols) (V : VLanes) (l : Nat) :
    ColsOK (thetaRhoPiChiIotaPrepareTheta rc K V).1 (thetaRhoPiChiIotaPrepareTheta rc K V).2 l := by
  constructor <;> rfl

theorem rd_RC4 {k : Nat} (h : k < 24) : rd1 KeccakF1600RoundConstants k = .ok (RC k) := by
  have e : KeccakF1600RoundConstants = KeccakF_RoundConstants := by decide +kernel
  rw [e, rd_RC h]

theorem PermuteAll_ok : PermOK 4 KeccakP1600times4_PermuteAll_24rounds := by
  intro F
  obtain ⟨V, e1, hV⟩ := VLanes.load_inter (L := 4) (by omega) F
  obtain ⟨st, e2, hK, hV'⟩ := forRange_inv (n := 23) (s := (prepareTheta V, V))
    (body := fun i (st : VCols × VLanes) => do
      .ok (thetaRhoPiChiIotaPrepareTheta (← rd1 KeccakF1600RoundConstants i) st.1 st.2))
    (fun k (st : VCols × VLanes) => (∀ l, ColsOK st.1 st.2 l) ∧
      ∀ l, l < 4 → LaneEq (st.2.at l).lane (rounds (V.at l).lane k))
    ⟨fun l => prepareTheta_ok V l, fun l _ x y _ _ => rfl⟩ (by
      rintro i ⟨K, M⟩ hi ⟨hK, hM⟩
      refine ⟨_, by rw [rd_RC4 (by omega)]; rfl, fun l => round4_cols _ K M l, ?_⟩
      intro l hl x y hx hy
      rw [round4_fst, last_round_lane i hl (hK l) x y hx hy]
      exact round_congr i (hM l hl) x y hx hy)
  unfold KeccakP1600times4_PermuteAll_24rounds
  rw [e1, ok_bind, e2]
  simp only [ok_bind]
  rw [rd_RC4 (by omega), ok_bind, VLanes.store_inter (by omega)]
  congr 1
  apply inter_congr
  intro i j hi hj
  rw [← VLanes.at_lane _ j i hi, last_round_lane 23 hj (hK j) _ _ (by omega) (by omega),
    round_congr 23 (hV' j hj) _ _ (by omega) (by omega)]
  exact rounds_congr (hV j hj) 24 _ _ (by omega) (by omega)

end Spx
