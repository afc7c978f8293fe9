import Verif.Proof.Keccak
import Verif.Proof.List
import Verif.Model.KeccakX
/-! The vectorised permutations are Keccak-f[1600] in every lane. -/

namespace Spx
open Spec Spec.Keccak

/-- The interleaved state with word `F i j` as word `i` of lane `j`. -/
def inter (L : Nat) (F : Nat → VReg) : List (BitVec 64) := (List.range (L * 25)).map fun k => F (k / L) (k % L)

@[simp] theorem inter_length (L : Nat) (F : Nat → VReg) : (inter L F).length = L * 25 := by simp [inter]

theorem inter_congr {L : Nat} {F F' : Nat → VReg} (h : ∀ i j, i < 25 → j < L → F i j = F' i j) :
    inter L F = inter L F' := by
  apply List.map_congr_left
  intro k hk
  have hk : k < L * 25 := List.mem_range.1 hk
  have hL : 0 < L := by
    rcases Nat.eq_zero_or_pos L with rfl | h
    · simp at hk
    · exact h
  exact h _ _ (Nat.div_lt_of_lt_mul hk) (Nat.mod_lt _ hL)

theorem range_map_drop_take {α : Type} (f : Nat → α) {N a b : Nat} (h : a + b ≤ N) :
    (((List.range N).map f).drop a).take b = (List.range b).map fun j => f (a + j) := by
  apply List.ext_getElem?
  intro i
  rw [List.getElem?_take]
  by_cases hi : i < b
  · rw [if_pos hi, List.getElem?_drop]
    simp [hi, show a + i < N by omega]
  · rw [if_neg hi]
    simp [hi]

theorem getw_inter {L : Nat} (hL : 0 < L) (F : Nat → VReg) {i : Nat} (hi : i < 25) :
    getw L (inter L F) i = .ok fun j => if j < L then F i j else 0 := by
  have hle : L * i + L ≤ L * 25 := by
    have := Nat.mul_le_mul_left L (show i + 1 ≤ 25 by omega)
    rw [Nat.mul_succ] at this
    exact this
  unfold getw
  rw [rd_ok (by rw [inter_length]; exact hle), ok_bind, inter, range_map_drop_take _ hle]
  congr 1
  funext j
  by_cases hj : j < L
  · rw [if_pos hj]
    simp [List.getD, hj, Nat.mul_add_div hL, Nat.div_eq_of_lt hj, Nat.mod_eq_of_lt hj]
  · rw [if_neg hj]
    simp [List.getD, hj]

/-- `F` with word `i` replaced. -/
def upd (F : Nat → VReg) (i : Nat) (w : VReg) : Nat → VReg := fun k => if k = i then w else F k

theorem setw_inter {L : Nat} (hL : 0 < L) (F : Nat → VReg) {i : Nat} (hi : i < 25) (w : VReg) :
    setw L (inter L F) i w = .ok (inter L (upd F i w)) := by
  have hle : L * i + L ≤ L * 25 := by
    have := Nat.mul_le_mul_left L (show i + 1 ≤ 25 by omega)
    rw [Nat.mul_succ] at this
    exact this
  have hmi : min i 25 = i := by omega
  unfold setw
  rw [wr_ok (by rw [inter_length, List.length_map, List.length_range]; exact hle)]
  congr 1
  apply List.ext_getElem?
  intro k
  simp only [List.length_map, List.length_range, inter]
  by_cases h1 : k < L * i
  · rw [List.append_assoc, List.getElem?_append_left (by simp [hmi]; omega), List.getElem?_take, if_pos h1]
    have hne : k / L ≠ i := by
      have := Nat.div_lt_of_lt_mul h1
      omega
    simp [show k < L * 25 by omega, upd, hne]
  · by_cases h2 : k < L * i + L
    · rw [List.getElem?_append_left (by simp [hmi]; omega), List.getElem?_append_right (by simp [hmi]; omega)]
      have e : k = L * i + (k - L * i) := by omega
      have hj : k - L * i < L := by omega
      have e1 : k / L = i := by
        rw [e, Nat.mul_add_div hL, Nat.div_eq_of_lt hj, Nat.add_zero]
      have e2 : k % L = k - L * i := by
        conv => lhs; rw [e, Nat.mul_add_mod, Nat.mod_eq_of_lt hj]
      have hm : min (L * i) (L * 25) = L * i := by omega
      simp [hm, hj, show k < L * 25 by omega, upd, e1, e2]
    · rw [List.getElem?_append_right (by simp [hmi]; omega)]
      have hne : k / L ≠ i := by
        intro h
        have := (Nat.div_eq_iff hL).1 h
        rw [Nat.mul_comm] at this
        omega
      have hm : min (L * i) (L * 25) = L * i := by omega
      rw [List.getElem?_drop, List.length_append, List.length_take, List.length_map, List.length_range,
        List.length_map, List.length_range, hm, show L * i + L + (k - (L * i + L)) = k by omega]
      by_cases h3 : k < L * 25
      · simp [h3, upd, hne]
      · simp [h3]

/-- Keccak-f[1600] on 25 words. -/
def kf (w : Nat → BitVec 64) (i : Nat) : BitVec 64 := f1600 (fun x y => w (5 * y + x)) (i % 5) (i / 5)

/-- What a vectorised permutation has to do. -/
def PermOK (L : Nat) (perm : List (BitVec 64) → C (List (BitVec 64))) : Prop :=
  ∀ F : Nat → VReg, perm (inter L F) = .ok (inter L fun i j => kf (fun k => F k j) i)

/-- One lane of the registers. -/
def VLanes.at (V : VLanes) (l : Nat) : Lanes :=
  ⟨V.ba l, V.be l, V.bi l, V.bo l, V.bu l, V.ga l, V.ge l, V.gi l, V.go l, V.gu l, V.ka l, V.ke l, V.ki l,
    V.ko l, V.ku l, V.ma l, V.me l, V.mi l, V.mo l, V.mu l, V.sa l, V.se l, V.si l, V.so l, V.su l⟩

theorem VLanes.at_lane (V : VLanes) (l i : Nat) (hi : i < 25) :
    (V.at l).lane (i % 5) (i / 5) = (V.toList.getD i (fun _ => 0)) l := by
  rw [Lanes.lane, show 5 * (i / 5) + i % 5 = i by omega]
  obtain ⟨⟩ := V
  have : i = 0 ∨ i = 1 ∨ i = 2 ∨ i = 3 ∨ i = 4 ∨ i = 5 ∨ i = 6 ∨ i = 7 ∨ i = 8 ∨ i = 9 ∨ i = 10 ∨ i = 11 ∨
    i = 12 ∨ i = 13 ∨ i = 14 ∨ i = 15 ∨ i = 16 ∨ i = 17 ∨ i = 18 ∨ i = 19 ∨ i = 20 ∨ i = 21 ∨ i = 22 ∨
    i = 23 ∨ i = 24 := by omega
  rcases this with rfl | rfl | rfl | rfl | rfl | rfl | rfl | rfl | rfl | rfl | rfl | rfl | rfl | rfl | rfl | rfl |
    rfl | rfl | rfl | rfl | rfl | rfl | rfl | rfl | rfl <;> rfl

theorem VLanes.load_inter {L : Nat} (hL : 0 < L) (F : Nat → VReg) :
    ∃ V, VLanes.load L (inter L F) = .ok V ∧ ∀ l, l < L → LaneEq (V.at l).lane (fun x y => F (5 * y + x) l) := by
  unfold VLanes.load
  rw [getw_inter hL F (i := 0) (by omega), ok_bind, getw_inter hL F (i := 1) (by omega), ok_bind,
    getw_inter hL F (i := 2) (by omega), ok_bind, getw_inter hL F (i := 3) (by omega), ok_bind,
    getw_inter hL F (i := 4) (by omega), ok_bind, getw_inter hL F (i := 5) (by omega), ok_bind,
    getw_inter hL F (i := 6) (by omega), ok_bind, getw_inter hL F (i := 7) (by omega), ok_bind,
    getw_inter hL F (i := 8) (by omega), ok_bind, getw_inter hL F (i := 9) (by omega), ok_bind,
    getw_inter hL F (i := 10) (by omega), ok_bind, getw_inter hL F (i := 11) (by omega), ok_bind,
    getw_inter hL F (i := 12) (by omega), ok_bind, getw_inter hL F (i := 13) (by omega), ok_bind,
    getw_inter hL F (i := 14) (by omega), ok_bind, getw_inter hL F (i := 15) (by omega), ok_bind,
    getw_inter hL F (i := 16) (by omega), ok_bind, getw_inter hL F (i := 17) (by omega), ok_bind,
    getw_inter hL F (i := 18) (by omega), ok_bind, getw_inter hL F (i := 19) (by omega), ok_bind,
    getw_inter hL F (i := 20) (by omega), ok_bind, getw_inter hL F (i := 21) (by omega), ok_bind,
    getw_inter hL F (i := 22) (by omega), ok_bind, getw_inter hL F (i := 23) (by omega), ok_bind,
    getw_inter hL F (i := 24) (by omega), ok_bind]
  refine ⟨_, rfl, ?_⟩
  intro l hl x y hx hy
  have h1 : x = 0 ∨ x = 1 ∨ x = 2 ∨ x = 3 ∨ x = 4 := by omega
  have h2 : y = 0 ∨ y = 1 ∨ y = 2 ∨ y = 3 ∨ y = 4 := by omega
  rcases h1 with rfl | rfl | rfl | rfl | rfl <;> rcases h2 with rfl | rfl | rfl | rfl | rfl <;>
    simp [VLanes.at, Lanes.lane, Lanes.toList, hl]

theorem VLanes.store_inter {L : Nat} (hL : 0 < L) (F : Nat → VReg) (V : VLanes) :
    V.store L (inter L F) = .ok (inter L fun i => V.toList.getD i (fun _ => 0)) := by
  have hlen : V.toList.length = 25 := rfl
  refine forRange_eq' (fun k => inter L fun i => if i < k then V.toList.getD i (fun _ => 0) else F i)
    (by simp) (inter_congr fun i j hi _ => by simp only [hi, if_true]) ?_
  intro i hi
  rw [rd1_ok (by omega), ok_bind, setw_inter hL _ hi]
  congr 1
  apply inter_congr
  intro k j _ _
  unfold upd
  by_cases h : k = i
  · subst h
    rw [if_pos rfl, if_pos (by omega), getD_lt (by omega)]
  · rw [if_neg h]
    simp only
    by_cases h2 : k < i
    · rw [if_pos h2, if_pos (by omega)]
    · rw [if_neg h2, if_neg (by omega)]

theorem rotateRight_eq (a : BitVec 64) {k : Nat} (h0 : 0 < k) (h : k < 64) :
    a.rotateRight k = a.rotateLeft (64 - k) := by
  apply BitVec.eq_of_getLsbD_eq
  intro i hi
  rw [BitVec.getLsbD_rotateRight, BitVec.getLsbD_rotateLeft, Nat.mod_eq_of_lt h, Nat.mod_eq_of_lt (show 64 - k < 64 by omega)]
  rw [show 64 - (64 - k) = k by omega]

theorem bcax_apply (n m a : VReg) (l : Nat) : bcax n m a l = n l ^^^ (~~~a l &&& m l) := by
  rw [bcax, BitVec.and_comm]

theorem a64_round_lane (ir : Nat) (V : VLanes) (l : Nat) :
    LaneEq ((a64_round (RC ir) V).at l).lane (round ir (V.at l).lane) := by
  obtain ⟨v0, v1, v2, v3, v4, v5, v6, v7, v8, v9, v10, v11, v12, v13, v14, v15, v16, v17, v18, v19,
    v20, v21, v22, v23, v24⟩ := V
  intro x y hx hy
  have h1 : x = 0 ∨ x = 1 ∨ x = 2 ∨ x = 3 ∨ x = 4 := by omega
  have h2 : y = 0 ∨ y = 1 ∨ y = 2 ∨ y = 3 ∨ y = 4 := by omega
  rcases h1 with rfl | rfl | rfl | rfl | rfl <;> rcases h2 with rfl | rfl | rfl | rfl | rfl <;>
  · simp only [round, iota, chi, pi, rho]
    rw [rhoOffset_eq _ _ (by decide) (by decide), rhoOffset_eq _ _ (by decide) (by decide),
      rhoOffset_eq _ _ (by decide) (by decide)]
    simp [theta, thetaC, thetaD, Lanes.lane, VLanes.at, a64_round, Lanes.toList, rotateRight_eq, rotateLeft_zero,
      eor3, rax1, xar, bcax_apply, vxor, vdup]

theorem rd_f1600_RC {k : Nat} (h : k < 24) : rd1 f1600_RC k = .ok (RC k) := by
  have e : f1600_RC = KeccakF_RoundConstants := by decide +kernel
  rw [e, rd_RC h]

theorem f1600x2_ok : PermOK 2 f1600x2 := by
  intro F
  obtain ⟨V, e1, hV⟩ := VLanes.load_inter (L := 2) (by omega) F
  obtain ⟨V', e2, hV'⟩ := forRange_inv (n := 24) (s := V)
    (body := fun i V => do .ok (a64_round (← rd1 f1600_RC i) V))
    (fun k (M : VLanes) => ∀ l, LaneEq (M.at l).lane (rounds (V.at l).lane k))
    (fun l x y _ _ => rfl) (by
      intro i M hi hM
      refine ⟨_, by rw [rd_f1600_RC hi]; rfl, ?_⟩
      intro l x y hx hy
      rw [a64_round_lane i M l x y hx hy]
      exact round_congr i (hM l) x y hx hy)
  unfold f1600x2
  rw [e1, ok_bind, e2, ok_bind, VLanes.store_inter (by omega)]
  congr 1
  apply inter_congr
  intro i j hi hj
  rw [← VLanes.at_lane V' j i hi, hV' j _ _ (by omega) (by omega)]
  exact rounds_congr (hV j hj) 24 _ _ (by omega) (by omega)

/-! The AVX2 code. -/

theorem ROL64in256_apply (a : VReg) {k : Nat} (h0 : 0 < k) (h : k < 64) (l : Nat) :
    ROL64in256 a k l = (a l).rotateLeft k := by
  apply BitVec.eq_of_getLsbD_eq
  intro i hi
  simp only [ROL64in256, vor, vsll, vsrl, BitVec.getLsbD_or, BitVec.getLsbD_shiftLeft, BitVec.getLsbD_ushiftRight,
    BitVec.getLsbD_rotateLeft, Nat.mod_eq_of_lt h]
  by_cases hik : i < k
  · simp [hik, hi]
  · simp [hik, hi, BitVec.getLsbD_of_ge (a l) (64 - k + i) (by omega)]

theorem word_ext {a b : BitVec 64} (h : ∀ c, c < 8 → byteOf a c = byteOf b c) : a = b := by
  apply BitVec.eq_of_getLsbD_eq
  intro i hi
  have e := congrArg (fun w : BitVec 8 => w.getLsbD (i % 8)) (h (i / 8) (by omega))
  simp only [byteOf, BitVec.truncate, BitVec.getLsbD_setWidth, BitVec.getLsbD_ushiftRight,
    show 8 * (i / 8) + i % 8 = i by omega] at e
  simpa [Nat.mod_lt] using e

end Spx
