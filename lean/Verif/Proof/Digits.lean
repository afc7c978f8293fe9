import Verif.Proof.Bytes
import Verif.Model.Wots
/-! `base_w`, `wots_checksum` and `chain_lengths` compute base-`w` digits. -/

namespace Spx
open Spec

theorem mod_div_mod (x k l t : Nat) (h : k + l ≤ t) :
    x % 2 ^ t / 2 ^ k % 2 ^ l = x / 2 ^ k % 2 ^ l := by
  apply Nat.eq_of_testBit_eq
  intro i
  simp only [Nat.testBit_mod_two_pow, Nat.testBit_div_two_pow]
  by_cases hi : i < l
  · simp [hi]; intro _; omega
  · simp [hi]

/-- Byte `i` of a byte string as a digit of its number. -/
theorem beNat_byte (b : Bytes) {i : Nat} (h : i < b.length) :
    beNat b / 256 ^ (b.length - 1 - i) % 256 = b[i].toNat := by
  obtain ⟨x, y, hb, hx⟩ : ∃ x y, b = x ++ b[i] :: y ∧ x.length = i :=
    ⟨b.take i, b.drop (i + 1), by rw [List.getElem_cons_drop, List.take_append_drop], by simp; omega⟩
  have hl : b.length - 1 - i = y.length := by
    have := congrArg List.length hb; simp at this; omega
  rw [hl]
  have e : beNat b = (beNat x * 256 + b[i].toNat) * 256 ^ y.length + beNat y := by
    conv => lhs; rw [hb, beNat_append, beNat_cons, List.length_cons, Nat.pow_succ]
    rw [Nat.add_mul, Nat.mul_assoc, Nat.mul_comm 256, Nat.add_assoc]
  rw [e, Nat.mul_comm, Nat.mul_add_div (Nat.pow_pos (by omega)), Nat.div_eq_of_lt (beNat_lt y)]
  have := b[i].isLt
  omega

theorem pow256 (k : Nat) : 256 ^ k = 2 ^ (8 * k) := by
  rw [Nat.pow_mul]

/-- The digit which `base_w` writes to position `i`. -/
def digitAt (lgw : Nat) (b : Bytes) (i : Nat) : Nat :=
  (b.getD (i * lgw / 8) 0).toNat / 2 ^ (8 - lgw - i * lgw % 8) % 2 ^ lgw

theorem base_w_digitAt (P : Params) (hw : P.w = 16 ∨ P.w = 256) (output : List Nat) (k : Nat)
    (input : Bytes) (t0 : Nat) (hout : k ≤ output.length) (hin : k * P.logw ≤ 8 * input.length) :
    base_w P output k input t0 =
      .ok ((List.range k).map (digitAt P.logw input) ++ output.drop k) := by
  have hlg : (P.w = 16 ∧ P.logw = 4) ∨ (P.w = 256 ∧ P.logw = 8) := by
    unfold Params.logw
    rcases hw with h | h <;> rw [h] <;> simp
  have hdig : ∀ x s, (x >>> s) &&& (P.w - 1) = x / 2 ^ s % 2 ^ P.logw := by
    intro x s
    rcases hlg with ⟨h1, h2⟩ | ⟨h1, h2⟩ <;> rw [h1, h2, Nat.shiftRight_eq_div_pow]
    · exact Nat.and_two_pow_sub_one_eq_mod _ 4
    · exact Nat.and_two_pow_sub_one_eq_mod _ 8
  unfold base_w
  generalize P.logw = lg at *
  obtain ⟨s', hs', hinv⟩ := forRange_inv (n := k)
    (s := (output, 0, 0, t0, 0))
    (fun i (s : List Nat × Nat × Nat × Nat × Nat) =>
      s.1 = (List.range i).map (digitAt lg input) ++ output.drop i ∧
      s.2.1 = (i * lg + 7) / 8 ∧ s.2.2.1 = i ∧
      s.2.2.2.2 + i * lg = 8 * s.2.1 ∧
      (s.2.2.2.2 ≠ 0 → s.2.2.2.1 = (input.getD (s.2.1 - 1) 0).toNat))
    (body := fun _ (s : List Nat × Nat × Nat × Nat × Nat) => do
      let (output, inp, out, total, bits) := s
      let (total, inp, bits) ← (
        if bits = 0 then do
          let b ← rd1 input inp
          .ok (b.toNat, inp + 1, bits + 8)
        else .ok (total, inp, bits) : C (Nat × Nat × Nat))
      if lg ≤ bits then do
        let bits := bits - lg
        let output ← wr1 output out ((total >>> bits) &&& (P.w - 1))
        .ok (output, inp, out + 1, total, bits)
      else .error .shift)
    ⟨by simp, by simp, rfl, by simp, by simp⟩ (by
      rintro i ⟨o, inp, out, total, bits⟩ hi ⟨h1, h2, h3, h4, h5⟩
      simp only at h1 h2 h3 h4 h5
      obtain rfl : i = out := h3.symm
      have hol : i < o.length := by rw [h1]; simp; omega
      -- writing the digit
      have hset : ∀ v, v = digitAt lg input i →
          o.set i v = (List.range (i + 1)).map (digitAt lg input) ++ output.drop (i + 1) := by
        intro v hv
        rw [h1, List.set_append_right _ _ (by simp), List.range_succ, List.map_append]
        simp only [List.length_map, List.length_range, Nat.sub_self, List.map_cons, List.map_nil,
          List.append_assoc, List.singleton_append]
        congr 1
        rw [← List.getElem_cons_drop (show i < output.length by omega), List.set_cons_zero, hv]
      simp only
      by_cases hb : bits = 0
      · -- a new byte
        have hr : (i * lg) % 8 = 0 := by omega
        have hinp : inp = i * lg / 8 := by omega
        have hlt : inp < input.length := by
          rcases hlg with ⟨_, rfl⟩ | ⟨_, rfl⟩ <;> omega
        rw [if_pos hb, rd1_ok hlt]
        simp only [ok_bind]
        rw [if_pos (by rcases hlg with ⟨_, rfl⟩ | ⟨_, rfl⟩ <;> omega), wr1_ok hol]
        refine ⟨_, rfl, ?_, ?_, rfl, ?_, ?_⟩
        · apply hset
          rw [hdig]
          unfold digitAt
          rw [hr, ← hinp, getD_lt hlt, show bits + 8 - lg = 8 - lg - 0 by omega]
        · simp only
          rcases hlg with ⟨_, rfl⟩ | ⟨_, rfl⟩ <;> omega
        · simp only
          rcases hlg with ⟨_, rfl⟩ | ⟨_, rfl⟩ <;> omega
        · intro _
          simp only [Nat.add_sub_cancel]
          rw [getD_lt hlt]
      · -- the second nibble of a byte
        have h8 : lg = 4 := by
          rcases hlg with ⟨_, rfl⟩ | ⟨_, rfl⟩ <;> omega
        subst h8
        have hb4 : bits = 4 := by omega
        rw [if_neg hb]
        simp only [ok_bind]
        rw [if_pos (by omega), wr1_ok hol]
        refine ⟨_, rfl, ?_, ?_, rfl, ?_, ?_⟩
        · apply hset
          rw [hdig, h5 hb]
          unfold digitAt
          rw [show i * 4 / 8 = inp - 1 by omega, show i * 4 % 8 = 4 by omega, hb4]
        · simp only; omega
        · simp only; omega
        · intro hc; simp only at hc; omega)
  simp only [hs', ok_bind, hinv.1]

/-- The digits written by `base_w` are the digits of the number, if the digits fill the bytes
up to `sh` low bits. -/
theorem digitAt_eq {lgw : Nat} (hlg : lgw = 4 ∨ lgw = 8) {b : Bytes} {k sh : Nat}
    (hb : 8 * b.length = k * lgw + sh) {i : Nat} (hi : i < k) :
    digitAt lgw b i = beNat b / 2 ^ sh / 2 ^ (lgw * (k - 1 - i)) % 2 ^ lgw := by
  have hmul : (i + 1) * lgw ≤ k * lgw := Nat.mul_le_mul_right _ hi
  have hj : i * lgw / 8 < b.length := by
    rcases hlg with h | h <;> subst h <;> omega
  unfold digitAt
  rw [getD_lt hj, ← beNat_byte b hj, pow256, show (256 : Nat) = 2 ^ 8 from rfl,
    mod_div_mod _ _ _ _ (by rcases hlg with h | h <;> subst h <;> omega), Nat.div_div_eq_div_mul,
    Nat.div_div_eq_div_mul, ← Nat.pow_add, ← Nat.pow_add]
  congr 3
  rcases hlg with h | h <;> subst h <;> omega

theorem base_w_spec (P : Params) (hw : P.w = 16 ∨ P.w = 256) (output : List Nat) (k sh : Nat)
    (input : Bytes) (t0 : Nat) (hout : k ≤ output.length) (hin : 8 * input.length = k * P.logw + sh) :
    base_w P output k input t0 =
      .ok (digits P.logw k (beNat input / 2 ^ sh) ++ output.drop k) := by
  rw [base_w_digitAt P hw output k input t0 hout (by omega)]
  congr 2
  unfold digits
  apply List.map_congr_left
  intro i hi
  exact digitAt_eq (by unfold Params.logw; split <;> simp) hin (by simpa using hi)

theorem digits_length (lgw k x : Nat) : (digits lgw k x).length = k := by simp [digits]

theorem digits_lt {lgw k x v : Nat} (h : v ∈ digits lgw k x) : v < 2 ^ lgw := by
  simp only [digits, List.mem_map] at h
  obtain ⟨i, _, rfl⟩ := h
  exact Nat.mod_lt _ (Nat.two_pow_pos _)

theorem toSpec_lgw (P : Params) : P.toSpec.lgw = P.logw := rfl

theorem toSpec_w {P : Params} (hw : P.w = 16 ∨ P.w = 256) : P.toSpec.w = P.w := by
  unfold Spec.Par.w Params.toSpec
  rcases hw with h | h <;> rw [h] <;> simp

theorem toSpec_len1 (P : Params) : P.toSpec.len1 = P.len1 := rfl

theorem len2_table : ∀ n, n < 257 → 1 ≤ n →
    (Nat.log2 (8 * n / 4 * 15) / 4 + 1 = (if n ≤ 8 then 2 else if n ≤ 136 then 3 else 4)) ∧
    (Nat.log2 (8 * n / 8 * 255) / 8 + 1 = (if n ≤ 1 then 1 else 2)) := by
  decide +kernel

theorem toSpec_len2 {P : Params} (hP : P.WotsValid) : P.toSpec.len2 = P.len2 := by
  have ht := len2_table P.n (by have := hP.n_le; omega) hP.n_pos
  unfold Spec.Par.len2 Spec.Par.maxChecksum
  rw [toSpec_w hP.w, toSpec_len1, toSpec_lgw]
  unfold Params.len2 Params.len1 Params.logw
  rcases hP.w with h | h <;> rw [h] <;> simp
  · simpa using ht.1
  · simpa using ht.2

theorem toSpec_len {P : Params} (hP : P.WotsValid) : P.toSpec.len = P.wotsLen := by
  unfold Spec.Par.len Params.wotsLen
  rw [toSpec_len2 hP, toSpec_len1]

theorem len1_mul {P : Params} (hP : P.WotsValid) : P.len1 * P.logw = 8 * P.n := by
  unfold Params.len1 Params.logw
  rcases hP.w with h | h <;> rw [h] <;> simp <;> omega

theorem len2_logw (P : Params) :
    8 * csumBytes P = P.len2 * P.logw + (8 - (P.len2 * P.logw) % 8) % 8 := by
  unfold csumBytes
  omega

theorem csum_bound {P : Params} (hP : P.WotsValid) {ds : List Nat} (hl : ds.length = P.len1) :
    checksum P.toSpec ds ≤ 512 * 255 := by
  have h1 : checksum P.toSpec ds ≤ ds.length * (P.w - 1) := by
    unfold checksum
    rw [toSpec_w hP.w]
    clear hl
    induction ds with
    | nil => simp
    | cons x xs ih => simp only [List.map_cons, List.sum_cons, List.length_cons, Nat.succ_mul]; omega
  have h2 : P.len1 ≤ 512 := by
    unfold Params.len1 Params.logw
    have := hP.n_le
    split <;> omega
  have h3 : P.w - 1 ≤ 255 := by rcases hP.w with h | h <;> omega
  rw [hl] at h1
  exact Nat.le_trans h1 (Nat.mul_le_mul h2 h3)

theorem wots_checksum_spec {E : Env} (hP : E.P.WotsValid) {ds rest out : List Nat}
    (hl : ds.length = E.P.len1) (hd : ∀ v ∈ ds, v < E.P.w) (hout : E.P.len2 ≤ out.length) :
    wots_checksum E out (ds ++ rest) =
      .ok (digits E.P.logw E.P.len2 (checksum E.P.toSpec ds) ++ out.drop E.P.len2) := by
  have hw2 := hP.w
  have hcb := csum_bound hP hl
  have hloop : forRange E.P.len1 (fun i csum => do
      let m ← rd1 (ds ++ rest) i
      .ok ((csum + (E.P.w - 1 + 2 ^ 32 - m)) % 2 ^ 32)) 0 = .ok (checksum E.P.toSpec ds) := by
    refine forRange_eq' (fun i => checksum E.P.toSpec (ds.take i)) (by simp [checksum])
      (by rw [List.take_of_length_le (by omega)]) ?_
    intro i hi
    rw [rd1_ok (by simp; omega), List.getElem_append_left (by omega)]
    simp only [ok_bind]
    have hv := hd ds[i] (List.getElem_mem _)
    have hmono : checksum E.P.toSpec (ds.take i) + (E.P.w - 1 - ds[i]) =
        checksum E.P.toSpec (ds.take (i + 1)) := by
      rw [List.take_succ_eq_append_getElem (by omega)]
      unfold checksum
      rw [List.map_append, List.sum_append, toSpec_w hw2]
      simp
    have hle : checksum E.P.toSpec (ds.take (i + 1)) ≤ checksum E.P.toSpec ds := by
      conv => rhs; rw [← List.take_append_drop (i + 1) ds]
      unfold checksum
      rw [List.map_append, List.sum_append]
      omega
    rw [← hmono]
    congr 1
    omega
  unfold wots_checksum
  rw [hloop]
  simp only [ok_bind]
  rw [ull_to_bytes_spec _ _ _ (by simp)]
  simp only [ok_bind]
  rw [List.drop_of_length_le (by simp), List.append_nil]
  have h8 := len2_logw E.P
  rw [base_w_spec E.P hw2 out E.P.len2 ((8 - (E.P.len2 * E.P.logw) % 8) % 8) _ _ hout (by
    rw [toBE_length]; exact h8)]
  congr 2
  unfold digits
  apply List.map_congr_left
  intro i hi
  have hi' : i < E.P.len2 := by simpa using hi
  have hmul : (i + 1) * E.P.logw ≤ E.P.len2 * E.P.logw := Nat.mul_le_mul_right _ hi'
  have hmul2 : E.P.logw * (E.P.len2 - 1 - i) + (i + 1) * E.P.logw = E.P.len2 * E.P.logw := by
    rw [Nat.mul_comm E.P.logw, ← Nat.add_mul, show E.P.len2 - 1 - i + (i + 1) = E.P.len2 by omega]
  rw [beNat_toBE, pow256, Nat.shiftLeft_eq]
  generalize (8 - (E.P.len2 * E.P.logw) % 8) % 8 = sh at *
  rw [Nat.succ_mul] at hmul2
  have hlg : E.P.logw ≤ 8 := by unfold Params.logw; split <;> omega
  have hcs : csumBytes E.P ≤ 2 := by
    unfold csumBytes Params.len2 Params.logw
    have := hP.n_le
    rcases hw2 with h | h <;> rw [h] <;> simp <;> split <;> (try split) <;> omega
  rw [Nat.div_div_eq_div_mul, ← Nat.pow_add, mod_div_mod _ _ _ _ (by omega),
    mod_div_mod _ _ _ _ (by omega), Nat.pow_add, ← Nat.div_div_eq_div_mul,
    Nat.mul_div_cancel _ (Nat.two_pow_pos _)]

theorem chain_lengths_spec {E : Env} (hP : E.P.WotsValid) {out : List Nat} {msg : Bytes}
    (hout : out.length = E.P.wotsLen) (hm : msg.length = E.P.n) :
    chain_lengths E out msg = .ok (lengths E.P.toSpec msg) := by
  have hle : out.length = E.P.len1 + E.P.len2 := hout
  have hb := base_w_spec E.P hP.w out E.P.len1 0 msg (E.G 4 1).toNat (by omega)
    (by rw [hm, len1_mul hP, Nat.add_zero])
  rw [Nat.pow_zero, Nat.div_one] at hb
  unfold chain_lengths
  rw [hb]
  simp only [ok_bind]
  have hdl := digits_length E.P.logw E.P.len1 (beNat msg)
  rw [withSub_ok (d := digits E.P.logw E.P.len2 (checksum E.P.toSpec (digits E.P.logw E.P.len1 (beNat msg))))
    (x := ()) (by simp [hdl])]
  · simp only [ok_bind]
    unfold lengths
    rw [List.take_append_of_le_length (by omega), List.take_of_length_le (by omega), toSpec_len2 hP]
    rfl
  · rw [wots_checksum_spec hP hdl (fun v hv => by
      have := digits_lt hv
      have hw := toSpec_w hP.w
      unfold Spec.Par.w at hw
      rw [toSpec_lgw] at hw
      omega) (by simp [hdl]; omega)]
    simp only [ok_bind]
    congr 2
    rw [List.drop_of_length_le (by simp [hdl]; omega), List.append_nil]

theorem lengths_length {P : Params} (hP : P.WotsValid) (m : Bytes) :
    (lengths P.toSpec m).length = P.wotsLen := by
  unfold lengths
  simp only [List.length_append, digits_length]
  rw [toSpec_len2 hP]
  rfl

theorem lengths_lt {P : Params} (hP : P.WotsValid) {m : Bytes} {v : Nat} (h : v ∈ lengths P.toSpec m) :
    v < P.w := by
  have hw := toSpec_w hP.w
  unfold Spec.Par.w at hw
  rw [← hw]
  unfold lengths at h
  simp only [List.mem_append] at h
  rcases h with h | h <;> exact digits_lt h

theorem lengths_getD_lt {P : Params} (hP : P.WotsValid) (m : Bytes) (i : Nat) :
    (lengths P.toSpec m).getD i 0 < P.w := by
  by_cases hi : i < (lengths P.toSpec m).length
  · rw [getD_lt hi]
    exact lengths_lt hP (List.getElem_mem _)
  · rw [getD_ge (by omega)]
    rcases hP.w with h | h <;> omega

end Spx
