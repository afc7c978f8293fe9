import Verif.Proof.Sha2Word
import Verif.Proof.Shake
import Verif.Proof.HarakaSlice
import Verif.Proof.List
/-! # Integers and byte strings: C22 -/

namespace Spx
open Spec Haraka

/-- C22: `bytes_to_ull` reads back what `ull_to_bytes` wrote. -/
theorem C22_ull_roundtrip (out : Bytes) {len : Nat} (x : Nat) (hlen : len ≤ 8) (ho : len ≤ out.length) :
    (do bytes_to_ull (← ull_to_bytes out len x) len) = .ok (x % 256 ^ len) := by
  rw [ull_to_bytes_spec _ _ _ ho, ok_bind, bytes_to_ull_spec _ _ (by simp) hlen, List.take_left' (by simp), beNat_toBE]

/-- C22: `ull_to_bytes` writes back what `bytes_to_ull` read, and nothing else. -/
theorem C22_bytes_roundtrip (out inp : Bytes) {len : Nat} (hlen : len ≤ 8) (hi : len ≤ inp.length)
    (ho : len ≤ out.length) :
    (do ull_to_bytes out len (← bytes_to_ull inp len)) = .ok (inp.take len ++ out.drop len) := by
  have e := toBE_beNat (inp.take len)
  rw [List.length_take, Nat.min_eq_left hi] at e
  rw [bytes_to_ull_spec _ _ hi hlen, ok_bind, ull_to_bytes_spec _ _ _ ho, e]

/-- C22: `ull_to_bytes` writes the big-endian digits of any number (it is also used with more than
8 bytes of output, ref/address.c:23). -/
theorem C22_ull_to_bytes_digits (out : Bytes) {len : Nat} (x : Nat) (ho : len ≤ out.length) :
    ∃ r, ull_to_bytes out len x = .ok r ∧ r.length = out.length ∧ r.drop len = out.drop len ∧
      ∀ i, i < len → (r.getD i 0).toNat = x / 256 ^ (len - 1 - i) % 256 := by
  refine ⟨_, ull_to_bytes_spec _ _ _ ho, by simp; omega, List.drop_left' (by simp), fun i hi => ?_⟩
  have hl : (toBE len x).length = len := by simp
  rw [getD_app_left (by omega)]
  clear ho
  induction len generalizing x i with
  | zero => omega
  | succ k ih =>
    rw [toBE]
    by_cases h : i < k
    · rw [getD_app_left (by simp; omega), ih (x / 256) i h (by simp), Nat.div_div_eq_div_mul,
        show k + 1 - 1 - i = (k - 1 - i) + 1 by omega, Nat.pow_succ, Nat.mul_comm 256]
    · have : i = k := by omega
      subst this
      rw [getD_app_right (by simp)]
      simp

/-- C22: `u32_to_bytes` is the 4-byte case. -/
theorem C22_u32_is_four_bytes (out : Bytes) (x : Nat) (ho : 4 ≤ out.length) :
    u32_to_bytes out x = ull_to_bytes out 4 x := by
  rw [u32_to_bytes_spec _ _ ho, ull_to_bytes_spec _ _ _ ho]

/-- C22: the big-endian helpers of the SHA-2 code. -/
theorem C22_sha2_words (x : Bytes) (u : BitVec 64) :
    (4 ≤ x.length → (do load_bigendian_32 (← store_bigendian_32 x u)) = .ok (u.truncate 32)) ∧
    (4 ≤ x.length → (do store_bigendian_32 x ((← load_bigendian_32 x).zeroExtend 64)) = .ok x) ∧
    (8 ≤ x.length → (do load_bigendian_64 (← store_bigendian_64 x u)) = .ok u) ∧
    (8 ≤ x.length → (do store_bigendian_64 x (← load_bigendian_64 x)) = .ok x) := by
  have back : ∀ k, k ≤ x.length → toBE k (beNat (x.take k)) ++ x.drop k = x := fun k hk => by
    have e := toBE_beNat (x.take k)
    rw [List.length_take, Nat.min_eq_left hk] at e
    rw [e, List.take_append_drop]
  have lt : ∀ k, k ≤ x.length → beNat (x.take k) < 256 ^ k := fun k hk => by
    have e := beNat_lt (x.take k)
    rwa [List.length_take, Nat.min_eq_left hk] at e
  refine ⟨fun h => ?_, fun h => ?_, fun h => ?_, fun h => ?_⟩
  · rw [store_bigendian_32_spec h, ok_bind, load_bigendian_32_spec (by simp), List.take_left' (by simp), beNat_toBE]
    congr 1
    apply BitVec.eq_of_toNat_eq
    simp
  · have := lt 4 h
    rw [load_bigendian_32_spec h, ok_bind, store_bigendian_32_spec h]
    simp only [BitVec.truncate_eq_setWidth, BitVec.toNat_setWidth, BitVec.toNat_ofNat]
    rw [Nat.mod_eq_of_lt (a := beNat _) (by omega), Nat.mod_eq_of_lt (by omega), back 4 h]
  · rw [store_bigendian_64_spec h, ok_bind, load_bigendian_64_spec (by simp), List.take_left' (by simp), beNat_toBE]
    congr 1
    apply BitVec.eq_of_toNat_eq
    have := u.isLt
    simp only [BitVec.toNat_ofNat]
    omega
  · have := lt 8 h
    rw [load_bigendian_64_spec h, ok_bind, store_bigendian_64_spec h]
    simp only [BitVec.toNat_ofNat]
    rw [Nat.mod_eq_of_lt (by omega), back 8 h]

theorem eq_of_byteOf {a b : BitVec 64} (h : ∀ c, c < 8 → byteOf a c = byteOf b c) : a = b := by
  apply BitVec.eq_of_getLsbD_eq
  intro i hi
  have e := congrArg (fun v => v.getLsbD (i % 8)) (h (i / 8) (by omega))
  simp only [byteOf, BitVec.truncate_eq_setWidth, BitVec.getLsbD_setWidth, BitVec.getLsbD_ushiftRight] at e
  rw [Nat.div_add_mod] at e
  simpa [Nat.mod_lt] using e

/-- C22: the little-endian helpers of the Keccak code. -/
theorem C22_keccak_words (x : Bytes) (u : BitVec 64) (h : 8 ≤ x.length) :
    (do load64 (← store64 x u)) = .ok u ∧ (do store64 x (← load64 x)) = .ok x := by
  constructor
  · rw [store64_spec h, ok_bind]
    obtain ⟨v, e, hv⟩ := load64_spec (x := (List.range 8).map (byteOf u) ++ x.drop 8) (by simp)
    rw [e]
    congr 1
    apply eq_of_byteOf
    intro c hc
    rw [hv c hc, getD_app_left (by simpa using hc)]
    simp [List.getD, hc]
  · obtain ⟨v, e, hv⟩ := load64_spec h
    rw [e, ok_bind, store64_spec h]
    congr 1
    apply List.ext_getElem?
    intro i
    by_cases hi : i < 8
    · rw [List.getElem?_append_left (by simpa using hi), List.getElem?_map, List.getElem?_range hi, Option.map_some,
        hv i hi, getD_lt (by omega), List.getElem?_eq_getElem]
    · rw [List.getElem?_append_right (by simp; omega)]
      simp
      congr 1
      omega

/-- C22: the little-endian helpers of the Haraka code. -/
theorem C22_haraka_words (u : BitVec 32) (x : Bytes) (h : x.length = 4) :
    br_dec32le (br_enc32le u) = .ok u ∧ (do .ok (br_enc32le (← br_dec32le x))) = (.ok x : C Bytes) := by
  constructor
  · rw [br_dec32le_spec (by simp [br_enc32le])]
    congr 1
    apply BitVec.eq_of_getLsbD_eq
    intro i hi
    rw [leWord_bit _ hi]
    unfold br_enc32le
    interval_cases i <;> simp
  · rw [br_dec32le_spec (by omega), ok_bind]
    congr 1
    match x, h with
    | [a, b, c, d], _ =>
      unfold br_enc32le
      have hh : ∀ k, k < 4 → ((leWord [a, b, c, d]) >>> (8 * k)).truncate 8 = [a, b, c, d].getD k 0#8 := by
        intro k hk
        apply BitVec.eq_of_getLsbD_eq
        intro i hi
        simp only [BitVec.truncate_eq_setWidth, BitVec.getLsbD_setWidth, BitVec.getLsbD_ushiftRight, hi]
        rw [leWord_bit _ (by omega), show (8 * k + i) / 8 = k by omega, show (8 * k + i) % 8 = i by omega]
        simp
      have h0 := hh 0 (by omega)
      have h1 := hh 1 (by omega)
      have h2 := hh 2 (by omega)
      have h3 := hh 3 (by omega)
      simp only [Nat.mul_zero, Nat.mul_one, BitVec.ushiftRight_zero] at h0 h1 h2 h3
      rw [h0, h1, h2, h3]
      rfl

/-- C22: the array versions of the Haraka helpers. -/
theorem C22_haraka_ranges (num : Nat) (x : Bytes) (v : List (BitVec 32)) (h : x.length = 4 * num)
    (hv : v.length = num) :
    (do br_range_enc32le num (← br_range_dec32le num x)) = .ok x ∧
    (do br_range_dec32le num (← br_range_enc32le num v)) = .ok v := by
  have enc : ∀ v : List (BitVec 32), v.length = num →
      br_range_enc32le num v = .ok (cat num fun i => br_enc32le (v.getD i 0)) := fun v hv => by
    unfold br_range_enc32le
    refine forRange_eq' (fun k => cat k fun i => br_enc32le (v.getD i 0)) rfl rfl ?_
    intro i hi
    rw [rd1_ok (by omega), ok_bind, cat, getD_lt]
  constructor
  · rw [br_range_dec32le_spec (by omega), ok_bind, enc _ (by simp)]
    congr 1
    refine (eq_cat_of_chunks (n := 4) (by omega) ?_).symm
    intro i hi
    simp only [List.getD, List.getElem?_map, List.getElem?_range hi, Option.map_some, Option.getD_some]
    have hc : (chunk 4 x i).length = 4 := chunk_length (by omega)
    have e := (C22_haraka_words 0 _ hc).2
    rw [br_dec32le_spec (by omega), ok_bind] at e
    injection e with e
    rw [← e]
    congr 1
    apply Eq.symm
    apply BitVec.eq_of_getLsbD_eq
    intro k hk
    rw [leWord_bit _ hk, leWord_bit _ hk, getD_drop, chunk]
    have : k / 8 < 4 := by omega
    simp [List.getD, List.getElem?_take, this, Nat.mul_comm]
  · rw [enc v hv, ok_bind, br_range_dec32le_spec (by rw [cat_length (n := 4) (fun i _ => rfl)]; omega)]
    congr 1
    apply List.ext_getElem?
    intro i
    by_cases hi : i < num
    · rw [List.getElem?_map, List.getElem?_range hi, Option.map_some, List.getElem?_eq_getElem (by omega)]
      congr 1
      have e := (C22_haraka_words v[i] [0, 0, 0, 0] rfl).1
      rw [br_dec32le_spec (by simp [br_enc32le])] at e
      injection e with e
      rw [← e]
      apply BitVec.eq_of_getLsbD_eq
      intro k hk
      rw [leWord_bit _ hk, leWord_bit _ hk, getD_drop]
      have hcc := chunk_cat (n := 4) (k := num) (f := fun i => br_enc32le (v.getD i 0)) (fun j _ => rfl) hi
      simp only [getD_lt (show i < v.length by omega)] at hcc
      rw [← hcc, chunk]
      have : k / 8 < 4 := by omega
      simp [List.getD, List.getElem?_take, this, Nat.mul_comm]
    · rw [List.getElem?_eq_none (by simp; omega), List.getElem?_eq_none (by omega)]

/-- A case with a value larger than the length allows, and one with a full word. -/
example : ull_to_bytes [9, 9, 9, 9] 3 0x12345678 = .ok [0x34, 0x56, 0x78, 9] ∧
    bytes_to_ull [0x34, 0x56, 0x78, 9] 3 = .ok (0x12345678 % 256 ^ 3) ∧
    bytes_to_ull (List.replicate 8 0xff) 8 = .ok (2 ^ 64 - 1) := by decide

end Spx
