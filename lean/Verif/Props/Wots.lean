import Verif.Proof.Checksum
import Verif.Model.ParamSets
/-! # Properties of the WOTS chain lengths: C17, C18 -/

namespace Spx
open Spec

section
variable {E : Env} (hw : E.P.w = 16 ∨ E.P.w = 256) (h1 : 1 ≤ E.P.n) (h2 : E.P.n ≤ 256)
include hw h1 h2

/-- C17: `chain_lengths` fills its array with `len1 + len2` digits below `w`; the first `len1`
denote the message as a big-endian number, the last `len2` denote the sum of `w - 1 - d` over the
message digits `d`, without truncation.  (`len1` digits are `8 n` bits.)  Nothing depends on the
previous content of the array or on uninitialised memory. -/
theorem C17_chain_lengths {out : List Nat} {msg : Bytes} (hout : out.length = E.P.wotsLen)
    (hm : msg.length = E.P.n) :
    ∃ ms cs, chain_lengths E out msg = .ok (ms ++ cs) ∧ ms.length = E.P.len1 ∧ cs.length = E.P.len2 ∧
      (∀ d ∈ ms ++ cs, d < E.P.w) ∧ E.P.w ^ E.P.len1 = 256 ^ E.P.n ∧
      ofDigits E.P.w ms = beNat msg ∧ ofDigits E.P.w cs = (ms.map (E.P.w - 1 - ·)).sum := by
  have hP : E.P.WotsValid := ⟨hw, h1, h2⟩
  have hww : 2 ^ E.P.logw = E.P.w := toSpec_w hw
  have hpow : E.P.w ^ E.P.len1 = 256 ^ E.P.n := by
    rw [← hww, ← Nat.pow_mul, Nat.mul_comm, len1_mul hP, pow256]
  refine ⟨_, _, chain_lengths_spec hP hout hm, digits_length .., ?_, fun d hd => lengths_lt hP hd, hpow, ?_, ?_⟩
  · rw [digits_length, toSpec_len2 hP]
  · conv => lhs; rw [← hww]
    rw [toSpec_lgw, ofDigits_digits, hww, toSpec_len1, hpow]
    exact Nat.mod_eq_of_lt (by rw [← hm]; exact beNat_lt msg)
  · conv => lhs; rw [← hww]
    rw [toSpec_lgw, ofDigits_digits, hww]
    have hmax : checksum E.P.toSpec (digits E.P.logw E.P.toSpec.len1 (beNat msg)) ≤ E.P.len1 * (E.P.w - 1) := by
      have hl : (digits E.P.logw E.P.toSpec.len1 (beNat msg)).length = E.P.len1 := digits_length ..
      rw [← hl]
      generalize digits E.P.logw E.P.toSpec.len1 (beNat msg) = ds
      unfold checksum
      rw [toSpec_w hw]
      induction ds with
      | nil => simp
      | cons d ds ih =>
        simp only [List.map_cons, List.sum_cons, List.length_cons, Nat.succ_mul]
        omega
    have hfit : E.P.len1 * (E.P.w - 1) < E.P.w ^ E.P.toSpec.len2 := by
      have hl2 : E.P.toSpec.len2 = Nat.log2 (E.P.len1 * (E.P.w - 1)) / E.P.logw + 1 := by
        unfold Spec.Par.len2 Spec.Par.maxChecksum
        rw [toSpec_w hw]
        rfl
      rw [hl2, ← hww, ← Nat.pow_mul]
      have hlg : 0 < E.P.logw := by
        unfold Params.logw
        rcases hw with h | h <;> rw [h] <;> decide
      refine Nat.lt_of_lt_of_le Nat.lt_log2_self (Nat.pow_le_pow_right (by omega) ?_)
      generalize Nat.log2 _ = x
      have := Nat.div_add_mod x E.P.logw
      have := Nat.mod_lt x hlg
      rw [Nat.mul_add, Nat.mul_one]
      omega
    rw [Nat.mod_eq_of_lt (by omega)]
    unfold checksum
    rw [toSpec_w hw]

/-- C18: for two different messages some chain is shorter for the second than for the first. -/
theorem C18_checksum_protects {out out' : List Nat} {msg msg' : Bytes} (hout : out.length = E.P.wotsLen)
    (hout' : out'.length = E.P.wotsLen) (hm : msg.length = E.P.n) (hm' : msg'.length = E.P.n) (hne : msg ≠ msg')
    {ls ls' : List Nat} (h : chain_lengths E out msg = .ok ls) (h' : chain_lengths E out' msg' = .ok ls') :
    ls.length = E.P.wotsLen ∧ ls'.length = E.P.wotsLen ∧
    ∃ i, i < E.P.wotsLen ∧ ls'.getD i 0 < ls.getD i 0 := by
  obtain ⟨ms, cs, e, hl1, hl2, hlt, -, hv, hc⟩ := C17_chain_lengths hw h1 h2 hout hm
  obtain ⟨ms', cs', e', hl1', hl2', hlt', -, hv', hc'⟩ := C17_chain_lengths hw h1 h2 hout' hm'
  rw [h] at e; cases e
  rw [h'] at e'; cases e'
  have hL : (ms ++ cs).length = E.P.wotsLen := by rw [List.length_append, hl1, hl2]; rfl
  have hL' : (ms' ++ cs').length = E.P.wotsLen := by rw [List.length_append, hl1', hl2']; rfl
  refine ⟨hL, hL', Classical.byContradiction fun hno => hne ?_⟩
  have hle : ∀ i, (ms ++ cs).getD i 0 ≤ (ms' ++ cs').getD i 0 := by
    intro i
    by_cases hi : i < E.P.wotsLen
    · exact Nat.le_of_not_lt fun hlt => hno ⟨i, hi, hlt⟩
    · rw [getD_ge (by omega)]; exact Nat.zero_le _
  have hlem : ∀ i, ms.getD i 0 ≤ ms'.getD i 0 := by
    intro i
    by_cases hi : i < E.P.len1
    · have := hle i
      simpa [List.getD, List.getElem?_append_left, hl1, hl1', hi] using this
    · rw [getD_ge (by omega)]; exact Nat.zero_le _
  have hlec : ∀ i, cs.getD i 0 ≤ cs'.getD i 0 := by
    intro i
    have := hle (E.P.len1 + i)
    simpa [List.getD, List.getElem?_append_right, hl1, hl1'] using this
  have hcs := ofDigits_mono E.P.w (hl2.trans hl2'.symm) hlec
  rw [hc, hc'] at hcs
  have hms := eq_of_checksum_le (hl1.trans hl1'.symm) (fun d hd => hlt' d (by simp [hd])) hlem hcs
  apply beNat_inj (hm.trans hm'.symm)
  rw [← hv, ← hv', hms]

end

/-- A concrete case of both, with the results computed: raising the last byte of the message
lowers a checksum digit. -/
example :
    (chain_lengths (build (sha2_128s true) (fun _ _ => 7) (fun _ _ => 7)) (List.replicate 35 9)
        (List.replicate 15 0 ++ [0x0f])).toOption = some (List.replicate 31 0 ++ [15] ++ [1, 13, 1]) ∧
    (chain_lengths (build (sha2_128s true) (fun _ _ => 7) (fun _ _ => 7)) (List.replicate 35 9)
        (List.replicate 15 0 ++ [0x1f])).toOption = some (List.replicate 30 0 ++ [1, 15] ++ [1, 13, 0]) := by
  decide +kernel

/-- The hypotheses hold outside the shipped sets as well, here for `n = 2`, `w = 256`. -/
example (H : HashImpl) (G : Nat → Nat → Byte) : ∃ ms cs,
    chain_lengths ⟨⟨2, 4, 2, 3, 3, 256, .shake, true, false⟩, H, G⟩ [9, 9, 9, 9] [0x12, 0xff] = .ok (ms ++ cs) ∧
      ofDigits 256 ms = 0x12ff ∧ ofDigits 256 cs = 0xed := by
  obtain ⟨ms, cs, e, hl, -, hlt, -, hv, hc⟩ := C17_chain_lengths
    (E := ⟨⟨2, 4, 2, 3, 3, 256, .shake, true, false⟩, H, G⟩) (Or.inr rfl) (show 1 ≤ 2 by decide) (show 2 ≤ 256 by decide)
    (out := [9, 9, 9, 9]) (msg := [0x12, 0xff])
    (show 4 = Params.wotsLen ⟨2, 4, 2, 3, 3, 256, .shake, true, false⟩ by decide) rfl
  refine ⟨ms, cs, e, hv, ?_⟩
  have hl2 : ms.length = 2 :=
    hl.trans (show Params.len1 ⟨2, 4, 2, 3, 3, 256, .shake, true, false⟩ = 2 by decide)
  obtain ⟨x, y, rfl⟩ : ∃ x y, ms = [x, y] := by
    match ms, hl2 with
    | [x, y], _ => exact ⟨x, y, rfl⟩
  have hx : x < 256 := hlt x (by simp)
  have hy : y < 256 := hlt y (by simp)
  have h1 : (0 * 256 + x) * 256 + y = 0x12ff := hv
  have hcs : ofDigits 256 cs = 256 - 1 - x + (256 - 1 - y + 0) := hc
  omega

end Spx
