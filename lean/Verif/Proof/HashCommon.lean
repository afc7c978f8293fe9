import Verif.Proof.Sign
import Verif.Model.HashCommon
/-! The digest is split as specified. -/

namespace Spx
open Spec

theorem mask_eq (k w t : Nat) (hk : k ≤ w) : t &&& ((2 ^ w - 1) >>> (w - k)) = t % 2 ^ k := by
  have : (2 ^ w - 1) >>> (w - k) = 2 ^ k - 1 := by
    rw [Nat.shiftRight_eq_div_pow]
    have h1 : 2 ^ w = 2 ^ k * 2 ^ (w - k) := by rw [← Nat.pow_add]; congr 1; omega
    have hp := Nat.two_pow_pos (w - k)
    have hq := Nat.two_pow_pos k
    rw [h1, Nat.div_eq_of_lt_le]
    · rw [Nat.sub_mul, Nat.one_mul]
      omega
    · rw [show 2 ^ k - 1 + 1 = 2 ^ k by omega]
      have : 0 < 2 ^ k * 2 ^ (w - k) := Nat.mul_pos hq hp
      omega
  rw [this, Nat.and_two_pow_sub_one_eq_mod]

theorem hash_message_split_spec {P : Params} (hP : P.Valid) {buf : Bytes} (hb : buf.length = P.dgstBytes) :
    hash_message_split P buf = .ok (splitDigest P.toSpec buf) := by
  have h1 : mdBytes P.toSpec = P.forsMsgBytes := toSpec_mdBytes P
  have h2 : treeBytes P.toSpec = P.treeBytes := toSpec_treeBytes P
  have h3 : leafBytes P.toSpec = P.leafBytes := toSpec_leafBytes P
  have hh : P.toSpec.h' = P.treeHeight := rfl
  have hd : P.toSpec.d = P.d := rfl
  unfold Params.dgstBytes at hb
  have ht := hP.tree_bits
  have htb : P.treeBytes ≤ 8 := by unfold Params.treeBytes; omega
  have hl := hP.th_le
  have hlb : P.leafBytes ≤ 4 := by unfold Params.leafBytes Params.leafBits; omega
  have hl1 := hP.th_pos
  unfold hash_message_split
  rw [rd_ok (by omega), ok_bind, sub_ok (by omega), ok_bind]
  have htree : (if P.d = 1 then .ok 0 else do
      let t ← bytes_to_ull (buf.drop P.forsMsgBytes) P.treeBytes
      if 64 - P.treeBits < 64 then .ok (t &&& ((2 ^ 64 - 1) >>> (64 - P.treeBits))) else .error .shift : C Nat) =
      .ok (beNat ((buf.drop P.forsMsgBytes).take P.treeBytes) % 2 ^ P.treeBits) := by
    by_cases h : P.d = 1
    · rw [if_pos h]
      simp [Params.treeBits, h, Nat.mod_one]
    · rw [if_neg h, bytes_to_ull_spec _ _ (by simp; omega) htb, ok_bind]
      have : 0 < P.treeBits := Nat.mul_pos hl1 (by have := hP.d_pos; omega)
      rw [if_pos (by omega), mask_eq _ _ _ ht]
  rw [htree, ok_bind, sub_ok (by simp; omega), ok_bind, bytes_to_ull_spec _ _ (by simp; omega) (by omega), ok_bind,
    if_pos (by unfold Params.leafBits; omega), mask_eq _ _ _ (by unfold Params.leafBits; omega)]
  unfold splitDigest
  rw [h1, h2, h3, hh, hd, List.drop_drop, List.drop_zero]
  congr 3
  unfold Params.leafBits
  rw [Nat.mod_mod_of_dvd]
  exact Nat.pow_dvd_pow 2 (by omega)

theorem digestBytes_eq (P : Params) : digestBytes P.toSpec = P.dgstBytes := by
  unfold digestBytes Params.dgstBytes
  rw [toSpec_mdBytes, toSpec_treeBytes, toSpec_leafBytes]

/-- Appending to what has been written so far. -/
theorem wr_app {α : Type} {a l d : List α} {off : Nat} (ho : off = a.length) (h : d.length ≤ l.length) :
    wr (a ++ l) off d = .ok (a ++ d ++ l.drop d.length) := by
  subst ho
  rw [wr_ok (by simp; omega), List.take_left, List.drop_append]
  simp

theorem wr_app0 {α : Type} {l d : List α} (h : d.length ≤ l.length) :
    wr l 0 d = .ok (d ++ l.drop d.length) := by
  rw [wr_ok (by omega)]; simp

end Spx
