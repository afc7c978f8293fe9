import Verif.Model.Sha2
import Verif.Spec.Sha2
import Verif.Proof.Bytes
/-! Words and constants of SHA-2: the code against FIPS 180-4. -/

namespace Spx
open Spec

theorem ofNat_or {w : Nat} (a b : Nat) : BitVec.ofNat w (a ||| b) = BitVec.ofNat w a ||| BitVec.ofNat w b := by
  apply BitVec.eq_of_toNat_eq
  simp [BitVec.toNat_or]

theorem or_hi {x a : Nat} (k w : Nat) (hx : x < 2 ^ k) (hk : k ≤ w) :
    x ||| (a * 2 ^ k % 2 ^ w) = x + a * 2 ^ k % 2 ^ w := by
  rw [Nat.or_comm, or_shift_add (k := k) _ hx, Nat.add_comm]
  rw [Nat.mod_mod_of_dvd _ (Nat.pow_dvd_pow 2 hk)]; simp

theorem load_bigendian_32_spec {x : Bytes} (h : 4 ≤ x.length) :
    load_bigendian_32 x = .ok (BitVec.ofNat 32 (beNat (x.take 4))) := by
  obtain ⟨a, b, c, d, rest, rfl⟩ : ∃ a b c d rest, x = a :: b :: c :: d :: rest := by
    match x, h with
    | a :: b :: c :: d :: rest, _ => exact ⟨a, b, c, d, rest, rfl⟩
  simp only [load_bigendian_32, rd1, List.getElem?_cons_succ, List.getElem?_cons_zero, ok_bind]
  congr 1
  apply BitVec.eq_of_toNat_eq
  have := a.isLt; have := b.isLt; have := c.isLt; have := d.isLt
  simp only [BitVec.toNat_or, BitVec.toNat_shiftLeft, BitVec.truncate_eq_setWidth,
    BitVec.toNat_setWidth, BitVec.toNat_ofNat, Nat.shiftLeft_eq, List.take, beNat, List.foldl]
  rw [Nat.mod_eq_of_lt (a := d.toNat) (by omega), Nat.mod_eq_of_lt (a := c.toNat) (by omega),
    Nat.mod_eq_of_lt (a := b.toNat) (by omega), Nat.mod_eq_of_lt (a := a.toNat) (by omega),
    or_hi (a := c.toNat) 8 32 (by omega) (by omega), or_hi (a := b.toNat) 16 32 (by omega) (by omega),
    or_hi (a := a.toNat) 24 32 (by omega) (by omega)]
  omega

theorem load_bigendian_64_spec {x : Bytes} (h : 8 ≤ x.length) :
    load_bigendian_64 x = .ok (BitVec.ofNat 64 (beNat (x.take 8))) := by
  obtain ⟨a, b, c, d, e, f, g, i, rest, rfl⟩ : ∃ a b c d e f g i rest, x = a :: b :: c :: d :: e :: f :: g :: i :: rest := by
    match x, h with
    | a :: b :: c :: d :: e :: f :: g :: i :: rest, _ => exact ⟨a, b, c, d, e, f, g, i, rest, rfl⟩
  simp only [load_bigendian_64, rd1, List.getElem?_cons_succ, List.getElem?_cons_zero, ok_bind]
  congr 1
  apply BitVec.eq_of_toNat_eq
  have := a.isLt; have := b.isLt; have := c.isLt; have := d.isLt
  have := e.isLt; have := f.isLt; have := g.isLt; have := i.isLt
  simp only [BitVec.toNat_or, BitVec.toNat_shiftLeft, BitVec.truncate_eq_setWidth,
    BitVec.toNat_setWidth, BitVec.toNat_ofNat, Nat.shiftLeft_eq, List.take, beNat, List.foldl]
  rw [Nat.mod_eq_of_lt (a := d.toNat) (by omega), Nat.mod_eq_of_lt (a := c.toNat) (by omega),
    Nat.mod_eq_of_lt (a := b.toNat) (by omega), Nat.mod_eq_of_lt (a := a.toNat) (by omega),
    Nat.mod_eq_of_lt (a := e.toNat) (by omega), Nat.mod_eq_of_lt (a := f.toNat) (by omega),
    Nat.mod_eq_of_lt (a := g.toNat) (by omega), Nat.mod_eq_of_lt (a := i.toNat) (by omega),
    or_hi (a := g.toNat) 8 64 (by omega) (by omega), or_hi (a := f.toNat) 16 64 (by omega) (by omega),
    or_hi (a := e.toNat) 24 64 (by omega) (by omega), or_hi (a := d.toNat) 32 64 (by omega) (by omega),
    or_hi (a := c.toNat) 40 64 (by omega) (by omega), or_hi (a := b.toNat) 48 64 (by omega) (by omega),
    or_hi (a := a.toNat) 56 64 (by omega) (by omega)]
  omega

theorem store_bigendian_32_spec {x : Bytes} (h : 4 ≤ x.length) (u : BitVec 64) :
    store_bigendian_32 x u = .ok (toBE 4 u.toNat ++ x.drop 4) := by
  obtain ⟨a, b, c, d, rest, rfl⟩ : ∃ a b c d rest, x = a :: b :: c :: d :: rest := by
    match x, h with
    | a :: b :: c :: d :: rest, _ => exact ⟨a, b, c, d, rest, rfl⟩
  simp [store_bigendian_32, wr1, toBE, BitVec.ofNat]
  refine ⟨?_, ?_, ?_, ?_⟩ <;>
  · apply BitVec.eq_of_toNat_eq
    simp [Nat.shiftRight_eq_div_pow]
    try omega

theorem store_bigendian_64_spec {x : Bytes} (h : 8 ≤ x.length) (u : BitVec 64) :
    store_bigendian_64 x u = .ok (toBE 8 u.toNat ++ x.drop 8) := by
  obtain ⟨a, b, c, d, e, f, g, i, rest, rfl⟩ : ∃ a b c d e f g i rest, x = a :: b :: c :: d :: e :: f :: g :: i :: rest := by
    match x, h with
    | a :: b :: c :: d :: e :: f :: g :: i :: rest, _ => exact ⟨a, b, c, d, e, f, g, i, rest, rfl⟩
  simp [store_bigendian_64, wr1, toBE, BitVec.ofNat]
  refine ⟨?_, ?_, ?_, ?_, ?_, ?_, ?_, ?_⟩ <;>
  · apply BitVec.eq_of_toNat_eq
    simp [Nat.shiftRight_eq_div_pow]
    try omega

theorem ROTR_eq {w : Nat} (x : BitVec w) {r : Nat} (h : r < w) : Sha2.ROTR x r = x.rotateRight r := by
  rw [Sha2.ROTR, BitVec.rotateRight_eq_rotateRightAux_of_lt h]; rfl

open Spec.Sha2 in
/-- The constants of a copy of the code are those of the standard; `maxLen` is the largest message
length (in bytes, plus one) for which the length field is right. -/
structure CfgOK (A : Alg) (c : Sha2.Cfg A.wb) (maxLen : Nat) : Prop where
  wb_pos : 0 < A.wb
  Sigma0 : ∀ x, c.Sigma0 x = rot3 A A.S0 x
  Sigma1 : ∀ x, c.Sigma1 x = rot3 A A.S1 x
  sigma0 : ∀ x, c.sigma0 x = rot2 A A.s0 x
  sigma1 : ∀ x, c.sigma1 x = rot2 A A.s1 x
  rounds : 16 * c.groups = A.rounds
  K : ∀ t, t < A.rounds → c.K.getD t 0 = Spec.Sha2.K A t
  load : ∀ x : Bytes, A.wb ≤ x.length → c.load x = .ok (BitVec.ofNat _ (beNat (x.take A.wb)))
  store : ∀ (x : Bytes) u, A.wb ≤ x.length → c.store x u = .ok (toBE A.wb u.toNat ++ x.drop A.wb)
  iv : c.iv = wordsBE A (H0 A)
  blk : c.blk = 16 * A.wb
  hb : c.hb = 8 * A.wb
  mask : ∀ x, x &&& c.mask = x % (16 * A.wb)
  thr : c.thr = 14 * A.wb
  zend1 : c.thr ≤ c.zend1
  zend1' : c.zend1 + c.lens.length = c.blk
  zend2 : c.zend2 = c.blk + c.zend1
  lens : ∀ b, b < maxLen → List.replicate (c.zend1 - c.thr) 0#8 ++
    c.lens.map (fun f => (f (BitVec.ofNat 64 b)).truncate 8) = toBE (2 * A.wb) (8 * b)
  max : maxLen ≤ 2 ^ 64

theorem cfg256_ok : CfgOK Spec.Sha2.alg256 Sha2.cfg256 (2 ^ 61) where
  wb_pos := by decide
  Sigma0 x := by
    simp only [Sha2.cfg256, Spec.Sha2.rot3]
    rw [ROTR_eq _ (by decide), ROTR_eq _ (by decide), ROTR_eq _ (by decide)]
  Sigma1 x := by
    simp only [Sha2.cfg256, Spec.Sha2.rot3]
    rw [ROTR_eq _ (by decide), ROTR_eq _ (by decide), ROTR_eq _ (by decide)]
  sigma0 x := by
    simp only [Sha2.cfg256, Spec.Sha2.rot2, Sha2.SHR]
    rw [ROTR_eq _ (by decide), ROTR_eq _ (by decide)]
  sigma1 x := by
    simp only [Sha2.cfg256, Spec.Sha2.rot2, Sha2.SHR]
    rw [ROTR_eq _ (by decide), ROTR_eq _ (by decide)]
  rounds := rfl
  K := by decide +kernel
  load x h := load_bigendian_32_spec h
  store x u h := by
    rw [show Sha2.cfg256.store x u = store_bigendian_32 x (u.zeroExtend 64) from rfl,
      store_bigendian_32_spec h, BitVec.toNat_setWidth, Nat.mod_eq_of_lt]
    have := u.isLt
    simp at this; omega
  iv := by decide +kernel
  blk := rfl
  hb := rfl
  mask x := Nat.and_two_pow_sub_one_eq_mod x 6
  thr := rfl
  zend1 := by decide
  zend1' := rfl
  zend2 := rfl
  lens b hb := by
    simp [Sha2.cfg256, toBE]
    refine ⟨?_, ?_, ?_, ?_, ?_, ?_, ?_, ?_⟩ <;>
    · apply BitVec.eq_of_toNat_eq
      simp [Nat.shiftRight_eq_div_pow, Nat.shiftLeft_eq]
      omega
  max := by decide

theorem cfg512_ok : CfgOK Spec.Sha2.alg512 Sha2.cfg512 (2 ^ 64) where
  wb_pos := by decide
  Sigma0 x := by
    simp only [Sha2.cfg512, Spec.Sha2.rot3]
    rw [ROTR_eq _ (by decide), ROTR_eq _ (by decide), ROTR_eq _ (by decide)]
  Sigma1 x := by
    simp only [Sha2.cfg512, Spec.Sha2.rot3]
    rw [ROTR_eq _ (by decide), ROTR_eq _ (by decide), ROTR_eq _ (by decide)]
  sigma0 x := by
    simp only [Sha2.cfg512, Spec.Sha2.rot2, Sha2.SHR]
    rw [ROTR_eq _ (by decide), ROTR_eq _ (by decide)]
  sigma1 x := by
    simp only [Sha2.cfg512, Spec.Sha2.rot2, Sha2.SHR]
    rw [ROTR_eq _ (by decide), ROTR_eq _ (by decide)]
  rounds := rfl
  K := by decide +kernel
  load x h := load_bigendian_64_spec h
  store x u h := store_bigendian_64_spec h u
  iv := by decide +kernel
  blk := rfl
  hb := rfl
  mask x := Nat.and_two_pow_sub_one_eq_mod x 7
  thr := rfl
  zend1 := by decide
  zend1' := rfl
  zend2 := rfl
  lens b hb := by
    simp [Sha2.cfg512, toBE]
    refine ⟨?_, ?_, ?_, ?_, ?_, ?_, ?_, ?_, ?_, ?_, ?_, ?_, ?_, ?_, ?_, ?_⟩ <;>
    · apply BitVec.eq_of_toNat_eq
      simp [Nat.shiftRight_eq_div_pow, Nat.shiftLeft_eq]
      omega
  max := by decide

end Spx
