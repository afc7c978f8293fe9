import Verif.Proof.Sha2Block
import Verif.Proof.Shake
import Verif.Proof.HashCommon
/-! The SHA-2 code computes the hash function of FIPS 180-4 and MGF1. -/

namespace Spx
open Spec Spec.Sha2

/-- `t[off + i] = f(i)` -/
theorem fill_at {α : Type} {f : Nat → α} {n off : Nat} {pre l : List α} (ho : off = pre.length)
    (h : n ≤ l.length) :
    forRange n (fun i (t : List α) => wr1 t (off + i) (f i)) (pre ++ l) =
      .ok (pre ++ (List.range n).map f ++ l.drop n) := by
  subst ho
  refine forRange_eq' (fun i => pre ++ (List.range i).map f ++ l.drop i) (by simp) rfl ?_
  intro i hi
  have hl : (pre ++ (List.range i).map f).length = pre.length + i := by simp
  rw [wr1_ok (by simp; omega), List.set_append, if_neg (by omega), hl, Nat.sub_self,
    List.drop_eq_getElem_cons (by omega), List.set_cons_zero, List.range_succ, List.map_append]
  simp

section
variable {A : Alg}

theorem chunk_take {α : Type} (m : List α) {n k i : Nat} (h : (i + 1) * n ≤ k) :
    chunk n (m.take k) i = chunk n m i := by
  rw [Nat.succ_mul] at h
  unfold chunk
  rw [List.drop_take, List.take_take, Nat.min_eq_left (by omega)]

theorem blocks_take (H : List (BitVec A.w)) (m : Bytes) {k n : Nat} (h : k * A.blk ≤ n) :
    blocks A H (m.take n) k = blocks A H m k := by
  induction k with
  | zero => rfl
  | succ k ih =>
    have h' := h
    rw [Nat.succ_mul] at h'
    rw [blocks, blocks, ih (by omega), chunk_take m h]

theorem blocks_append (H : List (BitVec A.w)) (p m : Bytes) {j : Nat} (hp : p.length = j * A.blk) (k : Nat) :
    blocks A H (p ++ m) (j + k) = blocks A (blocks A H p j) m k := by
  induction k with
  | zero => rw [Nat.add_zero, ← blocks_take (n := p.length) H (p ++ m) (by omega), List.take_left]; rfl
  | succ k ih =>
    rw [← Nat.add_assoc, blocks, blocks, ih]
    congr 1
    unfold chunk
    rw [List.drop_append, List.drop_of_length_le (by rw [hp]; exact Nat.mul_le_mul_right _ (by omega)),
      List.nil_append, hp, ← Nat.sub_mul, Nat.add_sub_cancel_left]

theorem primes_length : (primes 20 8).length = 8 := by decide

theorem H0_length : (H0 A).length = 8 := by simp [H0, primes_length]

theorem hash_length (m : Bytes) : (Sha2.hash A m).length = A.out := by
  unfold Sha2.hash
  rw [wordsBE_length, blocks_length H0_length]; rfl

/-- The padding after the last complete block: one block or two. -/
theorem pad_eq {m : Bytes} {k : Nat} {q t : Bytes} (hm : m = q ++ t)
    (hq : q.length = k * (16 * A.wb)) (ht : t.length < 16 * A.wb) :
    pad A m = q ++ (t ++ [0x80#8] ++
      List.replicate ((if t.length < 14 * A.wb then 14 * A.wb else 30 * A.wb) - (t.length + 1)) 0#8 ++
      toBE (2 * A.wb) (8 * m.length)) := by
  have hz : (A.blk - (m.length + 1 + A.lenBytes) % A.blk) % A.blk =
      (if t.length < 14 * A.wb then 14 * A.wb else 30 * A.wb) - (t.length + 1) := by
    unfold Alg.blk Alg.lenBytes
    have e : m.length + 1 + 2 * A.wb = (t.length + 1 + 2 * A.wb) + 16 * A.wb * k := by
      rw [hm, List.length_append, hq, Nat.mul_comm k]; omega
    rw [e, Nat.add_mul_mod_self_left]
    split
    · by_cases h1 : t.length + 1 + 2 * A.wb = 16 * A.wb
      · rw [h1, Nat.mod_self, Nat.sub_zero, Nat.mod_self]; omega
      · rw [Nat.mod_eq_of_lt (a := t.length + 1 + 2 * A.wb) (by omega), Nat.mod_eq_of_lt (by omega)]; omega
    · have e2 : t.length + 1 + 2 * A.wb = (t.length + 1 + 2 * A.wb - 16 * A.wb) + 16 * A.wb := by omega
      rw [e2, Nat.add_mod_right, Nat.mod_eq_of_lt (a := t.length + 1 + 2 * A.wb - 16 * A.wb) (by omega),
        Nat.mod_eq_of_lt (by omega)]
      omega
  unfold pad
  rw [hz, show A.lenBytes = 2 * A.wb from rfl]
  rw [hm]
  simp only [List.append_assoc]

/-- The incremental state after absorbing the whole blocks `p`. -/
def ShaInc (A : Alg) (st p : Bytes) : Prop :=
  ∃ k, p.length = k * (16 * A.wb) ∧ st = wordsBE A (blocks A (H0 A) p k) ++ toBE 8 p.length

theorem ShaInc.length {st p : Bytes} (h : ShaInc A st p) : st.length = 8 * A.wb + 8 := by
  obtain ⟨k, _, rfl⟩ := h
  simp [wordsBE_length, blocks_length H0_length]

variable {c : Sha2.Cfg A.wb} {mx : Nat} (ok : CfgOK A c mx)
include ok

theorem inc_init_spec {st : Bytes} (h : st.length = 8 * A.wb + 8) :
    ∃ st', Sha2.inc_init c st = .ok st' ∧ ShaInc A st' [] := by
  have hiv : c.iv.length = 8 * A.wb := by rw [ok.iv, wordsBE_length, H0_length]
  refine ⟨wordsBE A (H0 A) ++ toBE 8 0, ?_, ⟨0, by simp, rfl⟩⟩
  unfold Sha2.inc_init
  rw [ok.hb, copy_loop _ _ _ (by omega) (by omega), ok_bind, List.take_of_length_le (l := c.iv) (by omega),
    fill_at (by omega) (by simp; omega), List.drop_of_length_le (by simp; omega), List.append_nil, ok.iv]
  rfl

theorem load_len {st p : Bytes} (h : ShaInc A st p) (hp : p.length < 2 ^ 64) :
    (sub st c.hb >>= load_bigendian_64) = .ok (BitVec.ofNat 64 p.length) := by
  obtain ⟨k, _, rfl⟩ := h
  have hl : (wordsBE A (blocks A (H0 A) p k)).length = c.hb := by
    rw [wordsBE_length, blocks_length H0_length, ok.hb]
  rw [sub_ok (by simp; omega), ok_bind, List.drop_left' hl, load_bigendian_64_spec (by simp),
    List.take_of_length_le (by simp), beNat_toBE, Nat.mod_eq_of_lt hp]

theorem inc_blocks_spec {st p inp : Bytes} {nb : Nat} (h : ShaInc A st p)
    (hi : nb * (16 * A.wb) ≤ inp.length) (hl : p.length + nb * (16 * A.wb) < 2 ^ 64) :
    ∃ st', Sha2.inc_blocks c st inp nb = .ok st' ∧ ShaInc A st' (p ++ inp.take (nb * (16 * A.wb))) := by
  have hpos := ok.wb_pos
  have e1 := load_len ok h (by omega)
  obtain ⟨k, hk, rfl⟩ := h
  have hbl : (blocks A (H0 A) p k).length = 8 := blocks_length H0_length _ _
  have e2 : Sha2.hashblocks c (wordsBE A (blocks A (H0 A) p k) ++ toBE 8 p.length) inp (c.blk * nb) =
      .ok (wordsBE A (blocks A (H0 A) (p ++ inp.take (nb * (16 * A.wb))) (k + nb)) ++ toBE 8 p.length) := by
    rw [hashblocks_spec ok hbl (by rw [ok.blk, Nat.mul_comm]; exact hi), ok.blk, Nat.mul_comm (16 * A.wb) nb,
      Nat.mul_div_cancel _ (by omega), blocks_append _ _ _ hk]
    rw [blocks_take _ inp (n := nb * (16 * A.wb)) (Nat.le_refl _)]
  have hl2 : (wordsBE A (blocks A (H0 A) (p ++ inp.take (nb * (16 * A.wb))) (k + nb))).length = c.hb := by
    rw [wordsBE_length, blocks_length H0_length, ok.hb]
  have hl3 : (p ++ inp.take (nb * (16 * A.wb))).length = p.length + nb * (16 * A.wb) := by simp; omega
  refine ⟨_, ?_, ⟨k + nb, by rw [hl3, hk, Nat.add_mul], rfl⟩⟩
  unfold Sha2.inc_blocks
  rw [← bind_assoc, e1, ok_bind, e2, ok_bind]
  simp only []
  rw [withSub_ok (d := toBE 8 (p.length + nb * (16 * A.wb))) (x := ()) (by simp; omega) (by
    rw [List.drop_left' hl2, store_bigendian_64_spec (by simp), ok_bind, List.drop_of_length_le (by simp),
      List.append_nil, ← BitVec.ofNat_add, BitVec.toNat_ofNat, ok.blk, Nat.mul_comm (16 * A.wb) nb,
      Nat.mod_eq_of_lt hl]), ok_bind, List.take_left' hl2, hl3]

omit ok in
theorem range_map_getD {α β : Type} (l : List α) (d : α) (f : α → β) :
    (List.range l.length).map (fun i => f (l.getD i d)) = l.map f := by
  apply List.ext_getElem?
  intro i
  by_cases h : i < l.length
  · simp [h]
  · rw [List.getElem?_eq_none (by simp; omega), List.getElem?_eq_none (by simp; omega)]

omit ok in
theorem padTail_spec {pre l : Bytes} {r zend n : Nat} (hr : pre.length = r + 1) (hz : r + 1 ≤ zend)
    (hl : zend + c.lens.length ≤ (pre ++ l).length) :
    Sha2.padTail c (pre ++ l) r zend (BitVec.ofNat 64 n) =
      .ok (pre ++ List.replicate (zend - (r + 1)) 0#8 ++
        c.lens.map (fun f => (f (BitVec.ofNat 64 n)).truncate 8) ++
        (l.drop (zend - (r + 1))).drop c.lens.length) := by
  rw [List.length_append] at hl
  unfold Sha2.padTail
  rw [fill_at (f := fun _ => 0#8) (by omega) (by omega), ok_bind,
    fill_at (f := fun i => (c.lens.getD i (fun _ => 0#64) (BitVec.ofNat 64 n)).truncate 8)
      (by simp; omega) (by simp; omega),
    range_map_getD c.lens (fun _ => 0#64) (fun f => (f (BitVec.ofNat 64 n)).truncate 8)]
  simp [List.map_const']

theorem inc_finalize_spec (g : Nat → Nat → Byte) {st p inp out : Bytes} {inlen : Nat} (h : ShaInc A st p)
    (hi : inlen ≤ inp.length) (ho : 8 * A.wb ≤ out.length) (hl : p.length + inlen < mx) :
    ∃ st', Sha2.inc_finalize c g out st inp inlen =
      .ok (Sha2.hash A (p ++ inp.take inlen) ++ out.drop (8 * A.wb), st') := by
  have hpos := ok.wb_pos
  have hmx := ok.max
  have e1 := load_len ok h (by omega)
  obtain ⟨k, hk, rfl⟩ := h
  have hbl : (blocks A (H0 A) p k).length = 8 := blocks_length H0_length _ _
  have hdm := Nat.div_add_mod inlen (16 * A.wb)
  have hml := Nat.mod_lt inlen (show 16 * A.wb > 0 by omega)
  rw [Nat.mul_comm] at hdm
  generalize hr : inlen % (16 * A.wb) = r at hdm hml
  generalize hn : inlen / (16 * A.wb) = n at hdm
  -- message = whole blocks ++ tail
  have hq : (p ++ inp.take (n * (16 * A.wb))).length = (k + n) * (16 * A.wb) := by
    rw [List.length_append, List.length_take, Nat.add_mul, hk, Nat.min_eq_left (by omega)]
  have hm : p ++ inp.take inlen = (p ++ inp.take (n * (16 * A.wb))) ++ (inp.drop (inlen - r)).take r := by
    rw [List.append_assoc, show inlen - r = n * (16 * A.wb) by omega, ← List.take_add, hdm]
  have htl : ((inp.drop (inlen - r)).take r).length = r := by simp; omega
  have hml2 : (p ++ inp.take inlen).length = p.length + inlen := by simp; omega
  have hpad := pad_eq hm hq (by omega)
  rw [htl, hml2] at hpad
  have e2 : Sha2.hashblocks c (wordsBE A (blocks A (H0 A) p k) ++ toBE 8 p.length) inp inlen =
      .ok (wordsBE A (blocks A (H0 A) (p ++ inp.take (n * (16 * A.wb))) (k + n)) ++ toBE 8 p.length) := by
    rw [hashblocks_spec ok hbl hi, hn, blocks_append _ _ _ hk]
    rw [blocks_take _ inp (n := n * (16 * A.wb)) (Nat.le_refl _)]
  generalize hQ : p ++ inp.take (n * (16 * A.wb)) = q at hq hpad e2
  generalize hT : (inp.drop (inlen - r)).take r = t at htl hpad
  have e3 : sub inp (inlen - r) = .ok (inp.drop (inlen - r)) := sub_ok (by omega)
  have e4 : forRange r (fun i p => do wr1 p i (← rd1 (inp.drop (inlen - r)) i)) (uninit (g 20) (2 * c.blk)) =
      .ok (t ++ (uninit (g 20) (2 * c.blk)).drop r) := by
    rw [copy_loop _ _ _ (by simp; omega) (by simp [ok.blk]; omega), hT]
  have hu : ((uninit (g 20) (2 * c.blk)).drop r).length = 32 * A.wb - r := by simp [ok.blk]; omega
  generalize (uninit (g 20) (2 * c.blk)).drop r = u at e4 hu
  have e5 : wr1 (t ++ u) r 0x80#8 = .ok ((t ++ [0x80#8]) ++ u.drop 1) := by
    rw [wr1_ok (by simp; omega), List.set_append, if_neg (by omega), htl, Nat.sub_self]
    cases u with
    | nil => simp at hu; omega
    | cons x u => simp
  have hpre : (t ++ [0x80#8]).length = r + 1 := by simp [htl]
  have hz1 := ok.zend1
  have hz1' := ok.zend1'
  have hz2 := ok.zend2
  have hthr := ok.thr
  have hblk := ok.blk
  have hlens := ok.lens (p.length + inlen) hl
  have hPl : ∀ z, (t ++ [0x80#8] ++ List.replicate (z - (r + 1)) 0#8 ++
      toBE (2 * A.wb) (8 * (p.length + inlen))).length = r + 1 + (z - (r + 1)) + 2 * A.wb := by
    intro z; simp [htl]; omega
  -- the final blocks
  have key : ∃ S : Bytes, S = wordsBE A (blocks A (H0 A) (pad A (p ++ inp.take inlen))
        ((pad A (p ++ inp.take inlen)).length / A.blk)) ++ toBE 8 p.length ∧
      (if r < c.thr then do
        let padded ← Sha2.padTail c ((t ++ [0x80#8]) ++ u.drop 1) r c.zend1 (BitVec.ofNat 64 (p.length + inlen))
        Sha2.hashblocks c (wordsBE A (blocks A (H0 A) q (k + n)) ++ toBE 8 p.length) padded c.blk
      else do
        let padded ← Sha2.padTail c ((t ++ [0x80#8]) ++ u.drop 1) r c.zend2 (BitVec.ofNat 64 (p.length + inlen))
        Sha2.hashblocks c (wordsBE A (blocks A (H0 A) q (k + n)) ++ toBE 8 p.length) padded (2 * c.blk) : C Bytes) =
        .ok S := by
    refine ⟨_, rfl, ?_⟩
    by_cases hrt : r < c.thr
    · rw [if_pos hrt]
      rw [if_pos (by omega)] at hpad
      have e6 := padTail_spec (c := c) (n := p.length + inlen) hpre (zend := c.zend1) (l := u.drop 1) (by omega)
        (by rw [List.length_append, hpre, List.length_drop]; omega)
      have hrep : List.replicate (c.zend1 - (r + 1)) 0#8 = List.replicate (14 * A.wb - (r + 1)) 0#8 ++
          List.replicate (c.zend1 - c.thr) 0#8 := by
        rw [List.replicate_append_replicate]; congr 1; omega
      rw [hrep, ← List.append_assoc, List.append_assoc _ (List.replicate (c.zend1 - c.thr) 0#8), hlens] at e6
      rw [e6, ok_bind, hashblocks_spec ok (blocks_length H0_length _ _) (by
        rw [List.length_append, hPl]; omega), ← blocks_append _ _ _ hq, hpad,
        List.length_append, hPl, hq, hblk, Nat.div_self (by omega), Alg.blk,
        show (k + n) * (16 * A.wb) + (r + 1 + (14 * A.wb - (r + 1)) + 2 * A.wb) = (k + n + 1) * (16 * A.wb) by
          rw [Nat.succ_mul (k + n)]; omega, Nat.mul_div_cancel _ (by omega), ← List.append_assoc,
        ← blocks_take (n := (k + n + 1) * (16 * A.wb)) _ (q ++ _ ++ _) (Nat.le_refl _), List.take_left']
      rw [List.length_append, hPl, hq, Nat.succ_mul (k + n)]
      omega
    · rw [if_neg hrt]
      rw [if_neg (by omega)] at hpad
      have e6 := padTail_spec (c := c) (n := p.length + inlen) hpre (zend := c.zend2) (l := u.drop 1) (by omega)
        (by rw [List.length_append, hpre, List.length_drop]; omega)
      have hrep : List.replicate (c.zend2 - (r + 1)) 0#8 = List.replicate (30 * A.wb - (r + 1)) 0#8 ++
          List.replicate (c.zend1 - c.thr) 0#8 := by
        rw [List.replicate_append_replicate]; congr 1; omega
      rw [hrep, ← List.append_assoc, List.append_assoc _ (List.replicate (c.zend1 - c.thr) 0#8), hlens] at e6
      rw [e6, ok_bind, hashblocks_spec ok (blocks_length H0_length _ _) (by
        rw [List.length_append, hPl]; omega), ← blocks_append _ _ _ hq, hpad,
        List.length_append, hPl, hq, hblk, Nat.mul_div_cancel _ (by omega), Alg.blk,
        show (k + n) * (16 * A.wb) + (r + 1 + (30 * A.wb - (r + 1)) + 2 * A.wb) = (k + n + 2) * (16 * A.wb) by
          rw [Nat.add_mul (k + n)]; omega, Nat.mul_div_cancel _ (by omega), ← List.append_assoc,
        ← blocks_take (n := (k + n + 2) * (16 * A.wb)) _ (q ++ _ ++ _) (Nat.le_refl _), List.take_left']
      rw [List.length_append, hPl, hq, Nat.add_mul (k + n)]
      omega
  obtain ⟨S, hS, e7⟩ := key
  refine ⟨S, ?_⟩
  have hwl : (wordsBE A (blocks A (H0 A) (pad A (p ++ inp.take inlen))
        ((pad A (p ++ inp.take inlen)).length / A.blk))).length = 8 * A.wb := by
    rw [wordsBE_length, blocks_length H0_length]
  have e8 : forRange c.hb (fun i out => do wr1 out i (← rd1 S i)) out =
      .ok (Sha2.hash A (p ++ inp.take inlen) ++ out.drop (8 * A.wb)) := by
    rw [ok.hb, copy_loop _ _ _ (by rw [hS, List.length_append, hwl]; omega) ho, hS, List.take_left' hwl]
    rfl
  unfold Sha2.inc_finalize
  rw [← bind_assoc, e1]
  simp only [ok_bind, e2, ok.mask, hr, e3, e4, e5]
  rw [← BitVec.ofNat_add, e7, ok_bind, e8, ok_bind]

theorem sha_spec (g : Nat → Nat → Byte) {inp out : Bytes} {inlen : Nat}
    (hi : inlen ≤ inp.length) (ho : 8 * A.wb ≤ out.length) (hl : inlen < mx) :
    Sha2.sha c g out inp inlen = .ok (Sha2.hash A (inp.take inlen) ++ out.drop (8 * A.wb)) := by
  obtain ⟨s1, e1, h1⟩ := inc_init_spec ok (st := uninit (g 21) (c.hb + 8)) (by simp [ok.hb])
  obtain ⟨s2, e2⟩ := inc_finalize_spec ok g h1 hi ho (by simpa using hl)
  unfold Sha2.sha
  simp only [e1, e2, ok_bind, List.nil_append]

omit ok in
theorem mgf1_length (seed : Bytes) (len : Nat) (hw : 0 < A.wb) : (mgf1 A seed len).length = len := by
  unfold mgf1
  rw [List.length_take, cat_length (n := A.out) (fun i _ => hash_length _), Nat.min_eq_left]
  have hp : 0 < A.out := by unfold Alg.out; omega
  have h1 := Nat.div_add_mod (len + A.out - 1) A.out
  have h2 := Nat.mod_lt (len + A.out - 1) hp
  rw [Nat.mul_comm] at h1
  omega

theorem mgf_block (g : Nat → Nat → Byte) {inp tl out : Bytes} {i : Nat} (ht : tl.length = 4)
    (hi : i < 2 ^ 32) (ho : 8 * A.wb ≤ out.length) (hl : inp.length + 4 < mx) :
    withSub (inp ++ tl) inp.length (fun x => do .ok (← u32_to_bytes x (i % 2 ^ 32), ())) =
      .ok (inp ++ toBE 4 i, ()) ∧
    Sha2.sha c g out (inp ++ toBE 4 i) (inp.length + 4) =
      .ok (Sha2.hash A (inp ++ toBE 4 i) ++ out.drop (8 * A.wb)) := by
  constructor
  · rw [withSub_ok (d := toBE 4 i) (x := ()) (by simp) (by
      rw [List.drop_left, u32_to_bytes_spec _ _ (by omega), ok_bind, List.drop_of_length_le (by omega),
        List.append_nil, Nat.mod_eq_of_lt hi]), List.take_left]
  · rw [sha_spec ok g (by simp) ho hl, List.take_of_length_le (by simp)]

theorem mgf1_spec' (g : Nat → Nat → Byte) {inp out : Bytes} {inlen outlen : Nat}
    (hi : inlen ≤ inp.length) (ho : outlen ≤ out.length) (hl : inlen + 4 < mx) (h32 : outlen ≤ 2 ^ 32 * A.out) :
    Sha2.mgf1 c g out outlen inp inlen = .ok (mgf1 A (inp.take inlen) outlen ++ out.drop outlen) := by
  have hpos := ok.wb_pos
  generalize hs : inp.take inlen = seed
  have hsl : seed.length = inlen := by rw [← hs]; simp; omega
  have hwb8 : A.out = 8 * A.wb := rfl
  generalize hB : 8 * A.wb = B
  have hBp : 0 < B := by omega
  have hdm := Nat.div_add_mod outlen B
  have hml := Nat.mod_lt outlen hBp
  rw [Nat.mul_comm] at hdm
  generalize hk : outlen / B = k at hdm
  generalize hr : outlen % B = r at hdm hml
  rw [hwb8, hB] at h32
  have hk32 : k ≤ 2 ^ 32 := Nat.le_of_mul_le_mul_right (Nat.le_trans (show k * B ≤ outlen by omega) h32) hBp
  have e1 : (rd inp 0 inlen >>= fun x => wr (uninit (g 22) (inlen + 4)) 0 x) =
      .ok (seed ++ (uninit (g 22) (inlen + 4)).drop inlen) := by
    rw [rd_ok (by omega), ok_bind, List.drop_zero, hs, wr_app0 (by simp; omega), hsl]
  have htl : ((uninit (g 22) (inlen + 4)).drop inlen).length = 4 := by simp
  generalize (uninit (g 22) (inlen + 4)).drop inlen = tl0 at e1 htl
  -- contents of the last four bytes of inbuf
  let tl : Nat → Bytes := fun i => if i = 0 then tl0 else toBE 4 (i - 1)
  have htlen : ∀ i, (tl i).length = 4 := by
    intro i; simp only [tl]; split
    · exact htl
    · simp
  let f : Nat → Bytes := fun i => Sha2.hash A (seed ++ toBE 4 i)
  have hfl : ∀ i, (f i).length = B := fun i => by rw [← hB]; exact hash_length _
  have e2 : loop (outlen / c.hb + 1) (Sha2.mgfStep c g outlen inlen) (0, out, seed ++ tl0) =
      .ok (k, cat k f ++ out.drop (k * B), seed ++ tl k) := by
    refine Eq.trans (congrArg _ ?_) (loop_eq (fun i => (i, cat i f ++ out.drop (i * B), seed ++ tl i)) k ?_ ?_ ?_)
    · simp [cat, tl]
    · intro i hii
      have h1 : (i + 1) * B ≤ k * B := Nat.mul_le_mul_right _ hii
      have h2 := h1
      rw [Nat.succ_mul] at h2
      obtain ⟨m1, m2⟩ := mgf_block ok g (inp := seed) (tl := tl i) (i := i) (out := out.drop (i * B))
        (htlen i) (by omega) (by simp; omega) (by omega)
      rw [hsl] at m1 m2
      unfold Sha2.mgfStep
      simp only []
      rw [ok.hb, hB, if_pos (by omega), m1, ok_bind]
      simp only []
      rw [withSub_cat (n := B) (x := ()) (fun j _ => hfl j) (by
        rw [m2, ok_bind, hB, List.drop_drop, Nat.succ_mul])]
      simp [tl]
    · unfold Sha2.mgfStep
      simp only []
      rw [ok.hb, hB, if_neg (by rw [Nat.succ_mul]; omega)]
    · rw [ok.hb, hB, hk]; omega
  have hmgf : mgf1 A seed outlen = cat k f ++ (f k).take r := by
    unfold mgf1
    rw [hwb8, hB]
    by_cases h0 : r = 0
    · have : (outlen + B - 1) / B = k := by
        rw [Nat.div_eq_iff hBp]
        constructor
        · omega
        · omega
      rw [this, List.take_of_length_le (by rw [cat_length (n := B) (fun i _ => hfl i)]; omega), h0]
      simp [f]
    · have : (outlen + B - 1) / B = k + 1 := by
        rw [Nat.div_eq_iff hBp, Nat.succ_mul]
        constructor
        · omega
        · omega
      rw [this, cat, List.take_append, cat_length (n := B) (fun i _ => hfl i), show outlen - k * B = r by omega,
        List.take_of_length_le (l := cat k _) (by rw [cat_length (n := B) (fun i _ => hfl i)]; omega)]
  have hcl : (cat k f).length = k * B := cat_length (n := B) (fun i _ => hfl i)
  unfold Sha2.mgf1
  simp only []
  rw [← bind_assoc, e1, ok_bind, e2, ok_bind]
  simp only []
  rw [ok.hb, hB, hmgf]
  by_cases h0 : r = 0
  · rw [if_neg (by omega), h0, show k * B = outlen by omega]; simp
  · rw [if_pos (by omega)]
    obtain ⟨m1, m2⟩ := mgf_block ok g (inp := seed) (tl := tl k) (i := k) (out := uninit (g 23) B)
        (htlen k) (Nat.lt_of_mul_lt_mul_right (a := B) (by omega)) (by simp; omega) (by omega)
    rw [hsl] at m1 m2
    rw [m1, ok_bind]
    simp only []
    rw [m2, ok_bind, List.drop_of_length_le (by simp; omega), List.append_nil,
      rd_ok (by rw [hash_length, hwb8]; omega), ok_bind, List.drop_zero, show outlen - k * B = r by omega,
      wr_app hcl.symm (by rw [List.length_take, hash_length, List.length_drop]; omega)]
    simp only [f, List.length_take, hash_length, hwb8, hB, List.drop_drop]
    rw [Nat.min_eq_left (by omega), hdm]

theorem mgf1_spec (g : Nat → Nat → Byte) {inp out : Bytes} {inlen outlen : Nat}
    (hi : inlen ≤ inp.length) (ho : outlen ≤ out.length) (hl : inlen + 4 < mx) (h32 : outlen < 2 ^ 32) :
    Sha2.mgf1 c g out outlen inp inlen = .ok (mgf1 A (inp.take inlen) outlen ++ out.drop outlen) :=
  mgf1_spec' ok g hi ho hl (Nat.le_trans (Nat.le_of_lt h32)
    (Nat.le_mul_of_pos_right _ (by have := ok.wb_pos; unfold Alg.out; omega)))

/-- Any number of calls of `inc_blocks`. -/
theorem inc_blocks_all {st p : Bytes} (h : ShaInc A st p) (calls : List (Bytes × Nat))
    (hi : ∀ q ∈ calls, q.2 * (16 * A.wb) ≤ q.1.length)
    (hl : (p ++ (calls.map fun q => q.1.take (q.2 * (16 * A.wb))).flatten).length < 2 ^ 64) :
    ∃ st', calls.foldlM (fun st q => Sha2.inc_blocks c st q.1 q.2) st = .ok st' ∧
      ShaInc A st' (p ++ (calls.map fun q => q.1.take (q.2 * (16 * A.wb))).flatten) := by
  induction calls generalizing st p with
  | nil => exact ⟨st, rfl, by simpa using h⟩
  | cons q qs ih =>
    have hq := hi q (by simp)
    simp only [List.map_cons, List.flatten_cons] at hl ⊢
    obtain ⟨s1, e1, h1⟩ := inc_blocks_spec ok h hq (by
      simp only [List.length_append, List.length_take] at hl
      rw [Nat.min_eq_left hq] at hl
      omega)
    obtain ⟨s2, e2, h2⟩ := ih h1 (fun q' hq' => hi q' (by simp [hq'])) (by rw [List.append_assoc]; exact hl)
    refine ⟨s2, ?_, by rw [← List.append_assoc]; exact h2⟩
    rw [List.foldlM_cons, e1]
    exact e2

end
end Spx
