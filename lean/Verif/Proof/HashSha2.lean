import Verif.Proof.Sha2
import Verif.Proof.HashShake
import Verif.Model.HashSha2
import Verif.Spec.HashSha2
/-! The SHA-2 instantiation computes the specified hash functions. -/

namespace Spx
open Spec Spec.Sha2

theorem enc_sha2 (a : ADRS) : enc .sha2 a = a.enc22 ++ List.replicate 10 0#8 := rfl

theorem enc22_length (a : ADRS) : a.enc22.length = 22 := by simp [ADRS.enc22]

theorem rd_all {b : Bytes} {k : Nat} (h : b.length = k) : rd b 0 k = .ok b := by
  rw [rd_ok (by omega), List.drop_zero, List.take_of_length_le (by omega)]

section
variable {P : Params} (g : Nat → Nat → Byte)

section
variable {A : Alg} {c : Sha2.Cfg A.wb} {mx : Nat} (ok : CfgOK A c mx)
include ok

/-- Absorbing a seed, filled up to a block. -/
theorem seed_block {st pub : Bytes} (hst : st.length = 8 * A.wb + 8) (hb : A.blk ≤ 128)
    (hp : pub.length ≤ A.blk) :
    ∃ st1 st2, Sha2.inc_init c st = .ok st1 ∧
      Sha2.inc_blocks c st1 (pub ++ List.replicate (128 - pub.length) 0#8) 1 = .ok st2 ∧
      ShaInc A st2 (blockPad A pub) := by
  have hblk : A.blk = 16 * A.wb := rfl
  obtain ⟨s1, e1, h1⟩ := inc_init_spec ok hst
  obtain ⟨s2, e2, h2⟩ := inc_blocks_spec ok h1 (nb := 1) (inp := pub ++ List.replicate (128 - pub.length) 0#8)
    (by simp; omega) (by simp; omega)
  refine ⟨s1, s2, e1, e2, ?_⟩
  have : [] ++ (pub ++ List.replicate (128 - pub.length) 0#8).take (1 * (16 * A.wb)) = blockPad A pub := by
    rw [List.nil_append, List.take_append, List.take_of_length_le (by omega), List.take_replicate, blockPad, hblk]
    congr 2
    omega
  rwa [this] at h2

omit ok in
theorem rd_hash (m : Bytes) {n : Nat} (hn : n ≤ A.out) : rd (Sha2.hash A m) 0 n = .ok ((Sha2.hash A m).take n) := by
  rw [rd_ok (by rw [hash_length]; omega), List.drop_zero]

theorem thash_simple_X_spec {inp st pub ad : Bytes} {blocks : Nat} (hst : ShaInc A st (blockPad A pub))
    (hp : pub.length ≤ A.blk) (hn : P.n ≤ A.out)
    (ha : ad.length = 32) (hi : blocks * P.n ≤ inp.length) (hm : A.blk + 22 + blocks * P.n < mx) :
    Sha2.thash_simple_X P g c inp blocks st ad =
      .ok ((Sha2.hash A (blockPad A pub ++ ad.take 22 ++ inp.take (blocks * P.n))).take P.n) := by
  have hsl := hst.length
  have hout : A.out = 8 * A.wb := rfl
  have hbp : (blockPad A pub).length = A.blk := by simp [blockPad]; omega
  have hpl : (ad.take 22 ++ inp.take (blocks * P.n)).length = 22 + blocks * P.n := by simp; omega
  obtain ⟨s2, e2⟩ := inc_finalize_spec ok g hst (inp := ad.take 22 ++ inp.take (blocks * P.n))
    (inlen := 22 + blocks * P.n) (out := uninit (g 33) c.hb) (by omega) (by simp [ok.hb]) (by rw [hbp]; omega)
  rw [List.take_of_length_le (l := ad.take 22 ++ _) (by omega),
    List.drop_of_length_le (l := uninit (g 33) c.hb) (by simp [ok.hb]), List.append_nil] at e2
  unfold Sha2.thash_simple_X SPX_SHA256_ADDR_BYTES
  simp only []
  rw [rd_all (by rw [ok.hb, hsl]), ok_bind, rd_ok (by omega), ok_bind, List.drop_zero,
    wr_app0 (by simp; omega), ok_bind, rd_ok (by omega), ok_bind, List.drop_zero,
    wr_app (by simp; omega) (by simp; omega), ok_bind, List.drop_of_length_le (l := List.drop _ _) (by simp; omega),
    List.append_nil, e2, ok_bind]
  simp only []
  rw [rd_hash _ hn, List.append_assoc]

theorem thash_robust_X_spec {inp st pub ad : Bytes} {blocks extra : Nat} (hst : ShaInc A st (blockPad A pub))
    (hpn : pub.length = P.n) (hn : P.n ≤ A.out) (he : 22 ≤ extra)
    (ha : ad.length = 32) (hi : blocks * P.n ≤ inp.length) (hm : A.blk + 22 + blocks * P.n < mx)
    (hb : blocks * P.n < 2 ^ 32) :
    Sha2.thash_robust_X P g c extra inp blocks st pub ad =
      .ok ((Sha2.hash A (blockPad A pub ++ ad.take 22 ++ xorBytes (inp.take (blocks * P.n))
        (mgf1 A (pub ++ ad.take 22) (blocks * P.n)))).take P.n) := by
  have hpos := ok.wb_pos
  have hsl := hst.length
  have hout : A.out = 8 * A.wb := rfl
  have hblk : A.blk = 16 * A.wb := rfl
  have hbp : (blockPad A pub).length = A.blk := by simp [blockPad]; omega
  have hml : (mgf1 A (pub ++ ad.take 22) (blocks * P.n)).length = blocks * P.n := mgf1_length _ _ hpos
  generalize hmask : mgf1 A (pub ++ ad.take 22) (blocks * P.n) = mask at hml
  have hxl : (xorBytes (inp.take (blocks * P.n)) mask).length = blocks * P.n := by simp [xorBytes]; omega
  have hpl : (ad.take 22 ++ xorBytes (inp.take (blocks * P.n)) mask).length = 22 + blocks * P.n := by
    rw [List.length_append, hxl]; simp; omega
  obtain ⟨s2, e2⟩ := inc_finalize_spec ok g hst (inp := ad.take 22 ++ xorBytes (inp.take (blocks * P.n)) mask ++
      ((uninit (g 34) (P.n + extra + blocks * P.n)).drop (P.n + 22)).drop (blocks * P.n))
    (inlen := 22 + blocks * P.n) (out := uninit (g 33) c.hb) (by rw [List.length_append]; omega)
    (by simp [ok.hb]) (by rw [hbp]; omega)
  rw [List.take_left' hpl,
    List.drop_of_length_le (l := uninit (g 33) c.hb) (by simp [ok.hb]), List.append_nil] at e2
  have hpre : (pub ++ ad.take 22).length = P.n + 22 := by simp; omega
  have e3 := mgf1_spec ok g (inp := pub ++ ad.take 22 ++ (uninit (g 34) (P.n + extra + blocks * P.n)).drop (P.n + 22))
    (inlen := P.n + 22) (outlen := blocks * P.n) (out := uninit (g 35) (blocks * P.n))
    (by rw [List.length_append]; omega) (by simp) (by omega) hb
  rw [List.take_left' hpre, hmask, List.drop_of_length_le (l := uninit (g 35) _) (by simp), List.append_nil] at e3
  unfold Sha2.thash_robust_X SPX_SHA256_ADDR_BYTES
  simp only []
  rw [rd_all hpn, ok_bind, wr_app0 (by simp; omega), ok_bind, rd_ok (by omega), ok_bind, List.drop_zero,
    wr_app (by omega) (by simp; omega), ok_bind, List.drop_drop, hpn,
    show P.n + (ad.take 22).length = P.n + 22 by simp; omega, e3, ok_bind,
    rd_all (by rw [ok.hb, hsl]), ok_bind, xor_loop (by omega) hi (by omega) (by simp; omega), ok_bind,
    sub_ok (by simp; omega), ok_bind, List.append_assoc, List.append_assoc, List.drop_left' hpn,
    ← List.append_assoc (ad.take 22), e2, ok_bind]
  simp only []
  rw [rd_hash _ hn]
  simp only [List.append_assoc]

omit ok in
/-- `buf[i] = x ^ key[i]`, followed by filling with `x`: the key, padded with zeros, xored with `x`. -/
theorem key_pad {key buf : Bytes} {n blk : Nat} (x : Byte) (hn : n ≤ key.length) (hb : n ≤ blk)
    (hl : blk ≤ buf.length) :
    (do
      let buf ← forRange n (fun i b => do wr1 b i (x ^^^ (← rd1 key i))) buf
      wr buf n (List.replicate (blk - n) x)) =
    .ok ((key.take n ++ List.replicate (blk - n) 0#8).map (· ^^^ x) ++ buf.drop blk) := by
  have e : forRange n (fun i b => do wr1 b i (x ^^^ (← rd1 key i))) buf =
      .ok ((key.take n).map (· ^^^ x) ++ buf.drop n) := by
    refine forRange_eq' (fun i => (key.take i).map (· ^^^ x) ++ buf.drop i) (by simp) rfl ?_
    intro i hi
    have hlen : ((key.take i).map (· ^^^ x)).length = i := by simp; omega
    rw [rd1_ok (by omega), ok_bind, wr1_ok (by simp; omega), List.set_append, if_neg (by omega), hlen, Nat.sub_self,
      List.drop_eq_getElem_cons (by omega), List.set_cons_zero, take_succ_get (by omega), List.map_append,
      List.append_assoc, BitVec.xor_comm x]
    rfl
  rw [e, ok_bind, wr_app (by simp; omega) (by simp; omega)]
  congr 2
  · simp
  · rw [List.drop_drop]; congr 1; simp; omega

omit ok in
theorem pad_len {key : Bytes} {n blk : Nat} (x : Byte) (hn : n ≤ key.length) (hb : n ≤ blk) :
    ((key.take n ++ List.replicate (blk - n) 0#8).map (· ^^^ x)).length = blk := by simp; omega

theorem gen_message_random_X_spec {skPrf optrand m : Bytes} (ctx : Ctx) (h1 : P.n ≤ skPrf.length)
    (h2 : P.n ≤ optrand.length) (hn : P.n ≤ A.out) (hm : 2 * A.blk + P.n + m.length < mx) :
    Sha2.gen_message_random_X P g c skPrf optrand m ctx =
      .ok ((hmac A (skPrf.take P.n) (optrand.take P.n ++ m)).take P.n) := by
  have hpos := ok.wb_pos
  have hmx := ok.max
  have hout : A.out = 8 * A.wb := rfl
  have hblk : A.blk = 16 * A.wb := rfl
  have hk : (skPrf.take P.n).length = P.n := by simp; omega
  have ho : (optrand.take P.n).length = P.n := by simp; omega
  generalize hkey : skPrf.take P.n = key at hk
  generalize hopt : optrand.take P.n = opt at ho
  -- inner key block
  have e1 := key_pad (key := skPrf) (buf := uninit (g 27) (c.blk + c.hb)) (n := P.n) (blk := c.blk) 0x36#8 h1
    (by rw [ok.blk]; omega) (by simp)
  have hi := pad_len (key := skPrf) (n := P.n) (blk := c.blk) 0x36#8 h1 (by rw [ok.blk]; omega)
  rw [hkey] at e1 hi
  generalize hip : (key ++ List.replicate (c.blk - P.n) 0#8).map (· ^^^ 0x36#8) = ipad at e1 hi
  have hul : ((uninit (g 27) (c.blk + c.hb)).drop c.blk).length = c.hb := by simp
  generalize (uninit (g 27) (c.blk + c.hb)).drop c.blk = u at e1 hul
  obtain ⟨s1, f1, i1⟩ := inc_init_spec ok (st := uninit (g 28) (8 + c.hb)) (by simp [ok.hb]; omega)
  obtain ⟨s2, f2, i2⟩ := inc_blocks_spec ok i1 (nb := 1) (inp := ipad ++ u)
    (by rw [List.length_append, hi, ok.blk]; omega) (by simp; omega)
  rw [Nat.one_mul, ← ok.blk, List.take_left' hi, List.nil_append] at i2
  have e2 : (rd optrand 0 P.n >>= fun x => wr (ipad ++ u) 0 x) = .ok (opt ++ (ipad.drop P.n ++ u)) := by
    rw [rd_ok (by omega), ok_bind, List.drop_zero, hopt, wr_app0 (by rw [List.length_append, hi, ok.blk]; omega), ho,
      List.drop_append, show P.n - ipad.length = 0 by rw [hi, ok.blk]; omega]
    rfl
  have hidl : (ipad.drop P.n).length = c.blk - P.n := by simp [hi]
  -- the inner hash, stored behind the first block
  have key1 : ∃ st' b0, b0.length = c.blk ∧ (if P.n + m.length < c.blk then do
      let buf ← wr (opt ++ (ipad.drop P.n ++ u)) P.n (← rd m 0 m.length)
      withSub buf c.blk (fun out => Sha2.inc_finalize c g out s2 buf (m.length + P.n))
    else do
      let buf ← wr (opt ++ (ipad.drop P.n ++ u)) P.n (← rd m 0 (c.blk - P.n))
      let state ← Sha2.inc_blocks c s2 buf 1
      let m' ← sub m (c.blk - P.n)
      let mlen := m.length - (c.blk - P.n)
      withSub buf c.blk (fun out => Sha2.inc_finalize c g out state m' mlen) : C (Bytes × Bytes)) =
      .ok (b0 ++ Sha2.hash A (ipad ++ (opt ++ m)), st') := by
    by_cases hlt : P.n + m.length < c.blk
    · rw [if_pos hlt, rd_all rfl, ok_bind, wr_app (by omega) (by rw [List.length_append]; omega), ok_bind,
        List.drop_append, show m.length - (ipad.drop P.n).length = 0 by omega, List.drop_zero, ← List.append_assoc]
      have hb0 : (opt ++ m ++ (ipad.drop P.n).drop m.length).length = c.blk := by
        rw [List.length_append, List.length_append, List.length_drop, hidl]; omega
      obtain ⟨s3, f3⟩ := inc_finalize_spec ok g i2 (inp := opt ++ m ++ (ipad.drop P.n).drop m.length ++ u)
        (inlen := m.length + P.n) (out := u)
        (by rw [List.length_append, hb0]; omega) (by rw [hul, ok.hb]; exact Nat.le_refl _)
        (by rw [hi]; rw [ok.blk]; omega)
      refine ⟨s3, _, hb0, ?_⟩
      rw [withSub_ok (d := Sha2.hash A (ipad ++ (opt ++ m))) (x := s3) (by rw [List.length_append, hb0]; omega) (by
        rw [List.drop_left' hb0, f3, List.drop_of_length_le (l := u) (by rw [hul, ok.hb]; exact Nat.le_refl _), List.append_nil, List.append_assoc,
          List.take_left' (by rw [List.length_append]; omega)]), List.take_left' hb0]
    · rw [if_neg hlt, rd_ok (by omega), ok_bind, List.drop_zero,
        wr_app (by omega) (by simp only [List.length_append, List.length_take]; omega), ok_bind,
        List.length_take, Nat.min_eq_left (by omega), List.drop_left' hidl]
      have hb0 : (opt ++ m.take (c.blk - P.n)).length = c.blk := by
        rw [List.length_append, List.length_take, ok.blk] at *; omega
      obtain ⟨s3, f3, i3⟩ := inc_blocks_spec ok i2 (nb := 1) (inp := opt ++ m.take (c.blk - P.n) ++ u)
        (by rw [List.length_append, hb0, ok.blk]; omega) (by rw [hi, ok.blk]; omega)
      rw [Nat.one_mul, ← ok.blk, List.take_left' hb0] at i3
      obtain ⟨s4, f4⟩ := inc_finalize_spec ok g i3 (inp := m.drop (c.blk - P.n))
        (inlen := m.length - (c.blk - P.n)) (out := u) (by simp) (by rw [hul, ok.hb]; exact Nat.le_refl _)
        (by rw [List.length_append, hi, hb0]; rw [ok.blk]; omega)
      refine ⟨s4, _, hb0, ?_⟩
      rw [f3, ok_bind, sub_ok (by omega), ok_bind]
      simp only []
      rw [withSub_ok (d := Sha2.hash A (ipad ++ (opt ++ m))) (x := s4) (by rw [List.length_append, hb0]; omega) (by
        rw [List.drop_left' hb0, f4, List.drop_of_length_le (l := u) (by rw [hul, ok.hb]; exact Nat.le_refl _), List.append_nil,
          List.take_of_length_le (l := m.drop _) (by simp), List.append_assoc, List.append_assoc,
          List.take_append_drop]), List.take_left' hb0]
  obtain ⟨s3, b0, hb0, e3⟩ := key1
  -- outer hash
  have e4 := key_pad (key := skPrf) (buf := b0 ++ Sha2.hash A (ipad ++ (opt ++ m))) (n := P.n) (blk := c.blk) 0x5c#8 h1
    (by rw [ok.blk]; omega) (by simp; omega)
  have hol := pad_len (key := skPrf) (n := P.n) (blk := c.blk) 0x5c#8 h1 (by rw [ok.blk]; omega)
  rw [hkey, List.drop_left' hb0] at e4
  rw [hkey] at hol
  generalize hop : (key ++ List.replicate (c.blk - P.n) 0#8).map (· ^^^ 0x5c#8) = opad at e4 hol
  have e5 := sha_spec ok g (inp := opad ++ Sha2.hash A (ipad ++ (opt ++ m)))
    (out := opad ++ Sha2.hash A (ipad ++ (opt ++ m))) (inlen := c.blk + c.hb)
    (by rw [List.length_append, hol, hash_length, hout, ok.hb]; omega)
    (by rw [List.length_append, hol, ok.blk]; omega) (by rw [ok.blk, ok.hb]; omega)
  rw [List.take_of_length_le (l := opad ++ _) (by rw [List.length_append, hol, hash_length, hout, ok.hb]; omega)] at e5
  have hH : hmac A key (opt ++ m) = Sha2.hash A (opad ++ Sha2.hash A (ipad ++ (opt ++ m))) := by
    unfold hmac
    simp only [hk]
    rw [← hip, ← hop, ok.blk]; rfl
  have hcalc : Sha2.gen_message_random_X P g c skPrf optrand m ctx = (do
      let buf ← (do
        let buf ← forRange P.n (fun i b => do wr1 b i (0x36#8 ^^^ (← rd1 skPrf i))) (uninit (g 27) (c.blk + c.hb))
        wr buf P.n (List.replicate (c.blk - P.n) 0x36#8))
      let state ← Sha2.inc_init c (uninit (g 28) (8 + c.hb))
      let state ← Sha2.inc_blocks c state buf 1
      let buf ← (rd optrand 0 P.n >>= fun x => wr buf 0 x)
      let (buf, _) ← (if P.n + m.length < c.blk then do
          let buf ← wr buf P.n (← rd m 0 m.length)
          withSub buf c.blk (fun out => Sha2.inc_finalize c g out state buf (m.length + P.n))
        else do
          let buf ← wr buf P.n (← rd m 0 (c.blk - P.n))
          let state ← Sha2.inc_blocks c state buf 1
          let m' ← sub m (c.blk - P.n)
          let mlen := m.length - (c.blk - P.n)
          withSub buf c.blk (fun out => Sha2.inc_finalize c g out state m' mlen) : C (Bytes × Bytes))
      let buf ← (do
        let buf ← forRange P.n (fun i b => do wr1 b i (0x5c#8 ^^^ (← rd1 skPrf i))) buf
        wr buf P.n (List.replicate (c.blk - P.n) 0x5c#8))
      let buf ← Sha2.sha c g buf buf (c.blk + c.hb)
      rd buf 0 P.n) := by
    unfold Sha2.gen_message_random_X
    simp only [bind_assoc]
  rw [hcalc, e1]
  simp only [ok_bind, f1, f2, e2, e3, e4, e5]
  rw [rd_ok (by simp only [List.length_append, hash_length]; omega), List.drop_zero, List.take_append, hash_length,
    show P.n - A.out = 0 by omega, hH]
  simp

theorem inblocks_spec (hn : 1 ≤ P.n) : 3 * P.n ≤ Sha2.INBLOCKS P c * c.blk ∧
    Sha2.INBLOCKS P c * c.blk < 3 * P.n + c.blk := by
  have hpos := ok.wb_pos
  have hblk := ok.blk
  unfold Sha2.INBLOCKS Params.pkBytes
  simp only []
  generalize hx : P.n + 2 * P.n + c.blk - 1 = x
  have h1 := Nat.div_add_mod x c.blk
  have h2 := Nat.mod_lt x (show c.blk > 0 by omega)
  have h3 : x - x % c.blk = c.blk * (x / c.blk) := by omega
  rw [h3, Nat.mul_div_cancel_left _ (by omega), Nat.mul_comm (x / c.blk)]
  omega

theorem hash_message_X_spec (hP : P.Valid) {R pk m : Bytes} (ctx : Ctx) (h1 : P.n ≤ R.length)
    (h2 : 2 * P.n ≤ pk.length) (hn : P.n ≤ A.out) (hm : 4 * A.blk + 3 * P.n + m.length < mx)
    (hd : P.dgstBytes < 2 ^ 32) :
    Sha2.hash_message_X P g c R pk m ctx =
      .ok (splitDigest P.toSpec (mgf1 A (R.take P.n ++ pk.take P.n ++
        Sha2.hash A (R.take P.n ++ pk.take (2 * P.n) ++ m)) P.dgstBytes)) := by
  have hpos := ok.wb_pos
  have hmx := ok.max
  have hout : A.out = 8 * A.wb := rfl
  have hblk : A.blk = 16 * A.wb := rfl
  obtain ⟨hb1, hb2⟩ := inblocks_spec ok hP.n_pos
  have hcb := ok.blk
  have hR : (R.take P.n).length = P.n := by simp; omega
  have hK : (pk.take (2 * P.n)).length = 2 * P.n := by simp; omega
  generalize hRr : R.take P.n = Rr at hR
  generalize hKk : pk.take (2 * P.n) = Kk at hK
  have hpk : P.pkBytes = 2 * P.n := rfl
  generalize hnb : Sha2.INBLOCKS P c = nb at hb1 hb2
  obtain ⟨s1, f1, i1⟩ := inc_init_spec ok (st := uninit (g 31) (8 + c.hb)) (by simp [ok.hb]; omega)
  have e1 : (rd R 0 P.n >>= fun x => wr (uninit (g 30) (nb * c.blk)) 0 x) =
      .ok (Rr ++ (uninit (g 30) (nb * c.blk)).drop P.n) := by
    rw [rd_ok (by omega), ok_bind, List.drop_zero, hRr, wr_app0 (by simp; omega), hR]
  have e2 : (rd pk 0 (2 * P.n) >>= fun x => wr (Rr ++ (uninit (g 30) (nb * c.blk)).drop P.n) P.n x) =
      .ok (Rr ++ Kk ++ (uninit (g 30) (nb * c.blk)).drop (3 * P.n)) := by
    rw [rd_ok (by omega), ok_bind, List.drop_zero, hKk, wr_app hR.symm (by simp; omega), hK, List.drop_drop,
      show P.n + 2 * P.n = 3 * P.n by omega]
  have hul : ((uninit (g 30) (nb * c.blk)).drop (3 * P.n)).length = nb * c.blk - 3 * P.n := by simp
  generalize (uninit (g 30) (nb * c.blk)).drop (3 * P.n) = u at e2 hul
  have hpre : (Rr ++ Kk).length = P.n + 2 * P.n := by simp; omega
  have hsl : (uninit (g 29) (2 * P.n + c.hb)).length = 2 * P.n + c.hb := by simp
  generalize hsd : uninit (g 29) (2 * P.n + c.hb) = seed at hsl
  have hdl : (seed.drop (2 * P.n)).length = c.hb := by simp [hsl]
  have htl : (seed.take (2 * P.n)).length = 2 * P.n := by simp [hsl]
  -- the message hash, stored behind the first 2n bytes
  have key1 : ∃ st', (if P.n + 2 * P.n + m.length < nb * c.blk then do
      let inbuf ← wr (Rr ++ Kk ++ u) (P.n + 2 * P.n) (← rd m 0 m.length)
      withSub seed (2 * P.n) (fun out => Sha2.inc_finalize c g out s1 inbuf (P.n + 2 * P.n + m.length))
    else do
      let inbuf ← wr (Rr ++ Kk ++ u) (P.n + 2 * P.n) (← rd m 0 (nb * c.blk - P.n - 2 * P.n))
      let state ← Sha2.inc_blocks c s1 inbuf nb
      let m' ← sub m (nb * c.blk - P.n - 2 * P.n)
      let mlen := m.length - (nb * c.blk - P.n - 2 * P.n)
      withSub seed (2 * P.n) (fun out => Sha2.inc_finalize c g out state m' mlen) : C (Bytes × Bytes)) =
      .ok (seed.take (2 * P.n) ++ Sha2.hash A (Rr ++ Kk ++ m), st') := by
    by_cases hlt : P.n + 2 * P.n + m.length < nb * c.blk
    · rw [if_pos hlt, rd_all rfl, ok_bind, wr_app (by omega) (by omega), ok_bind]
      obtain ⟨s3, f3⟩ := inc_finalize_spec ok g i1 (inp := Rr ++ Kk ++ m ++ u.drop m.length)
        (inlen := P.n + 2 * P.n + m.length) (out := seed.drop (2 * P.n))
        (by rw [List.length_append, List.length_append, hpre]; omega) (by rw [hdl, ok.hb]; exact Nat.le_refl _)
        (by simp; omega)
      refine ⟨s3, ?_⟩
      rw [withSub_ok (d := Sha2.hash A (Rr ++ Kk ++ m)) (x := s3) (by omega) (by
        rw [f3, List.drop_of_length_le (l := seed.drop _) (by rw [hdl, ok.hb]; exact Nat.le_refl _),
          List.append_nil, List.nil_append, List.take_left' (by rw [List.length_append, hpre])])]
    · rw [if_neg hlt, rd_ok (by omega), ok_bind, List.drop_zero,
        wr_app (by omega) (by rw [List.length_take]; omega), ok_bind,
        List.drop_of_length_le (l := u) (by rw [List.length_take]; omega), List.append_nil]
      have hb0 : (Rr ++ Kk ++ m.take (nb * c.blk - P.n - 2 * P.n)).length = nb * (16 * A.wb) := by
        rw [List.length_append, List.length_take, hpre, ← hcb]; omega
      obtain ⟨s3, f3, i3⟩ := inc_blocks_spec ok i1 (nb := nb) (inp := Rr ++ Kk ++ m.take (nb * c.blk - P.n - 2 * P.n))
        (by rw [hb0]; exact Nat.le_refl _) (by rw [← hcb]; simp; omega)
      rw [List.take_of_length_le (l := Rr ++ Kk ++ _) (by rw [hb0]; exact Nat.le_refl _), List.nil_append] at i3
      obtain ⟨s4, f4⟩ := inc_finalize_spec ok g i3 (inp := m.drop (nb * c.blk - P.n - 2 * P.n))
        (inlen := m.length - (nb * c.blk - P.n - 2 * P.n)) (out := seed.drop (2 * P.n)) (by simp)
        (by rw [hdl, ok.hb]; exact Nat.le_refl _)
        (by rw [hb0, ← hcb]; omega)
      refine ⟨s4, ?_⟩
      rw [f3, ok_bind, sub_ok (by omega), ok_bind]
      simp only []
      rw [withSub_ok (d := Sha2.hash A (Rr ++ Kk ++ m)) (x := s4) (by omega) (by
        rw [f4, List.drop_of_length_le (l := seed.drop _) (by rw [hdl, ok.hb]; exact Nat.le_refl _), List.append_nil,
          List.take_of_length_le (l := m.drop _) (by simp), List.append_assoc (Rr ++ Kk), List.take_append_drop])]
  obtain ⟨s3, e3⟩ := key1
  have e4 : (rd R 0 P.n >>= fun x => wr (seed.take (2 * P.n) ++ Sha2.hash A (Rr ++ Kk ++ m)) 0 x) =
      .ok (Rr ++ ((seed.take (2 * P.n)).drop P.n ++ Sha2.hash A (Rr ++ Kk ++ m))) := by
    rw [rd_ok (by omega), ok_bind, List.drop_zero, hRr, wr_app0 (by rw [List.length_append]; omega), hR,
      List.drop_append, show P.n - (seed.take (2 * P.n)).length = 0 by omega, List.drop_zero]
  have hpkl : (pk.take P.n).length = P.n := by simp; omega
  have e5 : (rd pk 0 P.n >>= fun x =>
      wr (Rr ++ ((seed.take (2 * P.n)).drop P.n ++ Sha2.hash A (Rr ++ Kk ++ m))) P.n x) =
      .ok (Rr ++ pk.take P.n ++ Sha2.hash A (Rr ++ Kk ++ m)) := by
    rw [rd_ok (by omega), ok_bind, List.drop_zero, wr_app hR.symm (by rw [List.length_append, List.length_drop]; omega),
      List.drop_left' (by rw [List.length_drop]; omega)]
  have hfin : (Rr ++ pk.take P.n ++ Sha2.hash A (Rr ++ Kk ++ m)).length = 2 * P.n + c.hb := by
    rw [List.length_append, List.length_append, hash_length, ok.hb]; omega
  have e6 := mgf1_spec ok g (inp := Rr ++ pk.take P.n ++ Sha2.hash A (Rr ++ Kk ++ m)) (inlen := 2 * P.n + c.hb)
    (out := uninit (g 32) P.dgstBytes) (outlen := P.dgstBytes) (by omega) (by simp) (by rw [ok.hb]; omega) hd
  rw [List.take_of_length_le (l := Rr ++ _ ++ _) (by omega),
    List.drop_of_length_le (l := uninit (g 32) _) (by simp), List.append_nil] at e6
  have hcalc : Sha2.hash_message_X P g c R pk m ctx = (do
      let state ← Sha2.inc_init c (uninit (g 31) (8 + c.hb))
      let inbuf ← (rd R 0 P.n >>= fun x => wr (uninit (g 30) (Sha2.INBLOCKS P c * c.blk)) 0 x)
      let inbuf ← (rd pk 0 (2 * P.n) >>= fun x => wr inbuf P.n x)
      let (seed, _) ← (if P.n + 2 * P.n + m.length < Sha2.INBLOCKS P c * c.blk then do
          let inbuf ← wr inbuf (P.n + 2 * P.n) (← rd m 0 m.length)
          withSub (uninit (g 29) (2 * P.n + c.hb)) (2 * P.n)
            (fun out => Sha2.inc_finalize c g out state inbuf (P.n + 2 * P.n + m.length))
        else do
          let inbuf ← wr inbuf (P.n + 2 * P.n) (← rd m 0 (Sha2.INBLOCKS P c * c.blk - P.n - 2 * P.n))
          let state ← Sha2.inc_blocks c state inbuf (Sha2.INBLOCKS P c)
          let m' ← sub m (Sha2.INBLOCKS P c * c.blk - P.n - 2 * P.n)
          let mlen := m.length - (Sha2.INBLOCKS P c * c.blk - P.n - 2 * P.n)
          withSub (uninit (g 29) (2 * P.n + c.hb)) (2 * P.n)
            (fun out => Sha2.inc_finalize c g out state m' mlen) : C (Bytes × Bytes))
      let seed ← (rd R 0 P.n >>= fun x => wr seed 0 x)
      let seed ← (rd pk 0 P.n >>= fun x => wr seed P.n x)
      let buf ← Sha2.mgf1 c g (uninit (g 32) P.dgstBytes) P.dgstBytes seed (2 * P.n + c.hb)
      hash_message_split P buf) := by
    unfold Sha2.hash_message_X
    simp only [bind_assoc]
    rfl
  rw [hcalc]
  simp only [hsd, hnb, ok_bind, f1, e1, e2, e3, e4, e5, e6]
  exact hash_message_split_spec hP (mgf1_length _ _ hpos)

end

theorem dgst_lt (hP : P.Valid) : P.dgstBytes < 2 ^ 32 := by
  have h1 : P.forsHeight * P.forsTrees ≤ 2 ^ 32 := by
    refine Nat.le_trans ?_ hP.fors_idx
    rw [Nat.mul_comm]
    exact Nat.mul_le_mul_left _ (Nat.le_of_lt Nat.lt_two_pow_self)
  have h2 := hP.tree_bits
  have h3 := hP.th_le
  unfold Params.dgstBytes Params.forsMsgBytes Params.treeBytes Params.leafBytes Params.leafBits
  omega

theorem seed_state_spec {ctx : Ctx} (hp : ctx.pub_seed.length = P.n) (hn : P.n ≤ 32)
    (h1 : ctx.state_seeded.length = 40) (h2 : ctx.state_seeded_512.length = 72) :
    ∃ ctx', Sha2.seed_state P g ctx = .ok ctx' ∧ ctx'.pub_seed = ctx.pub_seed ∧ ctx'.sk_seed = ctx.sk_seed ∧
      ShaInc alg256 ctx'.state_seeded (blockPad alg256 ctx.pub_seed) ∧
      (P.sha512 = true → ShaInc alg512 ctx'.state_seeded_512 (blockPad alg512 ctx.pub_seed)) := by
  obtain ⟨s1, s2, e1, e2, i1⟩ := seed_block cfg256_ok (st := ctx.state_seeded) (pub := ctx.pub_seed) h1
    (by decide) (by show _ ≤ 64; omega)
  obtain ⟨t1, t2, f1, f2, i2⟩ := seed_block cfg512_ok (st := ctx.state_seeded_512) (pub := ctx.pub_seed) h2
    (by decide) (by show _ ≤ 128; omega)
  have e0 : forRange P.n (fun i b => do wr1 b i (← rd1 ctx.pub_seed i)) (uninit (g 24) 128) =
      .ok (ctx.pub_seed ++ (uninit (g 24) 128).drop P.n) := by
    rw [copy_loop _ _ _ (by omega) (by simp; omega), List.take_of_length_le (by omega)]
  have e0' : forRange (128 - P.n) (fun j b => wr1 b (P.n + j) 0#8) (ctx.pub_seed ++ (uninit (g 24) 128).drop P.n) =
      .ok (ctx.pub_seed ++ List.replicate (128 - ctx.pub_seed.length) 0#8) := by
    rw [fill_at (f := fun _ => 0#8) hp.symm (by simp), List.drop_of_length_le (by simp), List.append_nil,
      List.map_const', List.length_range, hp]
  cases hs : P.sha512
  · refine ⟨{ ctx with state_seeded := s2 }, ?_, rfl, rfl, i1, by simp⟩
    unfold Sha2.seed_state
    simp only [e0, e0', ok_bind, e1, e2, hs, Bool.false_eq_true, if_false]
  · refine ⟨{ ctx with state_seeded := s2, state_seeded_512 := t2 }, ?_, rfl, rfl, i1, fun _ => i2⟩
    unfold Sha2.seed_state
    simp only [e0, e0', ok_bind, e1, e2, f1, f2, hs, if_true]

theorem Sha2.prf_addr_spec {ctx : Ctx} (hi : ShaInc alg256 ctx.state_seeded (blockPad alg256 ctx.pub_seed))
    (hp : ctx.pub_seed.length = P.n) (hs : ctx.sk_seed.length = P.n) (hn : P.n ≤ 32) {ad : Addr}
    (ha : ad.length = 32) :
    Sha2.prf_addr P g ctx ad =
      .ok ((sha256 (blockPad alg256 ctx.pub_seed ++ ad.take 22 ++ ctx.sk_seed)).take P.n) := by
  have hsl : ctx.state_seeded.length = 40 := hi.length
  have hbp : (blockPad alg256 ctx.pub_seed).length = 64 := by
    simp only [blockPad, List.length_append, List.length_replicate]
    show _ + (64 - _) = _
    omega
  have hl : (ad.take 22 ++ ctx.sk_seed).length = 22 + P.n := by simp; omega
  obtain ⟨s2, e2⟩ := inc_finalize_spec cfg256_ok g hi (inp := ad.take 22 ++ ctx.sk_seed)
    (inlen := 22 + P.n) (out := uninit (g 26) 32) (by omega) (by simp) (by omega)
  rw [List.take_of_length_le (l := ad.take 22 ++ _) (by omega),
    List.drop_of_length_le (l := uninit (g 26) 32) (by simp), List.append_nil] at e2
  unfold Sha2.prf_addr SPX_SHA256_ADDR_BYTES
  simp only []
  rw [rd_all hsl, ok_bind, rd_ok (by omega), ok_bind, List.drop_zero, wr_app0 (by simp; omega), ok_bind,
    rd_all hs, ok_bind, wr_app (by simp; omega) (by simp; omega), ok_bind,
    List.drop_of_length_le (l := List.drop _ _) (by simp; omega), List.append_nil, e2, ok_bind]
  simp only []
  rw [rd_hash _ (by show _ ≤ 32; omega), List.append_assoc]
  rfl

theorem take_hash_len {A : Alg} (m : Bytes) (hn : P.n ≤ A.out) : ((Sha2.hash A m).take P.n).length = P.n := by
  rw [List.length_take, hash_length, Nat.min_eq_left hn]

theorem Sha2.thash_value (hP : P.Valid) (hf : P.fam = .sha2) (hn : P.n ≤ 32) (hs : P.sha512 = decide (24 ≤ P.n)) {ctx : Ctx}
    (h1 : ctx.pub_seed.length = P.n) (h3 : ShaInc alg256 ctx.state_seeded (blockPad alg256 ctx.pub_seed))
    (h4 : P.sha512 = true → ShaInc alg512 ctx.state_seeded_512 (blockPad alg512 ctx.pub_seed)) {ad : Addr} {a : ADRS}
    (he : Encodes P.fam ad a) {inp : Bytes} {blocks : Nat} (hb1 : 1 ≤ blocks) (hb : blocks * P.n ≤ inp.length)
    (hb31 : blocks * P.n < 2 ^ 31) :
    (Sha2.impl P g).thash inp blocks ctx ad =
      .ok ((sha2Hash P.n P.robust).T ctx.pub_seed a (inp.take (blocks * P.n))) := by
  have hl := he.1
  have ht := he.take hf
  have hxl : (inp.take (blocks * P.n)).length = blocks * P.n := by simp; omega
  have hn1 := hP.n_pos
  have hgt : (24 ≤ P.n ∧ P.n < blocks * P.n) ↔ (P.sha512 = true ∧ blocks > 1) := by
    rw [hs, decide_eq_true_iff]
    refine and_congr_right fun _ => ⟨fun h => ?_, fun h => ?_⟩
    · apply Classical.byContradiction
      intro h'
      have : blocks = 1 := by omega
      subst this; omega
    · have := Nat.mul_le_mul_right P.n (show 2 ≤ blocks from h)
      omega
  have hb256 : ctx.pub_seed.length ≤ alg256.blk := by show _ ≤ 64; omega
  have hb512 : ctx.pub_seed.length ≤ alg512.blk := by show _ ≤ 128; omega
  have ho256 : P.n ≤ alg256.out := hn
  have ho512 : P.n ≤ alg512.out := by show _ ≤ 64; omega
  simp only [Sha2.impl, sha2Hash, sha2T, hxl, hgt]
  cases hr : P.robust
  · simp only [Bool.false_eq_true, if_false, Sha2.thash_simple]
    by_cases hbig : P.sha512 = true ∧ blocks > 1
    · rw [if_pos hbig, if_pos hbig, thash_simple_X_spec g cfg512_ok (h4 hbig.1) hb512 ho512 hl hb
        (by show 128 + _ + _ < _; omega), ht]
    · rw [if_neg hbig, if_neg hbig, thash_simple_X_spec g cfg256_ok h3 hb256 ho256 hl hb
        (by show 64 + _ + _ < _; omega), ht]
  · simp only [if_true, Sha2.thash_robust]
    by_cases hbig : P.sha512 = true ∧ blocks > 1
    · rw [if_pos hbig, if_pos hbig, thash_robust_X_spec g cfg512_ok (h4 hbig.1) h1 ho512 (by decide) hl hb
        (by show 128 + _ + _ < _; omega) (by omega), ht]
    · rw [if_neg hbig, if_neg hbig, thash_robust_X_spec g cfg256_ok h3 h1 ho256 (by decide) hl hb
        (by show 64 + _ + _ < _; omega) (by omega), ht]

theorem Sha2.prf_value (hf : P.fam = .sha2) (hn : P.n ≤ 32) {ctx : Ctx} (h1 : ctx.pub_seed.length = P.n)
    (h2 : ctx.sk_seed.length = P.n) (h3 : ShaInc alg256 ctx.state_seeded (blockPad alg256 ctx.pub_seed)) {ad : Addr}
    {a : ADRS} (he : Encodes P.fam ad a) :
    (Sha2.impl P g).prf_addr ctx ad = .ok ((sha2Hash P.n P.robust).PRF ctx.pub_seed ctx.sk_seed a) := by
  simp only [Sha2.impl, sha2Hash]
  rw [Sha2.prf_addr_spec g h3 h1 h2 hn he.1, he.take hf]

/-- The SHA-2 files of the reference code implement the SHA-2 instantiation of the specification. -/
def sha2Refines (hP : P.Valid) (hf : P.fam = .sha2) (hn : P.n ≤ 32) (hs : P.sha512 = decide (24 ≤ P.n)) :
    Refines P (Sha2.impl P g) (sha2Hash P.n P.robust) where
  CtxOK ctx := ctx.pub_seed.length = P.n ∧ ctx.sk_seed.length = P.n ∧
    ShaInc alg256 ctx.state_seeded (blockPad alg256 ctx.pub_seed) ∧
    (P.sha512 = true → ShaInc alg512 ctx.state_seeded_512 (blockPad alg512 ctx.pub_seed))
  T_len pub a x := by
    simp only [sha2Hash, sha2T]
    split <;> exact take_hash_len _ (by simp [Alg.out]; omega)
  PRF_len _ _ _ := take_hash_len _ (by simp [Alg.out]; omega)
  PRFmsg_len _ _ _ _ := by
    simp only [sha2Hash, hmac]
    split <;> exact take_hash_len _ (by simp [Alg.out]; omega)
  Hmsg_len _ _ _ _ _ := by
    simp only [sha2Hash]
    split <;> exact mgf1_length _ _ (by decide)
  init ctx h1 h2 h3 h4 _ _ _ := by
    obtain ⟨ctx', e, hp, hk, i1, i2⟩ := seed_state_spec (P := P) g h1 hn h3 h4
    exact ⟨ctx', e, ⟨by rw [hp, h1], by rw [hk, h2], by rw [hp]; exact i1, by rw [hp]; exact i2⟩, hp, hk⟩
  thash _ a _ _ hc _ hb1 hb hb31 :=
    Sha2.thash_value g hP hf hn hs hc.1 hc.2.2.1 hc.2.2.2 (encodes_enc P.fam a) hb1 hb hb31
  prf _ a hc _ := Sha2.prf_value g hf hn hc.1 hc.2.1 hc.2.2.1 (encodes_enc P.fam a)
  genR ctx skPrf optrand m _ h1 h2 hm := by
    simp only [Sha2.impl, sha2Hash, Sha2.gen_message_random]
    by_cases h : 24 ≤ P.n
    · rw [if_pos h, if_pos h, gen_message_random_X_spec g cfg512_ok ctx h1 h2 (by show _ ≤ 64; omega)
        (by show 2 * 128 + _ + _ < _; omega)]
    · rw [if_neg h, if_neg h, gen_message_random_X_spec g cfg256_ok ctx h1 h2 (by show _ ≤ 32; omega)
        (by show 2 * 64 + _ + _ < _; omega)]
  hmsg ctx R pk m hc h1 h2 h3 hm := by
    have hd := dgst_lt hP
    simp only [Sha2.impl, sha2Hash, Sha2.hash_message]
    rw [digestBytes_eq, ← h3]
    have ht : pk.take P.n ++ (pk.drop P.n).take P.n = pk.take (2 * P.n) := by rw [Nat.two_mul, List.take_add]
    by_cases h : 24 ≤ P.n
    · rw [if_pos h, if_pos h, hash_message_X_spec g cfg512_ok hP ctx h1 h2 (by show _ ≤ 64; omega)
        (by show 4 * 128 + _ + _ < _; omega) hd, ← ht]
      simp only [List.append_assoc, sha512]
    · rw [if_neg h, if_neg h, hash_message_X_spec g cfg256_ok hP ctx h1 h2 (by show _ ≤ 32; omega)
        (by show 4 * 64 + _ + _ < _; omega) hd, ← ht]
      simp only [List.append_assoc, sha256]

end
end Spx
