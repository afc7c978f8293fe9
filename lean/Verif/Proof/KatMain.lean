import Verif.Proof.KatRng
import Verif.Proof.ShippedSign
/-! The known-answer program. -/

namespace Spx.Kat
open Spec Spec.Rng Spec.Kat Rng Mem

/-! ## The request file read back -/

theorem afterFirst_skip {k0 : Byte} {k pre : Bytes} (h : k0 ∉ pre) (s : Bytes) :
    afterFirst (k0 :: k) (pre ++ s) = afterFirst (k0 :: k) s := by
  induction pre with
  | nil => rfl
  | cons c pre ih =>
    rw [List.cons_append, afterFirst, if_neg, ih fun hm => h (List.mem_cons_of_mem _ hm)]
    intro hp
    obtain ⟨hc, -⟩ := List.cons_prefix_cons.1 hp
    exact h (hc ▸ List.mem_cons_self ..)

theorem afterFirst_here (k0 : Byte) (k s : Bytes) : afterFirst (k0 :: k) (k0 :: k ++ s) = some s := by
  rw [List.cons_append, afterFirst, if_pos]
  · simp
  · rw [← List.cons_append]; exact List.prefix_append _ _

/-- A marker is found behind a text without its first character. -/
theorem find_here (g : Nat → Byte) {k0 : Byte} {k pre : Bytes} (hpre : k0 ∉ pre) (s : Bytes) (hk : (k0 :: k).length ≤ 49)
    (h0 : 0#8 ∉ k0 :: k) : FindMarker g (pre ++ (k0 :: k ++ s)) (k0 :: k) = .ok (1, s) := by
  rw [FindMarker_ok g _ h0, List.take_of_length_le hk, afterFirst_skip hpre, afterFirst_here]

theorem find_none (g : Nat → Byte) {k0 : Byte} {k pre : Bytes} (hpre : k0 ∉ pre) (hk : (k0 :: k).length ≤ 49)
    (h0 : 0#8 ∉ k0 :: k) : FindMarker g pre (k0 :: k) = .ok (0, []) := by
  rw [FindMarker_ok g _ h0, List.take_of_length_le hk]
  have := afterFirst_skip (k := k) hpre []
  rw [List.append_nil] at this
  rw [this]
  rfl

/-- A printed field is read back. -/
theorem read_here (g : Nat → Byte) {k0 : Byte} {k pre : Bytes} (hpre : k0 ∉ pre) {b : Bytes} {L : Nat} (hb : b.length = L)
    (h0L : 0 < L) (hlt : L < 2 ^ 64) (s : Bytes) (hk : (k0 :: k).length ≤ 49) (h0 : 0#8 ∉ k0 :: k) {A : Bytes}
    (hA : A.length = L) :
    ReadHex g (pre ++ (k0 :: k ++ (b.flatMap pct_02X ++ 10#8 :: s))) A L (k0 :: k) = .ok (1, b, s) := by
  have hne : b ≠ [] := by intro h; rw [h] at hb; simp at hb; omega
  rw [ReadHex_ok g _ (Nat.le_of_eq hA.symm) h0L hlt h0, List.take_of_length_le hk, afterFirst_skip hpre, afterFirst_here]
  simp only
  rw [hexField_print hne (by decide), (hexNat_print b).2, List.drop_of_length_le (by omega), List.append_nil, ← hb,
    toBE_beNat]

/-! ## Memory -/

theorem calloc_same (M : Mem) (p n : Nat) : SameOutside M (calloc M p n) p n := fun a h => by
  show (if p ≤ a ∧ a < p + n then some 0#8 else M a) = _
  rw [if_neg h]

theorem free_same (M : Mem) (p n : Nat) : SameOutside M (free M p n) p n := fun a h => by
  show (if p ≤ a ∧ a < p + n then none else M a) = _
  rw [if_neg h]

theorem calloc_alloc (M : Mem) (p n : Nat) : (calloc M p n).Alloc p n := fun i h => by
  show ((if p ≤ p + i ∧ p + i < p + n then some 0#8 else M (p + i)) : Option Byte).isSome = true
  rw [if_pos (by omega)]; rfl

theorem alloc_frame {M M' : Mem} {p len q k : Nat} (h : SameOutside M M' p len) (hd : Disj p len q k) (ha : M.Alloc q k) :
    M'.Alloc q k := by
  obtain ⟨d, hr, -⟩ := rd_of_alloc ha
  exact alloc_of_rd ((rd_frame h hd).trans hr)

/-- The arrays and heap objects of record `it` do not overlap. -/
structure LayOK (P : Params) (lay : Layout) (it : Nat) : Prop where
  pk_sk : Disj lay.pk P.pkBytes lay.sk P.skBytes
  m_pk : Disj (lay.m it) (33 * (it + 1)) lay.pk P.pkBytes
  m_sk : Disj (lay.m it) (33 * (it + 1)) lay.sk P.skBytes
  m1_pk : Disj (lay.m1 it) (33 * (it + 1) + P.spxBytes) lay.pk P.pkBytes
  m1_sk : Disj (lay.m1 it) (33 * (it + 1) + P.spxBytes) lay.sk P.skBytes
  sm_pk : Disj (lay.sm it) (33 * (it + 1) + P.spxBytes) lay.pk P.pkBytes
  sm_sk : Disj (lay.sm it) (33 * (it + 1) + P.spxBytes) lay.sk P.skBytes
  m1_m : Disj (lay.m1 it) (33 * (it + 1) + P.spxBytes) (lay.m it) (33 * (it + 1))
  sm_m : Disj (lay.sm it) (33 * (it + 1) + P.spxBytes) (lay.m it) (33 * (it + 1))
  sm_m1 : Disj (lay.sm it) (33 * (it + 1) + P.spxBytes) (lay.m1 it) (33 * (it + 1) + P.spxBytes)

theorem Disj.symm {p k q l : Nat} (h : Disj p k q l) : Disj q l p k := Or.symm h

theorem Disj.shrink {p k q l k' l' : Nat} (h : Disj p k q l) (hk : k' ≤ k) (hl : l' ≤ l) : Disj p k' q l' := by
  unfold Disj at *; omega

/-- What the program needs from the library: the functions of the scheme. -/
structure LibOK (P : Params) (L : Lib) : Prop where
  keypair : ∀ {pk0 sk0 seed : Bytes}, pk0.length = P.pkBytes → sk0.length = P.skBytes → seed.length = P.seedBytes →
    L.keypair pk0 sk0 seed = .ok (pkOf P.toSpec (specHash P) seed, skOf P.toSpec (specHash P) seed, 0)
  sign : ∀ {M : Mem} {psm pm mlen psk : Nat} {sk optrand m : Bytes}, M.rd psk P.skBytes = .ok sk → M.rd pm mlen = .ok m →
    M.Alloc psm (P.spxBytes + mlen) → Disj psm P.n psk P.skBytes → Disj psm P.spxBytes pm mlen → mlen < 2 ^ 60 →
    optrand.length = P.n →
    ∃ M', L.sign M psm pm mlen psk optrand = .ok (M', P.spxBytes + mlen, 0) ∧
      M'.rd psm (P.spxBytes + mlen) = .ok (Spec.sign P.toSpec (specHash P) sk optrand m ++ m) ∧
      M.SameOutside M' psm (P.spxBytes + mlen)
  open' : ∀ {M : Mem} {pm psm smlen ppk : Nat} {sm pk : Bytes}, P.spxBytes ≤ smlen → M.rd psm smlen = .ok sm →
    M.rd ppk P.pkBytes = .ok pk → M.Alloc pm smlen → smlen < 2 ^ 60 →
    verify P.toSpec (specHash P) pk (sm.drop P.spxBytes) (sm.take P.spxBytes) = true →
    ∃ M', L.open' M pm psm smlen ppk = .ok (M', smlen - P.spxBytes, 0) ∧
      M'.rd pm (smlen - P.spxBytes) = .ok (sm.drop P.spxBytes) ∧ M.SameOutside M' pm (smlen - P.spxBytes)

theorem shipped_n {P : Params} (h : P ∈ shipped) : 0 < P.n ∧ P.n ≤ 32 := by
  revert P
  decide

theorem shipped_spx {P : Params} (h : P ∈ shipped) : P.spxBytes < 2 ^ 30 := by
  revert P
  decide +kernel

section
variable {aes : Bytes → Bytes → Bytes} (haes : Cipher aes) {P : Params} (hP : P ∈ shipped)
include haes hP

/-- The part behind the message. -/
theorem crypto_ok {lib : Nat → Lib} {lay : Layout} (g : Nat → Nat → Byte) (fn : Bytes) {st : St} {m : Bytes}
    (hlib : LibOK P (lib st.it)) (hlay : LayOK P lay st.it) (hit : st.it < 100) (hml : st.mlen = 33 * (st.it + 1))
    {seed : Bytes} (hs : seed.length = 48)
    (hctx : st.ctx = ⟨(drbgUpdate aes seed (List.replicate 32 0) 0).1, (drbgUpdate aes seed (List.replicate 32 0) 0).2, 1⟩)
    (hm : st.M.rd (lay.m st.it) st.mlen = .ok m) (hpk : st.M.Alloc lay.pk P.pkBytes) (hsk : st.M.Alloc lay.sk P.skBytes)
    (hm1 : st.M.Alloc (lay.m1 st.it) (st.mlen + P.spxBytes)) (hsm : st.M.Alloc (lay.sm st.it) (st.mlen + P.spxBytes))
    {r : List Bytes} (hr : r = drbg aes seed [3 * P.n, P.n]) {pk sk sm : Bytes}
    (epk : pk = pkOf P.toSpec (specHash P) (r.getD 0 [])) (esk : sk = skOf P.toSpec (specHash P) (r.getD 0 []))
    (esm : sm = Spec.sign P.toSpec (specHash P) sk (r.getD 1 []) m ++ m) :
    ∃ ctx M, crypto_body aes P lib lay g fn st = .ok (.inl { st with
        it := st.it + 1, ctx, M,
        fs := st.fs.put fn ((asc "pk = " ++ pk.flatMap pct_02X ++ asc "\n") ++ (asc "sk = " ++ sk.flatMap pct_02X ++ asc "\n") ++
          (asc "smlen = " ++ pct_u sm.length ++ asc "\n") ++ (asc "sm = " ++ sm.flatMap pct_02X ++ asc "\n") ++ asc "\n") }) ∧
      ctx.Key.length = 32 ∧ ctx.V.length = 16 ∧ M.Alloc lay.pk P.pkBytes ∧ M.Alloc lay.sk P.skBytes := by
  obtain ⟨hn, hn'⟩ := shipped_n hP
  obtain ⟨hz, hzn⟩ := shipped_sizes hP
  have hl := hlay
  obtain ⟨q1, q2, q3, q4, q5, q6, q7, q8, q9, q10⟩ := hl
  have hsb : P.seedBytes = 3 * P.n := rfl
  have hpb : P.pkBytes = 2 * P.n := rfl
  have hskb : P.skBytes = 2 * P.n + P.pkBytes := rfl
  rw [← hml] at q2 q3 q4 q5 q6 q7 q8 q9 q10
  -- the generator
  obtain ⟨k1, k2⟩ := drbgUpdate_len haes hs (List.length_replicate (n := 32) (a := 0#8)) 0
  generalize hK : drbgUpdate aes seed (List.replicate 32 0) 0 = kv at *
  obtain ⟨r1, l1, l2, l3⟩ := rb_ok haes (g 3) (ctx := ⟨kv.1, kv.2, 1⟩) k1 k2 (by show (1 : Int) + 1 < 2 ^ 31; decide)
    (x := uninit (g 4) P.seedBytes) (len := P.seedBytes) (by rw [uninit_length]) (by omega)
  rw [List.drop_of_length_le (by rw [uninit_length]), List.append_nil] at r1
  simp only at r1 l1 l2 l3
  have e0 : r.getD 0 [] = (drbgGenerate aes kv.1 (beNat kv.2) P.seedBytes).1 := by
    rw [hr]; unfold drbg; rw [hK]; rfl
  have e1 : r.getD 1 [] = (drbgGenerate aes (drbgGenerate aes kv.1 (beNat kv.2) P.seedBytes).2.1
      (beNat (drbgGenerate aes kv.1 (beNat kv.2) P.seedBytes).2.2) P.n).1 := by
    rw [hr]; unfold drbg; rw [hK]; rfl
  generalize drbgGenerate aes kv.1 (beNat kv.2) P.seedBytes = t1 at *
  obtain ⟨r2, l4, l5, l6⟩ := rb_ok haes (g 5) (ctx := ⟨t1.2.1, t1.2.2, 1 + 1⟩) l2 l3 (by show (1 : Int) + 1 + 1 < 2 ^ 31; decide)
    (x := uninit (g 6) P.n) (len := P.n) (by rw [uninit_length]) (by omega)
  rw [List.drop_of_length_le (by rw [uninit_length]), List.append_nil] at r2
  simp only at r2 l4 l5 l6
  generalize drbgGenerate aes t1.2.1 (beNat t1.2.2) P.n = t2 at *
  rw [e0] at epk esk
  rw [e1] at esm
  have lpk : pk.length = P.pkBytes := by rw [epk]; exact ship_pkOf_len hP l1
  have lsk : sk.length = P.skBytes := by rw [esk]; exact ship_skOf_len hP l1
  have lm := rd_length hm
  have lsm : sm.length = P.spxBytes + st.mlen := by rw [esm, List.length_append, ship_sign_len hP, lm]
  -- the keys
  obtain ⟨pk0, rp, lp⟩ := rd_of_alloc hpk
  obtain ⟨sk0, rs, ls⟩ := rd_of_alloc hsk
  have hkp := hlib.keypair lp ls l1
  rw [← epk, ← esk] at hkp
  obtain ⟨M1, w1, rd1, s1⟩ := wr_of_alloc (M := st.M) (p := lay.pk) (d := pk) (by rw [lpk]; exact hpk)
  rw [lpk] at rd1 s1
  obtain ⟨M2, w2, rd2, s2⟩ := wr_of_alloc (M := M1) (p := lay.sk) (d := sk) (by rw [lsk]; exact alloc_frame s1 q1 hsk)
  rw [lsk] at rd2 s2
  have rpk2 : M2.rd lay.pk P.pkBytes = .ok pk := (rd_frame s2 (Disj.symm q1)).trans rd1
  have rm2 : M2.rd (lay.m st.it) st.mlen = .ok m :=
    (rd_frame s2 (Disj.symm q3)).trans ((rd_frame s1 (Disj.symm q2)).trans hm)
  have am12 := alloc_frame s2 (Disj.symm q5) (alloc_frame s1 (Disj.symm q4) hm1)
  have asm2 := alloc_frame s2 (Disj.symm q7) (alloc_frame s1 (Disj.symm q6) hsm)
  -- the signature
  have hmlt : st.mlen < 2 ^ 30 := by omega
  have hz' := shipped_spx hP
  rw [Nat.add_comm st.mlen] at q4 q5 q6 q7 q8 q9 q10 am12 asm2
  obtain ⟨M3, sg, rd3, s3⟩ := hlib.sign (M := M2) (psm := lay.sm st.it) (pm := lay.m st.it) (mlen := st.mlen) (psk := lay.sk)
    rd2 rm2 asm2 (Disj.shrink q7 (by omega) (Nat.le_refl _))
    (Disj.shrink q9 (by omega) (Nat.le_refl _)) (by omega) l4
  rw [← esm] at rd3
  have rpk3 : M3.rd lay.pk P.pkBytes = .ok pk := (rd_frame s3 q6).trans rpk2
  have rsk3 : M3.rd lay.sk P.skBytes = .ok sk := (rd_frame s3 q7).trans rd2
  have rm3 : M3.rd (lay.m st.it) st.mlen = .ok m := (rd_frame s3 q9).trans rm2
  have am13 := alloc_frame s3 q10 am12
  have d1 : sm.drop P.spxBytes = m := by
    rw [esm, List.drop_append_of_le_length (by rw [ship_sign_len hP]),
      List.drop_of_length_le (by rw [ship_sign_len hP]), List.nil_append]
  have d2 : sm.take P.spxBytes = Spec.sign P.toSpec (specHash P) sk t2.1 m := by
    rw [esm, List.take_append_of_le_length (by rw [ship_sign_len hP]),
      List.take_of_length_le (by rw [ship_sign_len hP])]
  obtain ⟨M4, op, rd4, s4⟩ := hlib.open' (M := M3) (pm := lay.m1 st.it) (psm := lay.sm st.it) (smlen := P.spxBytes + st.mlen)
    (ppk := lay.pk) (by omega) rd3 rpk3 am13 (by omega) (by rw [d1, d2, epk, esk]; exact ship_correct hP l1 _ _)
  rw [d1, Nat.add_sub_cancel_left] at rd4
  rw [Nat.add_sub_cancel_left] at op s4
  have rm4 : M4.rd (lay.m st.it) st.mlen = .ok m := (rd_frame s4 (Disj.shrink q8 (by omega) (Nat.le_refl _))).trans rm3
  have apk4 := alloc_frame s4 (Disj.shrink q4 (by omega) (Nat.le_refl _)) (alloc_of_rd rpk3)
  have ask4 := alloc_frame s4 (Disj.shrink q5 (by omega) (Nat.le_refl _)) (alloc_of_rd rsk3)
  have hmod : (st.mlen + P.spxBytes) % 2 ^ 64 = P.spxBytes + st.mlen := by omega
  refine ⟨⟨t2.2.1, t2.2.2, 1 + 1 + 1⟩, free (free (free M4 (lay.m st.it) st.mlen) (lay.m1 st.it) (P.spxBytes + st.mlen))
    (lay.sm st.it) (P.spxBytes + st.mlen), ?_, l5, l6,
    alloc_frame (free_same _ _ _) q6 (alloc_frame (free_same _ _ _) q4 (alloc_frame (free_same _ _ _) q2 apk4)),
    alloc_frame (free_same _ _ _) q7 (alloc_frame (free_same _ _ _) q5 (alloc_frame (free_same _ _ _) q3 ask4))⟩
  unfold crypto_body
  simp only
  rw [hctx, r1]
  simp only [ok_bind]
  rw [rp]
  simp only [ok_bind]
  rw [rs]
  simp only [ok_bind]
  rw [hkp]
  simp only [ok_bind]
  rw [w1]
  simp only [ok_bind]
  rw [w2]
  simp only [ok_bind, ne_eq, not_true_eq_false, if_false]
  rw [rpk2]
  simp only [ok_bind]
  rw [fprintBstr_ok _ _ _ (Nat.le_of_eq lpk.symm) (by omega)]
  simp only [ok_bind]
  rw [rd2]
  simp only [ok_bind]
  rw [fprintBstr_ok _ _ _ (Nat.le_of_eq lsk.symm) (by omega)]
  simp only [ok_bind]
  rw [r2]
  simp only [ok_bind]
  rw [sg]
  simp only [ok_bind, not_true_eq_false, if_false]
  rw [rd3]
  simp only [ok_bind]
  rw [fprintBstr_ok _ _ _ (Nat.le_of_eq lsm.symm) (by omega)]
  simp only [ok_bind]
  rw [op]
  simp only [ok_bind, not_true_eq_false, if_false]
  rw [rm4, rd4]
  simp only [ok_bind, not_true_eq_false, if_false]
  rw [hmod]
  simp only [put_put, lsm]
  rw [List.take_of_length_le (Nat.le_of_eq lpk), List.take_of_length_le (Nat.le_of_eq lsk),
    List.take_of_length_le (Nat.le_of_eq lsm)]

/-- State of `main` between two records. -/
structure Between (P : Params) (lay : Layout) (st : St) : Prop where
  key : st.ctx.Key.length = 32
  v : st.ctx.V.length = 16
  seed : st.seed.length = 48
  pk : st.M.Alloc lay.pk P.pkBytes
  sk : st.M.Alloc lay.sk P.skBytes

omit haes hP in
theorem mlen_int {n : Nat} (h : n < 2 ^ 31) : (BitVec.ofNat 32 n).toInt = n := by
  rw [BitVec.toInt_eq_toNat_of_lt (by rw [BitVec.toNat_ofNat]; omega), BitVec.toNat_ofNat]
  omega

/-- One record. -/
theorem response_ok {lib : Nat → Lib} {lay : Layout} (g : Nat → Nat → Byte) (fn : Bytes) {st : St}
    (hb : Between P lay st) (hlib : LibOK P (lib st.it)) (hlay : LayOK P lay st.it) (hit : st.it < 100)
    {pre rest : Bytes} (hpre : 99#8 ∉ pre)
    (hreq : st.req = pre ++ (ascii (request st.it (seedOf aes st.it) (msgOf aes st.it)) ++ rest)) :
    ∃ st', response_body aes P lib lay g fn st = .ok (.inl st') ∧ Between P lay st' ∧ st'.it = st.it + 1 ∧
      st'.fs = st.fs.put fn (ascii (responseOf aes P.toSpec (specHash P) st.it)) ∧
      st'.req = asc "pk =\nsk =\nsmlen =\nsm =\n\n" ++ rest := by
  obtain ⟨ls, lm⟩ := seedOf_len haes hit
  have hz' := shipped_spx hP
  generalize hseed : seedOf aes st.it = seed at *
  generalize hmsg : msgOf aes st.it = msg at *
  obtain ⟨h1, h2, h3, h4, h5⟩ := hb
  obtain ⟨q1, q2, q3, q4, q5, q6, q7, q8, q9, q10⟩ := hlay
  rw [ascii_request] at hreq
  generalize ht : asc "pk =\nsk =\nsmlen =\nsm =\n\n" = tl at *
  have hreq : st.req = pre ++ (asc "count = " ++ (pct_u st.it ++ 10#8 :: (asc "seed = " ++ (seed.flatMap pct_02X ++ 10#8 ::
      (asc "mlen = " ++ (pct_u msg.length ++ 10#8 :: (asc "msg = " ++ (msg.flatMap pct_02X ++ 10#8 :: (tl ++ rest))))))))) := by
    rw [hreq, show asc "\n" = [10#8] by decide]
    simp only [List.append_assoc, List.cons_append, List.nil_append]
  have f1 := find_here (g 7) (k0 := 99#8) (k := asc "ount = ") hpre (pct_u st.it ++ 10#8 :: (asc "seed = " ++ (seed.flatMap pct_02X ++ 10#8 ::
      (asc "mlen = " ++ (pct_u msg.length ++ 10#8 :: (asc "msg = " ++ (msg.flatMap pct_02X ++ 10#8 :: (tl ++ rest))))))))
    (by decide) (by decide)
  have f2 := read_here (g 8) (k0 := 115#8) (k := asc "eed = ") (pre := [10#8]) (by decide) ls (by decide) (by decide)
    (asc "mlen = " ++ (pct_u msg.length ++ 10#8 :: (asc "msg = " ++ (msg.flatMap pct_02X ++ 10#8 :: (tl ++ rest)))))
    (by decide) (by decide) h3
  have f3 := find_here (g 10) (k0 := 109#8) (k := asc "len = ") (pre := []) (by decide)
    (pct_u msg.length ++ 10#8 :: (asc "msg = " ++ (msg.flatMap pct_02X ++ 10#8 :: (tl ++ rest)))) (by decide) (by decide)
  have f4 := fun (A : Bytes) (hA : A.length = 33 * (st.it + 1)) => read_here (g 11) (k0 := 109#8) (k := asc "sg = ")
    (pre := [10#8]) (by decide) lm (by omega) (by omega) (tl ++ rest) (by decide) (by decide) hA
  rw [show (99#8 :: asc "ount = ") = asc "count = " by decide] at f1
  rw [show (115#8 :: asc "eed = ") = asc "seed = " by decide] at f2
  rw [show (109#8 :: asc "len = ") = asc "mlen = " by decide] at f3
  rw [show (109#8 :: asc "sg = ") = asc "msg = " by decide] at f4
  rw [← hreq] at f1
  simp only [List.cons_append, List.nil_append] at f2 f4
  have hmod : (33 * (st.it + 1) + P.spxBytes) % 2 ^ 64 = 33 * (st.it + 1) + P.spxBytes := by omega
  -- the heap
  have c1 := calloc_same st.M (lay.m st.it) (33 * (st.it + 1))
  have a1 := calloc_alloc st.M (lay.m st.it) (33 * (st.it + 1))
  generalize hM1 : calloc st.M (lay.m st.it) (33 * (st.it + 1)) = M1 at *
  have c2 := calloc_same M1 (lay.m1 st.it) (33 * (st.it + 1) + P.spxBytes)
  have a2 := calloc_alloc M1 (lay.m1 st.it) (33 * (st.it + 1) + P.spxBytes)
  generalize hM2 : calloc M1 (lay.m1 st.it) (33 * (st.it + 1) + P.spxBytes) = M2 at *
  have c3 := calloc_same M2 (lay.sm st.it) (33 * (st.it + 1) + P.spxBytes)
  have a3 := calloc_alloc M2 (lay.sm st.it) (33 * (st.it + 1) + P.spxBytes)
  generalize hM3 : calloc M2 (lay.sm st.it) (33 * (st.it + 1) + P.spxBytes) = M3 at *
  have am := alloc_frame c3 q9 (alloc_frame c2 q8 a1)
  have am1 := alloc_frame c3 q10 a2
  have apk := alloc_frame c3 q6 (alloc_frame c2 q4 (alloc_frame c1 q2 h4))
  have ask := alloc_frame c3 q7 (alloc_frame c2 q5 (alloc_frame c1 q3 h5))
  obtain ⟨A, rA, lA⟩ := rd_of_alloc am
  obtain ⟨M4, w4, rd4, s4⟩ := wr_of_alloc (M := M3) (p := lay.m st.it) (d := msg) (by rw [lm]; exact am)
  rw [lm] at rd4 s4
  have apk4 := alloc_frame s4 q2 apk
  have ask4 := alloc_frame s4 q3 ask
  have am14 := alloc_frame s4 (Disj.symm q8) am1
  have asm4 := alloc_frame s4 (Disj.symm q9) a3
  obtain ⟨ctx', M', hc, k1, k2, k3, k4⟩ := crypto_ok haes hP (lib := lib) (lay := lay) g fn
    (st := ⟨st.it, st.fs.put fn (asc "count = " ++ pct_u st.it ++ asc "\n" ++ (asc "seed = " ++ seed.flatMap pct_02X ++ asc "\n") ++
      (asc "mlen = " ++ pct_u msg.length ++ asc "\n") ++ (asc "msg = " ++ msg.flatMap pct_02X ++ asc "\n")), tl ++ rest, _, M4,
      seed, st.it, 33 * (st.it + 1)⟩)
    hlib ⟨q1, q2, q3, q4, q5, q6, q7, q8, q9, q10⟩ hit rfl ls rfl rd4 apk4 ask4 am14 asm4 rfl rfl rfl rfl
  simp only [put_put] at hc
  refine ⟨_, Eq.trans ?_ hc, ⟨k1, k2, ls, k3, k4⟩, rfl, ?_, rfl⟩
  · unfold response_body
    rw [f1]
    simp only [ok_bind]
    rw [if_neg (by decide), fscanf_d_ok (by omega) (by decide)]
    simp only [ok_bind]
    rw [show (48 : Int) = ((48 : Nat) : Int) from rfl]
    rw [f2]
    simp only [ok_bind]
    rw [if_neg (by decide), fprintBstr_ok _ _ _ (by omega) (by decide)]
    simp only [ok_bind]
    rw [init_ok haes _ h1 h2 ls]
    simp only [ok_bind]
    rw [List.nil_append] at f3
    rw [f3]
    simp only [ok_bind]
    rw [if_neg (by decide), fscanf_llu_ok (by omega) (by decide)]
    simp only [ok_bind]
    rw [lm, hmod, hM1, hM2, hM3, rA]
    simp only [ok_bind]
    rw [mlen_int (by omega)]
    rw [f4 A lA]
    simp only [ok_bind]
    rw [w4]
    simp only [ok_bind]
    rw [if_neg (by decide), rd4]
    simp only [ok_bind]
    rw [fprintBstr_ok _ _ _ (by omega) (by omega)]
    simp only [ok_bind, put_put]
    rw [List.take_of_length_le (by omega), List.take_of_length_le (by omega), pct_d_nat]
  · unfold responseOf
    simp only
    rw [hseed, hmsg, ascii_response]
    rfl

/-- The records from `i` on. -/
def recs (f : Nat → Bytes) : Nat → Nat → Bytes
  | _, 0 => []
  | i, k + 1 => f i ++ recs f (i + 1) k

omit haes hP in
theorem recs_cat (f : Nat → Bytes) (k : Nat) : recs f 0 k = cat k f := by
  suffices h : ∀ i, cat i f ++ recs f i k = cat (i + k) f by
    have := h 0
    rw [Nat.zero_add] at this
    exact this
  induction k with
  | zero => intro i; exact List.append_nil _
  | succ k ih =>
    intro i
    rw [show i + (k + 1) = i + 1 + k by omega, ← ih (i + 1), cat, recs, List.append_assoc]

omit haes hP in
theorem recs_length {f : Nat → Bytes} (hf : ∀ i, 0 < (f i).length) : ∀ (k i : Nat), k ≤ (recs f i k).length := by
  intro k
  induction k with
  | zero => intro i; exact Nat.zero_le _
  | succ k ih =>
    intro i
    have := ih (i + 1)
    have := hf i
    rw [recs, List.length_append]
    omega

/-- The loop of `main`. -/
theorem records_ok {lib : Nat → Lib} {lay : Layout} (g : Nat → Nat → Byte) (fn : Bytes)
    (hlib : ∀ i < 100, LibOK P (lib i)) (hlay : ∀ i < 100, LayOK P lay i) : ∀ (k : Nat) (st : St) (fuel : Nat),
    Between P lay st → st.it + k = 100 → (∃ x, st.fs fn = some x) →
    ∀ {pre : Bytes}, 99#8 ∉ pre →
    st.req = pre ++ recs (fun i => ascii (request i (seedOf aes i) (msgOf aes i))) st.it k →
    loop (k + 1 + fuel) (response_body aes P lib lay g fn) st =
      .ok (st.fs.put fn (recs (fun i => ascii (responseOf aes P.toSpec (specHash P) i)) st.it k), 0) := by
  intro k
  induction k with
  | zero =>
    intro st fuel _ _ hf pre hpre hreq
    obtain ⟨x, hf⟩ := hf
    have hfm : FindMarker (g 7) st.req (asc "count = ") = .ok (0, []) := by
      rw [hreq, recs, List.append_nil]
      exact find_none (g 7) (k0 := 99#8) (k := asc "ount = ") hpre (by decide) (by decide)
    have hb : response_body aes P lib lay g fn st = .ok (.inr (st.fs, 0)) := by
      unfold response_body
      rw [hfm]
      simp only [ok_bind]
      rw [if_pos trivial]
      rfl
    rw [Nat.zero_add, Nat.add_comm, loop_succ, hb]
    simp only [ok_bind]
    rw [recs, put_nil_of hf]
  | succ k ih =>
    intro st fuel hbt hik hf pre hpre hreq
    obtain ⟨st', hb, hbt', hit', hfs', hreq'⟩ := response_ok haes hP (lib := lib) g fn hbt (hlib _ (by omega)) (hlay _ (by omega))
      (by omega) hpre hreq
    rw [show k + 1 + 1 + fuel = (k + 1 + fuel) + 1 by omega, loop_succ, hb]
    simp only [ok_bind]
    have hrec : loop (k + 1 + fuel) (response_body aes P lib lay g fn) st' = _ :=
      ih st' fuel hbt' (by omega) ⟨(st.fs fn).getD [] ++ ascii (responseOf aes P.toSpec (specHash P) st.it), by
        rw [hfs']; exact if_pos rfl⟩ (pre := asc "pk =\nsk =\nsmlen =\nsm =\n\n") (by decide) (by rw [hreq', hit'])
    rw [hrec, hfs', hit', put_put]
    rfl

/-! ## The program -/

/-- The names of the files. -/
def reqName (P : Params) : Bytes := ascii s!"PQCsignKAT_{P.skBytes}.req"
def rspName (P : Params) : Bytes := ascii s!"PQCsignKAT_{P.skBytes}.rsp"

omit haes in
theorem file_name_ok (gb : Nat → Byte) : file_name P gb ".req" = .ok (reqName P) ∧ file_name P gb ".rsp" = .ok (rspName P) := by
  have hn : P.n = 16 ∨ P.n = 24 ∨ P.n = 32 := by revert P; decide
  have hsk : P.skBytes = 2 * P.n + 2 * P.n := rfl
  have key : ∀ s : Bytes, 0#8 ∉ s → s.length + 1 ≤ 32 →
      (do let fn ← wr (uninit gb 32) 0 (s ++ [0#8]); Except.ok (fn.takeWhile (· ≠ 0#8)) : C Bytes) = .ok s := by
    intro s h0 hl
    rw [wr_ok (by simp; omega)]
    simp only [ok_bind, List.take_zero, List.nil_append, List.append_assoc, List.cons_append]
    rw [List.takeWhile_append_of_pos (fun a ha => by simp; rintro rfl; exact h0 ha)]
    simp
  have hd : ∀ ext : String, asc "PQCsignKAT_" ++ pct_d P.skBytes ++ asc ext = ascii (s!"PQCsignKAT_{P.skBytes}" ++ ext) := by
    intro ext
    have ts : ∀ s : String, toString s = s := fun _ => rfl
    show _ = asc _
    rw [asc_append, ts, asc_append, asc_toString, pct_d_nat]
  have hlen : ∀ ext : Bytes, ext = asc ".req" ∨ ext = asc ".rsp" →
      0#8 ∉ asc "PQCsignKAT_" ++ pct_d P.skBytes ++ ext ∧ (asc "PQCsignKAT_" ++ pct_d P.skBytes ++ ext).length + 1 ≤ 32 := by
    rw [hsk]
    rintro ext (rfl | rfl) <;> rcases hn with h | h | h <;> rw [h] <;> decide +kernel
  constructor
  · have := key _ (hlen _ (.inl rfl)).1 (hlen _ (.inl rfl)).2
    unfold file_name
    rw [this, hd]
    rfl
  · have := key _ (hlen _ (.inr rfl)).1 (hlen _ (.inr rfl)).2
    unfold file_name
    rw [this, hd]
    rfl

/-- The program up to the loop over the records. -/
theorem main_start (lib : Nat → Lib) (lay : Layout) (g : Nat → Nat → Byte) {opens : Nat → Bool} (h0 : opens 0 = true)
    (h1 : opens 1 = true) (M : Mem) (fs : FS) :
    ∃ (fs1 : FS) (seed : Bytes), seed.length = 48 ∧ reqName P ≠ rspName P ∧
      (∀ f, fs1 f = if f = rspName P then some [] else if f = reqName P then some (requestFile aes) else fs f) ∧
      main aes P lib lay g opens M fs = (match (if opens 2 then fs1 (reqName P) else none) with
        | none => .ok (fs1, -1)
        | some req => loop (req.length + 1) (response_body aes P lib lay g (rspName P))
          ⟨0, fs1.put (rspName P) (asc "# " ++ asc "SPHINCS+" ++ asc "\n\n"), req,
            ⟨(katState aes 100).1, (katState aes 100).2, 201⟩, M, seed, (BitVec.ofNat 32 (g 18 0).toNat).toInt,
            (g 19 0).toNat⟩) := by
  obtain ⟨hfq, -⟩ := file_name_ok hP (g 12)
  obtain ⟨-, hfr⟩ := file_name_ok hP (g 13)
  have hne : reqName P ≠ rspName P := by
    have ts : ∀ s : String, toString s = s := fun _ => rfl
    show asc _ ≠ asc _
    rw [asc_append, asc_append _ (toString ".rsp")]
    intro h
    exact absurd (List.append_cancel_left h) (by decide)
  have hent : forRange 48 (fun i e => wr1 e i (BitVec.ofNat 8 i)) (uninit (g 14) 48) =
      .ok ((List.range 48).map (BitVec.ofNat 8)) := by
    obtain ⟨e, he, hv, hl⟩ := forRange_inv (n := 48) (body := fun i e => wr1 e i (BitVec.ofNat 8 i)) (s := uninit (g 14) 48)
      (Inv := fun i e => e.take i = (List.range i).map (BitVec.ofNat 8) ∧ e.length = 48) ⟨rfl, uninit_length _ _⟩ (by
        rintro i e hi ⟨h1, h2⟩
        refine ⟨_, wr1_ok (by omega), ?_, by rw [List.length_set]; exact h2⟩
        rw [List.take_set, List.take_add_one, h1, List.range_succ, List.map_append, List.set_append_right _ _ (by simp)]
        simp [show i < e.length by omega])
    rw [he, ← hv, List.take_of_length_le (Nat.le_of_eq hl)]
  have hinit := init_ok haes (g 15) (ctx := ⟨List.replicate 32 0, List.replicate 16 0, 0⟩) List.length_replicate
    List.length_replicate (seed := (List.range 48).map (BitVec.ofNat 8)) (by simp)
  obtain ⟨seed, msg, hreq, hseed⟩ := request_ok haes g (reqName P) ((fs.create (reqName P)).create (rspName P)) (x0 := [])
    (by show (if reqName P = rspName P then _ else if reqName P = reqName P then _ else _) = _
        rw [if_neg hne, if_pos rfl])
    (seed0 := uninit (g 16) 48) (msg0 := uninit (g 17) 3300) (uninit_length _ _) (uninit_length _ _)
    (ctx := ⟨(drbgUpdate aes ((List.range 48).map (BitVec.ofNat 8)) (List.replicate 32 0) 0).1,
      (drbgUpdate aes ((List.range 48).map (BitVec.ofNat 8)) (List.replicate 32 0) 0).2, 1⟩) rfl rfl rfl
  generalize hfs : ((fs.create (reqName P)).create (rspName P)).put (reqName P) (requestFile aes) = fs1 at hreq
  have hf1 : ∀ f, fs1 f = if f = rspName P then some [] else if f = reqName P then some (requestFile aes) else fs f := by
    intro f
    rw [← hfs]
    unfold FS.put FS.create
    by_cases h1 : f = rspName P
    · simp [h1, hne.symm]
    · by_cases h2 : f = reqName P
      · subst h2; simp [hne]
      · simp [h1, h2]
  refine ⟨fs1, seed, hseed, hne, hf1, ?_⟩
  unfold main
  rw [hfq]
  simp only [ok_bind]
  rw [h0, if_neg (by decide), hfr]
  simp only [ok_bind]
  rw [h1, if_neg (by decide), hent]
  simp only [ok_bind]
  rw [hinit]
  simp only [ok_bind]
  rw [hreq]
  simp only [ok_bind]
  rfl

/-- The whole program. -/
theorem main_ok {lib : Nat → Lib} {lay : Layout} (g : Nat → Nat → Byte)
    (hlib : ∀ i < 100, LibOK P (lib i)) (hlay : ∀ i < 100, LayOK P lay i) {opens : Nat → Bool} (ho : ∀ k < 3, opens k = true)
    {M : Mem} (hpk : M.Alloc lay.pk P.pkBytes) (hsk : M.Alloc lay.sk P.skBytes) (fs : FS) :
    main aes P lib lay g opens M fs = .ok (fun f =>
      if f = rspName P then some (responseFile aes P.toSpec (specHash P))
      else if f = reqName P then some (requestFile aes)
      else fs f, 0) := by
  obtain ⟨fs1, seed, hseed, hne, hf1, hmain⟩ := main_start haes hP lib lay g (ho 0 (by decide)) (ho 1 (by decide)) M fs
  obtain ⟨k1, k2⟩ := katState_len haes 100
  have hl : 100 ≤ (requestFile aes).length := by
    have := recs_length (f := fun i => ascii (request i (seedOf aes i) (msgOf aes i)))
      (fun i => by rw [ascii_request]; simp [asc]) 100 0
    rwa [recs_cat] at this
  have hrec := records_ok haes hP (lib := lib) g (rspName P) hlib hlay 100
    ⟨0, fs1.put (rspName P) (asc "# " ++ asc "SPHINCS+" ++ asc "\n\n"), requestFile aes,
      ⟨(katState aes 100).1, (katState aes 100).2, 201⟩, M, seed, (BitVec.ofNat 32 (g 18 0).toNat).toInt, (g 19 0).toNat⟩
    ((requestFile aes).length - 100) ⟨k1, k2, hseed, hpk, hsk⟩ rfl ⟨_, if_pos rfl⟩ (pre := []) (by decide)
    (by rw [List.nil_append]; exact (recs_cat _ _).symm)
  rw [show 100 + 1 + ((requestFile aes).length - 100) = (requestFile aes).length + 1 by omega, recs_cat, put_put] at hrec
  rw [hmain]
  rw [ho 2 (by decide), if_pos rfl, hf1, if_neg hne, if_pos rfl]
  simp only
  rw [hrec]
  have hfin : ∀ f, fs1.put (rspName P) (asc "# " ++ asc "SPHINCS+" ++ asc "\n\n" ++
      cat 100 fun i => ascii (responseOf aes P.toSpec (specHash P) i)) f =
      if f = rspName P then some (responseFile aes P.toSpec (specHash P))
      else if f = reqName P then some (requestFile aes) else fs f := by
    intro f
    unfold FS.put
    rw [hf1 (rspName P), if_pos rfl, hf1 f]
    by_cases h : f = rspName P
    · rw [if_pos h, if_pos h, Option.getD_some, List.nil_append]
      rfl
    · rw [if_neg h, if_neg h, if_neg h]
  exact congrArg (fun x => Except.ok (x, (0 : Int))) (funext hfin)

end
end Spx.Kat
