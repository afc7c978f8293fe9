import Verif.Proof.BenchLib
/-! The benchmark programs as a whole. -/

namespace Spx.Bench
open Spec Leak Mem Kat

/-- The sizes of the arrays. -/
structure Fit (P : Params) (s : St) : Prop where
  block : s.block.length = P.n
  statex2 : s.statex2.length = 50
  wots_pk : P.wotsBytes ≤ s.wots_pk.length
  fors_sig : s.fors_sig.length = P.forsBytes
  fors_pk : s.fors_pk.length = P.n

/-- The objects in memory. -/
structure Al (P : Params) (lay : Tests.Lay) (M : Mem) : Prop where
  pk : M.Alloc lay.pk P.pkBytes
  sk : M.Alloc lay.sk P.skBytes
  m : M.Alloc lay.m 32
  sm : M.Alloc lay.sm (P.spxBytes + 32)
  mout : M.Alloc lay.mout (P.spxBytes + 32)

theorem Al.step {P : Params} {lay : Tests.Lay} {M M' : Mem} (h : Al P lay M)
    (f : ∀ q k, M.Alloc q k → M'.Alloc q k) : Al P lay M' :=
  ⟨f _ _ h.pk, f _ _ h.sk, f _ _ h.m, f _ _ h.sm, f _ _ h.mout⟩

/-- The state while the key pairs are made. -/
structure Keyed (P : Params) (lay : Tests.Lay) (W : World) (i : Nat) (s : St) : Prop where
  fit : Fit P s
  al : Al P lay s.M
  m : s.M.rd lay.m 32 = .ok W.m
  pk : 1 ≤ i → s.M.rd lay.pk P.pkBytes = .ok (pkOf P.toSpec (specHash P) (W.seed (i - 1)))
  sk : 1 ≤ i → s.M.rd lay.sk P.skBytes = .ok (skOf P.toSpec (specHash P) (W.seed (i - 1)))

/-- The state while the signatures are made. -/
structure Signed (P : Params) (lay : Tests.Lay) (W : World) (j : Nat) (s : St) : Prop where
  key : Keyed P lay W 10 s
  len : 1 ≤ j → s.smlen = P.spxBytes + 32
  sm : 1 ≤ j → s.M.rd lay.sm (P.spxBytes + 32) =
    .ok (Spec.sign P.toSpec (specHash P) (skOf P.toSpec (specHash P) (W.seed 9)) (W.optrand (j - 1)) W.m ++ W.m)

/-- The state while the signature is opened. -/
structure Opened (P : Params) (lay : Tests.Lay) (W : World) (l : Nat) (s : St) : Prop where
  fit : Fit P s
  al : Al P lay s.M
  pk : s.M.rd lay.pk P.pkBytes = .ok (pkOf P.toSpec (specHash P) (W.seed 9))
  len : s.smlen = P.spxBytes + 32
  sm : s.M.rd lay.sm (P.spxBytes + 32) =
    .ok (Spec.sign P.toSpec (specHash P) (skOf P.toSpec (specHash P) (W.seed 9)) (W.optrand 9) W.m ++ W.m)
  mlen : 1 ≤ l → s.mlen = 32
  mout : 1 ≤ l → s.M.rd lay.mout 32 = .ok W.m

/-- The arrays that are not in memory. -/
def St.arr (s : St) : Bytes × List (BitVec 64) × Bytes × Bytes × Bytes :=
  (s.block, s.statex2, s.wots_pk, s.fors_sig, s.fors_pk)

section
variable {P : Params} {lay : Tests.Lay} {W : World} {s s' : St} (hM : s'.M = s.M) (hf : Fit P s')
include hM hf

theorem Keyed.same {i : Nat} (h : Keyed P lay W i s) : Keyed P lay W i s' := by
  obtain ⟨-, h1, h2, h3, h4⟩ := h
  rw [← hM] at h1 h2 h3 h4
  exact ⟨hf, h1, h2, h3, h4⟩

theorem Signed.same {j : Nat} (hs : s'.smlen = s.smlen) (h : Signed P lay W j s) : Signed P lay W j s' := by
  obtain ⟨h1, h2, h3⟩ := h
  have h1 := h1.same hM hf
  rw [← hM] at h3
  rw [← hs] at h2
  exact ⟨h1, h2, h3⟩

end

theorem call_wots_ok {P : Params} {F : Calls} {c : Ctx} (hF : CallsOK P F c) {ad : Addr} (ha : ad.length = 32) (i : Nat)
    {s : St} (hs : Fit P s) : ∃ s', call_wots F c ad i s = .ok s' ∧ Fit P s' ∧ s'.M = s.M ∧ s'.smlen = s.smlen ∧
      ∃ b d, F.wots_gen_pk i b c ad = .ok d ∧ s'.arr = (s.block, s.statex2, d, s.fors_sig, s.fors_pk) := by
  obtain ⟨pk', e, h⟩ := hF.wots i hs.wots_pk ha
  refine ⟨{ s with wots_pk := pk' }, ?_, ⟨hs.1, hs.2, ?_, hs.4, hs.5⟩, rfl, rfl, _, _, e, rfl⟩
  · unfold call_wots
    rw [e]
    rfl
  · show _ ≤ pk'.length
    rw [h]
    exact hs.wots_pk

theorem call_fors_ok {P : Params} {F : Calls} {c : Ctx} (hF : CallsOK P F c) {ad : Addr} (ha : ad.length = 32) {m : Bytes}
    (hm : m.length = P.forsMsgBytes) (i : Nat) {s : St} (hs : Fit P s) :
    ∃ s', call_fors F m c ad i s = .ok s' ∧ Fit P s' ∧ s'.M = s.M ∧ s'.smlen = s.smlen ∧
      ∃ b sg pk, F.fors_sign i b m c ad = .ok (sg, pk) ∧ s'.arr = (s.block, s.statex2, s.wots_pk, sg, pk) := by
  obtain ⟨sg, pk', e, h1, h2⟩ := hF.fors i hs.fors_sig hm ha
  refine ⟨{ s with fors_sig := sg, fors_pk := pk' }, ?_, ⟨hs.1, hs.2, hs.3, h1, h2⟩, rfl, rfl, _, _, _, e, rfl⟩
  unfold call_fors
  rw [e, ok_bind]
  dsimp only
  rw [Tests.wr_all (by rw [hs.fors_pk]; exact h2)]
  rfl

section
variable {P : Params} (hP : P ∈ shipped) {F : Calls} {c : Ctx} (hF : CallsOK P F c) {lay : Tests.Lay}
  (hl : Tests.LayOK P lay) {W : World}
include hP hF hl

theorem call_keypair_ok (hseed : ∀ i, (W.seed i).length = P.seedBytes) {i : Nat} {s : St} (h : Keyed P lay W i s) :
    ∃ s', call_keypair P F lay W i s = .ok s' ∧ Keyed P lay W (i + 1) s' ∧ s'.arr = s.arr := by
  have hpl := ship_pkOf_len hP (hseed i)
  have hsl := ship_skOf_len hP (hseed i)
  obtain ⟨pk0, epk0, lpk0⟩ := rd_of_alloc h.al.pk
  obtain ⟨sk0, esk0, lsk0⟩ := rd_of_alloc h.al.sk
  have ek := (hF.lib i).keypair lpk0 lsk0 (hseed i)
  obtain ⟨M2, w2, r2, s2⟩ := wr_of_alloc (M := s.M) (p := lay.pk) (d := pkOf P.toSpec (specHash P) (W.seed i))
    (by rw [hpl]; exact h.al.pk)
  rw [hpl] at r2 s2
  have al2 := h.al.step (M' := M2) fun _ _ k => s2.alloc r2 k
  obtain ⟨M3, w3, r3, s3⟩ := wr_of_alloc (M := M2) (p := lay.sk) (d := skOf P.toSpec (specHash P) (W.seed i))
    (by rw [hsl]; exact al2.sk)
  rw [hsl] at r3 s3
  refine ⟨{ s with M := M3 }, ?_, ⟨⟨h.fit.1, h.fit.2, h.fit.3, h.fit.4, h.fit.5⟩, al2.step fun _ _ k => s3.alloc r3 k, ?_,
    fun _ => ?_, fun _ => r3⟩, rfl⟩
  · unfold call_keypair
    rw [epk0, ok_bind, esk0, ok_bind, ek, ok_bind]
    dsimp only
    rw [w2, ok_bind, w3]
    rfl
  · show M3.rd lay.m 32 = _
    rw [rd_frame s3 hl.sk_m, rd_frame s2 hl.pk_m, h.m]
  · show M3.rd lay.pk P.pkBytes = _
    rw [rd_frame s3 (Kat.Disj.symm hl.pk_sk), r2]
    rfl

theorem call_sign_ok (hopt : ∀ i, (W.optrand i).length = P.n) {j : Nat} {s : St} (h : Signed P lay W j s) :
    ∃ s', call_sign F lay W j s = .ok s' ∧ Signed P lay W (j + 1) s' ∧ s'.arr = s.arr := by
  obtain ⟨M4, e4, r4, s4⟩ := (hF.lib (20 + j)).sign (psm := lay.sm) (h.key.sk (by omega)) h.key.m h.key.al.sm
    (Kat.Disj.shrink hl.sm_sk (by have := shipped_n hP; have := Tests.shipped_32 hP; omega) (Nat.le_refl _))
    (Kat.Disj.shrink hl.sm_m (by omega) (Nat.le_refl _)) (by omega) (hopt j)
  have hfit := h.key.fit
  refine ⟨{ s with M := M4, smlen := P.spxBytes + 32 }, ?_, ⟨⟨⟨hfit.1, hfit.2, hfit.3, hfit.4, hfit.5⟩,
    h.key.al.step fun _ _ k => s4.alloc r4 k, ?_, fun _ => ?_, fun _ => ?_⟩, fun _ => rfl, fun _ => r4⟩, rfl⟩
  · unfold call_sign Tests.SPX_MLEN
    rw [e4, ok_bind]
  · show M4.rd lay.m 32 = _
    rw [rd_frame s4 hl.sm_m, h.key.m]
  · show M4.rd lay.pk P.pkBytes = _
    rw [rd_frame s4 hl.sm_pk, h.key.pk (by omega)]
  · show M4.rd lay.sk P.skBytes = _
    rw [rd_frame s4 hl.sm_sk, h.key.sk (by omega)]

theorem call_open_ok (hseed : ∀ i, (W.seed i).length = P.seedBytes) {l : Nat} {s : St} (h : Opened P lay W l s) :
    ∃ s', call_open F lay l s = .ok s' ∧ Opened P lay W (l + 1) s' ∧ s'.arr = s.arr := by
  have hlt := Kat.shipped_spx hP
  have hsg := ship_sign_len hP (skOf P.toSpec (specHash P) (W.seed 9)) (W.optrand 9) W.m
  have hco := ship_correct hP (hseed 9) (W.optrand 9) W.m
  have hsm := h.sm
  obtain ⟨M5, ⟨-, e5, r5, s5⟩ | ⟨k, -⟩⟩ := hF.open' (50 + l) (Nat.le_add_right _ 32) hsm h.pk h.al.mout (by omega)
  rotate_left
  · rw [List.drop_left' hsg, List.take_left' hsg, hco] at k
    cases k
  rw [Nat.add_sub_cancel_left] at e5 r5 s5
  rw [List.drop_left' hsg] at r5
  have hfit := h.fit
  have hmo {q l} (k : Disj lay.mout (P.spxBytes + 32) q l) : Disj lay.mout 32 q l :=
    Kat.Disj.shrink k (by omega) (Nat.le_refl _)
  refine ⟨{ s with M := M5, mlen := 32 }, ?_, ⟨⟨hfit.1, hfit.2, hfit.3, hfit.4, hfit.5⟩,
    h.al.step fun _ _ k => s5.alloc r5 k, ?_, h.len, ?_, fun _ => rfl, fun _ => r5⟩, rfl⟩
  · unfold call_open
    rw [h.len, e5, ok_bind]
  · show M5.rd lay.pk P.pkBytes = _
    rw [rd_frame s5 (hmo hl.mout_pk), h.pk]
  · show M5.rd lay.sm (P.spxBytes + 32) = _
    rw [rd_frame s5 (hmo hl.mout_sm), hsm]

end

/-- The lines printed from the key generation on, `med k` being the median of measurement `k`. -/
def rows (P : Params) (V : Variant) (W : World) (med : Nat → Nat) : Bytes :=
  asc "Generating keypair.. " ++ line (W.clk 0).avg (med 0) 1 ++
  (asc V.text1 ++ line (W.clk 1).avg (med 1) (V.mul1 P)) ++
  (asc "Signing..            " ++ line (W.clk 2).avg (med 2) 1) ++
  (asc "  - FORS signing..   " ++ line (W.clk 3).avg (med 3) 1) ++
  (asc V.text2 ++ line (W.clk 4).avg (med 4) (V.mul2 P)) ++
  (asc "Verifying..          " ++ line (W.clk 5).avg (med 5) 1)

/-- What the measurements before that of the key generation have to do. -/
def FirstOK (P : Params) (first : Bytes → (List Nat × Bytes) × St → C ((List Nat × Bytes) × St)) (naddr : Nat)
    (Q : Bytes → Bytes → List (BitVec 64) → Bytes → Bytes → List (BitVec 64) → Prop) : Prop :=
  ∀ (addr : Bytes) (t : List Nat) (out : Bytes) (s : St), addr.length = 32 * naddr → t.length = 11 → Fit P s →
    ∃ t' out' s', first addr ((t, out), s) = .ok ((t', out ++ out'), s') ∧ t'.length = 11 ∧ Fit P s' ∧ s'.M = s.M ∧
      Q addr s.block s.statex2 out' s'.block s'.statex2

theorem main_ok {qsort : (Nat → Nat → Int) → List Nat → List Nat} (hq : IsQsort qsort) {P : Params} (hP : P ∈ shipped)
    (V : Variant) {F : Calls} {c : Ctx} (hF : CallsOK P F c) {lay : Tests.Lay} (hl : Tests.LayOK P lay)
    (g : Nat → Nat → Byte) {W : World} (hm : W.m.length = 32) {naddr : Nat} (hn : 1 ≤ naddr) (ha : W.addr.length = 32 * naddr)
    (hseed : ∀ i, (W.seed i).length = P.seedBytes) (hopt : ∀ i, (W.optrand i).length = P.n)
    {first : Bytes → (List Nat × Bytes) × St → C ((List Nat × Bytes) × St)} {Q : Bytes → Bytes → List (BitVec 64) → Bytes → Bytes → List (BitVec 64) → Prop}
    (hfi : FirstOK P first naddr Q)
    {s : St} (hs : Fit P s) (hal : Al P lay s.M) :
    ∃ s' out' med, main qsort P V F lay g W c naddr first s =
        .ok (s', header P ++ out' ++ rows P V W med ++ footer P W, 0) ∧ Q W.addr s.block s.statex2 out' s'.block s'.statex2 ∧
      (∀ k, k < 6 → Spec.Bench.Steady (W.clk k).cycles → IsMedian (med k) (diffs 1 (W.clk k).cycles)) ∧ Opened P lay W 10 s' ∧
      (∃ b, F.wots_gen_pk 49 b c (W.addr.take 32) = .ok s'.wots_pk) ∧
      ∃ b, F.fors_sign 9 b (uninit (g 1) P.forsMsgBytes) c (W.addr.take 32) = .ok (s'.fors_sig, s'.fors_pk) := by
  obtain ⟨M1, w1, r1, s1⟩ := wr_of_alloc (M := s.M) (p := lay.m) (d := W.m) (by rw [hm]; exact hal.m)
  rw [hm] at r1 s1
  have hfm : (uninit (g 1) P.forsMsgBytes).length = P.forsMsgBytes := uninit_length ..
  obtain ⟨t0, out', s0, e0, l0, f0, m0, hQ⟩ := hfi W.addr (uninit (fun i => (g 2 i).toNat) (NTESTS + 1)) (header P)
    { s with M := M1 } ha (uninit_length ..) ⟨hs.1, hs.2, hs.3, hs.4, hs.5⟩
  have hA : ((W.addr.drop 0).take 32).length = 32 := by rw [List.length_take, List.length_drop]; omega
  generalize had : (W.addr.drop 0).take 32 = ad at hA
  have had' : W.addr.take 32 = ad := had
  let First (s : St) : Prop := s.block = s0.block ∧ s.statex2 = s0.statex2
  let Fors (i : Nat) (s : St) : Prop :=
    1 ≤ i → ∃ b, F.fors_sign (i - 1) b (uninit (g 1) P.forsMsgBytes) c ad = .ok (s.fors_sig, s.fors_pk)
  let Wots (i : Nat) (s : St) : Prop := 1 ≤ i → ∃ b, F.wots_gen_pk (40 + (i - 1)) b c ad = .ok s.wots_pk
  have k0 : Keyed P lay W 0 s0 := by
    have m0 : s0.M = M1 := m0
    refine ⟨f0, ?_, ?_, by omega, by omega⟩
    · rw [m0]
      exact hal.step fun _ _ k => s1.alloc r1 k
    · rw [m0]
      exact r1
  obtain ⟨t1, d0, s1', e1, l1, k1, md0⟩ := measure_ok hq "Generating keypair.. " 1 1 (W.clk 0) (call := call_keypair P F lay W)
    l0 (header P ++ out') (fun i s => Keyed P lay W i s ∧ s.arr = s0.arr) ⟨k0, rfl⟩ (fun i s _ h => by
      obtain ⟨s', e, h1, h2⟩ := call_keypair_ok hP hF hl hseed h.1
      exact ⟨s', e, h1, h2.trans h.2⟩)
  obtain ⟨t2, d1, s2', e2, l2, k2, md1⟩ := measure_ok hq V.text1 (V.mul1 P) 1 (W.clk 1) (call := call_wots F c ad)
    l1 (header P ++ out' ++ asc "Generating keypair.. " ++ line (W.clk 0).avg d0 1) (fun _ s => Keyed P lay W 10 s ∧ First s) ⟨k1.1, by
      exact ⟨congrArg (·.1) k1.2, congrArg (·.2.1) k1.2⟩⟩ (fun i s _ h => by
      obtain ⟨s', e, h1, h2, h3, b, d, -, h4⟩ := call_wots_ok hF hA i h.1.fit
      exact ⟨s', e, h.1.same h2 h1, (congrArg (·.1) h4).trans h.2.1, (congrArg (·.2.1) h4).trans h.2.2⟩)
  obtain ⟨t3, d2, s3', e3, l3, k3, md2⟩ := measure_ok hq "Signing..            " 1 1 (W.clk 2) (call := call_sign F lay W)
    l2 (header P ++ out' ++ asc "Generating keypair.. " ++ line (W.clk 0).avg d0 1 ++ asc V.text1 ++ line (W.clk 1).avg d1 (V.mul1 P))
    (fun j s => Signed P lay W j s ∧ First s) ⟨⟨k2.1, by omega, by omega⟩, k2.2⟩ (fun i s _ h => by
      obtain ⟨s', e, h1, h2⟩ := call_sign_ok hP hF hl hopt h.1
      exact ⟨s', e, h1, (congrArg (·.1) h2).trans h.2.1, (congrArg (·.2.1) h2).trans h.2.2⟩)
  obtain ⟨t4, d3, s4', e4, l4, k4, md3⟩ := measure_ok hq "  - FORS signing..   " 1 1 (W.clk 3)
    (call := call_fors F (uninit (g 1) P.forsMsgBytes) c ad)
    l3 (header P ++ out' ++ asc "Generating keypair.. " ++ line (W.clk 0).avg d0 1 ++ asc V.text1 ++ line (W.clk 1).avg d1 (V.mul1 P) ++
      asc "Signing..            " ++ line (W.clk 2).avg d2 1) (fun i s => Signed P lay W 10 s ∧ First s ∧ Fors i s) ⟨k3.1, k3.2, fun h => absurd h (by omega)⟩ (fun i s _ h => by
      obtain ⟨s', e, h1, h2, h3, b, sg, pk, h4, h5⟩ := call_fors_ok hF hA hfm i h.1.key.fit
      have hsg : s'.fors_sig = sg := congrArg (·.2.2.2.1) h5
      have hpk : s'.fors_pk = pk := congrArg (·.2.2.2.2) h5
      refine ⟨s', e, h.1.same h2 h1 h3, ⟨(congrArg (·.1) h5).trans h.2.1.1, (congrArg (·.2.1) h5).trans h.2.1.2⟩, fun _ => ⟨b, ?_⟩⟩
      rw [hsg, hpk, Nat.add_sub_cancel]
      exact h4)
  obtain ⟨t5, d4, s5', e5, l5, k5, md4⟩ := measure_ok hq V.text2 (V.mul2 P) 1 (W.clk 4)
    (call := fun i => call_wots F c ad (40 + i))
    l4 (header P ++ out' ++ asc "Generating keypair.. " ++ line (W.clk 0).avg d0 1 ++ asc V.text1 ++ line (W.clk 1).avg d1 (V.mul1 P) ++
      asc "Signing..            " ++ line (W.clk 2).avg d2 1 ++ asc "  - FORS signing..   " ++ line (W.clk 3).avg d3 1)
    (fun i s => Signed P lay W 10 s ∧ First s ∧ Fors 10 s ∧ Wots i s) ⟨k4.1, k4.2.1, k4.2.2, fun h => absurd h (by omega)⟩ (fun i s _ h => by
      obtain ⟨s', e, h1, h2, h3, b, d, h4, h5⟩ := call_wots_ok hF hA (40 + i) h.1.key.fit
      have hd : s'.wots_pk = d := congrArg (·.2.2.1) h5
      have hsg : s'.fors_sig = s.fors_sig := congrArg (·.2.2.2.1) h5
      have hpk : s'.fors_pk = s.fors_pk := congrArg (·.2.2.2.2) h5
      refine ⟨s', e, h.1.same h2 h1 h3, ⟨(congrArg (·.1) h5).trans h.2.1.1, (congrArg (·.2.1) h5).trans h.2.1.2⟩, ?_, fun _ => ⟨b, ?_⟩⟩
      · show 1 ≤ 10 → ∃ b, F.fors_sign 9 b _ c ad = .ok (s'.fors_sig, s'.fors_pk)
        rw [hsg, hpk]
        exact h.2.2.1
      · rw [hd, Nat.add_sub_cancel]
        exact h4)
  obtain ⟨t6, d5, s6', e6, l6, k6, md5⟩ := measure_ok hq "Verifying..          " 1 1 (W.clk 5) (call := call_open F lay)
    l5 (header P ++ out' ++ asc "Generating keypair.. " ++ line (W.clk 0).avg d0 1 ++ asc V.text1 ++ line (W.clk 1).avg d1 (V.mul1 P) ++
      asc "Signing..            " ++ line (W.clk 2).avg d2 1 ++ asc "  - FORS signing..   " ++ line (W.clk 3).avg d3 1 ++
      asc V.text2 ++ line (W.clk 4).avg d4 (V.mul2 P))
    (fun l s => Opened P lay W l s ∧ s.arr = s5'.arr)
    ⟨⟨k5.1.key.fit, k5.1.key.al, k5.1.key.pk (by omega), k5.1.len (by omega), k5.1.sm (by omega), by omega, by omega⟩, rfl⟩
    (fun i s _ h => by
      obtain ⟨s', e, h1, h2⟩ := call_open_ok hP hF hl hseed h.1
      exact ⟨s', e, h1, h2.trans h.2⟩)
  obtain ⟨-, hFi, hFo, hWo⟩ := k5
  obtain ⟨k6, h6⟩ := k6
  have a1 : s6'.block = s5'.block := congrArg (·.1) h6
  have a2 : s6'.statex2 = s5'.statex2 := congrArg (·.2.1) h6
  have a3 : s6'.wots_pk = s5'.wots_pk := congrArg (·.2.2.1) h6
  have a4 : s6'.fors_sig = s5'.fors_sig := congrArg (·.2.2.2.1) h6
  have a5 : s6'.fors_pk = s5'.fors_pk := congrArg (·.2.2.2.2) h6
  refine ⟨s6', out', fun k => [d0, d1, d2, d3, d4, d5].getD k 0, ?_, ?_, fun k hk hc => ?_, k6, ?_, ?_⟩
  · unfold main
    rw [w1, ok_bind, Tests.wr_all (by rw [uninit_length]; exact ha)]
    dsimp only
    rw [ok_bind, e0, ok_bind, rd_ok (by omega), ok_bind, had]
    unfold measurements
    rw [e1, ok_bind, e2, ok_bind, e3, ok_bind, e4, ok_bind, e5, ok_bind, e6, ok_bind]
    unfold rows
    simp only [List.append_assoc]
    rfl
  · rw [a1, a2, hFi.1, hFi.2]
    exact hQ
  · obtain ⟨h1, h2⟩ := hc
    match k, hk with
    | 0, _ => exact md0 h1 h2
    | 1, _ => exact md1 h1 h2
    | 2, _ => exact md2 h1 h2
    | 3, _ => exact md3 h1 h2
    | 4, _ => exact md4 h1 h2
    | 5, _ => exact md5 h1 h2
  · rw [a3, had']
    exact hWo (by decide)
  · rw [a4, a5, had']
    exact hFo (by decide)

end Spx.Bench
