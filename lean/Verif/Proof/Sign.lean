import Verif.Proof.Merkle
import Verif.Proof.Fors
import Verif.Model.Sign
import Verif.Proof.List
/-! Key generation, signing and verification against the specification. -/

namespace Spx
open Spec

theorem toSpec_mdBytes (P : Params) : mdBytes P.toSpec = P.forsMsgBytes := by
  show (P.forsTrees * P.forsHeight + 7) / 8 = (P.forsHeight * P.forsTrees + 7) / 8
  rw [Nat.mul_comm]

theorem toSpec_treeBytes (P : Params) : treeBytes P.toSpec = P.treeBytes := rfl

theorem toSpec_leafBytes (P : Params) : leafBytes P.toSpec = P.leafBytes := rfl

theorem toSpec_forsBytes (P : Params) : Spec.forsBytes P.toSpec = P.forsBytes := by
  show P.forsTrees * ((P.forsHeight + 1) * P.n) = (P.forsHeight + 1) * P.forsTrees * P.n
  rw [← Nat.mul_assoc, Nat.mul_comm P.forsTrees]

theorem toSpec_xmssBytes {P : Params} (hP : P.Valid) :
    xmssBytes P.toSpec = P.wotsBytes + P.treeHeight * P.n := by
  unfold xmssBytes
  rw [toSpec_len hP.wots]
  rfl

theorem spxBytes_eq {P : Params} (hP : P.Valid) :
    P.spxBytes = P.n + P.forsBytes + P.d * xmssBytes P.toSpec := by
  rw [toSpec_xmssBytes hP]
  unfold Params.spxBytes
  rw [Nat.mul_add, ← hP.dvd, Nat.mul_comm P.treeHeight P.d, Nat.mul_assoc]
  omega

theorem treeAt_zero (p : Par) (tree : Nat) : treeAt p tree 0 = tree := by simp [treeAt]

theorem treeAt_succ (p : Par) (tree j : Nat) : treeAt p tree (j + 1) = treeAt p tree j >>> p.h' := by
  unfold treeAt
  rw [Nat.shiftRight_eq_div_pow, Nat.div_div_eq_div_mul, ← Nat.pow_add, Nat.mul_succ]

theorem leafAt_succ (p : Par) (tree leaf j : Nat) :
    leafAt p tree leaf (j + 1) = treeAt p tree j &&& (2 ^ p.h' - 1) := by
  rw [Nat.and_two_pow_sub_one_eq_mod]; rfl

theorem treeAt_le (p : Par) (tree j : Nat) : treeAt p tree j ≤ tree := Nat.div_le_self ..

theorem leafAt_lt {p : Par} {tree leaf : Nat} (hl : leaf < 2 ^ p.h') (j : Nat) :
    leafAt p tree leaf j < 2 ^ p.h' := by
  cases j with
  | zero => exact hl
  | succ j => exact Nat.mod_lt _ (Nat.two_pow_pos _)

theorem splitDigest_tree_lt (p : Par) (dg : Bytes) :
    (splitDigest p dg).2.1 < 2 ^ (p.h' * (p.d - 1)) := Nat.mod_lt _ (Nat.two_pow_pos _)

theorem splitDigest_leaf_lt (p : Par) (dg : Bytes) :
    (splitDigest p dg).2.2 < 2 ^ p.h' := Nat.mod_lt _ (Nat.two_pow_pos _)

theorem splitDigest_md_length {p : Par} {dg : Bytes} (h : dg.length = digestBytes p) :
    (splitDigest p dg).1.length = mdBytes p := by
  show (dg.take _).length = _
  rw [List.length_take, h]
  unfold digestBytes
  omega

theorem climb_length {H : Nat → Nat → Bytes → Bytes → Bytes} {n : Nat}
    (hH : ∀ h i l r, (H h i l r).length = n) {i : Nat} {path : Nat → Bytes} {leaf : Bytes}
    (hl : leaf.length = n) (t : Nat) : (climb H i path leaf t).length = n := by
  cases t with
  | zero => exact hl
  | succ t => rw [climb]; split <;> exact hH ..

section
variable {E : Env} {S : Spec.Hash} (R : Refines E.P E.H S) (hP : E.P.Valid)

include R in
theorem htRoot_length {pub : Bytes} {tree leaf : Nat} {sig m : Bytes} (hm : m.length = E.P.n) (j : Nat) :
    (htRoot E.P.toSpec S pub tree leaf sig m j).length = E.P.n := by
  cases j with
  | zero => exact hm
  | succ j => exact climb_length (fun _ _ _ _ => R.T_len ..) (R.T_len ..) _

variable {ctx : Ctx} (hctx : R.CtxOK ctx)

/-- Tree code computing the values of the specification. -/
structure TreeCodeOK {E : Env} {S : Spec.Hash} (R : Refines E.P E.H S) (T : TreeCode) : Prop where
  merkle_sign : ∀ {ctx : Ctx}, R.CtxOK ctx → ∀ {layer tree : Nat}, layer < 256 → tree < 2 ^ 64 →
    ∀ {u1 v1 u2 v2 : Nat}, u2 < 256 → v2 < 2 ^ 32 → ∀ {sig root : Bytes}, root.length = E.P.n →
    E.P.wotsBytes + E.P.treeHeight * E.P.n ≤ sig.length → ∀ {idx : Nat}, idx < 2 ^ E.P.treeHeight →
    ∃ u4 v4, u4 < 256 ∧ v4 < 2 ^ 32 ∧
      T.merkle_sign sig root ctx (enc E.P.fam ⟨layer, tree, WOTS_HASH, idx, u1, v1⟩)
          (enc E.P.fam ⟨layer, tree, TREE, 0, u2, v2⟩) idx =
        .ok (xmssSig E.P.toSpec S ctx.pub_seed ctx.sk_seed layer tree idx root ++
            sig.drop (E.P.wotsBytes + E.P.treeHeight * E.P.n),
          xmssRoot E.P.toSpec S ctx.pub_seed ctx.sk_seed layer tree,
          enc E.P.fam ⟨layer, tree, TREE, 0, u4, v4⟩)
  merkle_gen_root : ∀ {ctx : Ctx}, R.CtxOK ctx → ∀ {root0 : Bytes}, root0.length = E.P.n →
    T.merkle_gen_root root0 ctx = .ok (xmssRoot E.P.toSpec S ctx.pub_seed ctx.sk_seed (E.P.d - 1) 0)
  fors_sign : ∀ {ctx : Ctx}, R.CtxOK ctx → ∀ {tree kp : Nat}, tree < 2 ^ 64 → kp < 2 ^ 32 →
    ∀ {fa : ADRS}, fa.layer = 0 → fa.tree = tree → fa.w1 = kp → ∀ {sig md : Bytes},
    E.P.forsTrees * ((E.P.forsHeight + 1) * E.P.n) ≤ sig.length →
    E.P.forsTrees * E.P.forsHeight ≤ 8 * md.length →
    T.fors_sign sig md ctx (enc E.P.fam fa) =
      .ok (forsSig E.P.toSpec S ctx.pub_seed ctx.sk_seed tree kp md ++
          sig.drop (E.P.forsTrees * ((E.P.forsHeight + 1) * E.P.n)),
        forsPk E.P.toSpec S ctx.pub_seed ctx.sk_seed tree kp)
  wots_pk_from_sig : ∀ {ctx : Ctx}, R.CtxOK ctx → ∀ {layer tree kp : Nat}, layer < 256 → tree < 2 ^ 64 →
    kp < 2 ^ 32 → ∀ {u v : Nat}, u < 256 → v < 256 → ∀ {pk sig msg : Bytes}, pk.length = E.P.wotsBytes →
    E.P.wotsBytes ≤ sig.length → msg.length = E.P.n →
    ∃ u' v', u' < 256 ∧ v' < 256 ∧
      T.wots_pk_from_sig pk sig msg ctx (enc E.P.fam ⟨layer, tree, WOTS_HASH, kp, u, v⟩) =
        .ok (cat E.P.wotsLen (fun i =>
            chain (wotsF S ctx.pub_seed layer tree kp i) (chunk E.P.n sig i)
              ((lengths E.P.toSpec msg).getD i 0)
              (E.P.w - 1 - (lengths E.P.toSpec msg).getD i 0)),
            enc E.P.fam ⟨layer, tree, WOTS_HASH, kp, u', v'⟩)

include hP in
/-- The tree code of the reference implementation. -/
theorem refCode_ok : TreeCodeOK R (refCode E) where
  merkle_sign := by
    intro ctx hctx layer tree hlay htr u1 v1 u2 v2 hu2 hv2 sig root hroot hsig idx hidx
    obtain ⟨addr', ⟨u4, v4, hu4, hv4, haddr'⟩, e⟩ := merkle_sign_core R hP hctx hlay htr
      (wa := ⟨layer, tree, WOTS_HASH, idx, u1, v1⟩) rfl rfl (ty := TREE) (by decide)
      (tree_addr := enc E.P.fam ⟨layer, tree, TREE, 0, u2, v2⟩) ⟨u2, v2, hu2, hv2, rfl⟩ hroot hsig (idx := idx)
    rw [if_pos hidx, haddr'] at e
    exact ⟨u4, v4, hu4, hv4, e⟩
  merkle_gen_root hctx _ hr := merkle_gen_root_spec R hP hctx hr
  fors_sign hctx _ _ htr hkp _ hl ht hk _ _ hsig hmd := fors_sign_spec R hP hctx htr hkp hl ht hk hsig hmd
  wots_pk_from_sig hctx _ _ _ hlay htr hkp _ _ hu hv _ _ _ hpk hsig hm :=
    wots_pk_from_sig_spec R hP hctx hlay htr hkp hu hv hpk hsig hm

variable {T : TreeCode} (hT : TreeCodeOK R T)

/-- Loop state of `verify_layer` before layer `i`. -/
structure VerifyInv (E : Env) (S : Spec.Hash) (ctx : Ctx) (sig : Bytes) (tree leaf : Nat) (fpk : Bytes) (i : Nat)
    (s : Nat × Bytes × Addr × Addr × Addr × Bytes × Nat × Nat) : Prop where
  off : s.1 = E.P.n + E.P.forsBytes + i * xmssBytes E.P.toSpec
  root : s.2.1 = htRoot E.P.toSpec S ctx.pub_seed tree leaf (sig.drop (E.P.n + E.P.forsBytes)) fpk i
  wots_addr : ∃ l t k u v, l < 256 ∧ t < 2 ^ 64 ∧ k < 2 ^ 32 ∧ u < 256 ∧ v < 256 ∧
    s.2.2.1 = enc E.P.fam ⟨l, t, WOTS_HASH, k, u, v⟩
  tree_addr : ∃ l t u v, l < 256 ∧ t < 2 ^ 64 ∧ u < 256 ∧ v < 2 ^ 32 ∧
    s.2.2.2.1 = enc E.P.fam ⟨l, t, TREE, 0, u, v⟩
  pk_addr : ∃ l t k, s.2.2.2.2.1 = enc E.P.fam ⟨l, t, WOTS_PK, k, 0, 0⟩
  wots_pk : s.2.2.2.2.2.1.length = E.P.wotsBytes
  tree_eq : s.2.2.2.2.2.2.1 = treeAt E.P.toSpec tree i
  leaf_eq : s.2.2.2.2.2.2.2 = leafAt E.P.toSpec tree leaf i

include hP hctx hT in
theorem verify_layerT_spec {sig : Bytes} (hsig : E.P.spxBytes ≤ sig.length) {tree leaf : Nat}
    (htr : tree < 2 ^ 64) (hlf : leaf < 2 ^ E.P.treeHeight) {fpk : Bytes} (hfpk : fpk.length = E.P.n)
    {i : Nat} (hi : i < E.P.d) {s : Nat × Bytes × Addr × Addr × Addr × Bytes × Nat × Nat}
    (h : VerifyInv E S ctx sig tree leaf fpk i s) :
    ∃ s', verify_layerT E T sig ctx i s = .ok s' ∧ VerifyInv E S ctx sig tree leaf fpk (i + 1) s' := by
  obtain ⟨off, root, wots_addr, tree_addr, wots_pk_addr, wots_pk, tr, lf⟩ := s
  obtain ⟨h1, h2, ⟨l1, t1, k1, u1, v1, hl1, ht1, hk1, hu1, hv1, h3⟩, ⟨l2, t2, u2, v2, hl2, ht2, hu2, hv2, h4⟩,
    ⟨l3, t3, k3, h5⟩, h6, h7, h8⟩ := h
  simp only at h1 h2 h3 h4 h5 h6 h7 h8
  have hth := hP.th_le
  have hp30 : 2 ^ E.P.treeHeight ≤ 2 ^ 30 := Nat.pow_le_pow_right (by omega) hth
  have hd := hP.d_le
  have hilay : i < 256 := by omega
  have htr' : treeAt E.P.toSpec tree i < 2 ^ 64 := Nat.lt_of_le_of_lt (treeAt_le ..) htr
  have hlf' : leafAt E.P.toSpec tree leaf i < 2 ^ E.P.treeHeight := leafAt_lt (p := E.P.toSpec) hlf i
  have hroot : root.length = E.P.n := by rw [h2]; exact htRoot_length R hfpk i
  have hX := toSpec_xmssBytes hP
  have hmul : (i + 1) * xmssBytes E.P.toSpec ≤ E.P.d * xmssBytes E.P.toSpec := Nat.mul_le_mul_right _ hi
  rw [Nat.succ_mul] at hmul
  rw [spxBytes_eq hP] at hsig
  have hts : treeAt E.P.toSpec tree (i + 1) = treeAt E.P.toSpec tree i >>> E.P.treeHeight := treeAt_succ ..
  have hls : leafAt E.P.toSpec tree leaf (i + 1) = treeAt E.P.toSpec tree i &&& (2 ^ E.P.treeHeight - 1) :=
    leafAt_succ ..
  have hrs : htRoot E.P.toSpec S ctx.pub_seed tree leaf (sig.drop (E.P.n + E.P.forsBytes)) fpk (i + 1) =
      climb (treeH S ctx.pub_seed i (treeAt E.P.toSpec tree i)) (leafAt E.P.toSpec tree leaf i)
        (chunk E.P.n (sig.drop (off + E.P.wotsBytes)))
        (wotsPkFromSig E.P.toSpec S ctx.pub_seed i (treeAt E.P.toSpec tree i) (leafAt E.P.toSpec tree leaf i)
          (sig.drop off) root) E.P.treeHeight := by
    rw [htRoot, ← h2]
    unfold xmssRootFromSig
    rw [toSpec_len hP.wots]
    simp only [List.drop_drop, h1]
    rfl
  generalize treeAt E.P.toSpec tree i = tr0 at *
  generalize leafAt E.P.toSpec tree leaf i = lf0 at *
  subst h3 h4 h5 h7 h8
  have e1 := set_layer_enc (f := E.P.fam) (a := ⟨l2, t2, TREE, 0, u2, v2⟩)
    (okA hl2 ht2 (by decide) (by omega) hu2 hv2) (l := i) hilay
  have e2 := set_tree_enc (f := E.P.fam) (a := ⟨i, t2, TREE, 0, u2, v2⟩)
    (okA hilay ht2 (by decide) (by omega) hu2 hv2) (t := tr) htr'
  have e3 := copy_subtree_enc (f := E.P.fam) (a := ⟨l1, t1, WOTS_HASH, k1, u1, v1⟩)
    (b := ⟨i, tr, TREE, 0, u2, v2⟩)
  have e4 := set_keypair_enc (f := E.P.fam) (a := ⟨i, tr, WOTS_HASH, k1, u1, v1⟩) (k := lf)
  have e5 := copy_keypair_enc (f := E.P.fam) (a := ⟨l3, t3, WOTS_PK, k3, 0, 0⟩)
    (b := ⟨i, tr, WOTS_HASH, lf, u1, v1⟩)
  obtain ⟨u', v', hu', hv', e6⟩ := hT.wots_pk_from_sig hctx (layer := i) (tree := tr) (kp := lf)
    hilay htr' (by omega) hu1 hv1 (pk := wots_pk) (sig := sig.drop off) (msg := root) h6
    (by simp; omega) hroot
  generalize hc : (cat E.P.wotsLen fun j => chain (wotsF S ctx.pub_seed i tr lf j)
    (chunk E.P.n (sig.drop off) j) ((lengths E.P.toSpec root).getD j 0)
    (E.P.w - 1 - (lengths E.P.toSpec root).getD j 0)) = pkc at e6
  have hpkl : pkc.length = E.P.wotsLen * E.P.n := by
    rw [← hc]
    refine cat_length fun j hj => chain_length (wotsF_length R) (chunk_length ?_) _ _
    have : (j + 1) * E.P.n ≤ E.P.wotsLen * E.P.n := Nat.mul_le_mul_right _ hj
    have hwb : E.P.wotsBytes = E.P.wotsLen * E.P.n := rfl
    simp; omega
  have e7 := R.thash ctx ⟨i, tr, WOTS_PK, lf, 0, 0⟩ pkc E.P.wotsLen hctx
    (okA hilay htr' (by decide) (by omega) (by omega) (by omega))
    (by have := toSpec_len hP.wots; have h : E.P.toSpec.len2 ≥ 1 := Nat.le_add_left ..
        unfold Par.len at this; omega)
    (by rw [hpkl]; exact Nat.le_refl _) hP.len_n
  rw [List.take_of_length_le (by rw [hpkl]; exact Nat.le_refl _)] at e7
  have hwp : S.T ctx.pub_seed ⟨i, tr, WOTS_PK, lf, 0, 0⟩ pkc =
      wotsPkFromSig E.P.toSpec S ctx.pub_seed i tr lf (sig.drop off) root := by
    unfold wotsPkFromSig
    rw [toSpec_len hP.wots, toSpec_w hP.w, ← hc]
    rfl
  rw [hwp] at e7
  have hoff := offH_tree (S := S) (layer := i) (tree := tr) hth ctx.pub_seed
  obtain ⟨addr', e8, ⟨u4, v4, hu4, hv4, haddr'⟩⟩ := compute_root_spec R hctx (a := ⟨i, tr, TREE, 0, 0, 0⟩)
    (off := 0) (leaf_idx := lf)
    (okA hilay htr' (by decide) (by omega) (by omega) (by omega)) hth hP.n_lt hP.th_pos
    (lf := wotsPkFromSig E.P.toSpec S ctx.pub_seed i tr lf (sig.drop off) root)
    (auth := sig.drop (off + E.P.wotsBytes)) (by rw [← hwp, R.T_len]; exact Nat.le_refl _)
    (by simp; omega) (addr := enc E.P.fam ⟨i, tr, TREE, 0, u2, v2⟩) ⟨u2, v2, hu2, hv2, rfl⟩
  rw [climb_shift hoff hlf' (path' := chunk E.P.n (sig.drop (off + E.P.wotsBytes))) (fun _ _ => rfl),
    List.take_of_length_le (l := wotsPkFromSig ..) (by rw [← hwp, R.T_len]; exact Nat.le_refl _),
    Nat.zero_mul, Nat.add_zero, ← hrs] at e8
  refine ⟨(off + E.P.wotsBytes + E.P.treeHeight * E.P.n, _, enc E.P.fam ⟨i, tr, WOTS_HASH, lf, u', v'⟩,
    addr', enc E.P.fam ⟨i, tr, WOTS_PK, lf, 0, 0⟩, pkc, tr >>> E.P.treeHeight,
    tr &&& (2 ^ E.P.treeHeight - 1)), ?_, ⟨?_, rfl, ?_, ?_, ?_, ?_, ?_, ?_⟩⟩
  · unfold verify_layerT
    simp only
    rw [e1]
    simp only [ok_bind]
    rw [e2]
    simp only [ok_bind]
    rw [e3]
    simp only [ok_bind]
    rw [e4]
    simp only [ok_bind]
    rw [e5]
    simp only [ok_bind]
    rw [sub_ok (by omega)]
    simp only [ok_bind]
    rw [e6]
    simp only [ok_bind]
    rw [e7]
    simp only [ok_bind]
    rw [sub_ok (by omega)]
    simp only [ok_bind]
    rw [e8, shl1_ok (by omega)]
    rfl
  · show off + E.P.wotsBytes + E.P.treeHeight * E.P.n = _
    rw [h1, Nat.succ_mul, hX]
    omega
  · exact ⟨i, tr, lf, u', v', hilay, htr', by omega, hu', hv', rfl⟩
  · exact ⟨i, tr, u4, v4, hilay, htr', hu4, hv4, haddr'⟩
  · exact ⟨i, tr, lf, rfl⟩
  · exact hpkl
  · exact hts.symm
  · exact hls.symm

include R in
theorem uninitCtx_init (pub sk : Bytes) (hp : pub.length = E.P.n) (hs : sk.length = E.P.n) :
    ∃ ctx', E.H.initialize_hash_function { uninitCtx E with pub_seed := pub, sk_seed := sk } = .ok ctx' ∧
      R.CtxOK ctx' ∧ ctx'.pub_seed = pub ∧ ctx'.sk_seed = sk := by
  refine R.init _ hp hs ?_ ?_ ?_ ?_ ?_ <;> simp [uninitCtx]

include R hP hT in
/-- `crypto_sign_verify` computes the verification predicate of the specification. -/
theorem crypto_sign_verifyT_spec {sig m pk : Bytes} (hpk : E.P.pkBytes ≤ pk.length)
    (hm : m.length < 2 ^ 60) (hsig : E.P.spxBytes ≤ sig.length) :
    crypto_sign_verifyT E T sig E.P.spxBytes m pk =
      .ok (if verify E.P.toSpec S pk m sig then 0 else -1) := by
  have hpk' : 2 * E.P.n ≤ pk.length := hpk
  have hth := hP.th_le
  have hp30 : 2 ^ E.P.treeHeight ≤ 2 ^ 30 := Nat.pow_le_pow_right (by omega) hth
  obtain ⟨ctx, ec, hctx, hpub, -⟩ := uninitCtx_init R (E := E) (pk.take E.P.n) (uninit (E.G 21) E.P.n)
    (by simp; omega) (by simp)
  have hb := spxBytes_eq hP
  have em := R.hmsg ctx sig pk m hctx (by omega) hpk' (by rw [hpub]) hm
  rw [hpub] at em
  have hdl := R.Hmsg_len (sig.take E.P.n) (pk.take E.P.n) ((pk.drop E.P.n).take E.P.n) m (digestBytes E.P.toSpec)
  have hmd := splitDigest_md_length hdl
  have htr0 := splitDigest_tree_lt E.P.toSpec
    (S.Hmsg (sig.take E.P.n) (pk.take E.P.n) ((pk.drop E.P.n).take E.P.n) m (digestBytes E.P.toSpec))
  have hlf := splitDigest_leaf_lt E.P.toSpec
    (S.Hmsg (sig.take E.P.n) (pk.take E.P.n) ((pk.drop E.P.n).take E.P.n) m (digestBytes E.P.toSpec))
  generalize hsd : splitDigest E.P.toSpec
    (S.Hmsg (sig.take E.P.n) (pk.take E.P.n) ((pk.drop E.P.n).take E.P.n) m (digestBytes E.P.toSpec)) = sd at *
  obtain ⟨md, tree, leaf⟩ := sd
  simp only at hmd htr0 hlf
  have htr : tree < 2 ^ 64 := Nat.lt_of_lt_of_le htr0 (Nat.pow_le_pow_right (by omega) hP.tree_bits)
  replace hlf : leaf < 2 ^ E.P.treeHeight := hlf
  have hz (t : Nat) (ht : t < 256) : set_type E.P.fam zeroAddr t = .ok (enc E.P.fam ⟨0, 0, t, 0, 0, 0⟩) := by
    rw [zeroAddr_eq E.P.fam]
    exact set_type_enc (f := E.P.fam) (a := zeroADRS)
      (okA (by omega) (by omega) (by omega) (by omega) (by omega) (by omega)) ht
  have e1 := hz SPX_ADDR_TYPE_WOTS (by decide)
  have e2 := hz SPX_ADDR_TYPE_HASHTREE (by decide)
  have e3 := hz SPX_ADDR_TYPE_WOTSPK (by decide)
  have e4 := set_tree_enc (f := E.P.fam) (a := ⟨0, 0, SPX_ADDR_TYPE_WOTS, 0, 0, 0⟩)
    (okA (by omega) (by omega) (by decide) (by omega) (by omega) (by omega)) htr
  have e5 := set_keypair_enc (f := E.P.fam) (a := ⟨0, tree, SPX_ADDR_TYPE_WOTS, 0, 0, 0⟩) (k := leaf)
  have hfb := toSpec_forsBytes E.P
  have hfb' : Spec.forsBytes E.P.toSpec = E.P.forsTrees * ((E.P.forsHeight + 1) * E.P.n) := rfl
  have e6 := fors_pk_from_sig_spec R hP hctx htr (kp := leaf) (by omega)
    (fa := ⟨0, tree, SPX_ADDR_TYPE_WOTS, leaf, 0, 0⟩) rfl rfl rfl
    (sig := sig.drop E.P.n) (md := md) (by simp; omega)
    (by rw [hmd, toSpec_mdBytes]; unfold Params.forsMsgBytes; rw [Nat.mul_comm]; omega)
  rw [hpub] at e6
  have hfl : (forsPkFromSig E.P.toSpec S (pk.take E.P.n) tree leaf (sig.drop E.P.n) md).length = E.P.n := R.T_len ..
  have hver : verify E.P.toSpec S pk m sig = (htRoot E.P.toSpec S (pk.take E.P.n) tree leaf
      (sig.drop (E.P.n + E.P.forsBytes))
      (forsPkFromSig E.P.toSpec S (pk.take E.P.n) tree leaf (sig.drop E.P.n) md) E.P.d ==
        (pk.drop E.P.n).take E.P.n) := by
    unfold verify
    simp only [show E.P.toSpec.n = E.P.n from rfl, hsd, hfb]
    rfl
  generalize hfd : forsPkFromSig E.P.toSpec S (pk.take E.P.n) tree leaf (sig.drop E.P.n) md = fpk at *
  have hloop := forRange_inv (n := E.P.d) (body := verify_layerT E T sig ctx)
    (s := (E.P.n + E.P.forsBytes, fpk, enc E.P.fam ⟨0, tree, SPX_ADDR_TYPE_WOTS, leaf, 0, 0⟩,
      enc E.P.fam ⟨0, 0, SPX_ADDR_TYPE_HASHTREE, 0, 0, 0⟩, enc E.P.fam ⟨0, 0, SPX_ADDR_TYPE_WOTSPK, 0, 0, 0⟩,
      uninit (E.G 13) E.P.wotsBytes, tree, leaf))
    (VerifyInv E S ctx sig tree leaf fpk)
    ⟨by simp, rfl, ⟨0, tree, leaf, 0, 0, by omega, htr, by omega, by omega, by omega, rfl⟩,
      ⟨0, 0, 0, 0, by omega, by omega, by omega, by omega, rfl⟩, ⟨0, 0, 0, rfl⟩, by simp,
      (treeAt_zero ..).symm, rfl⟩
    (fun i s hi h => verify_layerT_spec R hP hctx hT hsig htr hlf hfl hi h)
  obtain ⟨⟨off, root, a1, a2, a3, wp, t', l'⟩, hs', hinv⟩ := hloop
  have hr := hinv.root
  simp only [hpub] at hr
  have hrl : root.length = E.P.n := by rw [hr]; exact htRoot_length R hfl _
  unfold crypto_sign_verifyT
  simp only [ne_eq, not_true_eq_false, if_false]
  rw [rd_ok (by omega)]
  simp only [ok_bind, List.drop_zero]
  rw [wr_whole (by simp [uninitCtx]; omega)]
  simp only [ok_bind]
  have ec' : E.H.initialize_hash_function { uninitCtx E with pub_seed := pk.take E.P.n } = .ok ctx := ec
  rw [ec']
  simp only [ok_bind]
  rw [e1]
  simp only [ok_bind]
  rw [e2]
  simp only [ok_bind]
  rw [e3]
  simp only [ok_bind]
  rw [em]
  simp only [ok_bind]
  rw [e4]
  simp only [ok_bind]
  rw [e5]
  simp only [ok_bind]
  rw [sub_ok (by omega)]
  simp only [ok_bind]
  rw [e6]
  simp only [ok_bind]
  rw [hs']
  simp only [ok_bind]
  rw [rd_ok (by omega), rd_ok (by omega)]
  simp only [ok_bind, List.drop_zero]
  rw [List.take_of_length_le (by omega), hver, hr]
  simp only [beq_iff_eq]
  split <;> rfl


/-- Loop state of `sign_layer` before layer `i`. -/
structure SignInv (E : Env) (S : Spec.Hash) (ctx : Ctx) (pre rest : Bytes) (tree leaf : Nat) (fpk : Bytes) (i : Nat)
    (s : Bytes × Nat × Bytes × Addr × Addr × Nat × Nat) : Prop where
  sig : s.1 = pre ++ (cat i (fun j => xmssSig E.P.toSpec S ctx.pub_seed ctx.sk_seed j (treeAt E.P.toSpec tree j)
      (leafAt E.P.toSpec tree leaf j) (htMsg E.P.toSpec S ctx.pub_seed ctx.sk_seed tree fpk j)) ++
      rest.drop (i * xmssBytes E.P.toSpec))
  off : s.2.1 = pre.length + i * xmssBytes E.P.toSpec
  root : s.2.2.1 = htMsg E.P.toSpec S ctx.pub_seed ctx.sk_seed tree fpk i
  wots_addr : ∃ l t k u v, l < 256 ∧ t < 2 ^ 64 ∧ k < 2 ^ 32 ∧ u < 256 ∧ v < 256 ∧
    s.2.2.2.1 = enc E.P.fam ⟨l, t, WOTS_HASH, k, u, v⟩
  tree_addr : ∃ l t u v, l < 256 ∧ t < 2 ^ 64 ∧ u < 256 ∧ v < 2 ^ 32 ∧
    s.2.2.2.2.1 = enc E.P.fam ⟨l, t, TREE, 0, u, v⟩
  tree_eq : s.2.2.2.2.2.1 = treeAt E.P.toSpec tree i
  leaf_eq : s.2.2.2.2.2.2 = leafAt E.P.toSpec tree leaf i

theorem node_length' {n : Nat} {H : Nat → Nat → Bytes → Bytes → Bytes} {leaf : Nat → Bytes}
    (hH : ∀ h i l r, (H h i l r).length = n) (hl : ∀ i, (leaf i).length = n) (h i : Nat) :
    (node H leaf h i).length = n := by
  cases h with
  | zero => exact hl i
  | succ h => rw [node]; exact hH ..

include R in
theorem htMsg_length {pub sk : Bytes} {tree : Nat} {m : Bytes} (hm : m.length = E.P.n) (j : Nat) :
    (htMsg E.P.toSpec S pub sk tree m j).length = E.P.n := by
  cases j with
  | zero => exact hm
  | succ j => exact node_length' (fun _ _ _ _ => R.T_len ..) (fun _ => R.T_len ..) _ _

include R in
theorem xmssSig_length {pub sk : Bytes} {layer tree leaf : Nat} {m : Bytes} :
    (xmssSig E.P.toSpec S pub sk layer tree leaf m).length = xmssBytes E.P.toSpec := by
  unfold xmssSig wotsSig authPath xmssBytes
  rw [List.length_append]
  congr 1
  · exact cat_length fun i _ => chain_length (wotsF_length R) (R.PRF_len ..) _ _
  · exact cat_length fun i _ => node_length' (fun _ _ _ _ => R.T_len ..) (fun _ => R.T_len ..) _ _

include hP hctx hT in
theorem sign_layerT_spec {pre rest : Bytes} (hrest : E.P.d * xmssBytes E.P.toSpec ≤ rest.length) {tree leaf : Nat}
    (htr : tree < 2 ^ 64) (hlf : leaf < 2 ^ E.P.treeHeight) {fpk : Bytes} (hfpk : fpk.length = E.P.n)
    {i : Nat} (hi : i < E.P.d) {s : Bytes × Nat × Bytes × Addr × Addr × Nat × Nat}
    (h : SignInv E S ctx pre rest tree leaf fpk i s) :
    ∃ s', sign_layerT E T ctx i s = .ok s' ∧ SignInv E S ctx pre rest tree leaf fpk (i + 1) s' := by
  obtain ⟨sig, off, root, wots_addr, tree_addr, tr, lf⟩ := s
  obtain ⟨h0, h1, h2, ⟨l1, t1, k1, u1, v1, hl1, ht1, hk1, hu1, hv1, h3⟩, ⟨l2, t2, u2, v2, hl2, ht2, hu2, hv2, h4⟩,
    h7, h8⟩ := h
  simp only at h0 h1 h2 h3 h4 h7 h8
  have hth := hP.th_le
  have hp30 : 2 ^ E.P.treeHeight ≤ 2 ^ 30 := Nat.pow_le_pow_right (by omega) hth
  have hd := hP.d_le
  have hilay : i < 256 := by omega
  have htr' : treeAt E.P.toSpec tree i < 2 ^ 64 := Nat.lt_of_le_of_lt (treeAt_le ..) htr
  have hlf' : leafAt E.P.toSpec tree leaf i < 2 ^ E.P.treeHeight := leafAt_lt (p := E.P.toSpec) hlf i
  have hroot : root.length = E.P.n := by rw [h2]; exact htMsg_length R hfpk i
  have hX := toSpec_xmssBytes hP
  have hmul : (i + 1) * xmssBytes E.P.toSpec ≤ E.P.d * xmssBytes E.P.toSpec := Nat.mul_le_mul_right _ hi
  rw [Nat.succ_mul] at hmul
  have hts : treeAt E.P.toSpec tree (i + 1) = treeAt E.P.toSpec tree i >>> E.P.treeHeight := treeAt_succ ..
  have hls : leafAt E.P.toSpec tree leaf (i + 1) = treeAt E.P.toSpec tree i &&& (2 ^ E.P.treeHeight - 1) :=
    leafAt_succ ..
  let f := fun j => xmssSig E.P.toSpec S ctx.pub_seed ctx.sk_seed j (treeAt E.P.toSpec tree j)
      (leafAt E.P.toSpec tree leaf j) (htMsg E.P.toSpec S ctx.pub_seed ctx.sk_seed tree fpk j)
  have hf : f = fun j => xmssSig E.P.toSpec S ctx.pub_seed ctx.sk_seed j (treeAt E.P.toSpec tree j)
      (leafAt E.P.toSpec tree leaf j) (htMsg E.P.toSpec S ctx.pub_seed ctx.sk_seed tree fpk j) := rfl
  have hfi : f i = xmssSig E.P.toSpec S ctx.pub_seed ctx.sk_seed i (treeAt E.P.toSpec tree i)
      (leafAt E.P.toSpec tree leaf i) root := by rw [h2]
  have hm' : htMsg E.P.toSpec S ctx.pub_seed ctx.sk_seed tree fpk (i + 1) =
    xmssRoot E.P.toSpec S ctx.pub_seed ctx.sk_seed i (treeAt E.P.toSpec tree i) := rfl
  have hfl : ∀ j, (f j).length = xmssBytes E.P.toSpec := fun j => xmssSig_length R
  rw [← hf] at h0
  generalize treeAt E.P.toSpec tree i = tr0 at *
  generalize leafAt E.P.toSpec tree leaf i = lf0 at *
  subst h3 h4 h7 h8
  have e1 := set_layer_enc (f := E.P.fam) (a := ⟨l2, t2, TREE, 0, u2, v2⟩)
    (okA hl2 ht2 (by decide) (by omega) hu2 hv2) (l := i) hilay
  have e2 := set_tree_enc (f := E.P.fam) (a := ⟨i, t2, TREE, 0, u2, v2⟩)
    (okA hilay ht2 (by decide) (by omega) hu2 hv2) (t := tr) htr'
  have e3 := copy_subtree_enc (f := E.P.fam) (a := ⟨l1, t1, WOTS_HASH, k1, u1, v1⟩)
    (b := ⟨i, tr, TREE, 0, u2, v2⟩)
  have e4 := set_keypair_enc (f := E.P.fam) (a := ⟨i, tr, WOTS_HASH, k1, u1, v1⟩) (k := lf)
  have hcl : (pre ++ cat i f).length = off := by
    rw [List.length_append, cat_length fun j _ => hfl j, h1]
  have hdrop : sig.drop off = rest.drop (i * xmssBytes E.P.toSpec) := by
    rw [h0, ← List.append_assoc, ← hcl, List.drop_left]
  have htake : sig.take off = pre ++ cat i f := by
    rw [h0, ← List.append_assoc, ← hcl, List.take_left]
  have hle : off ≤ sig.length := by
    rw [h0, ← List.append_assoc, ← hcl, List.length_append (as := pre ++ cat i f)]; omega
  obtain ⟨u4, v4, hu4, hv4, e5⟩ := hT.merkle_sign hctx (layer := i) (tree := tr) hilay htr'
    (u1 := u1) (v1 := v1) hu2 hv2
    (sig := sig.drop off) (root := root) hroot (by rw [hdrop, List.length_drop]; omega) (idx := lf) hlf'
  rw [← hfi, hdrop, List.drop_drop, ← hX, ← Nat.succ_mul] at e5
  refine ⟨(pre ++ (cat (i + 1) f ++ rest.drop ((i + 1) * xmssBytes E.P.toSpec)), pre.length + (i + 1) * xmssBytes E.P.toSpec,
    xmssRoot E.P.toSpec S ctx.pub_seed ctx.sk_seed i tr,
    enc E.P.fam ⟨i, tr, WOTS_HASH, lf, u1, v1⟩, enc E.P.fam ⟨i, tr, TREE, 0, u4, v4⟩, tr >>> E.P.treeHeight,
    tr &&& (2 ^ E.P.treeHeight - 1)), ?_, ⟨rfl, rfl, hm'.symm, ?_, ?_, ?_, ?_⟩⟩
  · unfold sign_layerT
    simp only
    rw [e1]
    simp only [ok_bind]
    rw [e2]
    simp only [ok_bind]
    rw [e3]
    simp only [ok_bind]
    rw [e4]
    simp only [ok_bind]
    rw [withSub_ok (d := f i ++ rest.drop ((i + 1) * xmssBytes E.P.toSpec))
      (x := (xmssRoot E.P.toSpec S ctx.pub_seed ctx.sk_seed i tr, enc E.P.fam ⟨i, tr, TREE, 0, u4, v4⟩)) hle (by rw [hdrop]; exact e5)]
    simp only [ok_bind]
    rw [shl1_ok (by omega), htake]
    simp only [ok_bind]
    rw [h1, Nat.succ_mul, hX, cat, List.append_assoc, List.append_assoc, Nat.add_assoc]
  · exact ⟨i, tr, lf, u1, v1, hilay, htr', by omega, hu1, hv1, rfl⟩
  · exact ⟨i, tr, u4, v4, hilay, htr', hu4, hv4, rfl⟩
  · exact hts.symm
  · exact hls.symm

include R hP in
theorem forsSig_length {pub sk : Bytes} {tree kp : Nat} {md : Bytes} :
    (forsSig E.P.toSpec S pub sk tree kp md).length = Spec.forsBytes E.P.toSpec := by
  have := hP.n_pos
  exact cat_length fun i _ => forsPart_length R

include hP hctx hT in
theorem sign_restT_spec {sig md : Bytes} {tree leaf : Nat} (hsig : E.P.spxBytes ≤ sig.length)
    (hmd : md.length = mdBytes E.P.toSpec) (htr : tree < 2 ^ 64) (hlf : leaf < 2 ^ E.P.treeHeight) :
    sign_restT E T sig ctx md tree leaf =
      .ok (sig.take E.P.n ++ forsSig E.P.toSpec S ctx.pub_seed ctx.sk_seed tree leaf md ++
        htSig E.P.toSpec S ctx.pub_seed ctx.sk_seed tree leaf (forsPk E.P.toSpec S ctx.pub_seed ctx.sk_seed tree leaf) ++
        sig.drop E.P.spxBytes) := by
  have hth := hP.th_le
  have hp30 : 2 ^ E.P.treeHeight ≤ 2 ^ 30 := Nat.pow_le_pow_right (by omega) hth
  have hb := spxBytes_eq hP
  have hz (t : Nat) (ht : t < 256) : set_type E.P.fam zeroAddr t = .ok (enc E.P.fam ⟨0, 0, t, 0, 0, 0⟩) := by
    rw [zeroAddr_eq E.P.fam]
    exact set_type_enc (f := E.P.fam) (a := zeroADRS)
      (okA (by omega) (by omega) (by omega) (by omega) (by omega) (by omega)) ht
  have e1 := hz SPX_ADDR_TYPE_WOTS (by decide)
  have e2 := hz SPX_ADDR_TYPE_HASHTREE (by decide)
  have e4 := set_tree_enc (f := E.P.fam) (a := ⟨0, 0, SPX_ADDR_TYPE_WOTS, 0, 0, 0⟩)
    (okA (by omega) (by omega) (by decide) (by omega) (by omega) (by omega)) htr
  have e5 := set_keypair_enc (f := E.P.fam) (a := ⟨0, tree, SPX_ADDR_TYPE_WOTS, 0, 0, 0⟩) (k := leaf)
  have hfb := toSpec_forsBytes E.P
  have hfb' : Spec.forsBytes E.P.toSpec = E.P.forsTrees * ((E.P.forsHeight + 1) * E.P.n) := rfl
  have e6 := hT.fors_sign hctx htr (kp := leaf) (by omega)
    (fa := ⟨0, tree, SPX_ADDR_TYPE_WOTS, leaf, 0, 0⟩) rfl rfl rfl
    (sig := sig.drop E.P.n) (md := md) (by simp; omega)
    (by rw [hmd, toSpec_mdBytes]; unfold Params.forsMsgBytes; rw [Nat.mul_comm]; omega)
  rw [← hfb', hfb, List.drop_drop] at e6
  have hfl : (forsPk E.P.toSpec S ctx.pub_seed ctx.sk_seed tree leaf).length = E.P.n := R.T_len ..
  have hsl : (forsSig E.P.toSpec S ctx.pub_seed ctx.sk_seed tree leaf md).length = E.P.forsBytes := by
    rw [forsSig_length R hP, hfb]
  unfold htSig
  generalize forsPk E.P.toSpec S ctx.pub_seed ctx.sk_seed tree leaf = fpk at *
  generalize forsSig E.P.toSpec S ctx.pub_seed ctx.sk_seed tree leaf md = fsig at *
  have hpl : (sig.take E.P.n ++ fsig).length = E.P.n + E.P.forsBytes := by simp [hsl]; omega
  have hloop := forRange_inv (n := E.P.d) (body := sign_layerT E T ctx)
    (s := (sig.take E.P.n ++ (fsig ++ sig.drop (E.P.n + E.P.forsBytes)), E.P.n + E.P.forsBytes, fpk,
      enc E.P.fam ⟨0, tree, SPX_ADDR_TYPE_WOTS, leaf, 0, 0⟩,
      enc E.P.fam ⟨0, 0, SPX_ADDR_TYPE_HASHTREE, 0, 0, 0⟩, tree, leaf))
    (SignInv E S ctx (sig.take E.P.n ++ fsig) (sig.drop (E.P.n + E.P.forsBytes)) tree leaf fpk)
    ⟨by simp [cat], by rw [hpl]; simp, rfl,
      ⟨0, tree, leaf, 0, 0, by omega, htr, by omega, by omega, by omega, rfl⟩,
      ⟨0, 0, 0, 0, by omega, by omega, by omega, by omega, rfl⟩,
      (treeAt_zero ..).symm, rfl⟩
    (fun i s hi h => sign_layerT_spec R hP hctx hT (by simp; omega) htr hlf hfl hi h)
  obtain ⟨⟨sig', off, root, a1, a2, t', l'⟩, hs', hinv⟩ := hloop
  have hr := hinv.sig
  simp only at hr
  unfold sign_restT
  rw [e1]
  simp only [ok_bind]
  rw [e2]
  simp only [ok_bind]
  rw [e4]
  simp only [ok_bind]
  rw [e5]
  simp only [ok_bind]
  rw [withSub_ok (d := fsig ++ sig.drop (E.P.n + E.P.forsBytes)) (x := fpk) (by omega) e6]
  simp only [ok_bind]
  rw [hs']
  simp only [ok_bind]
  rw [hr, List.drop_drop, ← hb]
  simp only [List.append_assoc]
  rfl

include R hP hT in
/-- `crypto_sign_signature` writes the signature of the specification and nothing else. -/
theorem crypto_sign_signatureT_spec {sig0 m sk optrand : Bytes} (hsk : E.P.skBytes ≤ sk.length)
    (hm : m.length < 2 ^ 60) (hopt : E.P.n ≤ optrand.length) (hsig : E.P.spxBytes ≤ sig0.length) :
    crypto_sign_signatureT E T sig0 m sk optrand =
      .ok (Spec.sign E.P.toSpec S sk (optrand.take E.P.n) m ++ sig0.drop E.P.spxBytes, E.P.spxBytes) := by
  have hsk' : 4 * E.P.n ≤ sk.length := by
    have h : E.P.skBytes = 2 * E.P.n + 2 * E.P.n := rfl
    omega
  have hb := spxBytes_eq hP
  obtain ⟨ctx, ec, hctx, hpub, hsks⟩ := uninitCtx_init R (E := E) ((sk.drop (2 * E.P.n)).take E.P.n) (sk.take E.P.n)
    (by simp; omega) (by simp; omega)
  have er := R.genR ctx (sk.drop E.P.n) optrand m hctx (by simp; omega) hopt hm
  have hRl : (S.PRFmsg ctx.pub_seed ((sk.drop E.P.n).take E.P.n) (optrand.take E.P.n) m).length = E.P.n :=
    R.PRFmsg_len ..
  rw [hpub] at er hRl
  generalize hRd : S.PRFmsg ((sk.drop (2 * E.P.n)).take E.P.n) ((sk.drop E.P.n).take E.P.n)
    (optrand.take E.P.n) m = Rv at *
  have ew := wr_ok (b := sig0) (d := Rv) (off := 0) (by omega)
  simp only [List.take_zero, List.nil_append, Nat.zero_add, hRl] at ew
  have em := R.hmsg ctx (Rv ++ sig0.drop E.P.n) (sk.drop (2 * E.P.n)) m hctx (by simp [hRl]) (by simp; omega)
    (by rw [hpub]) hm
  rw [hpub, List.drop_drop, show 2 * E.P.n + E.P.n = 3 * E.P.n by omega,
    List.take_append_of_le_length (by omega), List.take_of_length_le (by omega)] at em
  have hdl := R.Hmsg_len Rv ((sk.drop (2 * E.P.n)).take E.P.n) ((sk.drop (3 * E.P.n)).take E.P.n) m
    (digestBytes E.P.toSpec)
  generalize hdd : S.Hmsg Rv ((sk.drop (2 * E.P.n)).take E.P.n) ((sk.drop (3 * E.P.n)).take E.P.n) m
    (digestBytes E.P.toSpec) = dg at *
  have hmd := splitDigest_md_length hdl
  have htr0 := splitDigest_tree_lt E.P.toSpec dg
  have hlf := splitDigest_leaf_lt E.P.toSpec dg
  generalize hsd : splitDigest E.P.toSpec dg = sd at *
  obtain ⟨md, tree, leaf⟩ := sd
  simp only at hmd htr0 hlf
  have htr : tree < 2 ^ 64 := Nat.lt_of_lt_of_le htr0 (Nat.pow_le_pow_right (by omega) hP.tree_bits)
  have es := sign_restT_spec R hP hctx hT (sig := Rv ++ sig0.drop E.P.n) (by simp; omega) hmd htr hlf
  have hsgn : Spec.sign E.P.toSpec S sk (optrand.take E.P.n) m =
      Rv ++ forsSig E.P.toSpec S ctx.pub_seed ctx.sk_seed tree leaf md ++
        htSig E.P.toSpec S ctx.pub_seed ctx.sk_seed tree leaf
          (forsPk E.P.toSpec S ctx.pub_seed ctx.sk_seed tree leaf) := by
    unfold Spec.sign
    simp only [show E.P.toSpec.n = E.P.n from rfl, hRd, hdd, hsd, hpub, hsks]
  unfold crypto_sign_signatureT
  simp only
  rw [sub_ok (by omega)]
  simp only [ok_bind]
  rw [sub_ok (by omega)]
  simp only [ok_bind]
  rw [rd_ok (by omega)]
  simp only [ok_bind, List.drop_zero]
  rw [wr_whole (by simp [uninitCtx]; omega)]
  simp only [ok_bind]
  rw [rd_ok (by simp; omega)]
  simp only [ok_bind, List.drop_zero]
  rw [wr_whole (by simp [uninitCtx]; omega)]
  simp only [ok_bind]
  have ec' : E.H.initialize_hash_function
    { pub_seed := (sk.drop (2 * E.P.n)).take E.P.n, sk_seed := sk.take E.P.n,
      state_seeded := (uninitCtx E).state_seeded, state_seeded_512 := (uninitCtx E).state_seeded_512,
      tweaked512_rc64 := (uninitCtx E).tweaked512_rc64, tweaked256_rc32 := (uninitCtx E).tweaked256_rc32,
      rc := (uninitCtx E).rc } =
      .ok ctx := ec
  rw [ec']
  simp only [ok_bind]
  rw [er]
  simp only [ok_bind]
  rw [ew]
  simp only [ok_bind]
  rw [em]
  simp only [ok_bind]
  rw [es]
  simp only [ok_bind]
  rw [hsgn, List.take_append_of_le_length (by omega), List.take_of_length_le (l := Rv) (by omega),
    List.drop_append, hRl, List.drop_of_length_le (l := Rv) (by omega), List.nil_append, List.drop_drop,
    show E.P.n + (E.P.spxBytes - E.P.n) = E.P.spxBytes by omega]

include R hP hT in
/-- `crypto_sign_seed_keypair` writes the key pair of the specification and nothing else. -/
theorem crypto_sign_seed_keypairT_spec {pk0 sk0 seed : Bytes} (hpk : E.P.pkBytes ≤ pk0.length)
    (hsk : E.P.skBytes ≤ sk0.length) (hseed : E.P.seedBytes ≤ seed.length) :
    crypto_sign_seed_keypairT E T pk0 sk0 seed =
      .ok (pkOf E.P.toSpec S (seed.take E.P.seedBytes) ++ pk0.drop E.P.pkBytes,
        skOf E.P.toSpec S (seed.take E.P.seedBytes) ++ sk0.drop E.P.skBytes) := by
  have hpk' : 2 * E.P.n ≤ pk0.length := hpk
  have hsk' : 2 * E.P.n + 2 * E.P.n ≤ sk0.length := hsk
  have hse : 3 * E.P.n ≤ seed.length := hseed
  unfold pkOf skOf
  have hsb : E.P.seedBytes = 3 * E.P.n := rfl
  have hn' : E.P.toSpec.n = E.P.n := rfl
  have hpb : E.P.pkBytes = 2 * E.P.n := rfl
  have hkb : E.P.skBytes = 4 * E.P.n := by show 2 * E.P.n + 2 * E.P.n = _; omega
  rw [hsb, hpb, hkb]
  generalize hs3 : seed.take (3 * E.P.n) = s3
  have hs3l : s3.length = 3 * E.P.n := by rw [← hs3]; simp; omega
  obtain ⟨ctx, ec, hctx, hpub, hsks⟩ := uninitCtx_init R (E := E) ((s3.drop (2 * E.P.n)).take E.P.n) (s3.take E.P.n)
    (by simp; omega) (by simp; omega)
  have hpl : ((s3.drop (2 * E.P.n)).take E.P.n).length = E.P.n := by simp; omega
  have er := hT.merkle_gen_root hctx (root0 := ((sk0.drop (3 * E.P.n)).take E.P.n)) (by simp; omega)
  rw [hpub, hsks] at er
  simp only [hn'] at *
  have hrl : (xmssRoot E.P.toSpec S ((s3.drop (2 * E.P.n)).take E.P.n) (s3.take E.P.n) (E.P.d - 1) 0).length = E.P.n :=
    node_length' (fun _ _ _ _ => R.T_len ..) (fun _ => R.T_len ..) _ _
  rw [show E.P.toSpec.d = E.P.d from rfl]
  generalize hps : (s3.drop (2 * E.P.n)).take E.P.n = ps at *
  generalize hrt : xmssRoot E.P.toSpec S ps (s3.take E.P.n) (E.P.d - 1) 0 = rt at *
  have w1 : wr sk0 0 s3 = .ok (s3 ++ sk0.drop (3 * E.P.n)) := by
    rw [wr_ok (by omega)]; simp [hs3l]
  have w2 : wr pk0 0 ps = .ok (ps ++ pk0.drop E.P.n) := by
    rw [wr_ok (by omega)]; simp [hpl]
  have w3 : wr (s3 ++ sk0.drop (3 * E.P.n)) (3 * E.P.n) rt = .ok (s3 ++ rt ++ sk0.drop (4 * E.P.n)) := by
    rw [wr_ok (by simp; omega), hrl, List.take_left' hs3l, List.drop_append, List.drop_of_length_le (by omega), List.nil_append,
      List.drop_drop]
    congr 3
    omega
  have w4 : wr (ps ++ pk0.drop E.P.n) E.P.n rt = .ok (ps ++ rt ++ pk0.drop (2 * E.P.n)) := by
    rw [wr_ok (by simp; omega), hrl, List.take_left' hpl, List.drop_append, List.drop_of_length_le (by omega), List.nil_append,
      List.drop_drop]
    congr 3
    omega
  have r1 : rd (s3 ++ sk0.drop (3 * E.P.n)) (2 * E.P.n) E.P.n = .ok ps := by
    rw [rd_ok (by simp; omega), List.drop_append_of_le_length (by omega),
      List.take_append_of_le_length (by simp; omega), hps]
  have r2 : rd (ps ++ pk0.drop E.P.n) 0 E.P.n = .ok ps := by
    rw [rd_ok (by simp; omega), List.drop_zero, List.take_left' hpl]
  have r3 : rd (s3 ++ sk0.drop (3 * E.P.n)) 0 E.P.n = .ok (s3.take E.P.n) := by
    rw [rd_ok (by simp; omega), List.drop_zero, List.take_append_of_le_length (by omega)]
  have r4 : rd (s3 ++ sk0.drop (3 * E.P.n)) (3 * E.P.n) E.P.n = .ok ((sk0.drop (3 * E.P.n)).take E.P.n) := by
    rw [rd_ok (by simp; omega), List.drop_left' hs3l]
  have r5 : rd (s3 ++ rt ++ sk0.drop (4 * E.P.n)) (3 * E.P.n) E.P.n = .ok rt := by
    rw [rd_ok (by simp; omega), List.append_assoc, List.drop_left' hs3l, List.take_left' hrl]
  have ec' : E.H.initialize_hash_function
    { pub_seed := ps, sk_seed := s3.take E.P.n,
      state_seeded := (uninitCtx E).state_seeded, state_seeded_512 := (uninitCtx E).state_seeded_512,
      tweaked512_rc64 := (uninitCtx E).tweaked512_rc64, tweaked256_rc32 := (uninitCtx E).tweaked256_rc32,
      rc := (uninitCtx E).rc } =
      .ok ctx := ec
  unfold crypto_sign_seed_keypairT
  simp only
  rw [hsb, rd_ok (by omega)]
  simp only [ok_bind, List.drop_zero, hs3]
  rw [w1]
  simp only [ok_bind]
  rw [r1]
  simp only [ok_bind]
  rw [w2]
  simp only [ok_bind]
  rw [r2]
  simp only [ok_bind]
  rw [wr_whole (by simp [uninitCtx]; omega)]
  simp only [ok_bind]
  rw [r3]
  simp only [ok_bind]
  rw [wr_whole (by simp [uninitCtx]; omega)]
  simp only [ok_bind]
  rw [ec']
  simp only [ok_bind]
  rw [r4]
  simp only [ok_bind]
  rw [er]
  simp only [ok_bind]
  rw [w3]
  simp only [ok_bind]
  rw [r5]
  simp only [ok_bind]
  rw [w4]
  rfl

/-! The reference implementation. -/

include R hP in
theorem crypto_sign_verify_spec {sig m pk : Bytes} (hpk : E.P.pkBytes ≤ pk.length)
    (hm : m.length < 2 ^ 60) (hsig : E.P.spxBytes ≤ sig.length) :
    crypto_sign_verify E sig E.P.spxBytes m pk =
      .ok (if verify E.P.toSpec S pk m sig then 0 else -1) :=
  crypto_sign_verifyT_spec R hP (refCode_ok R hP) hpk hm hsig

include R hP in
theorem crypto_sign_signature_spec {sig0 m sk optrand : Bytes} (hsk : E.P.skBytes ≤ sk.length)
    (hm : m.length < 2 ^ 60) (hopt : E.P.n ≤ optrand.length) (hsig : E.P.spxBytes ≤ sig0.length) :
    crypto_sign_signature E sig0 m sk optrand =
      .ok (Spec.sign E.P.toSpec S sk (optrand.take E.P.n) m ++ sig0.drop E.P.spxBytes, E.P.spxBytes) :=
  crypto_sign_signatureT_spec R hP (refCode_ok R hP) hsk hm hopt hsig

include R hP in
theorem crypto_sign_seed_keypair_spec {pk0 sk0 seed : Bytes} (hpk : E.P.pkBytes ≤ pk0.length)
    (hsk : E.P.skBytes ≤ sk0.length) (hseed : E.P.seedBytes ≤ seed.length) :
    crypto_sign_seed_keypair E pk0 sk0 seed =
      .ok (pkOf E.P.toSpec S (seed.take E.P.seedBytes) ++ pk0.drop E.P.pkBytes,
        skOf E.P.toSpec S (seed.take E.P.seedBytes) ++ sk0.drop E.P.skBytes) :=
  crypto_sign_seed_keypairT_spec R hP (refCode_ok R hP) hpk hsk hseed

end
end Spx
