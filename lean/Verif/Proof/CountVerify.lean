import Verif.Proof.CountSign
/-! # Calls made by verification -/

namespace Spx.Leak

open Spec

theorem Wp.known {α : Type} {f : Fn} {x : L α} {a : α} {Q : α → Nat → Prop} (hx : Free x) (ha : x.res = .ok a)
    (h : Q a 0) : Wp f x Q := by
  intro b hb
  rw [ha] at hb
  cases hb
  rw [hx f]
  exact h

section
variable {f : Fn} {E : Env} {κ : Fn → Nat} {ml : Nat} (hκ : HashCost f E.H κ ml)
include hκ

theorem count_compute_root {leaf : Bytes} {i o : Nat} {auth : Bytes} {h : Nat} {ctx : Ctx} {a : Addr} (h1 : 1 ≤ h)
    (h2 : h < 2 ^ 32) :
    Wp f (compute_root E leaf i o auth h ctx a) fun _ k => k = h * κ (.thash 2) := by
  unfold compute_root
  have hm : (h + 2 ^ 32 - 1) % 2 ^ 32 = h - 1 := by omega
  rw [hm]
  skipb
  refine Wp.bind (Wp.forConst (κ (.thash 2)) (fun i t _ => ?_) fun t => ?_)
  · obtain ⟨b, li, io, ad⟩ := t
    unfold compute_root_step
    dsimp only
    skipb
    skipb
    refine Wp.bind ?_
    refine Wp.branch (fun _ => ?_) (fun _ => ?_)
    all_goals
      refine Wp.bind (Wp.thash hκ fun b _ => ?_)
      skipb
      skipb
      skip1
      refine Wp.ok ?_
      omega
  · obtain ⟨b, li, io, ad⟩ := t
    dsimp only
    skipb
    skipb
    refine Wp.bind (Wp.thash hκ fun b _ => ?_)
    refine Wp.ok ?_
    obtain ⟨n, rfl⟩ : ∃ n, h = n + 1 := ⟨h - 1, by omega⟩
    rw [Nat.add_mul, Nat.add_sub_cancel]
    omega

theorem count_gen_chain {inp : Bytes} {l : Nat} {ctx : Ctx} {a : Addr} (hw : E.P.w ≤ 256) (hl : l < E.P.w) :
    Wp f (gen_chain E inp l ((E.P.w - 1 + 2 ^ 32 - l) % 2 ^ 32) ctx a) fun _ k =>
      k = (E.P.w - 1 - l) * κ (.thash 1) := by
  unfold gen_chain
  have hm : min ((l + (E.P.w - 1 + 2 ^ 32 - l) % 2 ^ 32) % 2 ^ 32) E.P.w - l = E.P.w - 1 - l := by omega
  skipb
  refine Wp.forConst (κ (.thash 1)) (fun i t _ => ?_) fun t => ?_
  · skipb
    refine Wp.bind (Wp.thash hκ fun b _ => ?_)
    refine Wp.ok ?_
    omega
  · show 0 + (min ((l + (E.P.w - 1 + 2 ^ 32 - l) % 2 ^ 32) % 2 ^ 32) E.P.w - l) * _ = _
    rw [hm]
    omega

omit hκ in
theorem sum_getD (L : List Nat) (g : Nat → Nat) :
    ((List.range L.length).map fun i => g (L.getD i 0)).sum = (L.map g).sum := by
  congr 1
  apply List.ext_getElem
  · simp
  · intro i h1 h2
    simp only [List.length_map, List.length_range] at h1
    simp [List.getElem?_eq_getElem h1]

theorem count_wots_pk_from_sig (hP : E.P.Valid) {pk sig msg : Bytes} {ctx : Ctx} {a : Addr}
    (hm : msg.length = E.P.n) :
    Wp f (wots_pk_from_sig E pk sig msg ctx a) fun _ k =>
      k = chainRest E.P.toSpec msg * κ (.thash 1) := by
  have hlen := lengths_length hP.wots msg
  have hlt := lengths_getD_lt hP.wots msg
  unfold wots_pk_from_sig chainRest
  rw [toSpec_w hP.w]
  refine Wp.bind (Wp.known (a := lengths E.P.toSpec msg) (by free) ?_ ?_)
  · rw [erase_chain_lengths]
    exact chain_lengths_spec hP.wots (by simp) hm
  generalize lengths E.P.toSpec msg = Ls at *
  refine Wp.forInv (fun _ _ => True) (fun i => (E.P.w - 1 - Ls.getD i 0) * κ (.thash 1)) trivial ?_ ?_
  · intro i t hi _
    replace hi : i < E.P.wotsLen := hi
    skipb
    refine Wp.bind (Wp.known (a := Ls.getD i 0) (by free) ?_ ?_)
    · show Spx.rd1 Ls i = _
      have hil : i < Ls.length := by omega
      simp only [Spx.rd1, hil, List.getElem?_eq_getElem, List.getD_eq_getElem?_getD, Option.getD_some]
    skipb
    refine Wp.bind ((count_gen_chain hκ hP.w_le.2 (hlt i)).mono fun r k _ hk => ?_)
    subst hk
    obtain ⟨o, ad⟩ := r
    dsimp only
    skipb
    refine Wp.ok ⟨trivial, ?_⟩
    omega
  · intro t _
    show 0 + ((List.range E.P.wotsLen).map _).sum = _
    rw [sum_mul fun i => E.P.w - 1 - Ls.getD i 0, ← hlen, sum_getD Ls fun x => E.P.w - 1 - x]
    omega

theorem count_fors_pk_from_sig (hP : E.P.Valid) {sig m : Bytes} {ctx : Ctx} {a : Addr} :
    Wp f (fors_pk_from_sig E sig m ctx a) fun _ k =>
      k = E.P.forsTrees * (κ (.thash 1) + E.P.forsHeight * κ (.thash 2)) + κ (.thash E.P.forsTrees) := by
  have h1 := hP.fh_le
  have h2 := hP.fh_pos
  unfold fors_pk_from_sig
  skipb
  skipb
  skipb
  skipb
  skipb
  refine Wp.bind (Wp.forConst (κ (.thash 1) + E.P.forsHeight * κ (.thash 2)) (fun i t _ => ?_) fun t => ?_)
  · obtain ⟨off, roots, ta⟩ := t
    unfold fors_pk_body fors_sk_to_leaf
    dsimp only
    skipb
    skipb
    skipb
    skipb
    skipb
    refine Wp.bind (Wp.thash hκ fun b _ => ?_)
    skipb
    refine Wp.bind ((count_compute_root hκ h2 (by omega)).mono fun r k _ hk => ?_)
    subst hk
    obtain ⟨root, ad⟩ := r
    dsimp only
    skipb
    refine Wp.ok ?_
    simp only [Nat.zero_add, Nat.add_zero]
  · obtain ⟨off, roots, ta⟩ := t
    dsimp only
    refine Wp.thash hκ fun b _ => ?_
    simp only [Nat.zero_add]

/-- Calls made by a `wots_pk_from_sig`. -/
def WotsCost (f : Fn) (P : Params) (W : WotsPk) (c : Bytes → Nat) : Prop :=
  ∀ pk sig msg ctx a, msg.length = P.n → Wp f (W pk sig msg ctx a) fun _ k => k = c msg

theorem ref_wotsCost (hP : E.P.Valid) :
    WotsCost f E.P (wots_pk_from_sig E) fun m => chainRest E.P.toSpec m * κ (.thash 1) :=
  fun _ _ _ _ _ hm => count_wots_pk_from_sig hκ hP hm

theorem count_verify_layer (hP : E.P.Valid) {W : WotsPk} {c : Bytes → Nat} (hW : WotsCost f E.P W c) {sig : Bytes} {ctx : Ctx} {i : Nat}
    {s : Nat × Bytes × Addr × Addr × Addr × Bytes × Nat × Nat} (hr : s.2.1.length = E.P.n) :
    Wp f (verify_layerT E W sig ctx i s) fun _ k =>
      k = c s.2.1 +
        (κ (.thash E.P.wotsLen) + E.P.treeHeight * κ (.thash 2)) := by
  have h1 := hP.th_le
  have h2 := hP.th_pos
  obtain ⟨off, root, wa, ta, pa, wp, tr, lf⟩ := s
  unfold verify_layerT
  dsimp only at hr ⊢
  skipb
  skipb
  skipb
  skipb
  skipb
  skipb
  refine Wp.bind ((hW _ _ _ _ _ hr).mono fun r k _ hk => ?_)
  subst hk
  obtain ⟨pk, ad⟩ := r
  dsimp only
  refine Wp.bind (Wp.thash hκ fun b _ => ?_)
  skipb
  refine Wp.bind ((count_compute_root hκ h2 (by show E.P.treeHeight < _; omega)).mono fun r k _ hk => ?_)
  subst hk
  obtain ⟨root', ad'⟩ := r
  dsimp only
  skipb
  refine Wp.ok ?_
  simp only [Nat.zero_add, Nat.add_zero]

omit hκ in
theorem weigh_flatMap (n : Nat) (g : Nat → List (Nat × Fn)) :
    weigh κ ((List.range n).flatMap g) = ((List.range n).map fun i => weigh κ (g i)).sum := by
  induction n with
  | zero => rfl
  | succ n ih =>
    rw [List.range_succ, List.flatMap_append, weigh_append, ih, List.map_append, List.sum_append]
    simp

omit hκ in
theorem weigh_verify {P : Params} (hP : P.Valid) {S : Hash} {pk m sig : Bytes} {md : Bytes} {tree leaf : Nat}
    {fpk : Bytes} (chains : Bytes → List (Nat × Fn))
    (hsd : splitDigest P.toSpec
      (S.Hmsg (sig.take P.n) (pk.take P.n) ((pk.drop P.n).take P.n) m (digestBytes P.toSpec)) = (md, tree, leaf))
    (hfd : forsPkFromSig P.toSpec S (pk.take P.n) tree leaf (sig.drop P.n) md = fpk) :
    weigh κ (verifyCostWith P.toSpec chains S pk m sig) = κ .init + κ .msg +
      (P.forsTrees * (κ (.thash 1) + P.forsHeight * κ (.thash 2)) + κ (.thash P.forsTrees)) +
      ((List.range P.d).map fun i => weigh κ (chains
        (htRoot P.toSpec S (pk.take P.n) tree leaf (sig.drop (P.n + P.forsBytes)) fpk i)) +
          (κ (.thash P.wotsLen) + P.treeHeight * κ (.thash 2))).sum := by
  unfold verifyCostWith
  simp only [show P.toSpec.n = P.n from rfl, hsd, hfd, toSpec_forsBytes]
  simp only [weigh_append, weigh_flatMap, weigh_cons, weigh_nil, toSpec_len hP.wots,
    show P.toSpec.k = P.forsTrees from rfl,
    show P.toSpec.a = P.forsHeight from rfl, show P.toSpec.d = P.d from rfl, show P.toSpec.h' = P.treeHeight from rfl,
    Nat.mul_add, Nat.mul_assoc, Nat.one_mul, Nat.add_zero]
  omega

/-- A build with these hash functions -/
def traced (E : Spx.Env) (H : HashImpl) : Env := ⟨E.P, H, E.G⟩

omit hκ in
theorem count_verify {E : Spx.Env} {H : HashImpl} (hκ : HashCost f H κ ml) (hH : H.erase = E.H) {S : Hash} (R : Refines E.P E.H S) (hP : E.P.Valid) {T : Spx.TreeCode} (hT : TreeCodeOK R T)
    {W : WotsPk} (hWT : ∀ pk sig msg ctx a, (W pk sig msg ctx a).res = T.wots_pk_from_sig pk sig msg ctx a)
    {chains : Bytes → List (Nat × Fn)} (hW : WotsCost f E.P W fun m => weigh κ (chains m)) {sig m pk : Bytes} (hpk : E.P.pkBytes ≤ pk.length)
    (hm : m.length < 2 ^ 60) (hml : m.length = ml) (hsig : E.P.spxBytes ≤ sig.length) :
    Wp f (crypto_sign_verifyT (traced E H) W sig E.P.spxBytes m pk) fun _ k =>
      k = weigh κ (verifyCostWith E.P.toSpec chains S pk m sig) := by
  have hpk' : 2 * E.P.n ≤ pk.length := hpk
  have hth := hP.th_le
  have hp30 : 2 ^ E.P.treeHeight ≤ 2 ^ 30 := Nat.pow_le_pow_right (by omega) hth
  obtain ⟨ctx, ec, hctx, hpub, -⟩ := uninitCtx_init R (E := E) (pk.take E.P.n) (uninit (E.G 21) E.P.n)
    (by simp; omega) (by simp)
  have hb := spxBytes_eq hP
  have em := R.hmsg ctx sig pk m hctx (by omega) hpk' (by rw [hpub]) hm
  rw [hpub] at em
  have hdl := R.Hmsg_len (sig.take E.P.n) (pk.take E.P.n) ((pk.drop E.P.n).take E.P.n) m (digestBytes E.P.toSpec)
  have hmd := splitDigest_md_length hdl
  have htr0 := splitDigest_tree_lt E.P.toSpec
    (S.Hmsg (sig.take E.P.n) (pk.take E.P.n) ((pk.drop E.P.n).take E.P.n) m (digestBytes E.P.toSpec))
  have hlf := splitDigest_leaf_lt E.P.toSpec
    (S.Hmsg (sig.take E.P.n) (pk.take E.P.n) ((pk.drop E.P.n).take E.P.n) m (digestBytes E.P.toSpec))
  have htot := fun md tree leaf fpk => weigh_verify (κ := κ) hP (S := S) (pk := pk) (m := m) (sig := sig) (md := md)
    (tree := tree) (leaf := leaf) (fpk := fpk) chains
  generalize hsd : splitDigest E.P.toSpec
    (S.Hmsg (sig.take E.P.n) (pk.take E.P.n) ((pk.drop E.P.n).take E.P.n) m (digestBytes E.P.toSpec)) = sd at *
  obtain ⟨md, tree, leaf⟩ := sd
  have htot := htot md tree leaf _ rfl rfl
  simp only at hmd htr0 hlf
  have htr : tree < 2 ^ 64 := Nat.lt_of_lt_of_le htr0 (Nat.pow_le_pow_right (by omega) hP.tree_bits)
  replace hlf : leaf < 2 ^ E.P.treeHeight := hlf
  have hz (t : Nat) (ht : t < 256) : Spx.set_type E.P.fam zeroAddr t = .ok (enc E.P.fam ⟨0, 0, t, 0, 0, 0⟩) := by
    rw [zeroAddr_eq E.P.fam]
    exact set_type_enc (f := E.P.fam) (a := zeroADRS)
      (okA (by omega) (by omega) (by omega) (by omega) (by omega) (by omega)) ht
  have e1 := hz SPX_ADDR_TYPE_WOTS (by decide)
  have e2 := hz SPX_ADDR_TYPE_HASHTREE (by decide)
  have e3 := hz SPX_ADDR_TYPE_WOTSPK (by decide)
  have e4 := set_tree_enc (f := E.P.fam) (a := ⟨0, 0, SPX_ADDR_TYPE_WOTS, 0, 0, 0⟩)
    (okA (by omega) (by omega) (by decide) (by omega) (by omega) (by omega)) htr
  have e5 := set_keypair_enc (f := E.P.fam) (a := ⟨0, tree, SPX_ADDR_TYPE_WOTS, 0, 0, 0⟩) (k := leaf)
  have hfb := toSpec_forsBytes E.P
  have hfb' : Spec.forsBytes E.P.toSpec = E.P.forsTrees * ((E.P.forsHeight + 1) * E.P.n) := rfl
  have e6 := fors_pk_from_sig_spec R hP hctx htr (kp := leaf) (by omega)
    (fa := ⟨0, tree, SPX_ADDR_TYPE_WOTS, leaf, 0, 0⟩) rfl rfl rfl
    (sig := sig.drop E.P.n) (md := md) (by simp; omega)
    (by rw [hmd, toSpec_mdBytes]; unfold Params.forsMsgBytes; rw [Nat.mul_comm]; omega)
  rw [hpub] at e6
  have hfl : (forsPkFromSig E.P.toSpec S (pk.take E.P.n) tree leaf (sig.drop E.P.n) md).length = E.P.n := R.T_len ..
  generalize hfd : forsPkFromSig E.P.toSpec S (pk.take E.P.n) tree leaf (sig.drop E.P.n) md = fpk at *
  rw [htot]
  have hn : (traced E H).P.n = E.P.n := rfl
  have eE : (traced E H).erase = E := by
    show (⟨E.P, H.erase, E.G⟩ : Spx.Env) = E
    rw [hH]
  unfold crypto_sign_verifyT
  refine Wp.branch (fun h => absurd rfl h) fun _ => ?_
  refine Wp.bind (Wp.known (a := pk.take E.P.n) (by free) (rd_ok (by omega)) ?_)
  refine Wp.bind (Wp.known (a := pk.take E.P.n) (by free) (wr_whole (by simp [uninitCtx]; omega)) ?_)
  have ec' : H.erase.initialize_hash_function { uninitCtx E with pub_seed := pk.take E.P.n } = .ok ctx := by rw [hH]; exact ec
  refine Wp.bind (Wp.init hκ fun c hc => ?_)
  have hc : c = ctx := Except.ok.inj (hc.symm.trans ec')
  subst hc
  refine Wp.bind (Wp.known (by free) (by rw [erase_set_type]; exact e1) ?_)
  refine Wp.bind (Wp.known (by free) (by rw [erase_set_type]; exact e2) ?_)
  refine Wp.bind (Wp.known (by free) (by rw [erase_set_type]; exact e3) ?_)
  have em' : H.erase.hash_message sig pk m c = .ok (md, tree, leaf) := by rw [hH]; exact em
  refine Wp.bind (Wp.msg hκ hml fun r hr => ?_)
  obtain rfl : r = (md, tree, leaf) := Except.ok.inj (hr.symm.trans em')
  dsimp only
  refine Wp.bind (Wp.known (by free) (by rw [erase_set_tree_addr]; exact e4) ?_)
  refine Wp.bind (Wp.known (by free) (by rw [erase_set_keypair_addr]; exact e5) ?_)
  refine Wp.bind (Wp.known (a := sig.drop E.P.n) (by free) (sub_ok (by omega)) ?_)
  refine Wp.bind ((count_fors_pk_from_sig (E := traced E H) hκ hP).mono fun r k hr hk => ?_)
  rw [erase_fors_pk_from_sig, eE] at hr
  obtain rfl : r = fpk := Except.ok.inj (hr.symm.trans e6)
  subst hk
  refine Wp.bind ?_
  have h0 : VerifyInv E S c sig tree leaf r 0
      (E.P.n + E.P.forsBytes, r, enc E.P.fam ⟨0, tree, SPX_ADDR_TYPE_WOTS, leaf, 0, 0⟩,
        enc E.P.fam ⟨0, 0, SPX_ADDR_TYPE_HASHTREE, 0, 0, 0⟩, enc E.P.fam ⟨0, 0, SPX_ADDR_TYPE_WOTSPK, 0, 0, 0⟩,
        uninit (E.G 13) E.P.wotsBytes, tree, leaf) :=
    ⟨by simp, rfl, ⟨0, tree, leaf, 0, 0, by omega, htr, by omega, by omega, by omega, rfl⟩,
      ⟨0, 0, 0, 0, by omega, by omega, by omega, by omega, rfl⟩, ⟨0, 0, 0, rfl⟩, by simp,
      (treeAt_zero ..).symm, rfl⟩
  refine Wp.forInv (VerifyInv E S c sig tree leaf r) (fun i => weigh κ (chains
        (htRoot E.P.toSpec S (pk.take E.P.n) tree leaf (sig.drop (E.P.n + E.P.forsBytes)) r i)) +
          (κ (.thash E.P.wotsLen) + E.P.treeHeight * κ (.thash 2))) h0 (fun i s hi h => ?_) fun t _ => ?_
  · have hroot := h.root
    rw [hpub] at hroot
    refine (count_verify_layer (E := traced E H) hκ hP hW ?_).mono fun s' k hs hk => ⟨?_, ?_⟩
    · rw [hroot]
      exact htRoot_length R hfl _
    · obtain ⟨s'', h1, h2⟩ := verify_layerT_spec R hP hctx hT hsig htr hlf hfl hi h
      rw [erase_verify_layerT (traced E H) hWT, eE] at hs
      obtain rfl : s' = s'' := Except.ok.inj (hs.symm.trans h1)
      exact h2
    · rw [hk, hroot]
      rfl
  · obtain ⟨off, root, a1, a2, a3, wp, t', l'⟩ := t
    dsimp only
    skipb
    skipb
    refine Wp.branch (fun _ => Wp.ok ?_) fun _ => Wp.ok ?_
    all_goals
      simp only [Nat.zero_add, Nat.add_zero, Nat.add_assoc]
      rfl

end
end Spx.Leak
