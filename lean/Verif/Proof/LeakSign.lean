import Verif.Model.Simulate
import Verif.Proof.LeakTree
import Verif.Proof.LeakShake
import Verif.Proof.LeakSha2
import Verif.Proof.LeakHaraka
import Verif.Proof.EraseSign
import Verif.Proof.Sign
import Verif.Proof.Correct
import Verif.Proof.Shipped
/-! # Two runs of key generation and of signing leave the same trace -/

namespace Spx.Leak
open Spec

/-- One step in two runs whose results are known. -/
theorem Rel.step {α β α' β' : Type} {R : β → β' → Prop} {x : L α} {y : L α'} {f : α → L β} {g : α' → L β'} {a : α} {b : α'}
    (ht : x.tr = y.tr) (hx : x.res = .ok a) (hy : y.res = .ok b) (h : Rel R (f a) (g b)) :
    Rel R (x >>= f) (y >>= g) := by
  obtain ⟨h1, h2⟩ := h
  show Rel R (L.bind x f) (L.bind y g)
  unfold L.bind
  rw [hx, hy]
  exact ⟨by show x.tr ++ _ = y.tr ++ _; rw [ht, h1], h2⟩

/-- A step which only changes the result of the first run. -/
theorem Rel.bind_ok {α β γ : Type} {x : L α} {y : L β} {f : α → γ} (h : Rel (fun _ _ => True) x y) :
    Rel (fun _ _ => True) (x >>= fun a => L.ok (f a)) y := by
  obtain ⟨h1, h2⟩ := h
  show Rel _ (L.bind x _) y
  unfold L.bind
  cases e : x.res with
  | ok a =>
    cases e' : y.res with
    | ok b => exact ⟨by show x.tr ++ [] = y.tr; rw [List.append_nil, h1], by rw [e']; trivial⟩
    | error e' => rw [e, e'] at h2; exact h2.elim
  | error er =>
    cases e' : y.res with
    | ok b => rw [e, e'] at h2; exact h2.elim
    | error e' => rw [e, e'] at h2; exact ⟨h1, by rw [e']; exact h2⟩

theorem low_implOf (P : Params) (g g' : Nat → Nat → Byte) : HashLow P (implOf P g) (implOf P g') := by
  unfold implOf
  cases P.fam
  · exact Sha2.low_impl P g g'
  · exact Shake.low_impl P g g'
  · exact Haraka.low_impl P g g'

/-- Tree code whose trace depends on the digest or the root it signs and on nothing else. -/
structure TreeLow (P : Params) (T T' : TreeCode) : Prop where
  merkle_sign : ∀ {c c' : Ctx}, CtxLow c c' → ∀ {sig sig' root : Bytes} {wa wa' ta ta' : Addr} {idx : Nat},
    Len sig sig' → root.length = P.n → Len wa wa' → Len ta ta' →
    Rel (fun r r' => Len r.1 r'.1 ∧ LenN P.n r.2.1 r'.2.1 ∧ Len r.2.2 r'.2.2) (T.merkle_sign sig root c wa ta idx)
      (T'.merkle_sign sig' root c' wa' ta' idx)
  merkle_gen_root : ∀ {c c' : Ctx}, CtxLow c c' → ∀ {root root' : Bytes}, LenN P.n root root' →
    Rel (LenN P.n) (T.merkle_gen_root root c) (T'.merkle_gen_root root' c')
  fors_sign : ∀ {c c' : Ctx}, CtxLow c c' → ∀ {sig sig' m : Bytes} {a a' : Addr}, Len sig sig' →
    P.forsTrees * P.forsHeight ≤ 8 * m.length → Len a a' →
    Rel (fun r r' => Len r.1 r'.1 ∧ LenN P.n r.2 r'.2) (T.fors_sign sig m c a) (T'.fors_sign sig' m c' a')

/-- The tree code of the reference implementation. -/
theorem low_refCode {P : Params} {H H' : HashImpl} {G G' : Nat → Nat → Byte} (hH : HashLow P H H') (hP : P.Valid) :
    TreeLow P (refCode ⟨P, H, G⟩) (refCode ⟨P, H', G'⟩) where
  merkle_sign := fun hc _ _ _ _ _ _ _ _ hs hr hwa hta =>
    low_merkle_sign hH hc hP.w_le.2 hs ⟨hr, hr⟩ (.inl ⟨hP.wots, rfl⟩) hwa hta
  merkle_gen_root := fun hc _ _ hr => low_merkle_gen_root hH hc hP.w_le.2 hr
  fors_sign := fun hc _ _ _ _ _ hs hm ha => low_fors_sign hH hc (by have := hP.fh_le; omega) hs hm ha

section
variable {P : Params} {H H' : HashImpl} {G G' : Nat → Nat → Byte} (hH : HashLow P H H') {T T' : TreeCode}
  (hT : TreeLow P T T')

/-- Contexts with different contents of uninitialised memory. -/
theorem low_uninitCtx {a a' b b' : Bytes} (ha : Len a a') (hb : Len b b') :
    CtxLow { uninitCtx (Env.erase ⟨P, H, G⟩) with pub_seed := a, sk_seed := b }
      { uninitCtx (Env.erase ⟨P, H', G'⟩) with pub_seed := a', sk_seed := b' } := by
  refine ⟨ha, hb, ?_, ?_, ?_, ?_, ?_⟩ <;>
  · unfold uninitCtx
    dsimp only
    rw [Len, len_uninit, len_uninit]

include hH hT in
/-- The trace of key generation does not depend on the seed. -/
theorem low_seed_keypair {pk pk' sk sk' seed seed' : Bytes} (hpk : Len pk pk') (hsk : Len sk sk')
    (hs : Len seed seed') :
    Rel (fun _ _ => True) (crypto_sign_seed_keypairT ⟨P, H, G⟩ T pk sk seed)
      (crypto_sign_seed_keypairT ⟨P, H', G'⟩ T' pk' sk' seed') := by
  have hu : ∀ {X Y : Nat → Byte} {k}, Len (uninit X k) (uninit Y k) := fun {X Y k} => by rw [Len, len_uninit, len_uninit]
  unfold crypto_sign_seed_keypairT
  dsimp only
  refine Rel.bind (Rel.rd hs rfl rfl) fun a a' ha => ?_
  refine Rel.bind (Rel.wr hsk rfl (ha.1.trans ha.2.symm)) fun b b' hb => ?_
  have hb' : Len b b' := hb.1.trans hb.2.symm
  refine Rel.bind (Rel.rd hb' rfl rfl) fun d d' hd => ?_
  refine Rel.bind (Rel.wr hpk rfl (hd.1.trans hd.2.symm)) fun e e' he => ?_
  have he' : Len e e' := he.1.trans he.2.symm
  refine Rel.bind (Rel.rd he' rfl rfl) fun p p' hp => ?_
  refine Rel.bind (Rel.wr hu rfl (hp.1.trans hp.2.symm)) fun p p' hp => ?_
  refine Rel.bind (Rel.rd hb' rfl rfl) fun q q' hq => ?_
  refine Rel.bind (Rel.wr hu rfl (hq.1.trans hq.2.symm)) fun q q' hq => ?_
  refine Rel.bind (hH.init _ _ (low_uninitCtx (hp.1.trans hp.2.symm) (hq.1.trans hq.2.symm))) fun c c' ⟨hc, _⟩ => ?_
  refine Rel.bind (Rel.rd hb' rfl rfl) fun r r' hr => ?_
  refine Rel.bind (hT.merkle_gen_root hc hr) fun r r' hr => ?_
  refine Rel.bind (Rel.wr hb' rfl (hr.1.trans hr.2.symm)) fun s s' hs => ?_
  refine Rel.bind (Rel.rd (hs.1.trans hs.2.symm) rfl rfl) fun t t' ht => ?_
  refine Rel.bind (Rel.wr he' rfl (ht.1.trans ht.2.symm)) fun u u' hu => ?_
  exact Rel.ok trivial

/-- Two states of the loop over the layers. -/
structure LayerLow (n : Nat) (s s' : Bytes × Nat × Bytes × Addr × Addr × Nat × Nat) : Prop where
  sig : Len s.1 s'.1
  off : s.2.1 = s'.2.1
  root : LenN n s.2.2.1 s'.2.2.1
  wots_addr : Len s.2.2.2.1 s'.2.2.2.1
  tree_addr : Len s.2.2.2.2.1 s'.2.2.2.2.1
  tree : s.2.2.2.2.2.1 = s'.2.2.2.2.2.1
  leaf : s.2.2.2.2.2.2 = s'.2.2.2.2.2.2

include hT in
theorem low_sign_layer {c c' : Ctx} (hc : CtxLow c c') {i : Nat}
    {s s' : Bytes × Nat × Bytes × Addr × Addr × Nat × Nat} (h : LayerLow P.n s s') (hr : s.2.2.1 = s'.2.2.1) :
    Rel (LayerLow P.n) (sign_layerT ⟨P, H, G⟩ T c i s) (sign_layerT ⟨P, H', G'⟩ T' c' i s') := by
  obtain ⟨sig, off, root, wa, ta, tr, lf⟩ := s
  obtain ⟨sig', off', root', wa', ta', tr', lf'⟩ := s'
  obtain ⟨h1, h2, h3, h4, h5, h6, h7⟩ := h
  dsimp only at h1 h2 h3 h4 h5 h6 h7 hr
  subst h2 h6 h7
  subst hr
  unfold sign_layerT
  dsimp only
  refine Rel.bind (low_set_layer_addr h5) fun a a' ha => ?_
  refine Rel.bind (low_set_tree_addr (ha.1.trans ha.2.symm)) fun b b' hb => ?_
  have hb' : Len b b' := hb.1.trans hb.2.symm
  refine Rel.bind (low_copy_subtree_addr h4 hb') fun d d' hd => ?_
  refine Rel.bind (low_set_keypair_addr (hd.1.trans hd.2.symm)) fun e e' he => ?_
  have he' : Len e e' := he.1.trans he.2.symm
  refine Rel.bind (Rel.withSub_len (R := fun x y => LenN P.n x.1 y.1 ∧ Len x.2 y.2) h1 rfl fun p p' hp hp' => ?_) ?_
  · exact hT.merkle_sign hc (hp.trans hp'.symm) h3.1 he' hb'
  · rintro ⟨x1, x2, x3⟩ ⟨y1, y2, y3⟩ ⟨g1, g2, g3⟩
    dsimp only at g1 g2 g3 ⊢
    refine Rel.bind (Rel.shl1 _) ?_
    rintro k _ ⟨rfl, _⟩
    exact Rel.ok ⟨g1, rfl, g2, he', g3, rfl, rfl⟩

end

section
variable {P : Params} {H H' : HashImpl} {G G' : Nat → Nat → Byte} {S : Spec.Hash}
  (R : Refines P H.erase S) (hP : P.Valid) {c c' : Ctx} (hc : CtxLow c c') (hctx : R.CtxOK c) {T T' : TreeCode}
  (hT : TreeLow P T T') {K : Spx.TreeCode} (hK : T.Erases K) (hKR : TreeCodeOK (E := Env.erase ⟨P, H, G⟩) R K)

include hP hc hctx hT hK hKR in
/-- Signing after the digest has been computed, and the simulation from the signature. -/
theorem low_sign_rest {buf buf' md R0 : Bytes} {tree leaf : Nat} (hbuf : Len buf buf') (hl : P.spxBytes ≤ buf.length)
    (hmd : md.length = mdBytes P.toSpec) (htr : tree < 2 ^ 64) (hlf : leaf < 2 ^ P.treeHeight) (hR : R0.length = P.n) :
    Rel (fun _ _ => True) (sign_restT ⟨P, H, G⟩ T buf c md tree leaf)
      (simulate_rest ⟨P, H', G'⟩ T' S c.pub_seed
        (R0 ++ forsSig P.toSpec S c.pub_seed c.sk_seed tree leaf md ++
          htSig P.toSpec S c.pub_seed c.sk_seed tree leaf (forsPk P.toSpec S c.pub_seed c.sk_seed tree leaf))
        buf' c' md tree leaf) := by
  have hth := hP.th_le
  have hp30 : 2 ^ P.treeHeight ≤ 2 ^ 30 := Nat.pow_le_pow_right (by omega) hth
  have hb := spxBytes_eq hP
  have hz (t : Nat) (ht : t < 256) : Spx.set_type P.fam zeroAddr t = .ok (enc P.fam ⟨0, 0, t, 0, 0, 0⟩) := by
    rw [zeroAddr_eq P.fam]
    exact set_type_enc (f := P.fam) (a := zeroADRS)
      (okA (by omega) (by omega) (by omega) (by omega) (by omega) (by omega)) ht
  have e1 := hz SPX_ADDR_TYPE_WOTS (by decide)
  have e2 := hz SPX_ADDR_TYPE_HASHTREE (by decide)
  have e4 := set_tree_enc (f := P.fam) (a := ⟨0, 0, SPX_ADDR_TYPE_WOTS, 0, 0, 0⟩)
    (okA (by omega) (by omega) (by decide) (by omega) (by omega) (by omega)) htr
  have e5 := set_keypair_enc (f := P.fam) (a := ⟨0, tree, SPX_ADDR_TYPE_WOTS, 0, 0, 0⟩) (k := leaf)
  have hfb := toSpec_forsBytes P
  have hfb' : Spec.forsBytes P.toSpec = P.forsTrees * ((P.forsHeight + 1) * P.n) := rfl
  have hmd8 : P.forsTrees * P.forsHeight ≤ 8 * md.length := by
    rw [hmd, toSpec_mdBytes]; unfold Params.forsMsgBytes; rw [Nat.mul_comm]; omega
  have e6 := hKR.fors_sign hctx htr (kp := leaf) (by omega)
    (fa := ⟨0, tree, SPX_ADDR_TYPE_WOTS, leaf, 0, 0⟩) rfl rfl rfl
    (sig := buf.drop P.n) (md := md)
    (by show P.forsTrees * ((P.forsHeight + 1) * P.n) ≤ _; rw [List.length_drop]; omega) hmd8
  have hfl : (forsPk P.toSpec S c.pub_seed c.sk_seed tree leaf).length = P.n := R.T_len ..
  have hsl : (forsSig P.toSpec S c.pub_seed c.sk_seed tree leaf md).length = P.forsBytes := by
    rw [forsSig_length (E := Env.erase ⟨P, H, G⟩) R hP]; exact hfb
  have hfc := fors_correct R.hashLen (pub := c.pub_seed) (sk := c.sk_seed) tree leaf md
    (htSig P.toSpec S c.pub_seed c.sk_seed tree leaf (forsPk P.toSpec S c.pub_seed c.sk_seed tree leaf))
  have hhc := ht_correct R.hashLen (p := P.toSpec) (pub := c.pub_seed) (sk := c.sk_seed) (tree := tree) hlf
    (forsPk P.toSpec S c.pub_seed c.sk_seed tree leaf) []
  rw [List.append_nil] at hhc
  generalize htSig P.toSpec S c.pub_seed c.sk_seed tree leaf (forsPk P.toSpec S c.pub_seed c.sk_seed tree leaf) = hts at *
  generalize hfpk : forsPk P.toSpec S c.pub_seed c.sk_seed tree leaf = fpk at *
  generalize hfsig : forsSig P.toSpec S c.pub_seed c.sk_seed tree leaf md = fsig at *
  unfold sign_restT simulate_rest
  dsimp only
  refine Rel.bind ((low_set_type (x := zeroAddr) (y := zeroAddr) rfl).mono
    (S := fun x y => Len x y ∧ x = enc P.fam ⟨0, 0, SPX_ADDR_TYPE_WOTS, 0, 0, 0⟩) fun a b ha _ h => ⟨h.1.trans h.2.symm, ?_⟩) ?_
  · rw [erase_set_type, e1] at ha; cases ha; rfl
  rintro wa wa' ⟨hwa, rfl⟩
  refine Rel.bind ((low_set_type (x := zeroAddr) (y := zeroAddr) rfl).mono
    (S := fun x y => Len x y ∧ x = enc P.fam ⟨0, 0, SPX_ADDR_TYPE_HASHTREE, 0, 0, 0⟩) fun a b ha _ h => ⟨h.1.trans h.2.symm, ?_⟩) ?_
  · rw [erase_set_type, e2] at ha; cases ha; rfl
  rintro ta ta' ⟨hta, rfl⟩
  refine Rel.bind ((low_set_tree_addr hwa).mono
    (S := fun x y => Len x y ∧ x = enc P.fam ⟨0, tree, SPX_ADDR_TYPE_WOTS, 0, 0, 0⟩) fun a b ha _ h => ⟨h.1.trans h.2.symm, ?_⟩) ?_
  · rw [erase_set_tree_addr, e4] at ha; cases ha; rfl
  rintro wa wa' ⟨hwa, rfl⟩
  refine Rel.bind ((low_set_keypair_addr hwa).mono
    (S := fun x y => Len x y ∧ x = enc P.fam ⟨0, tree, SPX_ADDR_TYPE_WOTS, leaf, 0, 0⟩) fun a b ha _ h => ⟨h.1.trans h.2.symm, ?_⟩) ?_
  · rw [erase_set_keypair_addr, e5] at ha; cases ha; rfl
  rintro wa wa' ⟨hwa, rfl⟩
  refine Rel.bind ((Rel.withSub_len (R := LenN P.n) hbuf rfl fun p p' hp hp' =>
    hT.fors_sign hc (hp.trans hp'.symm) hmd8 hwa).mono
    (S := fun x y => Len x.1 y.1 ∧ LenN P.n x.2 y.2 ∧
      x = (buf.take P.n ++ (fsig ++ buf.drop (P.n + P.forsBytes)), fpk)) fun a b ha _ h => ⟨h.1, h.2, ?_⟩) ?_
  · rw [res_withSub (f' := fun p => K.fors_sign p md c
      (enc P.fam ⟨0, tree, SPX_ADDR_TYPE_WOTS, leaf, 0, 0⟩)) _ _ (fun p => hK.fors_sign ..),
      withSub_ok (d := fsig ++ buf.drop (P.n + P.forsBytes)) (x := fpk) (by omega) (by
        have e7 := e6
        rw [← hfb', hfb, List.drop_drop] at e7
        exact e7)] at ha
    cases ha
    rfl
  rintro ⟨b1, r1⟩ ⟨b2, r2⟩ ⟨h1, h2, h3⟩
  cases h3
  dsimp only at h1 h2 ⊢
  have hd1 : (R0 ++ fsig ++ hts).drop P.n = fsig ++ hts := by
    rw [List.append_assoc, ← hR, List.drop_left]
  have hd2 : (R0 ++ fsig ++ hts).drop (P.n + P.forsBytes) = hts := by
    rw [← hR, ← hsl, ← List.length_append, List.drop_left]
  rw [hd1, hd2, hfc]
  have hpl : (buf.take P.n ++ fsig).length = P.n + P.forsBytes := by
    rw [List.length_append, List.length_take, hsl]; omega
  have hloop : Rel (fun s s' => SignInv (Env.erase ⟨P, H, G⟩) S c (buf.take P.n ++ fsig) (buf.drop (P.n + P.forsBytes))
      tree leaf fpk P.d s ∧ LayerLow P.n s s') (forRange P.d (sign_layerT ⟨P, H, G⟩ T c)
        (buf.take P.n ++ (fsig ++ buf.drop (P.n + P.forsBytes)), P.n + P.forsBytes, fpk,
          enc P.fam ⟨0, tree, SPX_ADDR_TYPE_WOTS, leaf, 0, 0⟩, enc P.fam ⟨0, 0, SPX_ADDR_TYPE_HASHTREE, 0, 0, 0⟩, tree, leaf))
      (forRange P.d (simulate_layer ⟨P, H', G'⟩ T' c' (htRoot P.toSpec S c.pub_seed tree leaf hts fpk))
        (b2, P.n + P.forsBytes, fpk, wa', ta', tree, leaf)) := by
    refine Rel.forRangeI (R := fun i s s' => SignInv (Env.erase ⟨P, H, G⟩) S c (buf.take P.n ++ fsig)
      (buf.drop (P.n + P.forsBytes)) tree leaf fpk i s ∧ LayerLow P.n s s') rfl ?_ ?_
    · refine ⟨⟨by simp [cat], by rw [hpl]; simp, rfl,
        ⟨0, tree, leaf, 0, 0, by omega, htr, by omega, by omega, by omega, rfl⟩,
        ⟨0, 0, 0, 0, by omega, by omega, by omega, by omega, rfl⟩, (treeAt_zero ..).symm, rfl⟩,
        h1, rfl, ⟨hfl, hfl⟩, hwa, hta, rfl, rfl⟩
    · intro i s s' hi ⟨hinv, hlow⟩
      have hroot := hinv.root
      have e := hhc i (Nat.le_of_lt hi)
      unfold simulate_layer
      refine (low_sign_layer hT hc (s' := (s'.1, s'.2.1, htRoot P.toSpec S c.pub_seed tree leaf hts fpk i, s'.2.2.2))
        ⟨hlow.sig, hlow.off, ⟨hlow.root.1, ?_⟩, hlow.wots_addr, hlow.tree_addr, hlow.tree, hlow.leaf⟩ ?_).mono ?_
      · show (htRoot P.toSpec S c.pub_seed tree leaf hts fpk i).length = P.n
        rw [e]
        exact htMsg_length (E := Env.erase ⟨P, H, G⟩) R hfl i
      · show s.2.2.1 = htRoot P.toSpec S c.pub_seed tree leaf hts fpk i
        rw [e]
        exact hroot
      · intro a b ha _ hab
        obtain ⟨t, et, ht⟩ := sign_layerT_spec (E := Env.erase ⟨P, H, G⟩) R hP hctx hKR
          (by rw [List.length_drop]; show P.d * xmssBytes P.toSpec ≤ _; omega) htr hlf hfl hi hinv
        rw [erase_sign_layerT _ hK, et] at ha
        cases ha
        exact ⟨ht, hab⟩
  refine Rel.bind hloop ?_
  rintro ⟨b, _⟩ ⟨b', _⟩ _
  exact Rel.ok trivial

end

section
variable {P : Params} {H H' : HashImpl} {G G' : Nat → Nat → Byte} (hH : HashLow P H H') {S : Spec.Hash}
  (R : Refines P H.erase S) (R' : Refines P H'.erase S) (hP : P.Valid) {T T' : TreeCode} (hT : TreeLow P T T') {K : Spx.TreeCode}
  (hK : T.Erases K) (hKR : TreeCodeOK (E := Env.erase ⟨P, H, G⟩) R K)

include hH R R' hP hT hK hKR in
/-- Signing and the simulation from the public key, the message and the signature. -/
theorem low_sign {sig0 m sk optrand : Bytes} (hsk : sk.length = P.skBytes) (hm : m.length < 2 ^ 60)
    (hopt : optrand.length = P.n) (hsig : P.spxBytes ≤ sig0.length) :
    Rel (fun _ _ => True) (crypto_sign_signatureT ⟨P, H, G⟩ T sig0 m sk optrand)
      (simulateWith ⟨P, H', G'⟩ T' S (sk.drop (2 * P.n)) m (Spec.sign P.toSpec S sk optrand m) sig0.length) := by
  have hsk' : sk.length = 4 * P.n := by rw [hsk]; show 2 * P.n + 2 * P.n = _; omega
  have hb := spxBytes_eq hP
  have hz2 : (List.replicate (2 * P.n) 0#8 ++ sk.drop (2 * P.n)).length = 4 * P.n := by
    rw [List.length_append, List.length_replicate, List.length_drop]; omega
  have hzd : (List.replicate (2 * P.n) 0#8 ++ sk.drop (2 * P.n)).drop (2 * P.n) = sk.drop (2 * P.n) := by
    conv => lhs; arg 1; rw [← List.length_replicate (n := 2 * P.n) (a := 0#8)]
    exact List.drop_left
  have hlen : Len sk (List.replicate (2 * P.n) 0#8 ++ sk.drop (2 * P.n)) := hsk'.trans hz2.symm
  have hpl : (sk.drop (2 * P.n)).length = 2 * P.n := by rw [List.length_drop]; omega
  have hu : ∀ (X : Nat → Byte), (uninit X P.n).length = P.n := fun X => len_uninit _ _
  have hfirst : ∀ b : Bytes, P.n ≤ b.length → Spx.rd b 0 P.n = .ok (b.take P.n) := fun b h => by
    rw [rd_ok (by omega), List.drop_zero]
  have ht : ∀ b : Bytes, P.n ≤ b.length → (b.take P.n).length = P.n := fun b h => by
    rw [List.length_take]; omega
  unfold crypto_sign_signatureT simulateWith
  dsimp only
  refine Rel.step rfl (sub_ok (by omega)) (sub_ok (by omega)) ?_
  refine Rel.step rfl (sub_ok (by omega)) (sub_ok (by omega)) ?_
  rw [hzd]
  refine Rel.step rfl (hfirst _ (by omega)) (hfirst _ (by omega)) ?_
  generalize hs1 : (List.replicate (2 * P.n) 0#8 ++ sk.drop (2 * P.n)).take P.n = sks'
  have hs1l : sks'.length = P.n := by rw [← hs1]; exact ht _ (by omega)
  refine Rel.step (by show [Ev.wr _ _] = [Ev.wr _ _]; rw [hs1l, ht _ (by omega)])
    (wr_whole (by rw [ht _ (by omega)]; exact (hu _).symm)) (wr_whole (by rw [hs1l]; exact (hu _).symm)) ?_
  refine Rel.step rfl (hfirst _ (by omega)) (hfirst _ (by omega)) ?_
  refine Rel.step rfl (wr_whole (by rw [ht _ (by omega)]; exact (hu _).symm))
    (wr_whole (by rw [ht _ (by omega)]; exact (hu _).symm)) ?_
  obtain ⟨c, ec, hctx, hpub, hsks⟩ := uninitCtx_init (E := Env.erase ⟨P, H, G⟩) R ((sk.drop (2 * P.n)).take P.n)
    (sk.take P.n) (ht _ (by omega)) (ht _ (by omega))
  obtain ⟨c', ec', hctx', hpub', -⟩ := uninitCtx_init (E := Env.erase ⟨P, H', G'⟩) R' ((sk.drop (2 * P.n)).take P.n)
    sks' (ht _ (by omega)) hs1l
  have hi := hH.init _ _ (low_uninitCtx (P := P) (H := H) (H' := H') (G := G) (G' := G')
    (a := (sk.drop (2 * P.n)).take P.n) (a' := (sk.drop (2 * P.n)).take P.n) (b := sk.take P.n) (b' := sks')
    rfl ((ht _ (by omega)).trans hs1l.symm))
  have hc : CtxLow c c' := by
    have h2 := hi.2
    change RelC (CtxKeep _) (H.erase.initialize_hash_function _) (H'.erase.initialize_hash_function _) at h2
    change H.erase.initialize_hash_function _ = _ at ec
    change H'.erase.initialize_hash_function _ = _ at ec'
    rw [ec, ec'] at h2
    exact h2.1
  refine Rel.step hi.1 ec ec' ?_
  have er := R.genR c (sk.drop P.n) optrand m hctx (by rw [List.length_drop]; omega) (by omega) hm
  have er' := R'.genR c' ((List.replicate (2 * P.n) 0#8 ++ sk.drop (2 * P.n)).drop P.n) (List.replicate P.n 0#8) m hctx'
    (by rw [List.length_drop]; omega) (by rw [List.length_replicate]) hm
  have hg := hH.genR (sk.drop P.n) ((List.replicate (2 * P.n) 0#8 ++ sk.drop (2 * P.n)).drop P.n) optrand
    (List.replicate P.n 0#8) m m c c' (by rw [Len, List.length_drop, List.length_drop, hlen])
    (by rw [Len, List.length_replicate]; exact hopt) rfl hc
  have hRl : (S.PRFmsg c.pub_seed ((sk.drop P.n).take P.n) (optrand.take P.n) m).length = P.n := R.PRFmsg_len ..
  rw [hpub, List.take_of_length_le (Nat.le_of_eq hopt)] at er hRl
  refine Rel.step hg.1 er er' ?_
  generalize hsd : splitDigest P.toSpec (S.Hmsg (S.PRFmsg ((sk.drop (2 * P.n)).take P.n) ((sk.drop P.n).take P.n) optrand m)
    ((sk.drop (2 * P.n)).take P.n) ((sk.drop (3 * P.n)).take P.n) m (digestBytes P.toSpec)) = sd
  have hdl := R.Hmsg_len (S.PRFmsg ((sk.drop (2 * P.n)).take P.n) ((sk.drop P.n).take P.n) optrand m)
    ((sk.drop (2 * P.n)).take P.n) ((sk.drop (3 * P.n)).take P.n) m (digestBytes P.toSpec)
  have hmd := splitDigest_md_length hdl
  have htr0 := splitDigest_tree_lt P.toSpec (S.Hmsg (S.PRFmsg ((sk.drop (2 * P.n)).take P.n) ((sk.drop P.n).take P.n)
    optrand m) ((sk.drop (2 * P.n)).take P.n) ((sk.drop (3 * P.n)).take P.n) m (digestBytes P.toSpec))
  have hlf := splitDigest_leaf_lt P.toSpec (S.Hmsg (S.PRFmsg ((sk.drop (2 * P.n)).take P.n) ((sk.drop P.n).take P.n)
    optrand m) ((sk.drop (2 * P.n)).take P.n) ((sk.drop (3 * P.n)).take P.n) m (digestBytes P.toSpec))
  rw [hsd] at hmd htr0 hlf
  obtain ⟨md, tree, leaf⟩ := sd
  dsimp only at hmd htr0 hlf
  have htr : tree < 2 ^ 64 := Nat.lt_of_lt_of_le htr0 (Nat.pow_le_pow_right (by omega) hP.tree_bits)
  have hsgn : Spec.sign P.toSpec S sk optrand m =
      S.PRFmsg ((sk.drop (2 * P.n)).take P.n) ((sk.drop P.n).take P.n) optrand m ++
        forsSig P.toSpec S c.pub_seed c.sk_seed tree leaf md ++
        htSig P.toSpec S c.pub_seed c.sk_seed tree leaf (forsPk P.toSpec S c.pub_seed c.sk_seed tree leaf) := by
    unfold Spec.sign
    simp only [show P.toSpec.n = P.n from rfl, hsd, hpub, hsks]
  rw [hsgn]
  generalize S.PRFmsg ((sk.drop (2 * P.n)).take P.n) ((sk.drop P.n).take P.n) optrand m = Rv at *
  have htk : ∀ X Y : Bytes, (Rv ++ X ++ Y).take P.n = Rv := fun X Y => by
    rw [List.append_assoc, List.take_append_of_le_length (by omega), List.take_of_length_le (by omega)]
  rw [htk]
  have hzl : (List.replicate sig0.length 0#8).length = sig0.length := List.length_replicate
  have ew : ∀ b : Bytes, b.length = sig0.length → Spx.wr b 0 Rv = .ok (Rv ++ b.drop P.n) := fun b h => by
    rw [wr_ok (by omega), List.take_zero, List.nil_append, Nat.zero_add, hRl]
  refine Rel.step rfl (ew _ rfl) (ew _ hzl) ?_
  have em := R.hmsg c (Rv ++ sig0.drop P.n) (sk.drop (2 * P.n)) m hctx
    (by rw [List.length_append]; omega) (by omega) (by rw [hpub]) hm
  have em' := R'.hmsg c' (Rv ++ (List.replicate sig0.length 0#8).drop P.n) (sk.drop (2 * P.n)) m hctx'
    (by rw [List.length_append]; omega) (by omega) (by rw [hpub']) hm
  rw [hpub, List.drop_drop, show 2 * P.n + P.n = 3 * P.n by omega,
    List.take_append_of_le_length (by omega), List.take_of_length_le (by omega), hsd] at em
  rw [hpub', List.drop_drop, show 2 * P.n + P.n = 3 * P.n by omega,
    List.take_append_of_le_length (by omega), List.take_of_length_le (by omega), hsd] at em'
  have hbl : Len (Rv ++ sig0.drop P.n) (Rv ++ (List.replicate sig0.length 0#8).drop P.n) := by
    rw [Len, List.length_append, List.length_append, List.length_drop, List.length_drop, hzl]
  refine Rel.step (hH.hmsg _ _ _ _ m m c c' hbl rfl rfl hc).1 em em' ?_
  dsimp only
  rw [← hpub]
  exact (low_sign_rest R hP hc hctx hT hK hKR (G := G) (G' := G') hbl
    (by rw [List.length_append, List.length_drop]; omega) hmd htr hlf hRl).bind_ok

end

end Spx.Leak
