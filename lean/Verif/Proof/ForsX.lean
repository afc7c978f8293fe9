import Verif.Proof.TreehashX
import Verif.Proof.Fors
/-! The parallel FORS code. -/

namespace Spx
open Spec

section
variable {E : EnvX} {S : Spec.Hash} {R : Refines E.P E.H S} (RX : LaneRefines E R) (hP : E.P.Valid)
  (hlg : 1 ≤ E.lg) (hlt : E.lg ≤ E.P.forsHeight)
  {ctx : Ctx} (hctx : R.CtxOK ctx) {tree kp : Nat} (htr : tree < 2 ^ 64) (hkp : kp < 2 ^ 32)

include RX hP hctx htr hkp in
/-- `fors_gen_leafx` computes `L` leaves. -/
theorem fors_gen_leafx_spec {ty i : Nat} {x : Nat → Nat} (hty : ty < 256) (hi : i + E.L ≤ 2 ^ 32)
    {buf : Bytes} (hbuf : buf.length = E.L * E.P.n) :
    fors_gen_leafx E ctx buf i ((List.range E.L).map fun j => enc E.P.fam ⟨0, tree, ty, kp, 0, x j⟩) =
      .ok (cat E.L fun j => forsLeaf S ctx.pub_seed ctx.sk_seed tree kp (i + j),
        (List.range E.L).map fun j => enc E.P.fam ⟨0, tree, FORS_TREE, kp, 0, i + j⟩) := by
  have hn := hP.n_lt
  have e1 : lanes E.L (fun j a => (do
      let a ← set_tree_index E.P.fam a ((i + j) % 2 ^ 32)
      set_type E.P.fam a SPX_ADDR_TYPE_FORSPRF : C Addr))
      ((List.range E.L).map fun j => enc E.P.fam ⟨0, tree, ty, kp, 0, x j⟩) =
      .ok ((List.range E.L).map fun j => enc E.P.fam ⟨0, tree, SPX_ADDR_TYPE_FORSPRF, kp, 0, i + j⟩) := by
    refine lanes_ok fun j hj => ?_
    have e1 := set_tree_index_enc (f := E.P.fam) (a := ⟨0, tree, ty, kp, 0, x j⟩) (c := i + j)
    have e2 := set_type_enc (f := E.P.fam) (a := ⟨0, tree, ty, kp, 0, i + j⟩)
      (okA (by omega) htr hty hkp (by omega) (by omega)) (t := SPX_ADDR_TYPE_FORSPRF) (by decide)
    rw [Nat.mod_eq_of_lt (by omega), e1, ok_bind, e2]
  have e2 := RX.prf ctx (fun j => ⟨0, tree, SPX_ADDR_TYPE_FORSPRF, kp, 0, i + j⟩) hctx
    (fun j hj => okA (by omega) htr (by decide) hkp (by omega) (by omega))
  have e3 := wrLanes_all (b := buf) hbuf
    (o := fun j => S.PRF ctx.pub_seed ctx.sk_seed ⟨0, tree, SPX_ADDR_TYPE_FORSPRF, kp, 0, i + j⟩)
    (fun j _ => R.PRF_len ..)
  have e4 : lanes E.L (fun _ a => set_type E.P.fam a SPX_ADDR_TYPE_FORSTREE)
      ((List.range E.L).map fun j => enc E.P.fam ⟨0, tree, SPX_ADDR_TYPE_FORSPRF, kp, 0, i + j⟩) =
      .ok ((List.range E.L).map fun j => enc E.P.fam ⟨0, tree, FORS_TREE, kp, 0, i + j⟩) :=
    lanes_ok fun j hj => set_type_enc (f := E.P.fam) (a := ⟨0, tree, SPX_ADDR_TYPE_FORSPRF, kp, 0, i + j⟩)
      (okA (by omega) htr (by decide) hkp (by omega) (by omega)) (by decide)
  obtain ⟨b1, hb1⟩ : ∃ b1, b1 = cat E.L fun j =>
    S.PRF ctx.pub_seed ctx.sk_seed ⟨0, tree, SPX_ADDR_TYPE_FORSPRF, kp, 0, i + j⟩ := ⟨_, rfl⟩
  have hl1 : b1.length = E.L * E.P.n := by rw [hb1]; exact cat_length fun j _ => R.PRF_len ..
  rw [← hb1] at e3
  have hlane : ∀ j, j < E.L → (j + 1) * E.P.n ≤ E.L * E.P.n := fun j hj => Nat.mul_le_mul_right _ hj
  have e5 := subLanes_ok (k := E.L) (b := b1) (base := 0) (stride := E.P.n) (by
    intro j hj
    have := hlane j hj
    rw [Nat.succ_mul] at this
    omega)
  have e6 := RX.thashx ctx (fun j => ⟨0, tree, FORS_TREE, kp, 0, i + j⟩)
    (fun j => b1.drop (0 + j * E.P.n)) 1 hctx
    (fun j hj => okA (by omega) htr (by decide) hkp (by decide) (by omega)) (by omega) (by
      intro j hj
      have := hlane j hj
      rw [Nat.succ_mul] at this
      rw [List.length_drop, hl1, Nat.zero_add]
      omega) (by omega)
  have e7 := wrLanes_all (b := b1) hl1 (o := fun j => S.T ctx.pub_seed ⟨0, tree, FORS_TREE, kp, 0, i + j⟩
    ((b1.drop (0 + j * E.P.n)).take (1 * E.P.n))) (fun j _ => R.T_len ..)
  unfold fors_gen_leafx
  simp only
  rw [e1, ok_bind, e2, ok_bind, e3, ok_bind, e4, ok_bind, e5, ok_bind, e6, ok_bind, e7, ok_bind]
  congr 2
  apply cat_congr
  intro j hj
  have hc : (b1.drop (0 + j * E.P.n)).take (1 * E.P.n) =
      S.PRF ctx.pub_seed ctx.sk_seed ⟨0, tree, SPX_ADDR_TYPE_FORSPRF, kp, 0, i + j⟩ := by
    rw [Nat.zero_add, Nat.one_mul]
    show chunk E.P.n b1 j = _
    rw [hb1]
    exact chunk_cat (fun j _ => R.PRF_len ..) hj
  rw [hc]
  rfl

/-- Invariant of the loop of `fors_signx`. -/
def ForsXInv (E : EnvX) (S : Spec.Hash) (ctx : Ctx) (tree kp : Nat) (sig md roots0 : Bytes) (i : Nat)
    (s : Bytes × Nat × Bytes × List Addr × List Addr) : Prop :=
  s.1 = cat i (forsPart E.P.toSpec S ctx.pub_seed ctx.sk_seed tree kp md) ++
    sig.drop (i * ((E.P.forsHeight + 1) * E.P.n)) ∧
  s.2.1 = i * ((E.P.forsHeight + 1) * E.P.n) ∧
  s.2.2.1 = cat i (node (forsH S ctx.pub_seed tree kp) (forsLeaf S ctx.pub_seed ctx.sk_seed tree kp) E.P.forsHeight) ++
    roots0.drop (i * E.P.n) ∧
  SameTrees E.P.fam ⟨0, tree, FORS_TREE, kp, 0, 0⟩ E.L s.2.2.2.1 ∧
  (∃ (ty : Nat) (x : Nat → Nat), ty < 256 ∧ s.2.2.2.2 = (List.range E.L).map fun j => enc E.P.fam ⟨0, tree, ty, kp, 0, x j⟩)

include RX hP hlg hlt hctx htr hkp in
theorem fors_signx_step {sig md roots0 : Bytes} (hsig : E.P.forsTrees * ((E.P.forsHeight + 1) * E.P.n) ≤ sig.length)
    (hr0 : roots0.length = E.P.forsTrees * E.P.n) {i : Nat} (hi : i < E.P.forsTrees)
    {s : Bytes × Nat × Bytes × List Addr × List Addr} (hs : ForsXInv E S ctx tree kp sig md roots0 i s) :
    ∃ s', fors_signx_body E ctx ((List.range E.P.forsTrees).map (forsIdx E.P.toSpec md)) i s = .ok s' ∧
      ForsXInv E S ctx tree kp sig md roots0 (i + 1) s' := by
  have hfh := hP.fh_le
  have hn := hP.n_lt
  let a := E.P.forsHeight
  let n := E.P.n
  let B := (a + 1) * n
  have hLp : 0 < E.L := Nat.two_pow_pos _
  have hprod : E.L * 2 ^ (a - E.lg) = 2 ^ a := by
    show 2 ^ E.lg * _ = _
    rw [← Nat.pow_add, Nat.add_sub_cancel' hlt]
  let f := forsPart E.P.toSpec S ctx.pub_seed ctx.sk_seed tree kp md
  let g : Nat → Bytes := fun i =>
    node (forsH S ctx.pub_seed tree kp) (forsLeaf S ctx.pub_seed ctx.sk_seed tree kp) a i
  have hfl' : ∀ i, (f i).length = B := fun i => forsPart_length R
  have hleafl : ∀ i, (forsLeaf S ctx.pub_seed ctx.sk_seed tree kp i).length = n := fun i => R.T_len ..
  have hgl : ∀ i, (g i).length = n := fun i =>
    node_length (B := (i + 1) * 2 ^ a) (fun _ _ _ _ => R.T_len ..) (fun i _ => hleafl i) _ _ (Nat.le_refl _)
  obtain ⟨sg, off, roots, ta, la⟩ := s
  obtain ⟨h1, h2, h3, ⟨TA, h4, hTA⟩, ⟨ty', x, hty', h5⟩⟩ := hs
  simp only at h1 h2 h3 h4 h5
  subst h1 h2 h3 h4 h5
  obtain ⟨u, v, hu, hv, hta0⟩ := hTA 0 hLp
  have hr := fors_range hP hi
  have hp30 : 2 ^ a ≤ 2 ^ 30 := Nat.pow_le_pow_right (by omega) hfh
  have hil := forsIdx_lt E.P.toSpec md i
  rw [show E.P.toSpec.a = a from rfl] at hil
  have hmulB : (i + 1) * B ≤ E.P.forsTrees * B := Nat.mul_le_mul_right _ hi
  have hmuln : (i + 1) * n ≤ E.P.forsTrees * n := Nat.mul_le_mul_right _ hi
  have hB : B = n + a * n := by show (a + 1) * n = _; rw [Nat.succ_mul, Nat.add_comm]
  rw [Nat.succ_mul] at hmulB
  have hsg : E.P.forsTrees * B ≤ sig.length := hsig
  have eo : i * 2 ^ E.P.forsHeight % 2 ^ 32 = i * 2 ^ a := Nat.mod_eq_of_lt (by
    have : 0 < 2 ^ E.P.forsHeight := Nat.two_pow_pos _
    show i * 2 ^ E.P.forsHeight < _
    omega)
  generalize hjd : forsIdx E.P.toSpec md i = j at *
  have ej : (j + i * 2 ^ a) % 2 ^ 32 = j + i * 2 ^ a := Nat.mod_eq_of_lt (by
    have : i * 2 ^ E.P.forsHeight = i * 2 ^ a := rfl
    have : 2 ^ E.P.forsHeight = 2 ^ a := rfl
    omega)
  have hjr : j + i * 2 ^ a < 2 ^ 32 := by
    have : i * 2 ^ E.P.forsHeight = i * 2 ^ a := rfl
    have : 2 ^ E.P.forsHeight = 2 ^ a := rfl
    omega
  have e1 := set_tree_height_enc (f := E.P.fam) (a := ⟨0, tree, FORS_TREE, kp, u, v⟩)
    (okA (by omega) htr (by decide) hkp hu hv) (c := 0) (by omega)
  have e2 := set_tree_index_enc (f := E.P.fam) (a := ⟨0, tree, FORS_TREE, kp, 0, v⟩) (c := j + i * 2 ^ a)
  have e3 := set_type_enc (f := E.P.fam) (a := ⟨0, tree, FORS_TREE, kp, 0, j + i * 2 ^ a⟩)
    (okA (by omega) htr (by decide) hkp (by omega) hjr) (t := SPX_ADDR_TYPE_FORSPRF) (by decide)
  have e4 := R.prf ctx ⟨0, tree, SPX_ADDR_TYPE_FORSPRF, kp, 0, j + i * 2 ^ a⟩ hctx
    (okA (by omega) htr (by decide) hkp (by omega) hjr)
  have e5 := set_type_enc (f := E.P.fam) (a := ⟨0, tree, SPX_ADDR_TYPE_FORSPRF, kp, 0, j + i * 2 ^ a⟩)
    (okA (by omega) htr (by decide) hkp (by omega) hjr) (t := SPX_ADDR_TYPE_FORSTREE) (by decide)
  have hskl : (forsSk S ctx.pub_seed ctx.sk_seed tree kp (j + i * 2 ^ a)).length = n := R.PRF_len ..
  -- leaf callback
  obtain ⟨I, hI0, hIs⟩ : ∃ I : Nat → List Addr,
      I 0 = ((List.range E.L).map fun j => enc E.P.fam ⟨0, tree, ty', kp, 0, x j⟩) ∧
      ∀ k, I (k + 1) = ((List.range E.L).map fun l =>
        enc E.P.fam ⟨0, tree, FORS_TREE, kp, 0, E.L * k + i * 2 ^ a + l⟩) :=
    ⟨fun k => match k with
      | 0 => (List.range E.L).map fun j => enc E.P.fam ⟨0, tree, ty', kp, 0, x j⟩
      | k + 1 => (List.range E.L).map fun l =>
        enc E.P.fam ⟨0, tree, FORS_TREE, kp, 0, E.L * k + i * 2 ^ a + l⟩, rfl, fun _ => rfl⟩
  have hgen : ∀ k, k < 2 ^ (a - E.lg) → ∀ buf : Bytes, buf.length = E.L * E.P.n →
      fors_gen_leafx E ctx buf ((E.L * k + i * 2 ^ a) % 2 ^ 32) (I k) =
      .ok (cat E.L fun l => forsLeaf S ctx.pub_seed ctx.sk_seed tree kp (E.L * k + l + i * 2 ^ a), I (k + 1)) := by
    intro k hk buf hbuf
    have hb : E.L * (k + 1) ≤ E.L * 2 ^ (a - E.lg) := Nat.mul_le_mul_left _ hk
    rw [hprod, Nat.mul_succ] at hb
    have hkr : E.L * k + i * 2 ^ a + E.L ≤ 2 ^ 32 := by
      have : i * 2 ^ E.P.forsHeight = i * 2 ^ a := rfl
      have : 2 ^ E.P.forsHeight = 2 ^ a := rfl
      omega
    rw [Nat.mod_eq_of_lt (by omega)]
    have hI : ∃ (ty : Nat) (x : Nat → Nat), ty < 256 ∧ I k = (List.range E.L).map fun j => enc E.P.fam ⟨0, tree, ty, kp, 0, x j⟩ := by
      cases k with
      | zero => exact ⟨ty', x, hty', hI0⟩
      | succ k => exact ⟨FORS_TREE, _, by decide, hIs k⟩
    obtain ⟨ty2, x2, hty2, hI⟩ := hI
    rw [hI, fors_gen_leafx_spec RX hP hctx htr hkp hty2 hkr hbuf, hIs]
    congr 2
    apply cat_congr
    intro l _
    rw [Nat.add_right_comm]
  have hoff := offH_fors (S := S) (tree := tree) (kp := kp) hP hi ctx.pub_seed
  obtain ⟨addr', e6, haddr'⟩ := treehashx_spec RX hctx (a := ⟨0, tree, FORS_TREE, kp, 0, 0⟩)
    (off := i * 2 ^ a) (leaf_idx := j) (auth0 := (sig.drop (i * B)).drop n)
    (okA (by omega) htr (by decide) hkp (by omega) (by omega)) hlg hlt hfh (by omega) (Or.inl hil)
    (by show a * n ≤ _; simp; omega) hn (leaf := fun k => forsLeaf S ctx.pub_seed ctx.sk_seed tree kp (k + i * 2 ^ a))
    (fun k _ => hleafl _) (I := I) hgen
    (tree_addr := ((List.range E.L).map TA).set 0 (enc E.P.fam ⟨0, tree, FORS_TREE, kp, 0, j + i * 2 ^ a⟩))
    ⟨_, map_range_set, by
      intro l hl
      by_cases h0 : l = 0
      · rw [if_pos h0]
        exact ⟨0, j + i * 2 ^ a, by omega, hjr, rfl⟩
      · rw [if_neg h0]
        exact hTA l hl⟩
  rw [if_pos hil, authPath_shift hoff (leaf' := forsLeaf S ctx.pub_seed ctx.sk_seed tree kp) (fun k _ => rfl) hil,
    node_shift hoff (leaf' := forsLeaf S ctx.pub_seed ctx.sk_seed tree kp) (fun k _ => rfl) _ 0
      (Nat.le_refl _) (by simp)] at e6
  rw [Nat.sub_self, Nat.pow_zero, Nat.mul_one, Nat.zero_add] at e6
  have hcl : (cat i f).length = i * B := cat_length fun k _ => hfl' k
  have e7 : wr (cat i f ++ sig.drop (i * B)) (i * B) (forsSk S ctx.pub_seed ctx.sk_seed tree kp (j + i * 2 ^ a)) =
      .ok (cat i f ++ forsSk S ctx.pub_seed ctx.sk_seed tree kp (j + i * 2 ^ a) ++ (sig.drop (i * B)).drop n) := by
    rw [wr_ok (by simp [hcl, hskl]; omega), List.take_append_of_le_length (by omega),
      List.take_of_length_le (by omega), List.drop_append, List.drop_of_length_le (by omega), hcl, hskl]
    simp
  have e8 := wr_fill (n := n) (i := i) (f := g) (b := roots0) (fun k _ => hgl k)
    (by rw [hr0]; exact hmuln)
  refine ⟨(cat (i + 1) f ++ sig.drop ((i + 1) * B), (i + 1) * B, cat (i + 1) g ++ roots0.drop ((i + 1) * n),
    addr', I (2 ^ (a - E.lg))), ?_, rfl, rfl, rfl, haddr', ?_⟩
  rotate_left
  · obtain ⟨k, hk⟩ : ∃ k, 2 ^ (a - E.lg) = k + 1 := Nat.exists_eq_add_one.mpr (Nat.two_pow_pos _)
    exact ⟨FORS_TREE, _, by decide, by rw [hk]; exact hIs k⟩
  unfold fors_signx_body fors_gen_sk
  simp only
  rw [shl1_ok (by omega), rd1_ok (by simp; exact hi)]
  simp only [ok_bind, List.getElem_map, List.getElem_range]
  rw [hjd, eo, ej, rd1_ok (by simpa using hLp)]
  simp only [ok_bind, List.getElem_map, List.getElem_range]
  rw [hta0, e1]
  simp only [ok_bind]
  rw [e2]
  simp only [ok_bind]
  rw [e3]
  simp only [ok_bind]
  rw [e4]
  simp only [ok_bind]
  rw [show S.PRF ctx.pub_seed ctx.sk_seed ⟨0, tree, SPX_ADDR_TYPE_FORSPRF, kp, 0, j + i * 2 ^ a⟩ =
    forsSk S ctx.pub_seed ctx.sk_seed tree kp (j + i * 2 ^ a) from rfl, e7]
  simp only [ok_bind]
  rw [e5]
  simp only [ok_bind]
  rw [wr1_ok (by simpa using hLp)]
  simp only [ok_bind]
  have hpre : (cat i f ++ forsSk S ctx.pub_seed ctx.sk_seed tree kp (j + i * 2 ^ a)).length = i * B + n := by
    simp [hcl, hskl]
  rw [withSub_ok (d := authPath (forsH S ctx.pub_seed tree kp) (forsLeaf S ctx.pub_seed ctx.sk_seed tree kp)
      a (j + i * 2 ^ a) ++ ((sig.drop (i * B)).drop n).drop (a * n)) (x := (g i, addr', I (2 ^ (a - E.lg))))
    (by rw [List.length_append, hpre]; show i * B + n ≤ _; omega)]
  · simp only [ok_bind]
    rw [e8]
    simp only [ok_bind]
    congr 2
    · rw [List.take_append_of_le_length (by rw [hpre]; exact Nat.le_refl _),
        List.take_of_length_le (by rw [hpre]; exact Nat.le_refl _), cat, List.drop_drop, List.drop_drop]
      rw [← List.append_assoc]
      congr 1
      · rw [List.append_assoc]
        congr 1
        show _ = forsPart _ _ _ _ _ _ _ _
        unfold forsPart
        rw [hjd, show E.P.toSpec.a = a from rfl, Nat.add_comm j]
      · congr 1
        rw [Nat.succ_mul, hB]
    · congr 1
      show i * B + n + n * a = (i + 1) * B
      rw [Nat.succ_mul, hB, Nat.mul_comm n a]
      omega
  · show (do
      let (root, auth, tree_addr, leaf_addr) ← treehashx E _ ctx j (i * 2 ^ a) E.P.forsHeight
        (fors_gen_leafx E ctx) (((List.range E.L).map TA).set 0
          (enc E.P.fam ⟨0, tree, FORS_TREE, kp, 0, j + i * 2 ^ a⟩)) _
      .ok (auth, root, tree_addr, leaf_addr) : C (Bytes × Bytes × List Addr × List Addr)) = _
    rw [show i * B + E.P.n = i * B + n from rfl, List.drop_append, List.drop_of_length_le (by rw [hpre]; exact Nat.le_refl _),
      hpre, Nat.sub_self, List.drop_zero, List.nil_append, ← hI0, e6]
    rfl

include RX hP hlg hlt hctx htr hkp in
theorem fors_signx_spec {fa : ADRS} (hfl : fa.layer = 0) (hft : fa.tree = tree) (hfk : fa.w1 = kp)
    {sig md : Bytes} (hsig : E.P.forsTrees * ((E.P.forsHeight + 1) * E.P.n) ≤ sig.length)
    (hmd : E.P.forsTrees * E.P.forsHeight ≤ 8 * md.length) :
    fors_signx E sig md ctx (enc E.P.fam fa) =
      .ok (forsSig E.P.toSpec S ctx.pub_seed ctx.sk_seed tree kp md ++
          sig.drop (E.P.forsTrees * ((E.P.forsHeight + 1) * E.P.n)),
        forsPk E.P.toSpec S ctx.pub_seed ctx.sk_seed tree kp) := by
  have hn := hP.n_lt
  have hloop := forRange_inv (n := E.P.forsTrees)
    (s := (sig, 0, uninit (E.G 39) (E.P.forsTrees * E.P.n),
      (List.range E.L).map fun _ => enc E.P.fam ⟨0, tree, FORS_TREE, kp, 0, 0⟩,
      (List.range E.L).map fun _ => enc E.P.fam ⟨0, tree, 0, kp, 0, 0⟩))
    (body := fors_signx_body E ctx ((List.range E.P.forsTrees).map (forsIdx E.P.toSpec md)))
    (ForsXInv E S ctx tree kp sig md (uninit (E.G 39) (E.P.forsTrees * E.P.n)))
    ⟨by simp [cat], by simp, by simp [cat],
      ⟨_, rfl, fun _ _ => ⟨0, 0, by omega, by omega, rfl⟩⟩, ⟨0, fun _ => 0, by omega, rfl⟩⟩
    (fun i s hi hs => fors_signx_step RX hP hlg hlt hctx htr hkp hsig (uninit_length ..) hi hs)
  obtain ⟨⟨sg, off, roots, ta, la⟩, hs', h1, -, h3, -, -⟩ := hloop
  simp only at h1 h3
  have e0 : copy_keypair_addr E.P.fam zeroAddr (enc E.P.fam fa) = .ok (enc E.P.fam ⟨0, tree, 0, kp, 0, 0⟩) := by
    rw [copy_keypair_zero, hfl, hft, hfk]
  have eT : lanes E.L (fun _ a => (do
      let a ← copy_keypair_addr E.P.fam a (enc E.P.fam fa)
      set_type E.P.fam a SPX_ADDR_TYPE_FORSTREE : C Addr)) (List.replicate E.L zeroAddr) =
      .ok ((List.range E.L).map fun _ => enc E.P.fam ⟨0, tree, FORS_TREE, kp, 0, 0⟩) := by
    rw [replicate_map]
    refine lanes_ok fun j hj => ?_
    rw [e0, ok_bind]
    exact set_type_enc (f := E.P.fam) (a := ⟨0, tree, 0, kp, 0, 0⟩)
      (okA (by omega) htr (by omega) hkp (by omega) (by omega)) (by decide)
  have eL : lanes E.L (fun _ a => copy_keypair_addr E.P.fam a (enc E.P.fam fa)) (List.replicate E.L zeroAddr) =
      .ok ((List.range E.L).map fun _ => enc E.P.fam ⟨0, tree, 0, kp, 0, 0⟩) := by
    rw [replicate_map]
    exact lanes_ok fun j hj => e0
  have e1 := set_type_enc (f := E.P.fam) (a := ⟨0, tree, 0, kp, 0, 0⟩)
    (okA (by omega) htr (by omega) hkp (by omega) (by omega)) (t := SPX_ADDR_TYPE_FORSPK) (by decide)
  have e2 := message_to_indices_spec (Nat.le_trans hP.fh_le (by decide)) (ind := uninit (fun i => (E.G 38 i).toNat) E.P.forsTrees) (m := md)
    (by simp) hmd
  have hrl : roots = cat E.P.forsTrees (node (forsH S ctx.pub_seed tree kp)
      (forsLeaf S ctx.pub_seed ctx.sk_seed tree kp) E.P.forsHeight) := by
    rw [h3, List.drop_of_length_le (by rw [uninit_length]; exact Nat.le_refl _), List.append_nil]
  have hrl' : roots.length = E.P.forsTrees * E.P.n := by
    rw [hrl]
    exact cat_length fun k _ => node_length (B := (k + 1) * 2 ^ E.P.forsHeight) (fun _ _ _ _ => R.T_len ..) (fun i _ => R.T_len ..) _ _ (Nat.le_refl _)
  have e3 := R.thash ctx ⟨0, tree, SPX_ADDR_TYPE_FORSPK, kp, 0, 0⟩ roots E.P.forsTrees hctx
    (okA (by omega) htr (by decide) hkp (by omega) (by omega)) hP.ft_pos (by rw [hrl']; exact Nat.le_refl _) hP.ft_n
  rw [List.take_of_length_le (by rw [hrl']; exact Nat.le_refl _)] at e3
  unfold fors_signx
  simp only
  rw [eT, ok_bind, eL, ok_bind, e0, ok_bind, e1, ok_bind, e2, ok_bind, hs', ok_bind]
  simp only
  rw [e3, ok_bind, h1, hrl]
  rfl

end
end Spx
