import Verif.Proof.Merkle
import Verif.Model.Fors
/-! FORS code against the specification. -/

namespace Spx
open Spec

theorem leNat_byte (b : Bytes) {i : Nat} (h : i < b.length) : leNat b / 256 ^ i % 256 = b[i].toNat := by
  induction b generalizing i with
  | nil => simp at h
  | cons x xs ih =>
    have hx := x.isLt
    cases i with
    | zero => simp [leNat]; omega
    | succ i =>
      rw [leNat, Nat.pow_succ, Nat.mul_comm (256 ^ i), ← Nat.div_div_eq_div_mul,
        show (x.toNat + 256 * leNat xs) / 256 = leNat xs by omega, ih (by simpa using h)]
      rfl

/-- Bit `o` of a little-endian byte string. -/
theorem leNat_bit (b : Bytes) {o : Nat} (h : o / 8 < b.length) :
    leNat b / 2 ^ o % 2 = b[o / 8].toNat / 2 ^ (o % 8) % 2 := by
  rw [← leNat_byte b h, pow256, show (256 : Nat) = 2 ^ 8 from rfl]
  have := mod_div_mod (leNat b / 2 ^ (8 * (o / 8))) (o % 8) 1 8 (by omega)
  rw [Nat.pow_one] at this
  rw [this, Nat.div_div_eq_div_mul, ← Nat.pow_add]
  congr 3
  omega

theorem xor_shift_add {a b k : Nat} (ha : a < 2 ^ k) : a ^^^ (b <<< k) = a + 2 ^ k * b := by
  rw [Nat.shiftLeft_eq, Nat.mul_comm b]
  apply Nat.eq_of_testBit_eq
  intro i
  rw [Nat.add_comm, Nat.two_pow_add_eq_or_of_lt ha, Nat.testBit_xor, Nat.testBit_or,
    Nat.testBit_two_pow_mul]
  by_cases hi : k ≤ i
  · have : a.testBit i = false :=
      Nat.testBit_lt_two_pow (Nat.lt_of_lt_of_le ha (Nat.pow_le_pow_right (by omega) hi))
    simp [this]
  · simp [hi]

theorem and_seven (x : Nat) : x &&& 7 = x % 8 := Nat.and_two_pow_sub_one_eq_mod x 3

theorem message_to_indices_spec {P : Params} (hfh : P.forsHeight ≤ 32) {ind : List Nat} {m : Bytes}
    (hi : ind.length = P.forsTrees) (hm : P.forsTrees * P.forsHeight ≤ 8 * m.length) :
    message_to_indices P ind m = .ok ((List.range P.forsTrees).map (forsIdx P.toSpec m)) := by
  have ha : P.toSpec.a = P.forsHeight := rfl
  unfold message_to_indices
  obtain ⟨s', hs', hinv⟩ := forRange_inv (n := P.forsTrees) (s := (ind, 0))
    (body := fun i (s : List Nat × Nat) => (do
      let indices ← wr1 s.1 i 0
      forRange P.forsHeight (fun j (s : List Nat × Nat) => do
        let (indices, offset) := s
        let b ← rd1 m (offset >>> 3)
        let cur ← rd1 indices i
        if j < 32 then do
          let v := cur ^^^ ((((b.toNat >>> (offset &&& 7)) &&& 1) <<< j) % 2 ^ 32)
          let indices ← wr1 indices i v
          .ok (indices, offset + 1)
        else .error .shift) (indices, s.2) : C (List Nat × Nat)))
    (fun i s => s.1 = (List.range i).map (forsIdx P.toSpec m) ++ ind.drop i ∧
      s.2 = i * P.forsHeight)
    ⟨by simp, by simp⟩ (by
      rintro i ⟨l, o⟩ hik ⟨h1, h2⟩
      simp only at h1 h2
      subst h1 h2
      have hmul : (i + 1) * P.forsHeight ≤ P.forsTrees * P.forsHeight := Nat.mul_le_mul_right _ hik
      rw [Nat.succ_mul] at hmul
      -- the list with value v at position i
      let L : Nat → List Nat := fun v =>
        (List.range i).map (forsIdx P.toSpec m) ++ v :: ind.drop (i + 1)
      have hLl : ∀ v, i < (L v).length := by intro v; simp [L]
      have hLg : ∀ v, (L v)[i]'(hLl v) = v := by intro v; simp [L]
      have hLs : ∀ v x, (L v).set i x = L x := by
        intro v x
        simp only [L]
        rw [List.set_append_right _ _ (by simp)]
        simp
      have h0 : ((List.range i).map (forsIdx P.toSpec m) ++ ind.drop i).set i 0 = L 0 := by
        rw [List.set_append_right _ _ (by simp)]
        simp only [List.length_map, List.length_range, Nat.sub_self]
        rw [← List.getElem_cons_drop (show i < ind.length by omega), List.set_cons_zero]
      simp only
      rw [wr1_ok (by simp; omega), h0]
      simp only [ok_bind]
      refine ⟨(L (leNat m / 2 ^ (i * P.forsHeight) % 2 ^ P.forsHeight), i * P.forsHeight + P.forsHeight),
        ?_, ?_, by simp only [Nat.succ_mul]⟩
      · refine forRange_eq' (fun j => (L (leNat m / 2 ^ (i * P.forsHeight) % 2 ^ j), i * P.forsHeight + j))
          (by simp [Nat.mod_one]) rfl ?_
        intro j hj
        simp only
        have ho : (i * P.forsHeight + j) / 8 < m.length := by omega
        rw [Nat.shiftRight_eq_div_pow, show (2 : Nat) ^ 3 = 8 from rfl, rd1_ok ho]
        simp only [ok_bind]
        rw [rd1_ok (hLl _)]
        simp only [ok_bind]
        rw [if_pos (by omega), wr1_ok (hLl _), hLg, hLs]
        simp only [ok_bind]
        rw [and_one, and_seven, Nat.shiftRight_eq_div_pow, ← leNat_bit m ho]
        have hb : leNat m / 2 ^ (i * P.forsHeight + j) % 2 < 2 := Nat.mod_lt _ (by omega)
        have hlt : (leNat m / 2 ^ (i * P.forsHeight + j) % 2) <<< j < 2 ^ 32 := by
          rw [Nat.shiftLeft_eq]
          have h1 : leNat m / 2 ^ (i * P.forsHeight + j) % 2 * 2 ^ j ≤ 1 * 2 ^ j :=
            Nat.mul_le_mul_right _ (by omega)
          have h2 : 2 ^ j ≤ 2 ^ 31 := Nat.pow_le_pow_right (by omega) (by omega)
          omega
        rw [Nat.mod_eq_of_lt hlt, xor_shift_add (Nat.mod_lt _ (Nat.two_pow_pos j)), mod_pow_succ,
          Nat.div_div_eq_div_mul, ← Nat.pow_add]
        rfl
      · simp only [L]
        rw [List.range_succ, List.map_append, List.append_assoc]
        congr 2
        simp only [forsIdx, ha]
        rw [Nat.mul_comm])
  rw [hs']
  simp only [ok_bind]
  rw [hinv.1, List.drop_of_length_le (by omega), List.append_nil]

section
variable {E : Env} {S : Spec.Hash} (R : Refines E.P E.H S) (hP : E.P.Valid)
  {ctx : Ctx} (hctx : R.CtxOK ctx) {tree kp : Nat} (htr : tree < 2 ^ 64) (hkp : kp < 2 ^ 32)

theorem forsIdx_lt (p : Par) (md : Bytes) (i : Nat) : forsIdx p md i < 2 ^ p.a :=
  Nat.mod_lt _ (Nat.two_pow_pos _)

/-- Index ranges of FORS tree `i`. -/
theorem fors_range {P : Params} (hP : P.Valid) {i : Nat} (hi : i < P.forsTrees) :
    i * 2 ^ P.forsHeight + 2 ^ P.forsHeight ≤ 2 ^ 32 := by
  have h1 : (i + 1) * 2 ^ P.forsHeight ≤ P.forsTrees * 2 ^ P.forsHeight := Nat.mul_le_mul_right _ hi
  have h2 := hP.fors_idx
  rw [Nat.succ_mul] at h1
  omega

theorem offH_fors {P : Params} (hP : P.Valid) {i0 : Nat} (hi0 : i0 < P.forsTrees) (pub : Bytes)
    (h i : Nat) (l r : Bytes) (hh : h ≤ P.forsHeight) (hi : i < 2 ^ (P.forsHeight - h)) :
    offH S pub ⟨0, tree, FORS_TREE, kp, 0, 0⟩ (i0 * 2 ^ P.forsHeight) h i l r =
      forsH S pub tree kp h (i + i0 * 2 ^ (P.forsHeight - h)) l r := by
  have e : i0 * 2 ^ P.forsHeight / 2 ^ h = i0 * 2 ^ (P.forsHeight - h) := by
    have := shift_div (l := 0) (i0 := i0) hh
    simpa using this
  have hr := fors_range hP hi0
  have hle : (i0 + 1) * 2 ^ (P.forsHeight - h) ≤ (i0 + 1) * 2 ^ P.forsHeight :=
    Nat.mul_le_mul_left _ (Nat.pow_le_pow_right (by omega) (by omega))
  rw [Nat.succ_mul, Nat.succ_mul] at hle
  unfold offH forsH
  rw [e, Nat.mod_eq_of_lt (by omega)]

include hctx htr hkp in
theorem fors_gen_leafx1_spec {ty x i : Nat} (hty : ty < 256) (hi : i < 2 ^ 32) (hP : E.P.Valid) :
    fors_gen_leafx1 E ctx i (enc E.P.fam ⟨0, tree, ty, kp, 0, x⟩) =
      .ok (forsLeaf S ctx.pub_seed ctx.sk_seed tree kp i, enc E.P.fam ⟨0, tree, FORS_TREE, kp, 0, i⟩) := by
  have hn := hP.n_lt
  have e1 := set_tree_index_enc (f := E.P.fam) (a := ⟨0, tree, ty, kp, 0, x⟩) (c := i)
  have e2 := set_type_enc (f := E.P.fam) (a := ⟨0, tree, ty, kp, 0, i⟩)
    (okA (by omega) htr hty hkp (by omega) hi) (t := SPX_ADDR_TYPE_FORSPRF) (by decide)
  have e3 := R.prf ctx ⟨0, tree, SPX_ADDR_TYPE_FORSPRF, kp, 0, i⟩ hctx
    (okA (by omega) htr (by decide) hkp (by omega) hi)
  have e4 := set_type_enc (f := E.P.fam) (a := ⟨0, tree, SPX_ADDR_TYPE_FORSPRF, kp, 0, i⟩)
    (okA (by omega) htr (by decide) hkp (by omega) hi) (t := SPX_ADDR_TYPE_FORSTREE) (by decide)
  have hl := R.PRF_len ctx.pub_seed ctx.sk_seed ⟨0, tree, SPX_ADDR_TYPE_FORSPRF, kp, 0, i⟩
  have e5 := R.thash ctx ⟨0, tree, SPX_ADDR_TYPE_FORSTREE, kp, 0, i⟩
    (S.PRF ctx.pub_seed ctx.sk_seed ⟨0, tree, SPX_ADDR_TYPE_FORSPRF, kp, 0, i⟩) 1 hctx
    (okA (by omega) htr (by decide) hkp (by omega) hi) (by omega) (by omega) (by omega)
  rw [List.take_of_length_le (by omega)] at e5
  unfold fors_gen_leafx1 fors_gen_sk fors_sk_to_leaf
  rw [e1]
  simp only [ok_bind]
  rw [e2]
  simp only [ok_bind]
  rw [e3]
  simp only [ok_bind]
  rw [e4]
  simp only [ok_bind]
  rw [e5]
  rfl

/-- Address set-up at the start of both FORS functions. -/
theorem copy_keypair_zero (f : Family) (fa : ADRS) :
    copy_keypair_addr f zeroAddr (enc f fa) = .ok (enc f ⟨fa.layer, fa.tree, 0, fa.w1, 0, 0⟩) := by
  rw [zeroAddr_eq f, copy_keypair_enc]
  rfl

/-- What one FORS tree contributes to the signature. -/
def forsPart (p : Par) (S : Spec.Hash) (pub sk : Bytes) (tree kp : Nat) (md : Bytes) (i : Nat) : Bytes :=
  let j := i * 2 ^ p.a + forsIdx p md i
  forsSk S pub sk tree kp j ++ authPath (forsH S pub tree kp) (forsLeaf S pub sk tree kp) p.a j

theorem authPath_length {H : Nat → Nat → Bytes → Bytes → Bytes} {leaf : Nat → Bytes} {n t l : Nat}
    (hH : ∀ h i l r, (H h i l r).length = n) (hl : ∀ i, (leaf i).length = n) :
    (authPath H leaf t l).length = t * n := by
  unfold authPath
  exact cat_length fun h _ => node_length (B := (sibling (l / 2 ^ h) + 1) * 2 ^ h) hH (fun i _ => hl i) _ _
    (Nat.le_refl _)

theorem forsPart_length {P : Params} {H : HashImpl} {S : Spec.Hash} (R : Refines P H S) {pub sk : Bytes}
    {tree kp : Nat} {md : Bytes} {i : Nat} :
    (forsPart P.toSpec S pub sk tree kp md i).length = (P.forsHeight + 1) * P.n := by
  unfold forsPart
  simp only [List.length_append]
  rw [authPath_length (H := forsH S pub tree kp) (leaf := forsLeaf S pub sk tree kp) (n := P.n)
      (fun _ _ _ _ => R.T_len ..) (fun _ => R.T_len ..),
    show (forsSk S pub sk tree kp (i * 2 ^ P.toSpec.a + forsIdx P.toSpec md i)).length = P.n from R.PRF_len ..,
    Nat.succ_mul, show P.toSpec.a = P.forsHeight from rfl, Nat.add_comm]

include hP hctx htr hkp in
theorem fors_sign_spec {fa : ADRS} (hfl : fa.layer = 0) (hft : fa.tree = tree) (hfk : fa.w1 = kp)
    {sig md : Bytes} (hsig : E.P.forsTrees * ((E.P.forsHeight + 1) * E.P.n) ≤ sig.length)
    (hmd : E.P.forsTrees * E.P.forsHeight ≤ 8 * md.length) :
    fors_sign E sig md ctx (enc E.P.fam fa) =
      .ok (forsSig E.P.toSpec S ctx.pub_seed ctx.sk_seed tree kp md ++
          sig.drop (E.P.forsTrees * ((E.P.forsHeight + 1) * E.P.n)),
        forsPk E.P.toSpec S ctx.pub_seed ctx.sk_seed tree kp) := by
  have hfh := hP.fh_le
  have hn := hP.n_lt
  let a := E.P.forsHeight
  let n := E.P.n
  let B := (a + 1) * n
  let f := forsPart E.P.toSpec S ctx.pub_seed ctx.sk_seed tree kp md
  let g : Nat → Bytes := fun i =>
    node (forsH S ctx.pub_seed tree kp) (forsLeaf S ctx.pub_seed ctx.sk_seed tree kp) a i
  have hfl' : ∀ i, (f i).length = B := fun i => forsPart_length R
  have hleafl : ∀ i, (forsLeaf S ctx.pub_seed ctx.sk_seed tree kp i).length = n := fun i => R.T_len ..
  have hgl : ∀ i, (g i).length = n := fun i =>
    node_length (B := (i + 1) * 2 ^ a) (fun _ _ _ _ => R.T_len ..) (fun i _ => hleafl i) _ _ (Nat.le_refl _)
  let roots0 := uninit (E.G 10) (E.P.forsTrees * n)
  have hloop := forRange_inv (n := E.P.forsTrees)
    (s := (sig, 0, roots0, enc E.P.fam ⟨0, tree, 0, kp, 0, 0⟩, enc E.P.fam ⟨0, tree, 0, kp, 0, 0⟩))
    (body := fors_sign_body E ctx ((List.range E.P.forsTrees).map (forsIdx E.P.toSpec md)))
    (fun i s => s.1 = cat i f ++ sig.drop (i * B) ∧ s.2.1 = i * B ∧
      s.2.2.1 = cat i g ++ roots0.drop (i * n) ∧
      (∃ ty, ty < 256 ∧ SameTree E.P.fam ⟨0, tree, ty, kp, 0, 0⟩ s.2.2.2.1) ∧
      (∃ ty x, ty < 256 ∧ x < 2 ^ 32 ∧ s.2.2.2.2 = enc E.P.fam ⟨0, tree, ty, kp, 0, x⟩))
    ⟨by simp [cat], by simp, by simp [cat],
      ⟨0, by omega, 0, 0, by omega, by omega, rfl⟩, ⟨0, 0, by omega, by omega, rfl⟩⟩ (by
      rintro i ⟨sg, off, roots, ta, la⟩ hi ⟨h1, h2, h3, ⟨ty, hty, u, v, hu, hv, h4⟩, ⟨ty', x, hty', hx, h5⟩⟩
      simp only at h1 h2 h3 h4 h5
      subst h1 h2 h3 h4 h5
      have hr := fors_range hP hi
      have hp30 : 2 ^ a ≤ 2 ^ 30 := Nat.pow_le_pow_right (by omega) hfh
      have hil := forsIdx_lt E.P.toSpec md i
      rw [show E.P.toSpec.a = a from rfl] at hil
      have hmulB : (i + 1) * B ≤ E.P.forsTrees * B := Nat.mul_le_mul_right _ hi
      have hmuln : (i + 1) * n ≤ E.P.forsTrees * n := Nat.mul_le_mul_right _ hi
      have hB : B = n + a * n := by show (a + 1) * n = _; rw [Nat.succ_mul, Nat.add_comm]
      rw [Nat.succ_mul] at hmulB
      have hsg : E.P.forsTrees * B ≤ sig.length := hsig
      have eo : i * 2 ^ E.P.forsHeight % 2 ^ 32 = i * 2 ^ a := Nat.mod_eq_of_lt (by
        have : 0 < 2 ^ E.P.forsHeight := Nat.two_pow_pos _
        show i * 2 ^ E.P.forsHeight < _
        omega)
      generalize hjd : forsIdx E.P.toSpec md i = j at *
      have ej : (j + i * 2 ^ a) % 2 ^ 32 = j + i * 2 ^ a := Nat.mod_eq_of_lt (by
        have : i * 2 ^ E.P.forsHeight = i * 2 ^ a := rfl
        have : 2 ^ E.P.forsHeight = 2 ^ a := rfl
        omega)
      have hjr : j + i * 2 ^ a < 2 ^ 32 := by
        have : i * 2 ^ E.P.forsHeight = i * 2 ^ a := rfl
        have : 2 ^ E.P.forsHeight = 2 ^ a := rfl
        omega
      have e1 := set_tree_height_enc (f := E.P.fam) (a := ⟨0, tree, ty, kp, u, v⟩)
        (okA (by omega) htr hty hkp hu hv) (c := 0) (by omega)
      have e2 := set_tree_index_enc (f := E.P.fam) (a := ⟨0, tree, ty, kp, 0, v⟩) (c := j + i * 2 ^ a)
      have e3 := set_type_enc (f := E.P.fam) (a := ⟨0, tree, ty, kp, 0, j + i * 2 ^ a⟩)
        (okA (by omega) htr hty hkp (by omega) hjr) (t := SPX_ADDR_TYPE_FORSPRF) (by decide)
      have e4 := R.prf ctx ⟨0, tree, SPX_ADDR_TYPE_FORSPRF, kp, 0, j + i * 2 ^ a⟩ hctx
        (okA (by omega) htr (by decide) hkp (by omega) hjr)
      have e5 := set_type_enc (f := E.P.fam) (a := ⟨0, tree, SPX_ADDR_TYPE_FORSPRF, kp, 0, j + i * 2 ^ a⟩)
        (okA (by omega) htr (by decide) hkp (by omega) hjr) (t := SPX_ADDR_TYPE_FORSTREE) (by decide)
      have hskl : (forsSk S ctx.pub_seed ctx.sk_seed tree kp (j + i * 2 ^ a)).length = n := R.PRF_len ..
      -- leaf callback
      let I : Nat → Addr := fun k => if k = 0 then enc E.P.fam ⟨0, tree, ty', kp, 0, x⟩ else
        enc E.P.fam ⟨0, tree, FORS_TREE, kp, 0, k - 1 + i * 2 ^ a⟩
      have hgen : ∀ k, k < 2 ^ a → fors_gen_leafx1 E ctx ((k + i * 2 ^ a) % 2 ^ 32) (I k) =
          .ok (forsLeaf S ctx.pub_seed ctx.sk_seed tree kp (k + i * 2 ^ a), I (k + 1)) := by
        intro k hk
        have hkr : k + i * 2 ^ a < 2 ^ 32 := by
          have : i * 2 ^ E.P.forsHeight = i * 2 ^ a := rfl
          have : 2 ^ E.P.forsHeight = 2 ^ a := rfl
          omega
        rw [Nat.mod_eq_of_lt hkr]
        have hI : ∃ ty x, ty < 256 ∧ I k = enc E.P.fam ⟨0, tree, ty, kp, 0, x⟩ := by
          by_cases h0 : k = 0
          · exact ⟨ty', x, hty', if_pos h0⟩
          · exact ⟨FORS_TREE, _, by decide, if_neg h0⟩
        obtain ⟨ty2, x2, hty2, hI⟩ := hI
        rw [hI, fors_gen_leafx1_spec R hctx htr hkp hty2 hkr hP]
        show _ = Except.ok (_, if k + 1 = 0 then _ else _)
        rw [if_neg (by omega), Nat.add_sub_cancel]
      have hoff := offH_fors (S := S) (tree := tree) (kp := kp) hP hi ctx.pub_seed
      obtain ⟨addr', e6, u', v', hu', hv', haddr'⟩ := treehashx1_spec R hctx (a := ⟨0, tree, FORS_TREE, kp, 0, 0⟩)
        (off := i * 2 ^ a) (leaf_idx := j) (auth0 := (sig.drop (i * B)).drop n)
        (okA (by omega) htr (by decide) hkp (by omega) (by omega)) hfh
        (by show a * n ≤ _; simp; omega) hn (leaf := fun k => forsLeaf S ctx.pub_seed ctx.sk_seed tree kp (k + i * 2 ^ a))
        (fun k _ => hleafl _) (I := I) hgen
        (tree_addr := enc E.P.fam ⟨0, tree, FORS_TREE, kp, 0, j + i * 2 ^ a⟩)
        ⟨0, j + i * 2 ^ a, by omega, hjr, rfl⟩
      rw [if_pos hil, authPath_shift hoff (leaf' := forsLeaf S ctx.pub_seed ctx.sk_seed tree kp) (fun k _ => rfl) hil,
        node_shift hoff (leaf' := forsLeaf S ctx.pub_seed ctx.sk_seed tree kp) (fun k _ => rfl) _ 0
          (Nat.le_refl _) (by simp)] at e6
      rw [Nat.sub_self, Nat.pow_zero, Nat.mul_one, Nat.zero_add] at e6
      have hcl : (cat i f).length = i * B := cat_length fun k _ => hfl' k
      have e7 : wr (cat i f ++ sig.drop (i * B)) (i * B) (forsSk S ctx.pub_seed ctx.sk_seed tree kp (j + i * 2 ^ a)) =
          .ok (cat i f ++ forsSk S ctx.pub_seed ctx.sk_seed tree kp (j + i * 2 ^ a) ++ (sig.drop (i * B)).drop n) := by
        rw [wr_ok (by simp [hcl, hskl]; omega), List.take_append_of_le_length (by omega),
          List.take_of_length_le (by omega), List.drop_append, List.drop_of_length_le (by omega), hcl, hskl]
        simp
      have e8 := wr_fill (n := n) (i := i) (f := g) (b := roots0) (fun k _ => hgl k)
        (by rw [uninit_length]; exact hmuln)
      refine ⟨(cat (i + 1) f ++ sig.drop ((i + 1) * B), (i + 1) * B, cat (i + 1) g ++ roots0.drop ((i + 1) * n),
        addr', I (2 ^ a)), ?_, rfl, rfl, rfl, ⟨FORS_TREE, by decide, u', v', hu', hv', haddr'⟩,
        ⟨FORS_TREE, 2 ^ a - 1 + i * 2 ^ a, by decide, by
          have : i * 2 ^ E.P.forsHeight = i * 2 ^ a := rfl
          have : 2 ^ E.P.forsHeight = 2 ^ a := rfl
          have : 0 < 2 ^ a := Nat.two_pow_pos _
          omega, if_neg (by have : 0 < 2 ^ a := Nat.two_pow_pos _; omega)⟩⟩
      unfold fors_sign_body fors_gen_sk
      simp only
      rw [shl1_ok (by omega), rd1_ok (by simp; exact hi)]
      simp only [ok_bind, List.getElem_map, List.getElem_range]
      rw [hjd, eo, ej, e1]
      simp only [ok_bind]
      rw [e2]
      simp only [ok_bind]
      rw [e3]
      simp only [ok_bind]
      rw [e4]
      simp only [ok_bind]
      rw [show S.PRF ctx.pub_seed ctx.sk_seed ⟨0, tree, SPX_ADDR_TYPE_FORSPRF, kp, 0, j + i * 2 ^ a⟩ =
        forsSk S ctx.pub_seed ctx.sk_seed tree kp (j + i * 2 ^ a) from rfl, e7]
      simp only [ok_bind]
      rw [e5]
      simp only [ok_bind]
      have hpre : (cat i f ++ forsSk S ctx.pub_seed ctx.sk_seed tree kp (j + i * 2 ^ a)).length = i * B + n := by
        simp [hcl, hskl]
      rw [withSub_ok (d := authPath (forsH S ctx.pub_seed tree kp) (forsLeaf S ctx.pub_seed ctx.sk_seed tree kp)
          a (j + i * 2 ^ a) ++ ((sig.drop (i * B)).drop n).drop (a * n)) (x := (g i, addr', I (2 ^ a)))
        (by rw [List.length_append, hpre]; show i * B + n ≤ _; omega)]
      · simp only [ok_bind]
        rw [e8]
        simp only [ok_bind]
        congr 2
        · rw [List.take_append_of_le_length (by rw [hpre]; exact Nat.le_refl _),
            List.take_of_length_le (by rw [hpre]; exact Nat.le_refl _), cat, List.drop_drop, List.drop_drop]
          rw [← List.append_assoc]
          congr 1
          · rw [List.append_assoc]
            congr 1
            show _ = forsPart _ _ _ _ _ _ _ _
            unfold forsPart
            rw [hjd, show E.P.toSpec.a = a from rfl, Nat.add_comm j]
          · congr 1
            rw [Nat.succ_mul, hB]
        · congr 1
          show i * B + n + n * a = (i + 1) * B
          rw [Nat.succ_mul, hB, Nat.mul_comm n a]
          omega
      · show (do
          let (root, auth, tree_addr, leaf_addr) ← treehashx1 E _ ctx j (i * 2 ^ a) E.P.forsHeight
            (fors_gen_leafx1 E ctx) (enc E.P.fam ⟨0, tree, FORS_TREE, kp, 0, j + i * 2 ^ a⟩) (I 0)
          .ok (auth, root, tree_addr, leaf_addr) : C (Bytes × Bytes × Addr × Addr)) = _
        rw [show i * B + E.P.n = i * B + n from rfl, List.drop_append, List.drop_of_length_le (by rw [hpre]; exact Nat.le_refl _),
          hpre, Nat.sub_self, List.drop_zero, List.nil_append, e6]
        rfl)
  obtain ⟨⟨sg, off, roots, ta, la⟩, hs', h1, -, h3, -, -⟩ := hloop
  simp only at h1 h3
  have e0 : copy_keypair_addr E.P.fam zeroAddr (enc E.P.fam fa) = .ok (enc E.P.fam ⟨0, tree, 0, kp, 0, 0⟩) := by
    rw [copy_keypair_zero, hfl, hft, hfk]
  have e1 := set_type_enc (f := E.P.fam) (a := ⟨0, tree, 0, kp, 0, 0⟩)
    (okA (by omega) htr (by omega) hkp (by omega) (by omega)) (t := SPX_ADDR_TYPE_FORSPK) (by decide)
  have e2 := message_to_indices_spec (Nat.le_trans hP.fh_le (by decide)) (ind := uninit (fun i => (E.G 9 i).toNat) E.P.forsTrees) (m := md)
    (by simp) hmd
  have hrl : roots = cat E.P.forsTrees g := by
    rw [h3, List.drop_of_length_le (by rw [uninit_length]; exact Nat.le_refl _), List.append_nil]
  have hrl' : roots.length = E.P.forsTrees * n := by rw [hrl]; exact cat_length fun k _ => hgl k
  have e3 := R.thash ctx ⟨0, tree, SPX_ADDR_TYPE_FORSPK, kp, 0, 0⟩ roots E.P.forsTrees hctx
    (okA (by omega) htr (by decide) hkp (by omega) (by omega)) hP.ft_pos (by rw [hrl']; exact Nat.le_refl _) hP.ft_n
  rw [List.take_of_length_le (by rw [hrl']; exact Nat.le_refl _)] at e3
  unfold fors_sign
  simp only
  rw [e0]
  simp only [ok_bind]
  rw [e1]
  simp only [ok_bind]
  rw [e2]
  simp only [ok_bind]
  rw [hs']
  simp only [ok_bind]
  rw [e3]
  simp only [ok_bind]
  rw [h1, hrl]
  rfl

/-- Root of FORS tree `i` recovered from a signature. -/
def forsRootFromSig (p : Par) (S : Spec.Hash) (pub : Bytes) (tree kp : Nat) (sig md : Bytes) (i : Nat) : Bytes :=
  let j := i * 2 ^ p.a + forsIdx p md i
  let s := sig.drop (i * ((p.a + 1) * p.n))
  climb (forsH S pub tree kp) j (chunk p.n (s.drop p.n)) (forsLeafOf S pub tree kp j (s.take p.n)) p.a

include hP hctx htr hkp in
theorem fors_pk_from_sig_spec {fa : ADRS} (hfl : fa.layer = 0) (hft : fa.tree = tree) (hfk : fa.w1 = kp)
    {sig md : Bytes} (hsig : E.P.forsTrees * ((E.P.forsHeight + 1) * E.P.n) ≤ sig.length)
    (hmd : E.P.forsTrees * E.P.forsHeight ≤ 8 * md.length) :
    fors_pk_from_sig E sig md ctx (enc E.P.fam fa) =
      .ok (forsPkFromSig E.P.toSpec S ctx.pub_seed tree kp sig md) := by
  have hfh := hP.fh_le
  have hfp := hP.fh_pos
  have hn := hP.n_lt
  let a := E.P.forsHeight
  let n := E.P.n
  let B := (a + 1) * n
  let g := forsRootFromSig E.P.toSpec S ctx.pub_seed tree kp sig md
  have hgl : ∀ i, (g i).length = n := by
    intro i
    show (climb _ _ _ _ a).length = n
    obtain ⟨k, hk⟩ : ∃ k, a = k + 1 := ⟨a - 1, by show a = E.P.forsHeight - 1 + 1; show E.P.forsHeight = _; omega⟩
    rw [hk, climb]
    split <;> exact R.T_len ..
  let roots0 := uninit (E.G 12) (E.P.forsTrees * n)
  have hloop := forRange_inv (n := E.P.forsTrees)
    (s := (0, roots0, enc E.P.fam ⟨0, tree, FORS_TREE, kp, 0, 0⟩))
    (body := fors_pk_body E sig ctx ((List.range E.P.forsTrees).map (forsIdx E.P.toSpec md)))
    (fun i s => s.1 = i * B ∧ s.2.1 = cat i g ++ roots0.drop (i * n) ∧
      SameTree E.P.fam ⟨0, tree, FORS_TREE, kp, 0, 0⟩ s.2.2)
    ⟨by simp, by simp [cat], ⟨0, 0, by omega, by omega, rfl⟩⟩ (by
      rintro i ⟨off, roots, ta⟩ hi ⟨h2, h3, ⟨u, v, hu, hv, h4⟩⟩
      simp only at h2 h3 h4
      subst h2 h3 h4
      have hr := fors_range hP hi
      have hp30 : 2 ^ a ≤ 2 ^ 30 := Nat.pow_le_pow_right (by omega) hfh
      have hil := forsIdx_lt E.P.toSpec md i
      rw [show E.P.toSpec.a = a from rfl] at hil
      have hmulB : (i + 1) * B ≤ E.P.forsTrees * B := Nat.mul_le_mul_right _ hi
      have hmuln : (i + 1) * n ≤ E.P.forsTrees * n := Nat.mul_le_mul_right _ hi
      have hB : B = n + a * n := by show (a + 1) * n = _; rw [Nat.succ_mul, Nat.add_comm]
      rw [Nat.succ_mul] at hmulB
      have hsg : E.P.forsTrees * B ≤ sig.length := hsig
      have q1 : i * 2 ^ E.P.forsHeight = i * 2 ^ a := rfl
      have q2 : 2 ^ E.P.forsHeight = 2 ^ a := rfl
      have eo : i * 2 ^ E.P.forsHeight % 2 ^ 32 = i * 2 ^ a := Nat.mod_eq_of_lt (by
        have : 0 < 2 ^ E.P.forsHeight := Nat.two_pow_pos _
        omega)
      generalize hjd : forsIdx E.P.toSpec md i = j at *
      have hjr : j + i * 2 ^ a < 2 ^ 32 := by omega
      have ej : (j + i * 2 ^ a) % 2 ^ 32 = j + i * 2 ^ a := Nat.mod_eq_of_lt hjr
      have e1 := set_tree_height_enc (f := E.P.fam) (a := ⟨0, tree, FORS_TREE, kp, u, v⟩)
        (okA (by omega) htr (by decide) hkp hu hv) (c := 0) (by omega)
      have e2 := set_tree_index_enc (f := E.P.fam) (a := ⟨0, tree, FORS_TREE, kp, 0, v⟩) (c := j + i * 2 ^ a)
      have hd1 : n ≤ (sig.drop (i * B)).length := by simp; omega
      have e3 := R.thash ctx ⟨0, tree, FORS_TREE, kp, 0, j + i * 2 ^ a⟩ (sig.drop (i * B)) 1 hctx
        (okA (by omega) htr (by decide) hkp (by omega) hjr) (by omega)
        (by rw [Nat.one_mul]; exact hd1) (by omega)
      rw [Nat.one_mul] at e3
      have hoff := offH_fors (S := S) (tree := tree) (kp := kp) hP hi ctx.pub_seed
      obtain ⟨addr', e4, haddr'⟩ := compute_root_spec R hctx (a := ⟨0, tree, FORS_TREE, kp, 0, 0⟩)
        (off := i * 2 ^ a) (leaf_idx := j)
        (okA (by omega) htr (by decide) hkp (by omega) (by omega)) hfh hn hfp
        (lf := S.T ctx.pub_seed ⟨0, tree, FORS_TREE, kp, 0, j + i * 2 ^ a⟩ ((sig.drop (i * B)).take n))
        (auth := sig.drop (i * B + n)) (by rw [R.T_len]; exact Nat.le_refl _)
        (by show a * n ≤ _; simp; omega)
        (addr := enc E.P.fam ⟨0, tree, FORS_TREE, kp, 0, j + i * 2 ^ a⟩)
        ⟨0, j + i * 2 ^ a, by omega, hjr, rfl⟩
      rw [climb_shift hoff hil (path' := chunk E.P.n (sig.drop (i * B + n))) (fun _ _ => rfl),
        List.take_of_length_le (l := S.T _ _ _) (by rw [R.T_len]; exact Nat.le_refl _)] at e4
      have e8 := wr_fill (n := n) (i := i) (f := g) (b := roots0) (fun k _ => hgl k)
        (by rw [uninit_length]; exact hmuln)
      refine ⟨((i + 1) * B, cat (i + 1) g ++ roots0.drop ((i + 1) * n), addr'), ?_, rfl, rfl, haddr'⟩
      unfold fors_pk_body fors_sk_to_leaf
      simp only
      rw [shl1_ok (by omega), rd1_ok (by simp; exact hi)]
      simp only [ok_bind, List.getElem_map, List.getElem_range]
      rw [hjd, eo, ej, e1]
      simp only [ok_bind]
      rw [e2]
      simp only [ok_bind]
      rw [sub_ok (by omega), sub_ok (by show i * B + n ≤ _; omega)]
      simp only [ok_bind]
      rw [e3]
      simp only [ok_bind]
      rw [show i * B + E.P.n = i * B + n from rfl, e4]
      simp only [ok_bind]
      have hval : climb (forsH S ctx.pub_seed tree kp) (j + i * 2 ^ E.P.forsHeight)
          (chunk E.P.n (sig.drop (i * B + n)))
          (S.T ctx.pub_seed ⟨0, tree, FORS_TREE, kp, 0, j + i * 2 ^ a⟩ ((sig.drop (i * B)).take n))
          E.P.forsHeight = g i := by
        show _ = forsRootFromSig _ _ _ _ _ _ _ _
        unfold forsRootFromSig
        rw [hjd, show E.P.toSpec.a = a from rfl, show E.P.toSpec.n = n from rfl, Nat.add_comm j, ← List.drop_drop]
        rfl
      rw [hval, e8]
      simp only [ok_bind]
      congr 2
      show i * B + n + n * a = (i + 1) * B
      rw [Nat.succ_mul, hB, Nat.mul_comm n a]
      omega)
  obtain ⟨⟨off, roots, ta⟩, hs', -, h3, -⟩ := hloop
  simp only at h3
  have e0 : copy_keypair_addr E.P.fam zeroAddr (enc E.P.fam fa) = .ok (enc E.P.fam ⟨0, tree, 0, kp, 0, 0⟩) := by
    rw [copy_keypair_zero, hfl, hft, hfk]
  have e1 := set_type_enc (f := E.P.fam) (a := ⟨0, tree, 0, kp, 0, 0⟩)
    (okA (by omega) htr (by omega) hkp (by omega) (by omega)) (t := SPX_ADDR_TYPE_FORSPK) (by decide)
  have e1' := set_type_enc (f := E.P.fam) (a := ⟨0, tree, 0, kp, 0, 0⟩)
    (okA (by omega) htr (by omega) hkp (by omega) (by omega)) (t := SPX_ADDR_TYPE_FORSTREE) (by decide)
  have e2 := message_to_indices_spec (Nat.le_trans hP.fh_le (by decide)) (ind := uninit (fun i => (E.G 11 i).toNat) E.P.forsTrees) (m := md)
    (by simp) hmd
  have hrl : roots = cat E.P.forsTrees g := by
    rw [h3, List.drop_of_length_le (by rw [uninit_length]; exact Nat.le_refl _), List.append_nil]
  have hrl' : roots.length = E.P.forsTrees * n := by rw [hrl]; exact cat_length fun k _ => hgl k
  have e3 := R.thash ctx ⟨0, tree, SPX_ADDR_TYPE_FORSPK, kp, 0, 0⟩ roots E.P.forsTrees hctx
    (okA (by omega) htr (by decide) hkp (by omega) (by omega)) hP.ft_pos (by rw [hrl']; exact Nat.le_refl _) hP.ft_n
  rw [List.take_of_length_le (by rw [hrl']; exact Nat.le_refl _)] at e3
  unfold fors_pk_from_sig
  rw [e0]
  simp only [ok_bind]
  rw [e1]
  simp only [ok_bind]
  rw [e1']
  simp only [ok_bind]
  rw [e2]
  simp only [ok_bind]
  rw [show (SPX_ADDR_TYPE_FORSTREE : Nat) = FORS_TREE from rfl, hs']
  simp only [ok_bind]
  rw [e3, hrl]
  rfl

end
end Spx
