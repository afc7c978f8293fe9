import Verif.Proof.Tree

/-! `compute_root` and the authentication path. -/

namespace Spx
open Spec

section
variable {E : Env} {S : Spec.Hash} (R : Refines E.P E.H S) {ctx : Ctx} (hctx : R.CtxOK ctx)
variable {a : ADRS} (ha : a.OK) {off th leaf_idx : Nat} (hth : th ≤ 30)
  {auth0 : Bytes} {leaf : Nat → Bytes}
  (hauth : th * E.P.n ≤ auth0.length)
  (hn : 2 * E.P.n < 2 ^ 31)
  (hleaf : ∀ i, i < 2 ^ th → (leaf i).length = E.P.n)

include ha hth hctx hn in
/-- `compute_root` climbs from the leaf along the path. -/
theorem compute_root_spec (hpos : 1 ≤ th) {lf auth : Bytes} (hl : E.P.n ≤ lf.length)
    (hau : th * E.P.n ≤ auth.length) {addr : Addr} (haddr : SameTree E.P.fam a addr) :
    ∃ addr', compute_root E lf leaf_idx off auth th ctx addr =
      .ok (climb (offH S ctx.pub_seed a off) leaf_idx (chunk E.P.n auth) (lf.take E.P.n) th, addr') ∧
      SameTree E.P.fam a addr' := by
  generalize hHdef : offH S ctx.pub_seed a off = Hn
  have hHlen : ∀ h i l r, (Hn h i l r).length = E.P.n := by
    intro h i l r; rw [← hHdef]; exact R.T_len ..
  have hlf : (lf.take E.P.n).length = E.P.n := by simp; omega
  have hcl : ∀ i, (climb Hn leaf_idx (chunk E.P.n auth) (lf.take E.P.n) i).length = E.P.n := by
    intro i
    cases i with
    | zero => exact hlf
    | succ i => rw [climb]; split <;> exact hHlen ..
  have hch : ∀ i, i < th → (chunk E.P.n auth i).length = E.P.n := by
    intro i hi
    have hmul : (i + 1) * E.P.n ≤ th * E.P.n := Nat.mul_le_mul_right _ (by omega)
    exact chunk_length (by omega)
  have hard : ∀ i, i < th → rd auth (i * E.P.n) E.P.n = .ok (chunk E.P.n auth i) := by
    intro i hi
    have hmul : (i + 1) * E.P.n ≤ th * E.P.n := Nat.mul_le_mul_right _ (by omega)
    exact rd_chunk (by omega)
  -- buffer content before the hash at height i + 1
  let buf : Nat → Bytes := fun i =>
    if leaf_idx / 2 ^ i % 2 = 0 then
      climb Hn leaf_idx (chunk E.P.n auth) (lf.take E.P.n) i ++ chunk E.P.n auth i
    else chunk E.P.n auth i ++ climb Hn leaf_idx (chunk E.P.n auth) (lf.take E.P.n) i
  have hbuf : ∀ i, buf i = if leaf_idx / 2 ^ i % 2 = 0 then
      climb Hn leaf_idx (chunk E.P.n auth) (lf.take E.P.n) i ++ chunk E.P.n auth i
    else chunk E.P.n auth i ++ climb Hn leaf_idx (chunk E.P.n auth) (lf.take E.P.n) i := fun _ => rfl
  have hbl : ∀ i, i < th → (buf i).length = 2 * E.P.n := by
    intro i hi
    rw [hbuf]
    split <;> simp [hcl, hch i hi] <;> omega
  have hwr : ∀ (b x y : Bytes), b.length = 2 * E.P.n → x.length = E.P.n → y.length = E.P.n →
      (∃ b', wr b 0 x = .ok b' ∧ wr b' E.P.n y = .ok (x ++ y)) ∧
      (∃ b', wr b E.P.n y = .ok b' ∧ wr b' 0 x = .ok (x ++ y)) := by
    intro b x y hb hx hy
    refine ⟨⟨_, wr_ok (by omega), ?_⟩, ⟨_, wr_ok (by omega), ?_⟩⟩
    · rw [wr_ok (by simp; omega)]
      congr 1
      simp [hx, hy, List.drop_append]
      omega
    · rw [wr_ok (by simp; omega)]
      congr 1
      simp [hx, hy, List.drop_append, hb]
      rw [show E.P.n - min E.P.n (2 * E.P.n) = 0 by omega, List.drop_of_length_le (l := b) (by omega)]
      simp
  have hcomb : ∀ i, i < th → ∀ x, SameTree E.P.fam a x → ∃ y z,
      set_tree_height E.P.fam x (i + 1) = .ok y ∧
      set_tree_index E.P.fam y ((leaf_idx / 2 ^ (i + 1) + off / 2 ^ (i + 1)) % 2 ^ 32) = .ok z ∧
      SameTree E.P.fam a z ∧
      E.H.thash (buf i) 2 ctx z =
        .ok (climb Hn leaf_idx (chunk E.P.n auth) (lf.take E.P.n) (i + 1)) := by
    intro i hi x hx
    obtain ⟨y, hy1, hy2⟩ := hx.set ha (h := i + 1)
      (v := (leaf_idx / 2 ^ (i + 1) + off / 2 ^ (i + 1)) % 2 ^ 32) (by omega) (Nat.mod_lt _ (by omega))
    refine ⟨y, _, hy1, hy2, ⟨_, _, by omega, Nat.mod_lt _ (by omega), rfl⟩, ?_⟩
    rw [R.thash ctx { a with w2 := i + 1, w3 := (leaf_idx / 2 ^ (i + 1) + off / 2 ^ (i + 1)) % 2 ^ 32 }
      (buf i) 2 hctx ⟨ha.layer, ha.tree, ha.typ, ha.w1, by show i + 1 < 256; omega,
        Nat.mod_lt _ (by omega)⟩ (by omega) (by rw [hbl i hi]; omega) (by omega)]
    rw [List.take_of_length_le (by rw [hbl i hi]; exact Nat.le_refl _), climb, hbuf]
    split <;> rw [← hHdef] <;> rfl
  have hstart : ∃ b, compute_root_start E lf leaf_idx auth = .ok b ∧ b = buf 0 := by
    unfold compute_root_start
    simp only
    have hlr : rd lf 0 E.P.n = .ok (lf.take E.P.n) := by rw [rd_ok (by omega)]; rfl
    have har : rd auth 0 E.P.n = .ok (chunk E.P.n auth 0) := by
      have := hard 0 (by omega); rwa [Nat.zero_mul] at this
    rw [hlr, har, and_one]
    simp only [ok_bind]
    by_cases hc : leaf_idx % 2 = 1
    · rw [if_pos hc]
      obtain ⟨b', h1, h2⟩ := (hwr (uninit (E.G 0) (2 * E.P.n)) (chunk E.P.n auth 0) (lf.take E.P.n)
        (by simp) (hch 0 (by omega)) hlf).2
      rw [h1]
      refine ⟨_, h2, ?_⟩
      rw [hbuf, if_neg (by simp; omega)]
      rfl
    · rw [if_neg hc]
      obtain ⟨b', h1, h2⟩ := (hwr (uninit (E.G 0) (2 * E.P.n)) (lf.take E.P.n) (chunk E.P.n auth 0)
        (by simp) hlf (hch 0 (by omega))).1
      rw [h1]
      refine ⟨_, h2, ?_⟩
      rw [hbuf, if_pos (by simp; omega)]
      rfl
  obtain ⟨b0, hb0, rfl⟩ := hstart
  have hit : (th + 2 ^ 32 - 1) % 2 ^ 32 = th - 1 := by omega
  obtain ⟨s', hs', hinv⟩ := forRange_inv (n := th - 1)
    (body := compute_root_step E auth ctx)
    (s := (buf 0, leaf_idx, off, addr))
    (fun i s => s.1 = buf i ∧ s.2.1 = leaf_idx / 2 ^ i ∧ s.2.2.1 = off / 2 ^ i ∧
      SameTree E.P.fam a s.2.2.2)
    ⟨rfl, by simp, by simp, haddr⟩ (by
      rintro i ⟨b, l, o, x⟩ hi ⟨h1, h2, h3, h4⟩
      simp only at h1 h2 h3 h4
      subst h1 h2 h3
      obtain ⟨y, z, hy, hz, hzs, hT⟩ := hcomb i (by omega) x h4
      refine ⟨(buf (i + 1), leaf_idx / 2 ^ (i + 1), off / 2 ^ (i + 1), z), ?_, rfl, rfl, rfl, hzs⟩
      unfold compute_root_step
      simp only [shiftRight_one_div, hy, ok_bind, hz, hT, hard (i + 1) (by omega), and_one]
      by_cases hc : leaf_idx / 2 ^ (i + 1) % 2 = 1
      · rw [if_pos hc]
        obtain ⟨b', e1, e2⟩ := (hwr (buf i) (chunk E.P.n auth (i + 1))
          (climb Hn leaf_idx (chunk E.P.n auth) (lf.take E.P.n) (i + 1)) (hbl i (by omega))
          (hch _ (by omega)) (hcl _)).2
        rw [e1]
        simp only [ok_bind]
        rw [e2, hbuf (i + 1), if_neg (by omega)]
        rfl
      · rw [if_neg hc]
        obtain ⟨b', e1, e2⟩ := (hwr (buf i) (climb Hn leaf_idx (chunk E.P.n auth) (lf.take E.P.n) (i + 1))
          (chunk E.P.n auth (i + 1)) (hbl i (by omega)) (hcl _) (hch _ (by omega))).1
        rw [e1]
        simp only [ok_bind]
        rw [e2, hbuf (i + 1), if_pos (by omega)]
        rfl)
  obtain ⟨b, l, o, x⟩ := s'
  obtain ⟨h1, h2, h3, h4⟩ := hinv
  simp only at h1 h2 h3 h4
  subst h1 h2 h3
  obtain ⟨y, z, hy, hz, hzs, hT⟩ := hcomb (th - 1) (by omega) x h4
  rw [show th - 1 + 1 = th by omega] at hy hz hT
  have e1 := shiftRight_one_div leaf_idx (th - 1)
  have e2 := shiftRight_one_div off (th - 1)
  rw [show th - 1 + 1 = th by omega] at e1 e2
  refine ⟨z, ?_, hzs⟩
  unfold compute_root
  simp only [hit, hb0, hs', ok_bind, e1, e2, hy, hz, hT]

/-- Climbing along the authentication path reaches the tree node above the leaf. -/
theorem climb_authPath {H : Nat → Nat → Bytes → Bytes → Bytes} {leaf : Nat → Bytes} {i : Nat}
    {path : Nat → Bytes} {t : Nat}
    (hp : ∀ h, h < t → path h = node H leaf h (sibling (i / 2 ^ h))) :
    climb H i path (leaf i) t = node H leaf t (i / 2 ^ t) := by
  induction t with
  | zero => simp [climb, node]
  | succ t ih =>
    rw [climb, node, ih (fun h hh => hp h (by omega)), hp t (by omega), div_pow_succ]
    unfold sibling
    by_cases hc : i / 2 ^ t % 2 = 0
    · rw [if_pos hc, if_pos hc]
      congr 2 <;> omega
    · rw [if_neg hc, if_neg hc]
      congr 2 <;> omega

end
end Spx