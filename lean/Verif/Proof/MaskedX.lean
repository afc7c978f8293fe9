import Verif.Proof.Masked
import Verif.Model.Parallel
/-! The same for the parallel FORS code. -/

namespace Spx
open Spec

/-- The addresses of all lanes are related. -/
def MskL (p : Bytes) (as bs : List Addr) : Prop := (∀ b ∈ bs, p.length ≤ b.length) ∧ as = bs.map (patch p)

theorem MskL.rd1 {p : Bytes} {as bs : List Addr} (h : MskL p as bs) (i : Nat) : Sim (Msk p) (rd1 as i) (rd1 bs i) := by
  obtain ⟨h, rfl⟩ := h
  unfold Spx.rd1
  rw [List.getElem?_map]
  cases e : bs[i]? with
  | none => exact rfl
  | some b => exact ⟨h b (List.mem_of_getElem? e), rfl⟩

theorem MskL.wr1 {p : Bytes} {as bs : List Addr} (h : MskL p as bs) (i : Nat) {a b : Addr} (k : Msk p a b) :
    Sim (MskL p) (wr1 as i a) (wr1 bs i b) := by
  obtain ⟨h, rfl⟩ := h
  unfold Spx.wr1
  rw [List.length_map]
  refine Sim.ite (fun _ => ⟨fun x hx => ?_, ?_⟩) fun _ => rfl
  · rcases List.mem_or_eq_of_mem_set hx with hx | rfl
    · exact h x hx
    · exact k.1
  · rw [k.2, List.map_set]

theorem MskL.lanes {p : Bytes} {as bs : List Addr} (h : MskL p as bs) {k : Nat} {f f' : Nat → Addr → C Addr}
    (hf : ∀ j a b, Msk p a b → Sim (Msk p) (f j a) (f' j b)) : Sim (MskL p) (lanes k f as) (lanes k f' bs) := by
  unfold Spx.lanes
  refine Sim.forRange h fun i s t _ h => ?_
  refine (h.rd1 i).bind fun a b hab => ?_
  exact (hf i a b hab).bind fun a b hab => h.wr1 i hab

theorem MskL.of_lanes {p : Bytes} (zs : List Addr) {k : Nat} (hz : zs.length = k) {f f' : Nat → Addr → C Addr}
    (hf : ∀ j a, Sim (Msk p) (f j a) (f' j a)) : Sim (MskL p) (Spx.lanes k f zs) (Spx.lanes k f' zs) := by
  have key : ∀ n, n ≤ k → Sim (fun x y => x.length = zs.length ∧ y.length = zs.length ∧
      (∀ i, i < n → ∃ a b, x[i]? = some a ∧ y[i]? = some b ∧ Msk p a b) ∧ ∀ i, n ≤ i → x[i]? = zs[i]? ∧ y[i]? = zs[i]?)
      (Spx.lanes n f zs) (Spx.lanes n f' zs) := by
    intro n
    induction n with
    | zero => exact fun _ => ⟨rfl, rfl, fun i hi => absurd hi (by omega), fun i _ => ⟨rfl, rfl⟩⟩
    | succ n ih =>
      intro hn
      refine (ih (by omega)).bind ?_
      rintro x y ⟨lx, ly, h1, h2⟩
      obtain ⟨ex, ey⟩ := h2 n (Nat.le_refl _)
      have ez : zs[n]? = some (zs[n]'(by omega)) := List.getElem?_eq_getElem (by omega)
      have rx : Spx.rd1 x n = .ok (zs[n]'(by omega)) := by unfold Spx.rd1; rw [ex, ez]
      have ry : Spx.rd1 y n = .ok (zs[n]'(by omega)) := by unfold Spx.rd1; rw [ey, ez]
      dsimp only
      rw [rx, ry, ok_bind, ok_bind]
      refine (hf n _).bind fun a b hab => ?_
      unfold Spx.wr1
      rw [if_pos (by omega), if_pos (by omega)]
      refine ⟨by simpa using lx, by simpa using ly, fun i hi => ?_, fun i hi => ?_⟩
      · by_cases c : i = n
        · subst c
          exact ⟨a, b, by rw [List.getElem?_set_self (by omega)], by rw [List.getElem?_set_self (by omega)], hab⟩
        · rw [List.getElem?_set_ne (by omega), List.getElem?_set_ne (by omega)]
          exact h1 i (by omega)
      · rw [List.getElem?_set_ne (by omega), List.getElem?_set_ne (by omega)]
        exact h2 i (by omega)
  have e := key k (Nat.le_refl _)
  cases h1 : Spx.lanes k f zs <;> cases h2 : Spx.lanes k f' zs <;> rw [h1, h2] at e
  · exact e
  · exact e.elim
  · exact e.elim
  · obtain ⟨lx, ly, h, -⟩ := e
    refine ⟨fun b hb => ?_, ?_⟩
    · obtain ⟨i, hi, rfl⟩ := List.mem_iff_getElem.mp hb
      obtain ⟨a', b', -, eb, hm⟩ := h i (by omega)
      rw [List.getElem?_eq_getElem hi] at eb
      cases eb
      exact hm.1
    · refine List.ext_getElem? fun i => ?_
      rw [List.getElem?_map]
      by_cases c : i < k
      · obtain ⟨a', b', ea, eb, hm⟩ := h i c
        rw [ea, eb, hm.2]; rfl
      · rw [List.getElem?_eq_none (by omega), List.getElem?_eq_none (by omega)]; rfl

/-- Lane hash functions which put `p` at the start of every address. -/
def maskX (p : Bytes) (X : LaneHash) : LaneHash where
  prf_addrx ctx as := X.prf_addrx ctx (as.map (patch p))
  thashx ins b ctx as := X.thashx ins b ctx (as.map (patch p))

def maskEX (p : Bytes) (E : EnvX) : EnvX := { E with H := maskH p E.H, X := maskX p E.X }

theorem maskEX_L (p : Bytes) (E : EnvX) : (maskEX p E).L = E.L := rfl
theorem maskEX_P (p : Bytes) (E : EnvX) : (maskEX p E).P = E.P := rfl
theorem maskEX_lg (p : Bytes) (E : EnvX) : (maskEX p E).lg = E.lg := rfl

section
variable {E : EnvX} {p : Bytes} (hk : p.length ≤ E.P.fam.offTree)

theorem mskL_thashx {as bs : List Addr} (h : MskL p as bs) (ins : List Bytes) (n : Nat) (ctx : Ctx) :
    E.X.thashx ins n ctx as = (maskEX p E).X.thashx ins n ctx bs := by rw [h.2]; rfl

theorem mskL_prfx {as bs : List Addr} (h : MskL p as bs) (ctx : Ctx) :
    E.X.prf_addrx ctx as = (maskEX p E).X.prf_addrx ctx bs := by rw [h.2]; rfl

include hk

/-- Related states of the inner loop. -/
def MskInnerX (p : Bytes) (s t : ThxInner) : Prop :=
  s.current = t.current ∧ s.auth_path = t.auth_path ∧ MskL p s.tree_addr t.tree_addr ∧ s.h = t.h ∧
    s.internal_idx = t.internal_idx ∧ s.internal_leaf = t.internal_leaf ∧ s.internal_idx_offset = t.internal_idx_offset ∧
    s.left_adj = t.left_adj ∧ s.prev_left_adj = t.prev_left_adj

theorem msk_treehashx_combine (ctx : Ctx) (idx max th : Nat) (stack : Bytes) (s t : ThxInner) (h : MskInnerX p s t) :
    Sim (SumRel (MskInnerX p) fun c d => c.1 = d.1 ∧ MskInnerX p c.2 d.2)
      (treehashx_combine E ctx idx max th stack s) (treehashx_combine (maskEX p E) ctx idx max th stack t) := by
  obtain ⟨s1, s2, s3, s4, s5, s6, s7, s8, s9⟩ := s
  obtain ⟨t1, t2, t3, t4, t5, t6, t7, t8, t9⟩ := t
  obtain ⟨rfl, rfl, h, rfl, rfl, rfl, rfl, rfl, rfl⟩ : s1 = t1 ∧ s2 = t2 ∧ MskL p s3 t3 ∧ s4 = t4 ∧ s5 = t5 ∧ s6 = t6 ∧
    s7 = t7 ∧ s8 = t8 ∧ s9 = t9 := h
  unfold treehashx_combine
  dsimp only
  rw [maskEX_L, maskEX_P, maskEX_lg]
  generalize (2 ^ 32 : Nat) = q
  refine Sim.ite (fun _ => ?_) fun _ => ?_
  · exact Sim.bind_eq rfl fun r => ⟨rfl, rfl, rfl, h, rfl, rfl, rfl, rfl, rfl, rfl⟩
  · refine Sim.bind_eq rfl fun auth => ?_
    refine Sim.ite (fun _ => ⟨rfl, rfl, rfl, h, rfl, rfl, rfl, rfl, rfl, rfl⟩) fun _ => ?_
    refine Sim.bind (MskL.lanes h fun j a b h => ?_) fun a b h => ?_
    · exact (msk_set_tree_height hk h _).bind fun a b h => msk_set_tree_index hk h _
    refine Sim.bind_eq rfl fun ins => ?_
    refine Sim.bind_eq (mskL_thashx h ..) fun o => ?_
    exact Sim.bind_eq rfl fun cur => ⟨rfl, rfl, h, rfl, rfl, rfl, rfl, rfl, rfl⟩

theorem msk_treehashx_inner (ctx : Ctx) (idx max th : Nat) (stack : Bytes) (s t : ThxInner) (h : MskInnerX p s t) :
    Sim (SumRel (MskInnerX p) fun c d => c.1 = d.1 ∧ MskInnerX p c.2 d.2)
      (treehashx_inner E ctx idx max th stack s) (treehashx_inner (maskEX p E) ctx idx max th stack t) := by
  have h' := h
  obtain ⟨s1, s2, s3, s4, s5, s6, s7, s8, s9⟩ := s
  obtain ⟨t1, t2, t3, t4, t5, t6, t7, t8, t9⟩ := t
  obtain ⟨rfl, rfl, h, rfl, rfl, rfl, rfl, rfl, rfl⟩ : s1 = t1 ∧ s2 = t2 ∧ MskL p s3 t3 ∧ s4 = t4 ∧ s5 = t5 ∧ s6 = t6 ∧
    s7 = t7 ∧ s8 = t8 ∧ s9 = t9 := h
  unfold treehashx_inner
  dsimp only
  rw [maskEX_L, maskEX_P, maskEX_lg]
  generalize (2 ^ 32 : Nat) = q
  refine Sim.ite (fun _ => ?_) fun _ => msk_treehashx_combine hk ctx _ _ _ _ _ _ h'
  refine Sim.ite (fun _ => ?_) fun _ => ?_
  · exact Sim.bind_eq rfl fun r => ⟨rfl, rfl, rfl, h, rfl, rfl, rfl, rfl, rfl, rfl⟩
  · exact Sim.bind_eq rfl fun sh =>
      msk_treehashx_combine hk ctx _ _ _ _ _ _ ⟨rfl, rfl, h, rfl, rfl, rfl, rfl, rfl, rfl⟩

/-- Related states of the outer loop. -/
def MskOuterX {ι : Type} (p : Bytes) (RI : ι → ι → Prop) (s t : Thx ι) : Prop :=
  s.idx = t.idx ∧ s.stack = t.stack ∧ s.auth_path = t.auth_path ∧ MskL p s.tree_addr t.tree_addr ∧ RI s.info t.info ∧
    s.left_adj = t.left_adj ∧ s.prev_left_adj = t.prev_left_adj

theorem msk_treehashx_body {ι : Type} {RI : ι → ι → Prop} (ctx : Ctx) (li io th max : Nat)
    (gl gl' : Bytes → Nat → ι → C (Bytes × ι))
    (hg : ∀ d k x y, RI x y → Sim (fun x y => x.1 = y.1 ∧ RI x.2 y.2) (gl d k x) (gl' d k y)) (s t : Thx ι)
    (h : MskOuterX p RI s t) :
    Sim (SumRel (MskOuterX p RI) fun c d => c.1 = d.1 ∧ c.2.1 = d.2.1 ∧ MskL p c.2.2.1 d.2.2.1 ∧ RI c.2.2.2 d.2.2.2)
      (treehashx_body E ctx li io th max gl s) (treehashx_body (maskEX p E) ctx li io th max gl' t) := by
  obtain ⟨s1, s2, s3, s4, s5, s6, s7⟩ := s
  obtain ⟨t1, t2, t3, t4, t5, t6, t7⟩ := t
  obtain ⟨rfl, rfl, rfl, h, hi, rfl, rfl⟩ : s1 = t1 ∧ s2 = t2 ∧ s3 = t3 ∧ MskL p s4 t4 ∧ RI s5 t5 ∧ s6 = t6 ∧ s7 = t7 := h
  unfold treehashx_body
  dsimp only
  refine (hg _ _ _ _ hi).bind ?_
  rintro ⟨leaf, i⟩ ⟨leaf', i'⟩ ⟨e, hi⟩
  dsimp only at e hi ⊢
  subst e
  refine Sim.bind (Sim.loop (R := MskInnerX p) (S := fun c d => c.1 = d.1 ∧ MskInnerX p c.2 d.2)
    ⟨rfl, rfl, h, rfl, rfl, rfl, rfl, rfl, rfl⟩ fun s t h => msk_treehashx_inner hk ctx _ _ _ _ s t h) ?_
  rintro ⟨res, u1, u2, u3, u4, u5, u6, u7, u8, u9⟩ ⟨res', v1, v2, v3, v4, v5, v6, v7, v8, v9⟩ h
  obtain ⟨rfl, rfl, rfl, h, rfl, rfl, rfl, rfl, rfl, rfl⟩ : res = res' ∧ u1 = v1 ∧ u2 = v2 ∧ MskL p u3 v3 ∧ u4 = v4 ∧
    u5 = v5 ∧ u6 = v6 ∧ u7 = v7 ∧ u8 = v8 ∧ u9 = v9 := h
  cases res with
  | some r => exact ⟨rfl, rfl, h, hi⟩
  | none =>
    refine Sim.bind_eq rfl fun d => ?_
    exact Sim.bind_eq rfl fun st => ⟨rfl, rfl, rfl, h, hi, rfl, rfl⟩

theorem msk_treehashx {ι : Type} {RI : ι → ι → Prop} {auth : Bytes} {ctx : Ctx} {li io th : Nat}
    {gl gl' : Bytes → Nat → ι → C (Bytes × ι)}
    (hg : ∀ d k x y, RI x y → Sim (fun x y => x.1 = y.1 ∧ RI x.2 y.2) (gl d k x) (gl' d k y)) {a b : List Addr}
    (h : MskL p a b) {i j : ι} (hi : RI i j) :
    Sim (fun c d => c.1 = d.1 ∧ c.2.1 = d.2.1 ∧ MskL p c.2.2.1 d.2.2.1 ∧ RI c.2.2.2 d.2.2.2)
      (treehashx E auth ctx li io th gl a i) (treehashx (maskEX p E) auth ctx li io th gl' b j) := by
  unfold treehashx
  dsimp only
  rw [maskEX_L, maskEX_P, maskEX_lg]
  generalize (2 ^ 32 : Nat) = fuel
  refine Sim.bind_eq rfl fun m => ?_
  exact Sim.loop (R := MskOuterX p RI) ⟨rfl, rfl, rfl, h, hi, rfl, rfl⟩
    fun s t h => msk_treehashx_body hk ctx _ _ _ _ gl gl' hg s t h

theorem msk_fors_gen_leafx (ctx : Ctx) (d : Bytes) (k : Nat) (a b : List Addr) (h : MskL p a b) :
    Sim (fun x y => x.1 = y.1 ∧ MskL p x.2 y.2) (fors_gen_leafx E ctx d k a) (fors_gen_leafx (maskEX p E) ctx d k b) := by
  unfold fors_gen_leafx
  dsimp only
  rw [maskEX_L, maskEX_P]
  refine Sim.bind (MskL.lanes h fun j a b h => ?_) fun a b h => ?_
  · exact (msk_set_tree_index hk h _).bind fun a b h => msk_set_type hk h _
  refine Sim.bind_eq (mskL_prfx h ..) fun o => ?_
  refine Sim.bind_eq rfl fun leaf => ?_
  refine Sim.bind (MskL.lanes h fun j a b h => ?_) fun a b h => ?_
  · exact msk_set_type hk h _
  refine Sim.bind_eq rfl fun ins => ?_
  refine Sim.bind_eq (mskL_thashx h ..) fun o => ?_
  exact Sim.bind_eq rfl fun leaf => ⟨rfl, h⟩

/-- Related states of the loop of `fors_sign`. -/
def MskSignX (p : Bytes) (s t : Bytes × Nat × Bytes × List Addr × List Addr) : Prop :=
  s.1 = t.1 ∧ s.2.1 = t.2.1 ∧ s.2.2.1 = t.2.2.1 ∧ MskL p s.2.2.2.1 t.2.2.2.1 ∧ MskL p s.2.2.2.2 t.2.2.2.2

theorem msk_fors_signx_body (ctx : Ctx) (ind : List Nat) (i : Nat) (s t : Bytes × Nat × Bytes × List Addr × List Addr)
    (h : MskSignX p s t) : Sim (MskSignX p) (fors_signx_body E ctx ind i s) (fors_signx_body (maskEX p E) ctx ind i t) := by
  obtain ⟨s1, s2, s3, s4, s5⟩ := s
  obtain ⟨t1, t2, t3, t4, t5⟩ := t
  obtain ⟨rfl, rfl, rfl, ht, hl⟩ : s1 = t1 ∧ s2 = t2 ∧ s3 = t3 ∧ MskL p s4 t4 ∧ MskL p s5 t5 := h
  unfold fors_signx_body
  dsimp only
  refine Sim.bind_eq rfl fun sh => ?_
  refine Sim.bind_eq rfl fun idx => ?_
  refine (ht.rd1 0).bind fun a b h => ?_
  refine (msk_set_tree_height hk h _).bind fun a b h => ?_
  refine (msk_set_tree_index hk h _).bind fun a b h => ?_
  refine (msk_set_type hk h _).bind fun a b h => ?_
  refine Sim.bind_eq (msk_prf h ..) fun sk => ?_
  refine Sim.bind_eq rfl fun sg => ?_
  refine (msk_set_type hk h _).bind fun a b h => ?_
  refine (ht.wr1 0 h).bind fun a b h => ?_
  refine Sim.bind (R := fun c d => c.1 = d.1 ∧ c.2.1 = d.2.1 ∧ MskL p c.2.2.1 d.2.2.1 ∧ MskL p c.2.2.2 d.2.2.2) ?_ ?_
  · unfold withSub
    refine Sim.ite (fun _ => ?_) fun _ => rfl
    refine Sim.bind (R := fun c d => c.1 = d.1 ∧ c.2.1 = d.2.1 ∧ MskL p c.2.2.1 d.2.2.1 ∧ MskL p c.2.2.2 d.2.2.2) ?_ ?_
    · refine (msk_treehashx hk (RI := MskL p) (msk_fors_gen_leafx hk ctx) h hl).bind ?_
      rintro ⟨c1, c2, c3, c4⟩ ⟨d1, d2, d3, d4⟩ ⟨h1, h2, h3, h4⟩
      exact ⟨h2, h1, h3, h4⟩
    · rintro ⟨c1, c2, c3, c4⟩ ⟨d1, d2, d3, d4⟩ ⟨h1, h2, h3, h4⟩
      exact ⟨congrArg (fun x => sg.take (s2 + E.P.n) ++ x) h1, h2, h3, h4⟩
  · rintro ⟨c1, c2, c3, c4⟩ ⟨d1, d2, d3, d4⟩ h
    obtain ⟨rfl, rfl, h3, h4⟩ : c1 = d1 ∧ c2 = d2 ∧ MskL p c3 d3 ∧ MskL p c4 d4 := h
    exact Sim.bind_eq rfl fun r => ⟨rfl, rfl, rfl, h3, h4⟩

theorem msk_fors_signx {sig m : Bytes} {ctx : Ctx} {a b : Addr} (h : Msk p a b) :
    fors_signx E sig m ctx a = fors_signx (maskEX p E) sig m ctx b := by
  apply Sim.eq
  unfold fors_signx
  dsimp only
  refine Sim.bind (MskL.of_lanes (p := p) _ (List.length_replicate) fun j z => ?_) fun ta tb ht => ?_
  · exact (msk_copy_keypair hk h z).bind fun a b h => msk_set_type hk h _
  refine Sim.bind (MskL.of_lanes (p := p) _ (List.length_replicate) fun j z => ?_) fun la lb hl => ?_
  · exact msk_copy_keypair hk h z
  refine (msk_copy_keypair hk h _).bind fun ra rb hr => ?_
  refine (msk_set_type hk hr _).bind fun ra rb hr => ?_
  refine Sim.bind_eq rfl fun ind => ?_
  refine Sim.bind (Sim.forRange (R := MskSignX p) ⟨rfl, rfl, rfl, ht, hl⟩ fun i s t _ h =>
    msk_fors_signx_body hk ctx ind i s t h) ?_
  rintro ⟨c1, c2, c3, c4, c5⟩ ⟨d1, d2, d3, d4, d5⟩ h
  obtain ⟨rfl, rfl, rfl, -, -⟩ : c1 = d1 ∧ c2 = d2 ∧ c3 = d3 ∧ MskL p c4 d4 ∧ MskL p c5 d5 := h
  exact Sim.bind_eq (msk_thash hr ..) fun _ => rfl

end
end Spx
