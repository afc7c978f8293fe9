import Verif.Proof.Sim
import Verif.Proof.Fors
/-! FORS on address buffers of any content: the bytes before the tree field are only passed on to the hash functions, so
that the code computes what it computes with these bytes zero and hash functions which put them in. -/

namespace Spx
open Spec

/-- `b` with its first bytes replaced by `p`. -/
def patch (p b : Bytes) : Bytes := p ++ b.drop p.length

/-- `a` is `b` with `p` put in. -/
def Msk (p a b : Bytes) : Prop := p.length ≤ b.length ∧ a = patch p b

theorem patch_length {p b : Bytes} (h : p.length ≤ b.length) : (patch p b).length = b.length := by
  simp [patch]; omega

theorem patch_drop {p b : Bytes} {i : Nat} (h : p.length ≤ i) : (patch p b).drop i = b.drop i := by
  unfold patch
  rw [List.drop_append, List.drop_of_length_le h, List.nil_append, List.drop_drop]
  congr 1; omega

theorem patch_take {p b : Bytes} {i : Nat} (h : p.length ≤ i) : (patch p b).take i = patch p (b.take i) := by
  unfold patch
  rw [List.take_append, List.take_of_length_le h, List.drop_take]

theorem patch_append {p b c : Bytes} (h : p.length ≤ b.length) : patch p b ++ c = patch p (b ++ c) := by
  unfold patch
  rw [List.append_assoc, List.drop_append_of_le_length h]

theorem Msk.wr1 {p a b : Bytes} (h : Msk p a b) {i : Nat} (hi : p.length ≤ i) (x : Byte) :
    Sim (Msk p) (wr1 a i x) (wr1 b i x) := by
  obtain ⟨h1, rfl⟩ := h
  unfold Spx.wr1
  rw [patch_length h1]
  refine Sim.ite (fun c => ⟨by simpa using h1, ?_⟩) fun _ => rfl
  unfold patch
  rw [List.set_append_right _ _ hi, List.drop_set, if_neg (by omega)]

theorem Msk.wr {p a b : Bytes} (h : Msk p a b) {i : Nat} (hi : p.length ≤ i) (d : Bytes) :
    Sim (Msk p) (wr a i d) (wr b i d) := by
  obtain ⟨h1, rfl⟩ := h
  unfold Spx.wr
  rw [patch_length h1, patch_take hi, patch_drop (by omega)]
  refine Sim.ite (fun c => ⟨?_, ?_⟩) fun _ => rfl
  · simp; omega
  · rw [patch_append (by simp; omega), patch_append (by simp; omega)]

theorem Msk.rd {p a b : Bytes} (h : Msk p a b) {i : Nat} (hi : p.length ≤ i) (n : Nat) : rd a i n = rd b i n := by
  obtain ⟨h1, rfl⟩ := h
  unfold Spx.rd
  rw [patch_length h1, patch_drop hi]

/-- The head of the buffer copied to another one. -/
theorem Msk.head {p a b : Bytes} (h : Msk p a b) {n : Nat} (hn : p.length ≤ n) (z : Bytes) :
    Sim (Msk p) (Spx.rd a 0 n >>= fun d => Spx.wr z 0 d) (Spx.rd b 0 n >>= fun d => Spx.wr z 0 d) := by
  obtain ⟨h1, rfl⟩ := h
  unfold Spx.rd
  rw [patch_length h1, List.drop_zero, List.drop_zero, patch_take hn]
  by_cases c : 0 + n ≤ b.length
  · rw [if_pos c, if_pos c, ok_bind, ok_bind]
    unfold Spx.wr
    have hl : p.length ≤ (b.take n).length := by simp; omega
    rw [patch_length hl, List.take_zero, List.nil_append, List.nil_append]
    refine Sim.ite (fun c => ⟨?_, ?_⟩) fun _ => rfl
    · rw [List.length_append]; omega
    · rw [patch_append hl]
  · rw [if_neg c, if_neg c]; exact rfl

theorem Msk.withSub {p a b : Bytes} (h : Msk p a b) {i : Nat} (hi : p.length ≤ i) (f : Bytes → C Bytes) :
    Sim (Msk p) (withSub a i (fun b => do .ok (← f b, ())) >>= fun r => .ok r.1)
      (withSub b i (fun b => do .ok (← f b, ())) >>= fun r => .ok r.1) := by
  obtain ⟨h1, rfl⟩ := h
  unfold Spx.withSub
  rw [patch_length h1, patch_take hi, patch_drop hi]
  by_cases c : i ≤ b.length
  · rw [if_pos c, if_pos c]
    dsimp only
    cases f (b.drop i) with
    | error e => exact rfl
    | ok d =>
      show Msk p _ _
      refine ⟨?_, patch_append (by simp; omega)⟩
      simp; omega
  · rw [if_neg c, if_neg c]; exact rfl

section
variable {f : Family} {p a b : Bytes} (hk : p.length ≤ f.offTree) (h : Msk p a b)
include hk h

theorem msk_set_type (t : Nat) : Sim (Msk p) (set_type f a t) (set_type f b t) :=
  h.wr1 (Nat.le_trans hk (by cases f <;> decide)) _

theorem msk_set_tree_height (t : Nat) : Sim (Msk p) (set_tree_height f a t) (set_tree_height f b t) :=
  h.wr1 (Nat.le_trans hk (by cases f <;> decide)) _

theorem msk_set_tree_index (t : Nat) : Sim (Msk p) (set_tree_index f a t) (set_tree_index f b t) :=
  h.withSub (Nat.le_trans hk (by cases f <;> decide)) _

theorem msk_copy_keypair (z : Addr) : Sim (Msk p) (copy_keypair_addr f z a) (copy_keypair_addr f z b) := by
  have k : p.length ≤ f.offKp := Nat.le_trans hk (by cases f <;> decide)
  have e1 : ∀ x, copy_keypair_addr f z x = ((rd x 0 (f.offTree + 8) >>= fun d => wr z 0 d) >>= fun out =>
      rd x f.offKp 4 >>= fun d => wr out f.offKp d) := fun x => by
    unfold copy_keypair_addr
    cases rd x 0 (f.offTree + 8) <;> rfl
  rw [e1, e1]
  refine (h.head (by omega) z).bind fun x y hxy => ?_
  rw [h.rd k]
  exact Sim.bind_eq rfl fun d => hxy.wr k d

end

/-- Hash functions which put `p` at the start of every address. -/
def maskH (p : Bytes) (H : HashImpl) : HashImpl :=
  { H with
    prf_addr := fun ctx a => H.prf_addr ctx (patch p a)
    thash := fun inp b ctx a => H.thash inp b ctx (patch p a) }

def maskE (p : Bytes) (E : Env) : Env := { E with H := maskH p E.H }

section
variable {E : Env} {p : Bytes} (hk : p.length ≤ E.P.fam.offTree)

theorem msk_thash {a b : Addr} (h : Msk p a b) (inp : Bytes) (n : Nat) (ctx : Ctx) :
    E.H.thash inp n ctx a = (maskE p E).H.thash inp n ctx b := by rw [h.2]; rfl

theorem msk_prf {a b : Addr} (h : Msk p a b) (ctx : Ctx) :
    E.H.prf_addr ctx a = (maskE p E).H.prf_addr ctx b := by rw [h.2]; rfl

include hk

theorem msk_compute_root_step (auth : Bytes) (ctx : Ctx) (i : Nat) (s t : Bytes × Nat × Nat × Addr)
    (h : s.1 = t.1 ∧ s.2.1 = t.2.1 ∧ s.2.2.1 = t.2.2.1 ∧ Msk p s.2.2.2 t.2.2.2) :
    Sim (fun s t => s.1 = t.1 ∧ s.2.1 = t.2.1 ∧ s.2.2.1 = t.2.2.1 ∧ Msk p s.2.2.2 t.2.2.2)
      (compute_root_step E auth ctx i s) (compute_root_step (maskE p E) auth ctx i t) := by
  obtain ⟨s1, s2, s3, s4⟩ := s
  obtain ⟨t1, t2, t3, t4⟩ := t
  obtain ⟨rfl, rfl, rfl, h⟩ : s1 = t1 ∧ s2 = t2 ∧ s3 = t3 ∧ Msk p s4 t4 := h
  unfold compute_root_step
  dsimp only
  refine (msk_set_tree_height hk h _).bind fun a b h => ?_
  refine (msk_set_tree_index hk h _).bind fun a b h => ?_
  refine Sim.bind (Sim.ite (R := Eq) (fun _ => ?_) fun _ => ?_) fun x y e => ⟨e, rfl, rfl, h⟩ <;>
  exact Sim.bind_eq (msk_thash h ..) fun _ => Sim.of_eq rfl

theorem msk_compute_root {leaf : Bytes} {li io : Nat} {auth : Bytes} {th : Nat} {ctx : Ctx} {a b : Addr} (h : Msk p a b) :
    Sim (fun x y => x.1 = y.1 ∧ Msk p x.2 y.2) (compute_root E leaf li io auth th ctx a)
      (compute_root (maskE p E) leaf li io auth th ctx b) := by
  unfold compute_root
  generalize (th + 2 ^ 32 - 1) % 2 ^ 32 = iters
  refine Sim.bind_eq rfl fun buf => ?_
  dsimp only
  refine Sim.bind (Sim.forRange (R := fun s t => s.1 = t.1 ∧ s.2.1 = t.2.1 ∧ s.2.2.1 = t.2.2.1 ∧ Msk p s.2.2.2 t.2.2.2)
    ⟨rfl, rfl, rfl, h⟩ fun i s t _ h => msk_compute_root_step hk auth ctx i s t h) ?_
  rintro ⟨s1, s2, s3, s4⟩ ⟨t1, t2, t3, t4⟩ h
  obtain ⟨rfl, rfl, rfl, h⟩ : s1 = t1 ∧ s2 = t2 ∧ s3 = t3 ∧ Msk p s4 t4 := h
  dsimp only
  refine (msk_set_tree_height hk h _).bind fun a b h => ?_
  refine (msk_set_tree_index hk h _).bind fun a b h => ?_
  exact Sim.bind_eq (msk_thash h ..) fun _ => ⟨rfl, h⟩

/-- Related states of the inner loop. -/
def MskInner (p : Bytes) (s t : Thx1Inner) : Prop :=
  s.current = t.current ∧ s.auth_path = t.auth_path ∧ Msk p s.tree_addr t.tree_addr ∧ s.h = t.h ∧
    s.internal_idx = t.internal_idx ∧ s.internal_leaf = t.internal_leaf ∧ s.internal_idx_offset = t.internal_idx_offset

theorem msk_treehashx1_inner (ctx : Ctx) (idx max th : Nat) (stack : Bytes) (s t : Thx1Inner) (h : MskInner p s t) :
    Sim (SumRel (MskInner p) fun c d => c.1 = d.1 ∧ MskInner p c.2 d.2)
      (treehashx1_inner E ctx idx max th stack s) (treehashx1_inner (maskE p E) ctx idx max th stack t) := by
  obtain ⟨s1, s2, s3, s4, s5, s6, s7⟩ := s
  obtain ⟨t1, t2, t3, t4, t5, t6, t7⟩ := t
  obtain ⟨rfl, rfl, h, rfl, rfl, rfl, rfl⟩ : s1 = t1 ∧ s2 = t2 ∧ Msk p s3 t3 ∧ s4 = t4 ∧ s5 = t5 ∧ s6 = t6 ∧ s7 = t7 := h
  unfold treehashx1_inner
  dsimp only
  refine Sim.ite (fun _ => ?_) fun _ => ?_
  · exact Sim.bind_eq rfl fun r => ⟨rfl, rfl, rfl, h, rfl, rfl, rfl, rfl⟩
  · refine Sim.bind_eq rfl fun auth => ?_
    refine Sim.ite (fun _ => ⟨rfl, rfl, rfl, h, rfl, rfl, rfl, rfl⟩) fun _ => ?_
    refine (msk_set_tree_height hk h _).bind fun a b h => ?_
    refine (msk_set_tree_index hk h _).bind fun a b h => ?_
    refine Sim.bind_eq rfl fun d => ?_
    refine Sim.bind_eq rfl fun cur => ?_
    refine Sim.bind_eq (msk_thash h ..) fun _ => ?_
    exact Sim.bind_eq rfl fun cur => ⟨rfl, rfl, h, rfl, rfl, rfl, rfl⟩

/-- Related states of the outer loop. -/
def MskOuter {ι : Type} (p : Bytes) (RI : ι → ι → Prop) (s t : Thx1 ι) : Prop :=
  s.idx = t.idx ∧ s.stack = t.stack ∧ s.auth_path = t.auth_path ∧ Msk p s.tree_addr t.tree_addr ∧ RI s.info t.info

theorem msk_treehashx1_body {ι : Type} {RI : ι → ι → Prop} (ctx : Ctx) (li io th max : Nat)
    (gl gl' : Nat → ι → C (Bytes × ι))
    (hg : ∀ k x y, RI x y → Sim (fun x y => x.1 = y.1 ∧ RI x.2 y.2) (gl k x) (gl' k y)) (s t : Thx1 ι) (h : MskOuter p RI s t) :
    Sim (SumRel (MskOuter p RI) fun c d => c.1 = d.1 ∧ c.2.1 = d.2.1 ∧ Msk p c.2.2.1 d.2.2.1 ∧ RI c.2.2.2 d.2.2.2)
      (treehashx1_body E ctx li io th max gl s) (treehashx1_body (maskE p E) ctx li io th max gl' t) := by
  obtain ⟨s1, s2, s3, s4, s5⟩ := s
  obtain ⟨t1, t2, t3, t4, t5⟩ := t
  obtain ⟨rfl, rfl, rfl, h, hi⟩ : s1 = t1 ∧ s2 = t2 ∧ s3 = t3 ∧ Msk p s4 t4 ∧ RI s5 t5 := h
  unfold treehashx1_body
  dsimp only
  refine (hg _ _ _ hi).bind ?_
  rintro ⟨leaf, i⟩ ⟨leaf', i'⟩ ⟨e, hi⟩
  dsimp only at e hi ⊢
  subst e
  refine Sim.bind_eq rfl fun cur => ?_
  refine Sim.bind (Sim.loop (R := MskInner p) (S := fun c d => c.1 = d.1 ∧ MskInner p c.2 d.2) ⟨rfl, rfl, h, rfl, rfl, rfl, rfl⟩
    fun s t h => msk_treehashx1_inner hk ctx _ _ _ _ s t h) ?_
  rintro ⟨res, u1, u2, u3, u4, u5, u6, u7⟩ ⟨res', v1, v2, v3, v4, v5, v6, v7⟩ h
  obtain ⟨rfl, rfl, rfl, h, rfl, rfl, rfl, rfl⟩ : res = res' ∧ u1 = v1 ∧ u2 = v2 ∧ Msk p u3 v3 ∧ u4 = v4 ∧ u5 = v5 ∧ u6 = v6 ∧ u7 = v7 := h
  cases res with
  | some r => exact ⟨rfl, rfl, h, hi⟩
  | none =>
    refine Sim.bind_eq rfl fun d => ?_
    exact Sim.bind_eq rfl fun st => ⟨rfl, rfl, rfl, h, hi⟩

theorem msk_treehashx1 {ι : Type} {RI : ι → ι → Prop} {auth : Bytes} {ctx : Ctx} {li io th : Nat}
    {gl gl' : Nat → ι → C (Bytes × ι)}
    (hg : ∀ k x y, RI x y → Sim (fun x y => x.1 = y.1 ∧ RI x.2 y.2) (gl k x) (gl' k y)) {a b : Addr} (h : Msk p a b)
    {i j : ι} (hi : RI i j) :
    Sim (fun c d => c.1 = d.1 ∧ c.2.1 = d.2.1 ∧ Msk p c.2.2.1 d.2.2.1 ∧ RI c.2.2.2 d.2.2.2)
      (treehashx1 E auth ctx li io th gl a i) (treehashx1 (maskE p E) auth ctx li io th gl' b j) := by
  unfold treehashx1
  dsimp only
  refine Sim.bind_eq rfl fun m => ?_
  generalize (2 ^ 32 : Nat) = fuel
  exact Sim.loop (R := MskOuter p RI) ⟨rfl, rfl, rfl, h, hi⟩ fun s t h => msk_treehashx1_body hk ctx _ _ _ _ gl gl' hg s t h

theorem msk_fors_gen_leafx1 (ctx : Ctx) (k : Nat) (a b : Addr) (h : Msk p a b) :
    Sim (fun x y => x.1 = y.1 ∧ Msk p x.2 y.2) (fors_gen_leafx1 E ctx k a) (fors_gen_leafx1 (maskE p E) ctx k b) := by
  unfold fors_gen_leafx1
  refine (msk_set_tree_index hk h _).bind fun a b h => ?_
  refine (msk_set_type hk h _).bind fun a b h => ?_
  refine Sim.bind_eq (msk_prf h ..) fun _ => ?_
  refine (msk_set_type hk h _).bind fun a b h => ?_
  exact Sim.bind_eq (msk_thash h ..) fun _ => ⟨rfl, h⟩

/-- Related states of the loop of `fors_sign`. -/
def MskSign (p : Bytes) (s t : Bytes × Nat × Bytes × Addr × Addr) : Prop :=
  s.1 = t.1 ∧ s.2.1 = t.2.1 ∧ s.2.2.1 = t.2.2.1 ∧ Msk p s.2.2.2.1 t.2.2.2.1 ∧ Msk p s.2.2.2.2 t.2.2.2.2

theorem msk_fors_sign_body (ctx : Ctx) (ind : List Nat) (i : Nat) (s t : Bytes × Nat × Bytes × Addr × Addr)
    (h : MskSign p s t) : Sim (MskSign p) (fors_sign_body E ctx ind i s) (fors_sign_body (maskE p E) ctx ind i t) := by
  obtain ⟨s1, s2, s3, s4, s5⟩ := s
  obtain ⟨t1, t2, t3, t4, t5⟩ := t
  obtain ⟨rfl, rfl, rfl, h, hl⟩ : s1 = t1 ∧ s2 = t2 ∧ s3 = t3 ∧ Msk p s4 t4 ∧ Msk p s5 t5 := h
  unfold fors_sign_body
  dsimp only
  refine Sim.bind_eq rfl fun sh => ?_
  refine Sim.bind_eq rfl fun idx => ?_
  refine (msk_set_tree_height hk h _).bind fun a b h => ?_
  refine (msk_set_tree_index hk h _).bind fun a b h => ?_
  refine (msk_set_type hk h _).bind fun a b h => ?_
  refine Sim.bind_eq (msk_prf h ..) fun sk => ?_
  refine Sim.bind_eq rfl fun sg => ?_
  refine (msk_set_type hk h _).bind fun a b h => ?_
  refine Sim.bind (R := fun c d => c.1 = d.1 ∧ c.2.1 = d.2.1 ∧ Msk p c.2.2.1 d.2.2.1 ∧ Msk p c.2.2.2 d.2.2.2) ?_ ?_
  · unfold withSub
    refine Sim.ite (fun _ => ?_) fun _ => rfl
    refine Sim.bind (R := fun c d => c.1 = d.1 ∧ c.2.1 = d.2.1 ∧ Msk p c.2.2.1 d.2.2.1 ∧ Msk p c.2.2.2 d.2.2.2) ?_ ?_
    · refine (msk_treehashx1 hk (RI := Msk p) (msk_fors_gen_leafx1 hk ctx) h hl).bind ?_
      rintro ⟨c1, c2, c3, c4⟩ ⟨d1, d2, d3, d4⟩ ⟨h1, h2, h3, h4⟩
      exact ⟨h2, h1, h3, h4⟩
    · rintro ⟨c1, c2, c3, c4⟩ ⟨d1, d2, d3, d4⟩ ⟨h1, h2, h3, h4⟩
      exact ⟨congrArg (fun x => sg.take (s2 + E.P.n) ++ x) h1, h2, h3, h4⟩
  · rintro ⟨c1, c2, c3, c4⟩ ⟨d1, d2, d3, d4⟩ h
    obtain ⟨rfl, rfl, h3, h4⟩ : c1 = d1 ∧ c2 = d2 ∧ Msk p c3 d3 ∧ Msk p c4 d4 := h
    exact Sim.bind_eq rfl fun r => ⟨rfl, rfl, rfl, h3, h4⟩

theorem msk_fors_sign {sig m : Bytes} {ctx : Ctx} {a b : Addr} (h : Msk p a b) :
    fors_sign E sig m ctx a = fors_sign (maskE p E) sig m ctx b := by
  apply Sim.eq
  unfold fors_sign
  refine (msk_copy_keypair hk h _).bind fun ta tb ht => ?_
  refine (msk_copy_keypair hk h _).bind fun la lb hl => ?_
  refine (msk_copy_keypair hk h _).bind fun ra rb hr => ?_
  refine (msk_set_type hk hr _).bind fun ra rb hr => ?_
  refine Sim.bind_eq rfl fun ind => ?_
  refine Sim.bind (Sim.forRange (R := MskSign p) ⟨rfl, rfl, rfl, ht, hl⟩ fun i s t _ h =>
    msk_fors_sign_body hk ctx ind i s t h) ?_
  rintro ⟨c1, c2, c3, c4, c5⟩ ⟨d1, d2, d3, d4, d5⟩ h
  obtain ⟨rfl, rfl, rfl, -, -⟩ : c1 = d1 ∧ c2 = d2 ∧ c3 = d3 ∧ Msk p c4 d4 ∧ Msk p c5 d5 := h
  exact Sim.bind_eq (msk_thash hr ..) fun _ => rfl

theorem msk_fors_pk_body (sig : Bytes) (ctx : Ctx) (ind : List Nat) (i : Nat) (s t : Nat × Bytes × Addr)
    (h : s.1 = t.1 ∧ s.2.1 = t.2.1 ∧ Msk p s.2.2 t.2.2) :
    Sim (fun s t => s.1 = t.1 ∧ s.2.1 = t.2.1 ∧ Msk p s.2.2 t.2.2) (fors_pk_body E sig ctx ind i s)
      (fors_pk_body (maskE p E) sig ctx ind i t) := by
  obtain ⟨s1, s2, s3⟩ := s
  obtain ⟨t1, t2, t3⟩ := t
  obtain ⟨rfl, rfl, h⟩ : s1 = t1 ∧ s2 = t2 ∧ Msk p s3 t3 := h
  unfold fors_pk_body
  dsimp only
  refine Sim.bind_eq rfl fun sh => ?_
  refine Sim.bind_eq rfl fun idx => ?_
  refine (msk_set_tree_height hk h _).bind fun a b h => ?_
  refine (msk_set_tree_index hk h _).bind fun a b h => ?_
  refine Sim.bind_eq rfl fun sg => ?_
  refine Sim.bind_eq (msk_thash h ..) fun leaf => ?_
  refine Sim.bind_eq rfl fun auth => ?_
  refine (msk_compute_root hk h).bind ?_
  rintro ⟨c1, c2⟩ ⟨d1, d2⟩ h
  obtain ⟨rfl, h⟩ : c1 = d1 ∧ Msk p c2 d2 := h
  exact Sim.bind_eq rfl fun r => ⟨rfl, rfl, h⟩

theorem msk_fors_pk {sig m : Bytes} {ctx : Ctx} {a b : Addr} (h : Msk p a b) :
    fors_pk_from_sig E sig m ctx a = fors_pk_from_sig (maskE p E) sig m ctx b := by
  apply Sim.eq
  unfold fors_pk_from_sig
  refine (msk_copy_keypair hk h _).bind fun ta tb ht => ?_
  refine (msk_copy_keypair hk h _).bind fun ra rb hr => ?_
  refine (msk_set_type hk ht _).bind fun ta tb ht => ?_
  refine (msk_set_type hk hr _).bind fun ra rb hr => ?_
  refine Sim.bind_eq rfl fun ind => ?_
  refine Sim.bind (Sim.forRange (R := fun s t => s.1 = t.1 ∧ s.2.1 = t.2.1 ∧ Msk p s.2.2 t.2.2) ⟨rfl, rfl, ht⟩
    fun i s t _ h => msk_fors_pk_body hk sig ctx ind i s t h) ?_
  rintro ⟨c1, c2, c3⟩ ⟨d1, d2, d3⟩ h
  obtain ⟨rfl, rfl, -⟩ : c1 = d1 ∧ c2 = d2 ∧ Msk p c3 d3 := h
  exact Sim.of_eq (msk_thash hr ..)

end
end Spx
