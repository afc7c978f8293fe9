import Verif.Proof.LeakLanes
import Verif.Proof.LeakSha2
import Verif.Model.LeakSha2X
/-! # Two runs of the vectorised SHA-2 hash functions leave the same trace -/

namespace Spx.Leak
namespace Sha2X
open Spx.Sha2X (V)

theorem low_LOAD {wb : Nat} {b b' : Bytes} {off : Nat} (h : Len b b') :
    Rel (fun _ _ => True) (LOAD wb b off) (LOAD wb b' off) := by
  unfold LOAD
  exact Rel.bind (Rel.rd h rfl rfl) fun _ _ _ => Rel.ok trivial

theorem low_loads {wb k off : Nat} {f : V wb → V wb} {d d' : List Bytes} (h : Lens d d') :
    Rel (fun _ _ => True) (tabulate k fun j => do L.ok (f (← LOAD wb (← rd1 d j) off)))
      (tabulate k fun j => do L.ok (f (← LOAD wb (← rd1 d' j) off))) :=
  (low_tabulateR (fun _ _ => True) fun _ _ => Rel.bind (Rel.rd1 h.len rfl) fun _ _ hab =>
    Rel.bind (low_LOAD (h.get hab.1 hab.2)) fun _ _ _ => Rel.ok trivial).weaken fun _ _ _ => trivial

theorem low_transform256 {s s' : List (V 4)} {d d' : List Bytes} (h : Lens d d') :
    Rel (fun _ _ => True) (transform256 s d) (transform256 s' d') := by
  unfold transform256
  refine Rel.prim (Rel.bind (low_loads h) fun _ _ _ => ?_)
  refine Rel.bind (low_loads h) fun _ _ _ => ?_
  exact Rel.ok trivial

theorem low_transform512 {s s' : List (V 8)} {d d' : List Bytes} (h : Lens d d') :
    Rel (fun _ _ => True) (transform512 s d) (transform512 s' d') := by
  unfold transform512
  refine Rel.prim (Rel.bind (low_loads h) fun _ _ _ => ?_)
  refine Rel.bind (low_loads h) fun _ _ _ => ?_
  refine Rel.bind (low_loads h) fun _ _ _ => ?_
  refine Rel.bind (low_loads h) fun _ _ _ => ?_
  exact Rel.ok trivial

/-- The transformation and the load leave the same trace, and the sizes of the outputs are constant. -/
structure XCfg.Low {wb : Nat} (c : XCfg wb) : Prop where
  transform : ∀ s s' d d', Lens d d' → Rel (fun _ _ => True) (c.transformL s d) (c.transformL s' d')
  load : ∀ x y, Len x y → Rel (fun _ _ => True) (c.loadL x) (c.loadL y)
  outs : ∀ s s', Lens (c.outs s) (c.outs s')

theorem len_STORE {wb : Nat} (a : V wb) : (Spx.Sha2X.STORE a).length = 32 := by
  unfold Spx.Sha2X.STORE; rw [List.length_map, List.length_range]

theorem low256 : x256.Low where
  transform _ _ _ _ h := low_transform256 h
  load _ _ h := low_load_bigendian_32 h
  outs s s' := by
    show List.map List.length (Spx.Sha2X.x256.outs s) = List.map List.length (Spx.Sha2X.x256.outs s')
    simp only [Spx.Sha2X.x256, List.map_map]
    refine List.map_congr_left fun j _ => ?_
    simp only [Function.comp_def, len_STORE]

theorem low512 : x512.Low where
  transform _ _ _ _ h := low_transform512 h
  load _ _ h := low_load_bigendian_64 h
  outs s s' := by
    show List.map List.length (Spx.Sha2X.x512.outs s) = List.map List.length (Spx.Sha2X.x512.outs s')
    simp only [Spx.Sha2X.x512, List.map_cons, List.length_append, len_STORE, List.map_nil]

section
variable {wb : Nat} {c : XCfg wb} (hc : c.Low) {g g' : Nat → Nat → Byte}

/-- Two states of the absorbing loop. -/
def AbsX (x y : Nat × List (V wb) × BitVec 64) : Prop := x.1 = y.1

include hc in
theorem low_absorbStep {i i' : List Bytes} {n : Nat} (hi : Lens i i') {x y : Nat × List (V wb) × BitVec 64}
    (h : AbsX x y) : Rel (SumRel AbsX AbsX) (absorbStep c i n x) (absorbStep c i' n y) := by
  obtain ⟨k, s, m⟩ := x
  obtain ⟨k', s', m'⟩ := y
  cases (show k = k' from h)
  unfold absorbStep
  dsimp only
  generalize (2 : Nat) ^ 64 = M
  refine Rel.branch Iff.rfl (fun _ => ?_) (fun _ => Rel.ok_inr rfl)
  refine Rel.bind (low_tabulate fun j _ => Rel.bind (Rel.rd1 hi.len rfl) fun a b hab =>
    (Rel.sub_len (hi.get hab.1 hab.2) rfl).weaken fun _ _ h => h.1.trans h.2.symm) fun w w' hw => ?_
  exact Rel.bind (hc.transform _ _ _ _ hw) fun _ _ _ => Rel.ok_inl rfl

theorem low_padBlocks {m m' : Bytes} {n : Nat} (h : Len m m') :
    Rel (fun x y => Len x y) (padBlocks c m n) (padBlocks c m' n) := by
  unfold padBlocks
  refine Rel.forRange (fun x y => Len x y) rfl h fun i s s' _ hs => ?_
  refine Rel.bind (Rel.wr1_len hs rfl) fun t t' ht => ?_
  refine Rel.forRange (fun x y => Len x y) rfl (ht.1.trans ht.2.symm) fun i s s' _ hs => ?_
  exact (Rel.wr1_len hs rfl).weaken fun _ _ h => h.1.trans h.2.symm

theorem low_lenBlocks {m m' : Bytes} {n n' : BitVec 64} (h : Len m m') :
    Rel (fun x y => Len x y) (lenBlocks c m n) (lenBlocks c m' n') := by
  unfold lenBlocks
  refine Rel.forRange (fun x y => Len x y) rfl h fun i s s' _ hs => ?_
  refine Rel.bind (R := fun x y => Len x y) (Rel.forRange (fun x y => Len x y) rfl hs fun i s s' _ hs =>
    (Rel.wr1_len hs rfl).weaken fun _ _ h => h.1.trans h.2.symm) fun t t' ht => ?_
  by_cases hcl : c.clear = true
  · rw [if_pos hcl, if_pos hcl]
    exact (Rel.wr ht rfl rfl).weaken fun _ _ h => h.1.trans h.2.symm
  · rw [if_neg hcl, if_neg hcl]
    exact Rel.ok ht

include hc in
theorem low_run {s s' : List (V wb)} {m m' : BitVec 64} {i i' : List Bytes} {n : Nat} (hi : Lens i i') :
    Rel Lens (run c g s m i n) (run c g' s' m' i' n) := by
  unfold run
  generalize (2 : Nat) ^ 64 = M
  refine Rel.bind (Rel.loop AbsX AbsX rfl rfl fun _ _ h => low_absorbStep hc hi h) ?_
  rintro ⟨k, s, m⟩ ⟨k', s', m'⟩ h
  cases (show k = k' from h)
  dsimp only
  refine Rel.bind (R := fun x y => Len x y) (Rel.forRange (fun x y => Len x y) rfl (by rw [Len, len_uninit, len_uninit])
    fun j s s' _ hs => ?_) fun t t' ht => ?_
  · refine Rel.bind (Rel.rd1 hi.len rfl) fun a b hab => ?_
    refine Rel.bind (Rel.rd (hi.get hab.1 hab.2) rfl rfl) fun _ _ h => ?_
    exact (Rel.wr hs rfl (h.1.trans h.2.symm)).weaken fun _ _ h => h.1.trans h.2.symm
  refine Rel.bind (low_padBlocks ht) fun u u' hu => ?_
  refine Rel.bind (R := fun (x y : List (V wb) × Bytes) => Len x.2 y.2)
    (Rel.branch Iff.rfl (fun _ => Rel.ok hu) fun _ => ?_) ?_
  · refine Rel.bind (low_subLanes hu) fun _ _ hl => ?_
    exact Rel.bind (hc.transform _ _ _ _ hl) fun _ _ _ => Rel.ok rfl
  · rintro ⟨s, v⟩ ⟨s', v'⟩ hv
    dsimp only at hv ⊢
    refine Rel.bind (low_lenBlocks hv) fun w w' hw => ?_
    refine Rel.bind (low_subLanes hw) fun _ _ hl => ?_
    exact Rel.bind (hc.transform _ _ _ _ hl) fun _ _ _ => Rel.ok (hc.outs _ _)

include hc in
theorem low_seeded {s s' : Bytes} {k : Nat} {i i' : List Bytes} {n : Nat} (hs : Len s s') (hi : Lens i i') :
    Rel Lens (seeded c g s k i n) (seeded c g' s' k i' n) := by
  unfold seeded
  refine Rel.bind (low_tabulateR (fun _ _ => True) fun j _ => ?_) fun _ _ _ => low_run hc hi
  refine Rel.bind (Rel.sub_len hs rfl) fun _ _ h => ?_
  exact Rel.bind (hc.load _ _ (h.1.trans h.2.symm)) fun _ _ _ => Rel.ok trivial

include hc in
theorem low_hashx {i i' : List Bytes} {n : Nat} (hi : Lens i i') : Rel Lens (hashx c g i n) (hashx c g' i' n) := by
  unfold hashx
  exact low_run hc hi

theorem low_setCounter {b b' : Bytes} {n k : Nat} (h : Len b b') :
    Rel (fun x y => x.length = b.length ∧ y.length = b.length) (setCounter c b n k) (setCounter c b' n k) := by
  unfold setCounter
  refine Rel.forLen rfl h fun i s s' _ h1 h2 => ?_
  refine Rel.bind (Rel.withSub_unit (h1.trans h2.symm) rfl fun p p' h1 h2 => ?_) ?_
  · exact Rel.bind (low_u32_to_bytes (h1.trans h2.symm)) fun _ _ h => Rel.ok ⟨h.1.trans h1, h.2.trans h1⟩
  · rintro ⟨x, _⟩ ⟨y, _⟩ h
    exact Rel.ok ⟨h.1.trans h1, h.2.trans h1⟩

end

section
variable {g g' : Nat → Nat → Byte}

/-- Two states of the loop of `mgf1x8`. -/
def Mgf8 (n : Nat) (x y : Nat × Bytes × Bytes) : Prop :=
  x.1 = y.1 ∧ (x.2.1.length = n ∧ y.2.1.length = n) ∧ Len x.2.2 y.2.2

theorem low_mgfStep8 {ol il n : Nat} {x y : Nat × Bytes × Bytes} (h : Mgf8 n x y) :
    Rel (SumRel (Mgf8 n) (Mgf8 n)) (mgfStep8 g ol il x) (mgfStep8 g' ol il y) := by
  obtain ⟨i, o, b⟩ := x
  obtain ⟨i', o', b'⟩ := y
  obtain ⟨h1, ⟨h2, h3⟩, h4⟩ := h
  dsimp only at h1 h2 h3 h4
  subst h1
  unfold mgfStep8
  dsimp only
  refine Rel.branch Iff.rfl (fun _ => ?_) (fun _ => Rel.ok_inr ⟨rfl, ⟨h2, h3⟩, h4⟩)
  refine Rel.bind (low_setCounter h4) fun _ _ hb => ?_
  refine Rel.bind (low_subLanes (hb.1.trans hb.2.symm)) fun _ _ hl => ?_
  refine Rel.bind (low_hashx low256 hl) fun _ _ ho => ?_
  refine Rel.bind (low_wrLanes (h2.trans h3.symm) ho) fun _ _ hw => ?_
  exact Rel.ok_inl ⟨rfl, ⟨hw.1.trans h2, hw.2.trans h2⟩, hb.1.trans hb.2.symm⟩

/-- The inputs of MGF1 -/
theorem low_mgfIn {k n : Nat} {i i' : List Bytes} (hi : Lens i i') {b b' : Bytes} (hb : Len b b') :
    Rel (fun x y => Len x y) (forRange k (fun j b => do wr b (j * (n + 4)) (← rd (← rd1 i j) 0 n)) b)
      (forRange k (fun j b => do wr b (j * (n + 4)) (← rd (← rd1 i' j) 0 n)) b') := by
  refine Rel.forRange (fun x y => Len x y) rfl hb fun j s s' _ hs => ?_
  refine Rel.bind (Rel.rd1 hi.len rfl) fun a b hab => ?_
  refine Rel.bind (Rel.rd (hi.get hab.1 hab.2) rfl rfl) fun _ _ h => ?_
  exact (Rel.wr hs rfl (h.1.trans h.2.symm)).weaken fun _ _ h => h.1.trans h.2.symm

theorem low_mgf1x8 {o o' : Bytes} {ol il : Nat} {i i' : List Bytes} (ho : Len o o') (hi : Lens i i') :
    Rel (fun x y => x.length = o.length ∧ y.length = o.length) (mgf1x8 g o ol i il) (mgf1x8 g' o' ol i' il) := by
  unfold mgf1x8
  refine Rel.bind (low_mgfIn hi (by rw [Len, len_uninit, len_uninit])) fun b b' hb => ?_
  refine Rel.bind (Rel.loop (Mgf8 o.length) (Mgf8 o.length) rfl ⟨rfl, ⟨rfl, ho.symm⟩, hb⟩ fun _ _ => low_mgfStep8) ?_
  rintro ⟨k, p, b⟩ ⟨k', p', b'⟩ ⟨h1, ⟨h2, h3⟩, h4⟩
  dsimp only at h1 h2 h3 h4 ⊢
  subst h1
  refine Rel.bind (low_setCounter h4) fun _ _ hb => ?_
  refine Rel.bind (low_subLanes (hb.1.trans hb.2.symm)) fun _ _ hl => ?_
  refine Rel.bind (low_hashx low256 hl) fun _ _ ho => ?_
  refine Rel.bind (low_wrLanes (by rw [Len, len_uninit, len_uninit]) ho) fun _ _ hw => ?_
  refine (Rel.forLen rfl (h2.trans h3.symm) fun j s s' _ q1 q2 => ?_).weaken fun _ _ h => ⟨h.1.trans h2, h.2.trans h2⟩
  refine Rel.bind (Rel.rd (hw.1.trans hw.2.symm) rfl rfl) fun _ _ h => ?_
  exact (Rel.wr (q1.trans q2.symm) rfl (h.1.trans h.2.symm)).weaken fun _ _ h => ⟨h.1.trans q1, h.2.trans q1⟩

/-- Two states of the loop of `mgf1x4_512`. -/
def Mgf4 (n : Nat) (x y : Nat × Nat × Nat × Bytes × Bytes × Bytes) : Prop :=
  x.1 = y.1 ∧ x.2.1 = y.2.1 ∧ x.2.2.1 = y.2.2.1 ∧ (x.2.2.2.1.length = n ∧ y.2.2.2.1.length = n) ∧
    Len x.2.2.2.2.1 y.2.2.2.2.1 ∧ Len x.2.2.2.2.2 y.2.2.2.2.2

theorem low_mgfStep4 {ol il n : Nat} {x y : Nat × Nat × Nat × Bytes × Bytes × Bytes} (h : Mgf4 n x y) :
    Rel (SumRel (Mgf4 n) (fun x y => x.length = n ∧ y.length = n)) (mgfStep4 g ol il x) (mgfStep4 g' ol il y) := by
  obtain ⟨i, r, p, o, b, u⟩ := x
  obtain ⟨i', r', p', o', b', u'⟩ := y
  obtain ⟨h1, h2, h3, ⟨h4, h5⟩, h6, h7⟩ := h
  dsimp only at h1 h2 h3 h4 h5 h6 h7
  subst h1 h2 h3
  unfold mgfStep4
  dsimp only
  refine Rel.branch Iff.rfl (fun _ => ?_) (fun _ => Rel.ok_inr ⟨h4, h5⟩)
  refine Rel.bind (R := fun a b => a = b) (Rel.branch Iff.rfl (fun _ => Rel.ok rfl) (fun _ => Rel.ok rfl)) fun t t' ht => ?_
  subst ht
  refine Rel.bind (low_setCounter h6) fun _ _ hb => ?_
  refine Rel.bind (low_subLanes (hb.1.trans hb.2.symm)) fun _ _ hl => ?_
  refine Rel.bind (low_hashx low512 hl) fun _ _ ho => ?_
  refine Rel.bind (low_wrLanes h7 ho) fun _ _ hw => ?_
  refine Rel.bind (Rel.forLen rfl (h4.trans h5.symm) fun j s s' _ q1 q2 => ?_) fun _ _ hz =>
    Rel.ok_inl ⟨rfl, rfl, rfl, ⟨hz.1.trans h4, hz.2.trans h4⟩, hb.1.trans hb.2.symm, hw.1.trans hw.2.symm⟩
  refine Rel.bind (Rel.rd (hw.1.trans hw.2.symm) rfl rfl) fun _ _ h => ?_
  exact (Rel.wr (q1.trans q2.symm) rfl (h.1.trans h.2.symm)).weaken fun _ _ h => ⟨h.1.trans q1, h.2.trans q1⟩

theorem low_mgf1x4_512 {o o' : Bytes} {ol il : Nat} {i i' : List Bytes} (ho : Len o o') (hi : Lens i i') :
    Rel (fun x y => x.length = o.length ∧ y.length = o.length) (mgf1x4_512 g o ol i il) (mgf1x4_512 g' o' ol i' il) := by
  unfold mgf1x4_512
  refine Rel.bind (low_mgfIn hi (by rw [Len, len_uninit, len_uninit])) fun b b' hb => ?_
  exact Rel.loop (Mgf4 o.length) (fun (x y : Bytes) => x.length = o.length ∧ y.length = o.length) rfl
    ⟨rfl, rfl, rfl, ⟨rfl, ho.symm⟩, hb, by rw [Len, len_uninit, len_uninit]⟩ fun _ _ => low_mgfStep4

end

section
variable {c c' : Ctx} (hc : CtxLow c c') {P : Params} {g g' : Nat → Nat → Byte}
include hc

theorem low_prf_addrx8 {a a' : List Addr} (ha : Lens a a') : Rel Lens (prf_addrx8 P g c a) (prf_addrx8 P g' c' a') := by
  unfold prf_addrx8
  refine Rel.bind (R := fun x y => Len x y) (Rel.forRange (fun x y => Len x y) rfl (by rw [Len, len_uninit, len_uninit])
    fun j s s' _ hs => ?_) fun b b' hb => ?_
  · refine Rel.bind (Rel.rd1 ha.len rfl) fun x y hxy => ?_
    refine Rel.bind (Rel.rd (ha.get hxy.1 hxy.2) rfl rfl) fun _ _ h => ?_
    refine Rel.bind (Rel.wr hs rfl (h.1.trans h.2.symm)) fun _ _ hw => ?_
    refine Rel.bind (Rel.rd hc.sk_seed rfl rfl) fun _ _ h => ?_
    exact (Rel.wr (hw.1.trans hw.2.symm) rfl (h.1.trans h.2.symm)).weaken fun _ _ h => h.1.trans h.2.symm
  refine Rel.bind (low_subLanes hb) fun _ _ hl => ?_
  refine Rel.bind (low_seeded low256 hc.state_seeded hl) fun _ _ ho => ?_
  refine Rel.bind (low_wrLanes (by rw [Len, len_uninit, len_uninit]) ho) fun _ _ hw => ?_
  exact low_tabulate fun j _ => (Rel.rd (hw.1.trans hw.2.symm) rfl rfl).weaken fun _ _ h => h.1.trans h.2.symm

omit hc in
theorem low_simpleBufs {i i' : List Bytes} {k : Nat} {a a' : List Addr} (hi : Lens i i') (ha : Lens a a') :
    Rel (fun x y => Len x y) (simpleBufs P g i k a) (simpleBufs P g' i' k a') := by
  unfold simpleBufs
  refine Rel.bind (R := fun x y => Len x y) (Rel.forRange (fun x y => Len x y) rfl (by rw [Len, len_uninit, len_uninit])
    fun j s s' _ hs => ?_) fun b b' hb => ?_
  · refine Rel.bind (Rel.rd1 ha.len rfl) fun x y hxy => ?_
    refine Rel.bind (Rel.rd (ha.get hxy.1 hxy.2) rfl rfl) fun _ _ h => ?_
    exact (Rel.wr hs rfl (h.1.trans h.2.symm)).weaken fun _ _ h => h.1.trans h.2.symm
  · refine Rel.forRange (fun x y => Len x y) rfl hb fun j s s' _ hs => ?_
    refine Rel.bind (Rel.rd1 hi.len rfl) fun x y hxy => ?_
    refine Rel.bind (Rel.rd (hi.get hxy.1 hxy.2) rfl rfl) fun _ _ h => ?_
    exact (Rel.wr hs rfl (h.1.trans h.2.symm)).weaken fun _ _ h => h.1.trans h.2.symm

omit hc in
theorem low_outs512 {s s' b b' : Bytes} {base stride len : Nat} (hs : Len s s') (hb : Len b b') :
    Rel Lens (outs512 P g s b base stride len) (outs512 P g' s' b' base stride len) := by
  unfold outs512
  refine Rel.bind (low_subLanes hb) fun _ _ hl => ?_
  refine Rel.bind (low_seeded low512 hs hl) fun _ _ ho => ?_
  refine Rel.bind (low_wrLanes (by rw [Len, len_uninit, len_uninit]) ho) fun _ _ hw => ?_
  refine Rel.bind (low_tabulate fun j _ => (Rel.rd (hw.1.trans hw.2.symm) rfl rfl).weaken fun _ _ h =>
    h.1.trans h.2.symm) fun _ _ h1 => ?_
  refine Rel.bind (low_subLanes hb) fun _ _ hl => ?_
  refine Rel.bind (low_seeded low512 hs hl) fun _ _ ho => ?_
  refine Rel.bind (low_wrLanes (hw.1.trans hw.2.symm) ho) fun _ _ hw => ?_
  refine Rel.bind (low_tabulate fun j _ => (Rel.rd (hw.1.trans hw.2.symm) rfl rfl).weaken fun _ _ h =>
    h.1.trans h.2.symm) fun _ _ h2 => ?_
  exact Rel.ok (h1.append h2)

omit hc in
theorem low_outs256 {s s' b b' : Bytes} {base stride len : Nat} (hs : Len s s') (hb : Len b b') :
    Rel Lens (outs256 P g s b base stride len) (outs256 P g' s' b' base stride len) := by
  unfold outs256
  refine Rel.bind (low_subLanes hb) fun _ _ hl => ?_
  refine Rel.bind (low_seeded low256 hs hl) fun _ _ ho => ?_
  refine Rel.bind (low_wrLanes (by rw [Len, len_uninit, len_uninit]) ho) fun _ _ hw => ?_
  exact low_tabulate fun j _ => (Rel.rd (hw.1.trans hw.2.symm) rfl rfl).weaken fun _ _ h => h.1.trans h.2.symm

theorem low_thashx8_simple {i i' : List Bytes} {k : Nat} {a a' : List Addr} (hi : Lens i i') (ha : Lens a a') :
    Rel Lens (thashx8_simple P g i k c a) (thashx8_simple P g' i' k c' a') := by
  unfold thashx8_simple
  refine Rel.branch Iff.rfl (fun _ => ?_) (fun _ => ?_)
  · exact Rel.bind (low_simpleBufs hi ha) fun _ _ hb => low_outs512 hc.state_seeded_512 hb
  · exact Rel.bind (low_simpleBufs hi ha) fun _ _ hb => low_outs256 hc.state_seeded hb

theorem low_robustBufs {k : Nat} {a a' : List Addr} (ha : Lens a a') :
    Rel (fun x y => Len x y) (robustBufs P g k c a) (robustBufs P g' k c' a') := by
  unfold robustBufs
  refine Rel.forRange (fun x y => Len x y) rfl (by rw [Len, len_uninit, len_uninit]) fun j s s' _ hs => ?_
  refine Rel.bind (Rel.rd hc.pub_seed rfl rfl) fun _ _ h => ?_
  refine Rel.bind (Rel.wr hs rfl (h.1.trans h.2.symm)) fun _ _ hw => ?_
  refine Rel.bind (Rel.rd1 ha.len rfl) fun x y hxy => ?_
  refine Rel.bind (Rel.rd (ha.get hxy.1 hxy.2) rfl rfl) fun _ _ h => ?_
  exact (Rel.wr (hw.1.trans hw.2.symm) rfl (h.1.trans h.2.symm)).weaken fun _ _ h => h.1.trans h.2.symm

omit hc in
theorem low_maskBufs {k l0 : Nat} {i i' : List Bytes} {n : Nat} {m m' b b' : Bytes} (hi : Lens i i') (hm : Len m m')
    (hb : Len b b') : Rel (fun x y => Len x y) (maskBufs P k l0 i n m b) (maskBufs P k l0 i' n m' b') := by
  unfold maskBufs
  refine Rel.forRange (fun x y => Len x y) rfl hb fun j s s' _ hs => ?_
  refine Rel.forRange (fun x y => Len x y) rfl hs fun j s s' _ hs => ?_
  refine Rel.bind (Rel.rd1 hi.len rfl) fun x y hxy => ?_
  refine Rel.bind (Rel.rd1 (hi.get hxy.1 hxy.2) rfl) fun _ _ _ => ?_
  refine Rel.bind (Rel.rd1 hm rfl) fun _ _ _ => ?_
  exact (Rel.wr1_len hs rfl).weaken fun _ _ h => h.1.trans h.2.symm

theorem low_thashx8_robust {i i' : List Bytes} {k : Nat} {a a' : List Addr} (hi : Lens i i') (ha : Lens a a') :
    Rel Lens (thashx8_robust P g i k c a) (thashx8_robust P g' i' k c' a') := by
  unfold thashx8_robust
  refine Rel.branch Iff.rfl (fun _ => ?_) (fun _ => ?_)
  · refine Rel.bind (low_robustBufs hc ha) fun _ _ hb => ?_
    refine Rel.bind (low_subLanes hb) fun _ _ hl => ?_
    refine Rel.bind (low_mgf1x4_512 (by rw [Len, len_uninit, len_uninit]) hl) fun _ _ hm => ?_
    refine Rel.bind (low_maskBufs hi (hm.1.trans hm.2.symm) hb) fun _ _ hb => ?_
    refine Rel.bind (low_subLanes hb) fun _ _ hl => ?_
    refine Rel.bind (low_mgf1x4_512 (hm.1.trans hm.2.symm) hl) fun _ _ hm => ?_
    refine Rel.bind (low_maskBufs hi (hm.1.trans hm.2.symm) hb) fun _ _ hb => ?_
    exact low_outs512 hc.state_seeded_512 hb
  · refine Rel.bind (low_robustBufs hc ha) fun _ _ hb => ?_
    refine Rel.bind (low_subLanes hb) fun _ _ hl => ?_
    refine Rel.bind (low_mgf1x8 (by rw [Len, len_uninit, len_uninit]) hl) fun _ _ hm => ?_
    refine Rel.bind (low_maskBufs hi (hm.1.trans hm.2.symm) hb) fun _ _ hb => ?_
    exact low_outs256 hc.state_seeded hb

omit hc

theorem low_lanes (P : Params) (g g' : Nat → Nat → Byte) : LaneLow (lanes P g) (lanes P g') where
  prf _ _ _ _ hc ha := low_prf_addrx8 hc ha
  thash i i' k c c' a a' hi hc ha := by
    unfold lanes
    dsimp only
    by_cases h : P.robust = true
    · rw [if_pos h, if_pos h]; exact low_thashx8_robust hc hi ha
    · rw [if_neg h, if_neg h]; exact low_thashx8_simple hc hi ha

end
end Sha2X
end Spx.Leak
