import Verif.Proof.LeakLanes
import Verif.Model.LeakShakeX
/-! # Two runs of the SHAKE hash functions of several lanes leave the same trace -/

namespace Spx.Leak

/-- Keccak states of two runs. -/
abbrev W := List (BitVec 64)

theorem low_getw {ln i : Nat} {s s' : W} (h : Len s s') : Rel (fun _ _ => True) (getw ln s i) (getw ln s' i) := by
  unfold getw
  exact Rel.bind (Rel.rd h rfl rfl) fun _ _ _ => Rel.ok trivial

theorem low_setw {ln i : Nat} {s s' : W} {w w' : VReg} (h : Len s s') :
    Rel (fun x y => x.length = s.length ∧ y.length = s.length) (setw ln s i w) (setw ln s' i w') := by
  unfold setw
  exact Rel.wr h rfl (by rw [Len, List.length_map, List.length_map])

/-- `setw` for states of the same length. -/
theorem low_setw' {ln i : Nat} {s s' : W} {w w' : VReg} (h : Len s s') :
    Rel (fun x y => Len x y) (setw ln s i w) (setw ln s' i w') := (low_setw h).weaken fun _ _ h => h.1.trans h.2.symm

theorem low_VLanes_load {ln : Nat} {s s' : W} (h : Len s s') :
    Rel (fun _ _ => True) (VLanes.load ln s) (VLanes.load ln s') := by
  unfold VLanes.load
  repeat (refine Rel.bind (low_getw h) fun _ _ _ => ?_)
  exact Rel.ok trivial

theorem low_VLanes_store {ln : Nat} {A A' : VLanes} {s s' : W} (h : Len s s') :
    Rel (fun x y => Len x y) (VLanes.store ln A s) (VLanes.store ln A' s') := by
  unfold VLanes.store
  refine Rel.forRange (fun x y => Len x y) rfl h fun i s s' _ hs => ?_
  exact Rel.bind (Rel.rd1 rfl rfl) fun _ _ _ => low_setw' hs

/-- A permutation which leaves the same trace on states of the same length. -/
def PermLow (perm : W → L W) : Prop := ∀ s s', Len s s' → Rel (fun x y => Len x y) (perm s) (perm s')

theorem low_f1600x2 : PermLow f1600x2 := by
  intro s s' h
  unfold f1600x2
  refine Rel.prim (Rel.bind (low_VLanes_load h) fun _ _ _ => ?_)
  refine Rel.bind (Rel.forAny rfl fun i s s' _ => ?_) fun _ _ _ => low_VLanes_store h
  exact Rel.bind (Rel.rd1 rfl rfl) fun _ _ _ => Rel.ok trivial

theorem low_permuteAll : PermLow KeccakP1600times4_PermuteAll_24rounds := by
  intro s s' h
  unfold KeccakP1600times4_PermuteAll_24rounds
  refine Rel.prim (Rel.bind (low_VLanes_load h) fun _ _ _ => ?_)
  refine Rel.bind (Rel.forAny rfl fun i s s' _ => ?_) fun _ _ _ => ?_
  · exact Rel.bind (Rel.rd1 rfl rfl) fun _ _ _ => Rel.ok trivial
  · exact Rel.bind (Rel.rd1 rfl rfl) fun _ _ _ => low_VLanes_store h

theorem low_ldLanes {ln : Nat} {ms ms' : List Bytes} {i : Nat} (h : Lens ms ms') :
    Rel (fun _ _ => True) (ldLanes ln ms i) (ldLanes ln ms' i) := by
  unfold ldLanes
  refine Rel.bind (low_tabulateR (fun _ _ => True) fun j _ => ?_) fun _ _ _ => Rel.ok trivial
  refine Rel.bind (Rel.rd1 h.len rfl) fun a b hab => ?_
  refine Rel.bind (Rel.sub_len (h.get hab.1 hab.2) rfl) fun _ _ h => ?_
  exact low_load64 (h.1.trans h.2.symm)

theorem low_addrWord {a a' : Addr} {k : Nat} (h : Len a a') :
    Rel (fun _ _ => True) (addrWord a k) (addrWord a' k) := by
  unfold addrWord
  exact Rel.forAny rfl fun i s s' _ => Rel.bind (Rel.rd1 h rfl) fun _ _ _ => Rel.ok trivial

theorem low_addrLanes {ln : Nat} {a a' : List Addr} {i : Nat} (h : Lens a a') :
    Rel (fun _ _ => True) (addrLanes ln a i) (addrLanes ln a' i) := by
  unfold addrLanes
  refine Rel.bind (low_tabulateR (fun _ _ => True) fun j _ => ?_) fun _ _ _ => Rel.ok trivial
  refine Rel.bind (Rel.rd1 h.len rfl) fun a b hab => ?_
  have hl := h.get hab.1 hab.2
  refine Rel.bind (low_addrWord hl) fun _ _ _ => ?_
  exact Rel.bind (low_addrWord hl) fun _ _ _ => Rel.ok trivial

theorem low_xorLanes {ln r : Nat} {s s' : W} {ms ms' : List Bytes} (h : Len s s') (hm : Lens ms ms') :
    Rel (fun x y => Len x y) (xorLanes ln r s ms) (xorLanes ln r s' ms') := by
  unfold xorLanes
  refine Rel.forRange (fun x y => Len x y) rfl h fun i s s' _ hs => ?_
  refine Rel.bind (low_ldLanes hm) fun _ _ _ => ?_
  exact Rel.bind (low_getw hs) fun _ _ _ => low_setw' hs

section
variable {perm : W → L W} (hp : PermLow perm)
include hp

/-- Two states of the absorbing loop. -/
def AbsK (x y : W × List Bytes × Nat) : Prop := Len x.1 y.1 ∧ Lens x.2.1 y.2.1 ∧ x.2.2 = y.2.2

theorem low_keccak_absorbx_block {ln r : Nat} {x y : W × List Bytes × Nat} (h : AbsK x y) :
    Rel (SumRel AbsK AbsK) (keccak_absorbx_block ln perm r x) (keccak_absorbx_block ln perm r y) := by
  obtain ⟨s, m, n⟩ := x
  obtain ⟨s', m', n'⟩ := y
  obtain ⟨h1, h2, h3⟩ := h
  dsimp only at h1 h2 h3
  subst h3
  unfold keccak_absorbx_block
  dsimp only
  refine Rel.branch Iff.rfl (fun _ => ?_) (fun _ => Rel.ok_inr ⟨h1, h2, rfl⟩)
  refine Rel.bind (low_xorLanes h1 h2) fun t t' ht => ?_
  refine Rel.bind (hp _ _ ht) fun u u' hu => ?_
  refine Rel.bind (low_tabulate fun j _ => Rel.bind (Rel.rd1 h2.len rfl) fun a b hab =>
    (Rel.sub_len (h2.get hab.1 hab.2) rfl).weaken fun _ _ h => h.1.trans h.2.symm) fun w w' hw => ?_
  exact Rel.ok_inl ⟨hu, hw, rfl⟩

omit hp in
theorem low_keccak_absorbx_last {g g' : Nat → Byte} {r : Nat} {m m' : Bytes} {n : Nat} {p : Byte} (hm : Len m m') :
    Rel (fun x y => Len x y) (keccak_absorbx_last g r m n p) (keccak_absorbx_last g' r m' n p) := by
  unfold keccak_absorbx_last
  low

theorem low_keccak_absorbx {ln : Nat} {g g' : Nat → Nat → Byte} {s s' : W} {r : Nat} {m m' : List Bytes} {n : Nat}
    {p : Byte} (h : Len s s') (hm : Lens m m') :
    Rel (fun x y => Len x y) (keccak_absorbx ln perm g s r m n p) (keccak_absorbx ln perm g' s' r m' n p) := by
  unfold keccak_absorbx
  refine Rel.bind (Rel.loop AbsK AbsK rfl ⟨h, hm, rfl⟩ fun _ _ => low_keccak_absorbx_block hp) ?_
  rintro ⟨s, m, n⟩ ⟨s', m', n'⟩ ⟨h1, h2, h3⟩
  dsimp only at h1 h2 h3 ⊢
  subst h3
  refine Rel.bind (low_tabulate fun j _ => Rel.bind (Rel.rd1 h2.len rfl) fun a b hab =>
    low_keccak_absorbx_last (h2.get hab.1 hab.2)) fun w w' hw => ?_
  exact low_xorLanes h1 hw

omit hp in
theorem low_storeLane {ln j k : Nat} {s s' : W} {h h' : Bytes} (hs : Len s s') (hh : Len h h') :
    Rel (fun x y => x.length = h.length ∧ y.length = h.length) (storeLane ln s j k h) (storeLane ln s' j k h') := by
  unfold storeLane
  refine Rel.forLen rfl hh fun i x y _ h1 h2 => ?_
  refine Rel.bind (low_getw hs) fun _ _ _ => ?_
  refine Rel.bind (Rel.withSub_unit (h1.trans h2.symm) rfl fun p p' h1 h2 => ?_) ?_
  · exact Rel.bind (low_store64 (h1.trans h2.symm)) fun _ _ h => Rel.ok ⟨h.1.trans h1, h.2.trans h1⟩
  · rintro ⟨x, _⟩ ⟨y, _⟩ h
    exact Rel.ok ⟨h.1.trans h1, h.2.trans h1⟩

theorem low_keccak_squeezex {ln : Nat} {ls : List Nat} (hk : ls.length = ln) {hs hs' : List Bytes} {nb : Nat}
    {s s' : W} {r : Nat} (hh : LensN ls hs hs') (h : Len s s') :
    Rel (fun x y => LensN ls x.1 y.1 ∧ Len x.2 y.2) (keccak_squeezeblocksx ln perm hs nb s r)
      (keccak_squeezeblocksx ln perm hs' nb s' r) := by
  unfold keccak_squeezeblocksx
  refine Rel.bind (Rel.forRange (fun (x y : List Bytes × Nat × W) => LensN ls x.1 y.1 ∧ x.2.1 = y.2.1 ∧
    Len x.2.2 y.2.2) rfl ⟨hh, rfl, h⟩ ?_) ?_
  · rintro i ⟨hs, off, s⟩ ⟨hs', off', s'⟩ _ ⟨h1, h2, h3⟩
    dsimp only at h1 h2 h3 ⊢
    subst h2
    refine Rel.bind (hp _ _ h3) fun u u' hu => ?_
    refine Rel.bind (low_tabulateN hk fun j l _ hl => ?_) fun w w' hw => Rel.ok ⟨hw, rfl, hu⟩
    refine Rel.bind (Rel.rd1 h1.len rfl) fun a b hab => ?_
    obtain ⟨ha, hb⟩ := h1.get hl hab.1 hab.2
    refine Rel.bind (Rel.withSub_unit (ha.trans hb.symm) rfl fun p p' h1 h2 => ?_) ?_
    · exact Rel.bind (low_storeLane hu (h1.trans h2.symm)) fun _ _ h => Rel.ok ⟨h.1.trans h1, h.2.trans h1⟩
    · rintro ⟨x, _⟩ ⟨y, _⟩ h
      exact Rel.ok ⟨h.1.trans ha, h.2.trans ha⟩
  · rintro ⟨hs, off, s⟩ ⟨hs', off', s'⟩ ⟨h1, h2, h3⟩
    exact Rel.ok ⟨h1, h3⟩

theorem low_shake256x {ln : Nat} {g g' : Nat → Nat → Byte} {ls : List Nat} (hk : ls.length = ln) {s s' : W}
    {o o' : List Bytes} {ol : Nat} {i i' : List Bytes} {il : Nat} (hs : Len s s') (ho : LensN ls o o')
    (hi : Lens i i') : Rel (LensN ls) (shake256x ln perm g s o ol i il) (shake256x ln perm g' s' o' ol i' il) := by
  unfold shake256x
  refine Rel.bind (low_keccak_absorbx hp hs hi) fun t t' ht => ?_
  refine Rel.bind (low_keccak_squeezex hp hk ho ht) ?_
  rintro ⟨o, t⟩ ⟨o', t'⟩ ⟨h1, h2⟩
  dsimp only at h1 h2 ⊢
  refine Rel.branch Iff.rfl (fun _ => ?_) (fun _ => Rel.ok h1)
  refine Rel.bind (low_keccak_squeezex hp (List.length_replicate ..) lensN_uninit h2) ?_
  rintro ⟨d, u⟩ ⟨d', u'⟩ ⟨h3, h4⟩
  dsimp only at h3 h4 ⊢
  refine low_tabulateN hk fun j l _ hl => ?_
  refine Rel.bind (Rel.rd1 h3.len rfl) fun a b hab => ?_
  have hd := h3.lens.get hab.1 hab.2
  refine Rel.bind (Rel.rd1 h1.len rfl) fun a' b' hab' => ?_
  obtain ⟨ha, hb⟩ := h1.get hl hab'.1 hab'.2
  refine (Rel.forLen rfl (ha.trans hb.symm) fun i s s' _ h1 h2 => ?_).weaken fun _ _ h => ⟨h.1.trans ha, h.2.trans ha⟩
  refine Rel.bind (Rel.rd1 hd rfl) fun _ _ _ => ?_
  exact (Rel.wr1_len (h1.trans h2.symm) rfl).weaken fun _ _ h => ⟨h.1.trans h1, h.2.trans h1⟩

end

/-- Two versions of `shake256x2` or `shake256x4` which leave the same trace. -/
def ShkLow (ln : Nat) (shk shk' : List Bytes → Nat → List Bytes → Nat → L (List Bytes)) : Prop :=
  ∀ (ls : List Nat) o o' ol i i' il, ls.length = ln → LensN ls o o' → Lens i i' → Rel (LensN ls) (shk o ol i il) (shk' o' ol i' il)

theorem low_shake256x2 (g g' : Nat → Nat → Byte) : ShkLow 2 (shake256x2 g) (shake256x2 g') := by
  intro ls o o' ol i i' il hk ho hi
  unfold shake256x2
  exact low_shake256x low_f1600x2 hk rfl ho hi

theorem low_shake256x4 (g g' : Nat → Nat → Byte) : ShkLow 4 (shake256x4 g) (shake256x4 g') := by
  intro ls o o' ol i i' il hk ho hi
  unfold shake256x4
  refine Rel.bind (R := fun x y => Len x y) (Rel.forRange (fun x y => Len x y) rfl (by rw [Len, len_uninit, len_uninit])
    fun i s s' _ hs => Rel.bind (low_getw hs) fun _ _ _ => low_setw' hs) fun s s' hs => ?_
  exact low_shake256x low_permuteAll hk hs ho hi

section
variable {c c' : Ctx} (hc : CtxLow c c') {P : Params} {g g' : Nat → Nat → Byte} {ln : Nat}
  {shk shk' : List Bytes → Nat → List Bytes → Nat → L (List Bytes)} (hk : ShkLow ln shk shk')
include hc hk

theorem low_thashx_simple_long {i i' : List Bytes} {k : Nat} {a a' : List Addr} (hi : Lens i i') (ha : Lens a a') :
    Rel (LensN (List.replicate ln P.n)) (thashx_simple_long ln shk P g i k c a)
      (thashx_simple_long ln shk' P g' i' k c' a') := by
  unfold thashx_simple_long
  refine Rel.bind (low_tabulate fun j _ => ?_) fun b b' hb => ?_
  · refine Rel.bind (Rel.rd hc.pub_seed rfl rfl) fun _ _ h => ?_
    refine Rel.bind (Rel.wr (by rw [Len, len_uninit, len_uninit]) rfl (h.1.trans h.2.symm)) fun _ _ hw => ?_
    refine Rel.bind (Rel.rd1 ha.len rfl) fun x y hxy => ?_
    refine Rel.bind (Rel.rd (ha.get hxy.1 hxy.2) rfl rfl) fun _ _ h => ?_
    refine Rel.bind (Rel.wr (hw.1.trans hw.2.symm) rfl (h.1.trans h.2.symm)) fun _ _ hw => ?_
    refine Rel.bind (Rel.rd1 hi.len rfl) fun x y hxy => ?_
    refine Rel.bind (Rel.rd (hi.get hxy.1 hxy.2) rfl rfl) fun _ _ h => ?_
    exact (Rel.wr (hw.1.trans hw.2.symm) rfl (h.1.trans h.2.symm)).weaken fun _ _ h => h.1.trans h.2.symm
  · exact hk _ _ _ _ _ _ _ (List.length_replicate ..) lensN_uninit hb

theorem low_thashx_robust_long {i i' : List Bytes} {k : Nat} {a a' : List Addr} (hi : Lens i i') (ha : Lens a a') :
    Rel (LensN (List.replicate ln P.n)) (thashx_robust_long ln shk P g i k c a)
      (thashx_robust_long ln shk' P g' i' k c' a') := by
  unfold thashx_robust_long
  refine Rel.bind (low_tabulate fun j _ => ?_) fun b b' hb => ?_
  · refine Rel.bind (Rel.rd hc.pub_seed rfl rfl) fun _ _ h => ?_
    refine Rel.bind (Rel.wr (by rw [Len, len_uninit, len_uninit]) rfl (h.1.trans h.2.symm)) fun _ _ hw => ?_
    refine Rel.bind (Rel.rd1 ha.len rfl) fun x y hxy => ?_
    refine Rel.bind (Rel.rd (ha.get hxy.1 hxy.2) rfl rfl) fun _ _ h => ?_
    exact (Rel.wr (hw.1.trans hw.2.symm) rfl (h.1.trans h.2.symm)).weaken fun _ _ h => h.1.trans h.2.symm
  · refine Rel.bind (hk _ _ _ _ _ _ _ (List.length_replicate ..) lensN_uninit hb) fun m m' hm => ?_
    refine Rel.bind (low_tabulate fun j _ => ?_) fun b b' hb => ?_
    · refine Rel.bind (Rel.rd1 hi.len rfl) fun x y hxy => ?_
      have h1 := hi.get hxy.1 hxy.2
      refine Rel.bind (Rel.rd1 hm.len rfl) fun x y hxy => ?_
      have h2 := hm.lens.get hxy.1 hxy.2
      refine Rel.bind (Rel.rd1 hb.len rfl) fun x y hxy => ?_
      refine Rel.forRange (fun x y => Len x y) rfl (hb.get hxy.1 hxy.2) fun n s s' _ hs => ?_
      refine Rel.bind (Rel.rd1 h1 rfl) fun _ _ _ => ?_
      refine Rel.bind (Rel.rd1 h2 rfl) fun _ _ _ => ?_
      exact (Rel.wr1_len hs rfl).weaken fun _ _ h => h.1.trans h.2.symm
    · exact hk _ _ _ _ _ _ _ (List.length_replicate ..) lensN_uninit hb

omit hc hk

theorem low_seedLanes {n at0 : Nat} {x x' : Bytes} {s s' : W} (hx : Len x x') (h : Len s s') :
    Rel (fun x y => Len x y) (seedLanes ln n at0 x s) (seedLanes ln n at0 x' s') := by
  unfold seedLanes
  refine Rel.forRange (fun x y => Len x y) rfl h fun i s s' _ hs => ?_
  refine Rel.bind (Rel.sub_len hx rfl) fun _ _ h => ?_
  exact Rel.bind (low_load64 (h.1.trans h.2.symm)) fun _ _ _ => low_setw' hs

theorem low_putAddrs {at0 : Nat} {a a' : List Addr} {s s' : W} (ha : Lens a a') (h : Len s s') :
    Rel (fun x y => Len x y) (putAddrs ln at0 a s) (putAddrs ln at0 a' s') := by
  unfold putAddrs
  exact Rel.forRange (fun x y => Len x y) rfl h fun i s s' _ hs => Rel.bind (low_addrLanes ha) fun _ _ _ => low_setw' hs

theorem low_outLanes {n : Nat} {s s' : W} (h : Len s s') :
    Rel (LensN (List.replicate ln n)) (outLanes ln n g s) (outLanes ln n g' s') := by
  unfold outLanes
  refine low_tabulateN (List.length_replicate ..) fun j l hj hl => ?_
  rw [List.getElem?_replicate, if_pos hj] at hl
  cases hl
  refine (low_storeLane h (by rw [Len, len_uninit, len_uninit])).weaken fun _ _ h => ?_
  rw [len_uninit] at h
  exact h

theorem low_zeroWords {a b : Nat} {s s' : W} (h : Len s s') :
    Rel (fun x y => Len x y) (zeroWords ln a b s) (zeroWords ln a b s') := by
  unfold zeroWords
  exact Rel.forRange (fun x y => Len x y) rfl h fun i s s' _ hs => low_setw' hs

theorem low_xorWord {i : Nat} {w : BitVec 64} {s s' : W} (h : Len s s') :
    Rel (fun x y => Len x y) (xorWord ln s i w) (xorWord ln s' i w) := by
  unfold xorWord
  exact Rel.bind (low_getw h) fun _ _ _ => low_setw' h

theorem low_putIns {k at0 : Nat} {i i' : List Bytes} {s s' : W} (hi : Lens i i') (h : Len s s') :
    Rel (fun x y => Len x y) (forRange k (fun n s => do setw ln s (at0 + n) (← ldLanes ln i n)) s)
      (forRange k (fun n s => do setw ln s (at0 + n) (← ldLanes ln i' n)) s') :=
  Rel.forRange (fun x y => Len x y) rfl h fun _ _ _ _ hs => Rel.bind (low_ldLanes hi) fun _ _ _ => low_setw' hs

theorem low_maskIns {k at0 : Nat} {i i' : List Bytes} {s s' t t' : W} (hi : Lens i i') (ht : Len t t') (h : Len s s') :
    Rel (fun x y => Len x y) (forRange k (fun n s => do setw ln s (at0 + n) (vxor (← getw ln t n) (← ldLanes ln i n))) s)
      (forRange k (fun n s => do setw ln s (at0 + n) (vxor (← getw ln t' n) (← ldLanes ln i' n))) s') :=
  Rel.forRange (fun x y => Len x y) rfl h fun _ _ _ _ hs => Rel.bind (low_getw ht) fun _ _ _ =>
    Rel.bind (low_ldLanes hi) fun _ _ _ => low_setw' hs

end

namespace A64
variable {c c' : Ctx} (hc : CtxLow c c') {P : Params} {g g' : Nat → Nat → Byte}
include hc

theorem low_prf_addrx2 {a a' : List Addr} (ha : Lens a a') :
    Rel (LensN (List.replicate 2 P.n)) (prf_addrx2 P g c a) (prf_addrx2 P g' c' a') := by
  unfold prf_addrx2
  refine Rel.bind (low_seedLanes hc.pub_seed rfl) fun _ _ h => ?_
  refine Rel.bind (low_putAddrs ha h) fun _ _ h => ?_
  refine Rel.bind (low_seedLanes hc.sk_seed h) fun _ _ h => ?_
  refine Rel.bind (low_setw' h) fun _ _ h => ?_
  refine Rel.bind (low_setw' h) fun _ _ h => ?_
  refine Rel.bind (low_f1600x2 _ _ h) fun _ _ h => ?_
  exact low_outLanes h

theorem low_thashx2_simple {i i' : List Bytes} {k : Nat} {a a' : List Addr} (hi : Lens i i') (ha : Lens a a') :
    Rel (LensN (List.replicate 2 P.n)) (thashx2_simple P g i k c a) (thashx2_simple P g' i' k c' a') := by
  unfold thashx2_simple
  refine Rel.branchOr (fun _ => ?_) (fun _ => low_thashx_simple_long hc (low_shake256x2 g g') hi ha)
  refine Rel.bind (low_seedLanes hc.pub_seed rfl) fun _ _ h => ?_
  refine Rel.bind (low_putAddrs ha h) fun _ _ h => ?_
  refine Rel.bind (low_putIns hi h) fun _ _ h => ?_
  refine Rel.bind (low_setw' h) fun _ _ h => ?_
  refine Rel.bind (low_xorWord h) fun _ _ h => ?_
  refine Rel.bind (low_f1600x2 _ _ h) fun _ _ h => ?_
  exact low_outLanes h

theorem low_thashx2_robust {i i' : List Bytes} {k : Nat} {a a' : List Addr} (hi : Lens i i') (ha : Lens a a') :
    Rel (LensN (List.replicate 2 P.n)) (thashx2_robust P g i k c a) (thashx2_robust P g' i' k c' a') := by
  unfold thashx2_robust
  refine Rel.branchOr (fun _ => ?_) (fun _ => low_thashx_robust_long hc (low_shake256x2 g g') hi ha)
  refine Rel.bind (low_seedLanes hc.pub_seed rfl) fun _ _ h => ?_
  refine Rel.bind (low_putAddrs ha h) fun _ _ h => ?_
  refine Rel.bind (low_setw' h) fun _ _ h => ?_
  refine Rel.bind (low_xorWord h) fun _ _ h => ?_
  refine Rel.bind (low_f1600x2 _ _ h) fun _ _ ht => ?_
  refine Rel.bind (low_maskIns hi ht h) fun _ _ h => ?_
  refine Rel.bind (low_xorWord h) fun _ _ h => ?_
  refine Rel.bind (low_f1600x2 _ _ h) fun _ _ h => ?_
  exact low_outLanes h

theorem low_thashx {i i' : List Bytes} {k : Nat} {a a' : List Addr} (hi : Lens i i') (ha : Lens a a') :
    Rel (LensN (List.replicate 2 P.n)) ((lanes P g).thashx i k c a) ((lanes P g').thashx i' k c' a') := by
  unfold lanes
  dsimp only
  by_cases h : P.robust = true
  · rw [if_pos h, if_pos h]; exact low_thashx2_robust hc hi ha
  · rw [if_neg h, if_neg h]; exact low_thashx2_simple hc hi ha

omit hc

theorem low_lanes (P : Params) (g g' : Nat → Nat → Byte) : LaneLow (lanes P g) (lanes P g') where
  prf _ _ _ _ hc ha := (low_prf_addrx2 hc ha).weaken fun _ _ h => h.lens
  thash _ _ _ _ _ _ _ hi hc ha := (low_thashx hc hi ha).weaken fun _ _ h => h.lens

theorem low_impl (P : Params) (g g' : Nat → Nat → Byte) : HashLow P (impl P g) (impl P g') where
  init := (Shake.low_impl P g g').init
  prf := (Shake.low_impl P g g').prf
  thash i i' k c c' a a' hi hc ha := by
    show Rel _ (thash P g i k c a) (thash P g' i' k c' a')
    unfold thash
    refine Rel.bind (Rel.rd ha rfl rfl) fun x y h => ?_
    have hl : x.length = y.length := h.1.trans h.2.symm
    refine Rel.bind (low_thashx hc (show [i.length, i.length] = [i'.length, i'.length] by rw [hi])
      (show [x.length, x.length] = [y.length, y.length] by rw [hl])) fun o o' ho => ?_
    exact (Rel.rd1 ho.len rfl).weaken fun p q hpq => ho.get rfl hpq.1 hpq.2
  genR := (Shake.low_impl P g g').genR
  hmsg := (Shake.low_impl P g g').hmsg

end A64

namespace Avx2
variable {c c' : Ctx} (hc : CtxLow c c') {P : Params} {g g' : Nat → Nat → Byte}

theorem len_state0 : Len (Spx.Avx2.state0 g) (Spx.Avx2.state0 g') := by
  unfold Spx.Avx2.state0; rw [Len, len_uninit, len_uninit]

include hc

theorem low_prf_addrx4 {a a' : List Addr} (ha : Lens a a') : Rel Lens (prf_addrx4 P g c a) (prf_addrx4 P g' c' a') := by
  unfold prf_addrx4
  refine Rel.bind (low_seedLanes hc.pub_seed len_state0) fun _ _ h => ?_
  refine Rel.bind (low_putAddrs ha h) fun _ _ h => ?_
  refine Rel.bind (low_seedLanes hc.sk_seed h) fun _ _ h => ?_
  refine Rel.bind (low_setw' h) fun _ _ h => ?_
  refine Rel.bind (low_zeroWords h) fun _ _ h => ?_
  refine Rel.bind (low_setw' h) fun _ _ h => ?_
  refine Rel.bind (low_zeroWords h) fun _ _ h => ?_
  refine Rel.bind (low_permuteAll _ _ h) fun _ _ h => ?_
  exact (low_outLanes h).weaken fun _ _ h => h.lens

theorem low_thashx4_simple {i i' : List Bytes} {k : Nat} {a a' : List Addr} (hi : Lens i i') (ha : Lens a a') :
    Rel Lens (thashx4_simple P g i k c a) (thashx4_simple P g' i' k c' a') := by
  unfold thashx4_simple
  refine Rel.branchOr (fun _ => ?_) (fun _ => (low_thashx_simple_long hc (low_shake256x4 g g') hi ha).weaken fun _ _ h => h.lens)
  refine Rel.bind (low_seedLanes hc.pub_seed len_state0) fun _ _ h => ?_
  refine Rel.bind (low_putAddrs ha h) fun _ _ h => ?_
  refine Rel.bind (low_putIns hi h) fun _ _ h => ?_
  refine Rel.bind (low_zeroWords h) fun _ _ h => ?_
  refine Rel.bind (low_setw' h) fun _ _ h => ?_
  refine Rel.bind (low_xorWord h) fun _ _ h => ?_
  refine Rel.bind (low_zeroWords h) fun _ _ h => ?_
  refine Rel.bind (low_permuteAll _ _ h) fun _ _ h => ?_
  exact (low_outLanes h).weaken fun _ _ h => h.lens

theorem low_thashx4_robust {i i' : List Bytes} {k : Nat} {a a' : List Addr} (hi : Lens i i') (ha : Lens a a') :
    Rel Lens (thashx4_robust P g i k c a) (thashx4_robust P g' i' k c' a') := by
  unfold thashx4_robust
  refine Rel.branchOr (fun _ => ?_) (fun _ => (low_thashx_robust_long hc (low_shake256x4 g g') hi ha).weaken fun _ _ h => h.lens)
  refine Rel.bind (low_seedLanes hc.pub_seed len_state0) fun _ _ h => ?_
  refine Rel.bind (low_putAddrs ha h) fun _ _ h => ?_
  refine Rel.bind (low_setw' h) fun _ _ h => ?_
  refine Rel.bind (low_zeroWords h) fun _ _ h => ?_
  refine Rel.bind (low_setw' h) fun _ _ h => ?_
  refine Rel.bind (low_zeroWords h) fun _ _ h => ?_
  refine Rel.bind (low_permuteAll _ _ h) fun _ _ ht => ?_
  refine Rel.bind (low_maskIns hi ht h) fun _ _ h => ?_
  refine Rel.bind (low_xorWord h) fun _ _ h => ?_
  refine Rel.bind (low_permuteAll _ _ h) fun _ _ h => ?_
  exact (low_outLanes h).weaken fun _ _ h => h.lens

omit hc

theorem low_lanes (P : Params) (g g' : Nat → Nat → Byte) : LaneLow (lanes P g) (lanes P g') where
  prf _ _ _ _ hc ha := low_prf_addrx4 hc ha
  thash i i' k c c' a a' hi hc ha := by
    unfold lanes
    dsimp only
    by_cases h : P.robust = true
    · rw [if_pos h, if_pos h]; exact low_thashx4_robust hc hi ha
    · rw [if_neg h, if_neg h]; exact low_thashx4_simple hc hi ha

end Avx2
end Spx.Leak
