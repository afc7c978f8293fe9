import Verif.Proof.LeakLow
import Verif.Proof.EraseTree
import Verif.Proof.Digits
import Verif.Proof.Fors
/-! # Two runs of the tree code leave the same trace -/

namespace Spx.Leak

/-- `withSub` where only the lengths of the two results are known to be equal. -/
theorem Rel.withSub_len {α β α' β' : Type} {b : List α} {b' : List α'} {o o' : Nat} (h : Len b b')
    (ho : o = o') {R : β → β' → Prop} {f : List α → L (List α × β)} {f' : List α' → L (List α' × β')}
    (hf : ∀ p p', p.length = b.length - o → p'.length = b.length - o →
      Rel (fun r r' => Len r.1 r'.1 ∧ R r.2 r'.2) (f p) (f' p')) :
    Rel (fun r r' => Len r.1 r'.1 ∧ R r.2 r'.2) (Leak.withSub b o f) (Leak.withSub b' o' f') := by
  subst ho
  unfold Leak.withSub
  refine Rel.L_bind (Rel.sub h rfl) fun p p' ⟨h1, h2, h3⟩ => ?_
  subst h1 h2
  refine Rel.L_bind (hf _ _ (List.length_drop) (by rw [List.length_drop, h])) fun r r' ⟨h4, h6⟩ => ?_
  refine Rel.ok ⟨?_, h6⟩
  show (b.take o ++ r.1).length = (b'.take o ++ r'.1).length
  rw [List.length_append, List.length_append, List.length_take, List.length_take, h4, h]

theorem Rel.shl1_lt (k : Nat) :
    Rel (fun x y => k < 31 ∧ x = 2 ^ k ∧ y = 2 ^ k) (Leak.shl1 k) (Leak.shl1 k) := by
  refine ⟨rfl, ?_⟩
  unfold Leak.shl1 Spx.shl1
  by_cases h : k < 31
  · rw [if_pos h]; exact ⟨h, rfl, rfl⟩
  · rw [if_neg h]; rfl

/-- The same program with results of which only the lengths matter. -/
abbrev LenN (n : Nat) (x y : Bytes) : Prop := x.length = n ∧ y.length = n

section
variable {P : Params} {H H' : HashImpl} {G G' : Nat → Nat → Byte} (hH : HashLow P H H')
  {c c' : Ctx} (hc : CtxLow c c')

/-- Two states of the inner loop of `treehashx1`. -/
structure InnerRel (s s' : Thx1Inner) : Prop where
  current : Len s.current s'.current
  auth_path : Len s.auth_path s'.auth_path
  tree_addr : Len s.tree_addr s'.tree_addr
  h : s.h = s'.h
  internal_idx : s.internal_idx = s'.internal_idx
  internal_leaf : s.internal_leaf = s'.internal_leaf

/-- Two results of the inner loop of `treehashx1`. -/
def InnerEnd (n idx max : Nat) (x y : Option Bytes × Thx1Inner) : Prop :=
  InnerRel x.2 y.2 ∧ ((∃ r r', x.1 = some r ∧ y.1 = some r' ∧ LenN n r r') ∨ (x.1 = none ∧ y.1 = none ∧ idx < max))

include hH hc in
theorem low_treehashx1_inner {idx max th : Nat} {st st' : Bytes} {s s' : Thx1Inner} (hst : Len st st')
    (h : InnerRel s s') :
    Rel (SumRel InnerRel (InnerEnd P.n idx max)) (treehashx1_inner ⟨P, H, G⟩ c idx max th st s)
      (treehashx1_inner ⟨P, H', G'⟩ c' idx max th st' s') := by
  obtain ⟨cu, au, ta, hh, ii, il, io⟩ := s
  obtain ⟨cu', au', ta', hh', ii', il', io'⟩ := s'
  obtain ⟨h1, h2, h3, h4, h5, h6⟩ := h
  dsimp only at h1 h2 h3 h4 h5 h6
  subst h4 h5 h6
  unfold treehashx1_inner
  dsimp only
  refine Rel.branch Iff.rfl (fun _ => ?_) (fun _ => ?_)
  · refine Rel.bind (Rel.rd h1 rfl rfl) fun r r' hr => ?_
    exact Rel.ok_inr ⟨⟨h1, h2, h3, rfl, rfl, rfl⟩, .inl ⟨r, r', rfl, rfl, hr⟩⟩
  · refine Rel.bind (R := fun x y => Len x y) (by low) fun a a' ha => ?_
    refine Rel.branchAnd Iff.rfl Iff.rfl (fun hlt => ?_) (fun _ => ?_)
    · exact Rel.ok_inr ⟨⟨h1, ha, h3, rfl, rfl, rfl⟩, .inr ⟨rfl, rfl, hlt.2⟩⟩
    · refine Rel.bind (low_set_tree_height h3) fun t t' ht => ?_
      refine Rel.bind (low_set_tree_index (ht.1.trans ht.2.symm)) fun u u' hu => ?_
      have hu' : Len u u' := hu.1.trans hu.2.symm
      refine Rel.bind (Rel.rd hst rfl rfl) fun x x' hx => ?_
      refine Rel.bind (Rel.wr h1 rfl (hx.1.trans hx.2.symm)) fun y y' hy => ?_
      have hy' : Len y y' := hy.1.trans hy.2.symm
      refine Rel.bind (hH.thash y y' 2 c c' u u' hy' hc hu') fun z z' hz => ?_
      refine Rel.bind (Rel.wr hy' rfl (hz.1.trans hz.2.symm)) fun w w' hw => ?_
      exact Rel.ok_inl ⟨hw.1.trans hw.2.symm, ha, hu', rfl, rfl, rfl⟩

/-- Two states of the outer loop of `treehashx1`. -/
structure OuterRel {ι : Type} (Q : ι → ι → Prop) (max : Nat) (s s' : Thx1 ι) : Prop where
  idx : s.idx = s'.idx
  le : s.idx ≤ max
  stack : Len s.stack s'.stack
  auth_path : Len s.auth_path s'.auth_path
  tree_addr : Len s.tree_addr s'.tree_addr
  info : Q s.info s'.info

/-- Two results of `treehashx1`. -/
def TreeEnd {ι : Type} (n : Nat) (Q : ι → ι → Prop) (x y : Bytes × Bytes × Addr × ι) : Prop :=
  LenN n x.1 y.1 ∧ Len x.2.1 y.2.1 ∧ Len x.2.2.1 y.2.2.1 ∧ Q x.2.2.2 y.2.2.2

include hH hc in
theorem low_treehashx1_body {ι : Type} {Q : ι → ι → Prop} {leaf off th max : Nat}
    {gl gl' : Nat → ι → L (Bytes × ι)} (hmax : max < 2 ^ 31)
    (hg : ∀ j i i', j ≤ max → Q i i' →
      Rel (fun r r' => LenN P.n r.1 r'.1 ∧ Q r.2 r'.2) (gl ((j + off) % 2 ^ 32) i) (gl' ((j + off) % 2 ^ 32) i'))
    {s s' : Thx1 ι} (h : OuterRel Q max s s') :
    Rel (SumRel (OuterRel Q max) (TreeEnd P.n Q)) (treehashx1_body ⟨P, H, G⟩ c leaf off th max gl s)
      (treehashx1_body ⟨P, H', G'⟩ c' leaf off th max gl' s') := by
  obtain ⟨ix, st, au, ta, inf⟩ := s
  obtain ⟨ix', st', au', ta', inf'⟩ := s'
  obtain ⟨h1, h2, h3, h4, h5, h6⟩ := h
  dsimp only at h1 h2 h3 h4 h5 h6
  subst h1
  unfold treehashx1_body
  dsimp only
  refine Rel.bind (hg ix inf inf' h2 h6) ?_
  rintro ⟨lf, i⟩ ⟨lf', i'⟩ ⟨hl, hi⟩
  dsimp only at hl hi ⊢
  refine Rel.bind (Rel.wr (by rw [Len, len_uninit, len_uninit]) rfl (hl.1.trans hl.2.symm)) fun cu cu' hcu => ?_
  refine Rel.bind (Rel.loop InnerRel (InnerEnd P.n ix max) rfl ⟨hcu.1.trans hcu.2.symm, h4, h5, rfl, rfl, rfl⟩
    fun _ _ => low_treehashx1_inner hH hc h3) ?_
  rintro ⟨o, q⟩ ⟨o', q'⟩ ⟨hq, ho⟩
  dsimp only at hq ho ⊢
  rcases ho with ⟨r, r', e1, e2, hr⟩ | ⟨e1, e2, hlt⟩
  · subst e1 e2
    exact Rel.ok_inr ⟨hr, hq.auth_path, hq.tree_addr, hi⟩
  · subst e1 e2
    dsimp only
    refine Rel.bind (Rel.rd hq.current rfl rfl) fun x x' hx => ?_
    refine Rel.bind (Rel.wr h3 (by rw [hq.h]) (hx.1.trans hx.2.symm)) fun y y' hy => ?_
    refine Rel.ok_inl ⟨rfl, ?_, hy.1.trans hy.2.symm, hq.auth_path, hq.tree_addr, hi⟩
    show (ix + 1) % 2 ^ 32 ≤ max
    rw [Nat.mod_eq_of_lt (by omega)]
    omega

include hH hc in
theorem low_treehashx1 {ι : Type} {Q : ι → ι → Prop} {leaf off th : Nat}
    {gl gl' : Nat → ι → L (Bytes × ι)}
    (hg : ∀ j i i', j < 2 ^ th → th < 31 → Q i i' →
      Rel (fun r r' => LenN P.n r.1 r'.1 ∧ Q r.2 r'.2) (gl ((j + off) % 2 ^ 32) i) (gl' ((j + off) % 2 ^ 32) i'))
    {au au' : Bytes} {ta ta' : Addr} {i i' : ι} (ha : Len au au') (ht : Len ta ta') (hi : Q i i') :
    Rel (TreeEnd P.n Q) (treehashx1 ⟨P, H, G⟩ au c leaf off th gl ta i)
      (treehashx1 ⟨P, H', G'⟩ au' c' leaf off th gl' ta' i') := by
  unfold treehashx1
  dsimp only
  generalize (2 ^ 32 : Nat) = fuel
  refine Rel.bind (Rel.shl1_lt th) ?_
  rintro k k' ⟨hth, rfl, rfl⟩
  have h31 : 2 ^ th ≤ 2 ^ 30 := Nat.pow_le_pow_right (by omega) (by omega)
  have hpos := Nat.two_pow_pos th
  refine Rel.loop (OuterRel Q (2 ^ th - 1)) (TreeEnd P.n Q) rfl
    ⟨rfl, Nat.zero_le _, by show (uninit _ _).length = (uninit _ _).length; rw [len_uninit, len_uninit], ha, ht, hi⟩
    fun _ _ => low_treehashx1_body hH hc (by omega) fun j i i' hj => hg j i i' (by omega) hth

theorem low_base_w {o o' : List Nat} {k : Nat} {i i' : Bytes} {t t' : Nat} (ho : Len o o') (hi : Len i i') :
    Rel (fun x y => x.length = o.length ∧ y.length = o.length) (base_w P o k i t) (base_w P o' k i' t') := by
  unfold base_w
  refine Rel.bind (Rel.forRange (fun x y => (x.1.length = o.length ∧ y.1.length = o.length) ∧ x.2.1 = y.2.1 ∧
    x.2.2.1 = y.2.2.1 ∧ x.2.2.2.2 = y.2.2.2.2) rfl ⟨⟨rfl, ho.symm⟩, rfl, rfl, rfl⟩ ?_) ?_
  · rintro j ⟨o, a, b, t, d⟩ ⟨o', a', b', t', d'⟩ _ ⟨⟨h1, h2⟩, h3, h4, h5⟩
    dsimp only at h1 h2 h3 h4 h5 ⊢
    subst h3 h4 h5
    refine Rel.bind (R := fun x y => x.2 = y.2) (by low) ?_
    rintro ⟨t, a, d⟩ ⟨t', a', d'⟩ h
    cases h
    dsimp only
    low
  · rintro x y h
    exact Rel.ok h.1

theorem low_wots_checksum {o o' m m' : List Nat} (ho : Len o o') (hm : Len m m') :
    Rel (fun x y => x.length = o.length ∧ y.length = o.length) (wots_checksum ⟨P, H, G⟩ o m)
      (wots_checksum ⟨P, H', G'⟩ o' m') := by
  unfold wots_checksum
  dsimp only
  generalize (2 ^ 32 : Nat) = w32
  refine Rel.bind (Rel.forAny rfl ?_) fun _ _ _ => ?_
  · intro i x y _
    exact Rel.bind (Rel.rd1 hm rfl) fun _ _ _ => Rel.ok trivial
  · refine Rel.bind (low_ull_to_bytes (by rw [Len, len_uninit, len_uninit])) fun x x' hx => ?_
    exact low_base_w ho (hx.1.trans hx.2.symm)

theorem low_chain_lengths {o o' : List Nat} {m m' : Bytes} (ho : Len o o') (hm : Len m m') :
    Rel (fun x y => x.length = o.length ∧ y.length = o.length) (chain_lengths ⟨P, H, G⟩ o m)
      (chain_lengths ⟨P, H', G'⟩ o' m') := by
  unfold chain_lengths
  dsimp only
  refine Rel.bind (low_base_w ho hm) fun x x' hx => ?_
  have hx' : Len x x' := hx.1.trans hx.2.symm
  refine Rel.bind (Rel.withSub_unit hx' rfl fun p p' h1 h2 => ?_) fun y y' hy => ?_
  · refine Rel.bind (low_wots_checksum (h1.trans h2.symm) hx') fun z z' hz => ?_
    exact Rel.ok ⟨hz.1.trans h1, hz.2.trans h1⟩
  · exact Rel.ok ⟨hy.1.trans hx.1, hy.2.trans hx.1⟩

/-- For the same value to sign, the chain lengths are the same. -/
theorem low_chain_lengths_eq (hP : P.WotsValid) {o o' : List Nat} {m : Bytes} (ho : o.length = P.wotsLen)
    (ho' : o'.length = P.wotsLen) (hm : m.length = P.n) :
    Rel (fun x y => x = y) (chain_lengths ⟨P, H, G⟩ o m) (chain_lengths ⟨P, H', G'⟩ o' m) := by
  refine (low_chain_lengths (ho.trans ho'.symm) rfl).mono fun x y hx hy _ => ?_
  rw [erase_chain_lengths, chain_lengths_spec (E := Env.erase ⟨P, H, G⟩) hP ho hm] at hx
  rw [erase_chain_lengths, chain_lengths_spec (E := Env.erase ⟨P, H', G'⟩) hP ho' hm] at hy
  cases hx
  cases hy
  rfl

/-- Two states of the loop down a WOTS chain. -/
def ChainRel (P : Params) (x y : Nat × Bytes × Bytes × Addr) : Prop :=
  (x.1 = y.1 ∧ x.1 ≤ P.w - 1) ∧ LenN P.n x.2.1 y.2.1 ∧ Len x.2.2.1 y.2.2.1 ∧ Len x.2.2.2 y.2.2.2

/-- Two results of the loop down a WOTS chain. -/
def ChainEnd (P : Params) (x y : Bytes × Bytes × Addr) : Prop :=
  LenN P.n x.1 y.1 ∧ Len x.2.1 y.2.1 ∧ Len x.2.2 y.2.2

include hH hc in
theorem low_wots_gen_leafx1_chain {i k k' : Nat} (hk : ∀ j, j ≤ P.w - 1 → (j = k ↔ j = k'))
    {x y : Nat × Bytes × Bytes × Addr} (h : ChainRel P x y) :
    Rel (SumRel (ChainRel P) (ChainEnd P)) (wots_gen_leafx1_chain ⟨P, H, G⟩ c i k x)
      (wots_gen_leafx1_chain ⟨P, H', G'⟩ c' i k' y) := by
  obtain ⟨j, b, ws, la⟩ := x
  obtain ⟨j', b', ws', la'⟩ := y
  obtain ⟨⟨h1, h0⟩, h2, h3, h4⟩ := h
  dsimp only at h0 h1 h2 h3 h4
  subst h1
  unfold wots_gen_leafx1_chain
  dsimp only
  refine Rel.bind (R := fun x y => Len x y) (Rel.branch (hk j h0) (fun _ => ?_) (fun _ => Rel.ok h3)) fun w w' hw => ?_
  · exact (Rel.wr h3 rfl (h2.1.trans h2.2.symm)).weaken fun _ _ h => h.1.trans h.2.symm
  · refine Rel.branch Iff.rfl (fun _ => Rel.ok_inr ⟨h2, hw, h4⟩) (fun hne => ?_)
    refine Rel.bind (low_set_hash_addr h4) fun l l' hl => ?_
    have hl' : Len l l' := hl.1.trans hl.2.symm
    refine Rel.bind (hH.thash b b' 1 c c' l l' (h2.1.trans h2.2.symm) hc hl') fun z z' hz => ?_
    refine Rel.ok_inl ⟨⟨rfl, ?_⟩, hz, hw, hl'⟩
    show j + 1 ≤ P.w - 1
    omega

/-- Two `info` objects of `wots_gen_leafx1`: the chain lengths are the same, or none of the leaves is
the one to sign with. -/
structure InfoRel (P : Params) (x y : LeafInfoX1) : Prop where
  sig : Len x.wots_sig y.wots_sig
  leaf : x.wots_sign_leaf = y.wots_sign_leaf
  steps : Len x.wots_steps y.wots_steps
  same : x.wots_steps = y.wots_steps ∨ 2 ^ 32 - 1 ≤ x.wots_sign_leaf
  leaf_addr : Len x.leaf_addr y.leaf_addr
  pk_addr : Len x.pk_addr y.pk_addr

include hH hc in
theorem low_wots_gen_leafx1 (hw : P.w ≤ 256) {j : Nat} {x y : LeafInfoX1} (hj : j < 2 ^ 32 - 1) (h : InfoRel P x y) :
    Rel (fun r r' => LenN P.n r.1 r'.1 ∧ InfoRel P r.2 r'.2) (wots_gen_leafx1 ⟨P, H, G⟩ c j x)
      (wots_gen_leafx1 ⟨P, H', G'⟩ c' j y) := by
  obtain ⟨ws, sl, st, la, pa⟩ := x
  obtain ⟨ws', sl', st', la', pa'⟩ := y
  obtain ⟨h1, h2, h3, h4, h5, h6⟩ := h
  dsimp only at h1 h2 h3 h4 h5 h6
  subst h2
  unfold wots_gen_leafx1
  dsimp only
  refine Rel.bind (R := fun x y => x = y ∧ (st = st' ∨ x = 2 ^ 32 - 1)) (Rel.branch Iff.rfl (fun hs => ?_) (fun hs => ?_)) ?_
  · refine Rel.ok ⟨rfl, .inl (h4.resolve_right (by omega))⟩
  · exact Rel.ok ⟨rfl, .inr rfl⟩
  rintro mask _ ⟨rfl, hmask⟩
  refine Rel.bind (low_set_keypair_addr h5) fun a a' ha => ?_
  refine Rel.bind (low_set_keypair_addr h6) fun b b' hb => ?_
  refine Rel.bind (Rel.forRange (fun x y => LenN P.wotsBytes x.1 y.1 ∧ Len x.2.1 y.2.1 ∧ Len x.2.2 y.2.2) rfl
    ⟨⟨len_uninit _ _, len_uninit _ _⟩, h1, ha.1.trans ha.2.symm⟩ ?_) ?_
  · rintro i ⟨p, w, l⟩ ⟨p', w', l'⟩ _ ⟨q1, q2, q3⟩
    dsimp only at q1 q2 q3 ⊢
    refine Rel.bind (Rel.rd1 h3 rfl) ?_
    rintro s s' ⟨e1, e2⟩
    have hk : ∀ k, k ≤ P.w - 1 → (k = (s ||| mask) ↔ k = (s' ||| mask)) := by
      intro k hk
      rcases hmask with hm | hm
      · rw [hm, e2] at e1; cases e1; exact Iff.rfl
      · rw [hm]
        have g1 : 2 ^ 32 - 1 ≤ s ||| (2 ^ 32 - 1) := Nat.right_le_or
        have g2 : 2 ^ 32 - 1 ≤ s' ||| (2 ^ 32 - 1) := Nat.right_le_or
        exact ⟨fun h => by omega, fun h => by omega⟩
    refine Rel.bind (low_set_chain_addr q3) fun l1 l1' hl1 => ?_
    refine Rel.bind (low_set_hash_addr (hl1.1.trans hl1.2.symm)) fun l2 l2' hl2 => ?_
    refine Rel.bind (low_set_type (hl2.1.trans hl2.2.symm)) fun l3 l3' hl3 => ?_
    refine Rel.bind (hH.prf c c' l3 l3' hc (hl3.1.trans hl3.2.symm)) fun u u' hu => ?_
    refine Rel.bind (low_set_type (hl3.1.trans hl3.2.symm)) fun l4 l4' hl4 => ?_
    refine Rel.bind (Rel.loop (ChainRel P) (ChainEnd P) rfl
      ⟨⟨rfl, Nat.zero_le _⟩, hu, q2, hl4.1.trans hl4.2.symm⟩ fun _ _ => low_wots_gen_leafx1_chain hH hc hk) ?_
    rintro ⟨v, w, l⟩ ⟨v', w', l'⟩ ⟨r1, r2, r3⟩
    dsimp only at r1 r2 r3 ⊢
    refine Rel.bind (Rel.wr (q1.1.trans q1.2.symm) rfl (r1.1.trans r1.2.symm)) fun z z' hz => ?_
    exact Rel.ok ⟨⟨hz.1.trans q1.1, hz.2.trans q1.1⟩, r2, r3⟩
  · rintro ⟨p, w, l⟩ ⟨p', w', l'⟩ ⟨q1, q2, q3⟩
    dsimp only at q1 q2 q3 ⊢
    have hb' : Len b b' := hb.1.trans hb.2.symm
    refine Rel.bind (hH.thash p p' P.wotsLen c c' b b' (q1.1.trans q1.2.symm) hc hb') fun z z' hz => ?_
    exact Rel.ok ⟨hz, q2, rfl, h3, h4, q3, hb'⟩

include hH hc in
theorem low_fors_gen_leafx1 {j : Nat} {a a' : Addr} (ha : Len a a') :
    Rel (fun r r' => LenN P.n r.1 r'.1 ∧ Len r.2 r'.2) (fors_gen_leafx1 ⟨P, H, G⟩ c j a)
      (fors_gen_leafx1 ⟨P, H', G'⟩ c' j a') := by
  unfold fors_gen_leafx1 fors_gen_sk fors_sk_to_leaf
  dsimp only
  refine Rel.bind (low_set_tree_index ha) fun b b' hb => ?_
  refine Rel.bind (low_set_type (hb.1.trans hb.2.symm)) fun d d' hd => ?_
  refine Rel.bind (hH.prf c c' d d' hc (hd.1.trans hd.2.symm)) fun u u' hu => ?_
  refine Rel.bind (low_set_type (hd.1.trans hd.2.symm)) fun e e' he => ?_
  refine Rel.bind (hH.thash u u' 1 c c' e e' (hu.1.trans hu.2.symm) hc (he.1.trans he.2.symm)) fun v v' hv => ?_
  exact Rel.ok ⟨hv, he.1.trans he.2.symm⟩

theorem low_message_to_indices {o o' : List Nat} {m m' : Bytes} (ho : Len o o') (hm : Len m m') :
    Rel (fun x y => x.length = o.length ∧ y.length = o.length) (message_to_indices P o m)
      (message_to_indices P o' m') := by
  unfold message_to_indices
  refine Rel.bind (Rel.forRange (fun (x y : List Nat × Nat) => (x.1.length = o.length ∧ y.1.length = o.length) ∧ x.2 = y.2) rfl
    ⟨⟨rfl, ho.symm⟩, rfl⟩ ?_) ?_
  · rintro i ⟨x, k⟩ ⟨x', k'⟩ _ ⟨⟨h1, h2⟩, h3⟩
    dsimp only at h1 h2 h3 ⊢
    subst h3
    refine Rel.bind (Rel.wr1_len (h1.trans h2.symm) rfl) fun y y' hy => ?_
    refine Rel.forRange (fun (x y : List Nat × Nat) => (x.1.length = o.length ∧ y.1.length = o.length) ∧ x.2 = y.2) rfl
      ⟨⟨hy.1.trans h1, hy.2.trans h1⟩, rfl⟩ ?_
    rintro j ⟨x, k⟩ ⟨x', k'⟩ _ ⟨⟨h1, h2⟩, h3⟩
    dsimp only at h1 h2 h3 ⊢
    subst h3
    low
  · rintro x y h
    exact Rel.ok h.1

/-- For the same digest, the indices are the same. -/
theorem low_message_to_indices_eq (hfh : P.forsHeight ≤ 32) {o o' : List Nat} {m : Bytes}
    (ho : o.length = P.forsTrees) (ho' : o'.length = P.forsTrees) (hm : P.forsTrees * P.forsHeight ≤ 8 * m.length) :
    Rel (fun x y => x = y) (message_to_indices P o m) (message_to_indices P o' m) := by
  refine (low_message_to_indices (ho.trans ho'.symm) rfl).mono fun x y hx hy _ => ?_
  rw [erase_message_to_indices, message_to_indices_spec hfh ho hm] at hx
  rw [erase_message_to_indices, message_to_indices_spec hfh ho' hm] at hy
  cases hx
  cases hy
  rfl

include hH hc in
theorem low_fors_sign (hfh : P.forsHeight ≤ 32) {sig sig' m : Bytes} {a a' : Addr} (hs : Len sig sig')
    (hm : P.forsTrees * P.forsHeight ≤ 8 * m.length) (ha : Len a a') :
    Rel (fun r r' => Len r.1 r'.1 ∧ LenN P.n r.2 r'.2) (fors_sign ⟨P, H, G⟩ sig m c a)
      (fors_sign ⟨P, H', G'⟩ sig' m c' a') := by
  unfold fors_sign
  dsimp only
  refine Rel.bind (low_copy_keypair_addr rfl ha) fun t t' ht => ?_
  refine Rel.bind (low_copy_keypair_addr rfl ha) fun l l' hl => ?_
  refine Rel.bind (low_copy_keypair_addr rfl ha) fun p p' hp => ?_
  refine Rel.bind (low_set_type (hp.1.trans hp.2.symm)) fun q q' hq => ?_
  refine Rel.bind (low_message_to_indices_eq hfh (len_uninit _ _) (len_uninit _ _) hm) ?_
  rintro ind _ rfl
  refine Rel.bind (Rel.forRange (fun x y => Len x.1 y.1 ∧ x.2.1 = y.2.1 ∧ LenN (P.forsTrees * P.n) x.2.2.1 y.2.2.1 ∧
    Len x.2.2.2.1 y.2.2.2.1 ∧ Len x.2.2.2.2 y.2.2.2.2) rfl
    ⟨hs, rfl, ⟨len_uninit _ _, len_uninit _ _⟩, ht.1.trans ht.2.symm, hl.1.trans hl.2.symm⟩ ?_) ?_
  · rintro i ⟨s, o, r, t, l⟩ ⟨s', o', r', t', l'⟩ _ ⟨h1, h2, h3, h4, h5⟩
    dsimp only at h1 h2 h3 h4 h5
    subst h2
    unfold fors_sign_body fors_gen_sk
    dsimp only
    refine Rel.bind (Rel.shl1 _) ?_
    rintro k _ ⟨rfl, _⟩
    refine Rel.bind (Rel.rd1 rfl rfl) ?_
    rintro idx idx' ⟨e1, e2⟩
    rw [e1] at e2
    cases e2
    refine Rel.bind (low_set_tree_height h4) fun a1 a1' ha1 => ?_
    refine Rel.bind (low_set_tree_index (ha1.1.trans ha1.2.symm)) fun a2 a2' ha2 => ?_
    refine Rel.bind (low_set_type (ha2.1.trans ha2.2.symm)) fun a3 a3' ha3 => ?_
    refine Rel.bind (hH.prf c c' a3 a3' hc (ha3.1.trans ha3.2.symm)) fun u u' hu => ?_
    refine Rel.bind (Rel.wr h1 rfl (hu.1.trans hu.2.symm)) fun v v' hv => ?_
    refine Rel.bind (low_set_type (ha3.1.trans ha3.2.symm)) fun a4 a4' ha4 => ?_
    refine Rel.bind (Rel.withSub_len (R := fun x y => LenN P.n x.1 y.1 ∧ Len x.2.1 y.2.1 ∧ Len x.2.2 y.2.2)
      (hv.1.trans hv.2.symm) rfl fun p p' hp hp' => ?_) ?_
    · refine Rel.bind (low_treehashx1 hH hc (Q := fun x y => Len x y) (fun j i i' _ _ hi => low_fors_gen_leafx1 hH hc hi)
        (hp.trans hp'.symm) (ha4.1.trans ha4.2.symm) h5) ?_
      rintro ⟨x1, x2, x3, x4⟩ ⟨y1, y2, y3, y4⟩ ⟨g1, g2, g3, g4⟩
      exact Rel.ok ⟨g2, g1, g3, g4⟩
    · rintro ⟨x1, x2, x3, x4⟩ ⟨y1, y2, y3, y4⟩ ⟨g1, g2, g3, g4⟩
      dsimp only at g1 g2 g3 g4 ⊢
      refine Rel.bind (Rel.wr (h3.1.trans h3.2.symm) rfl (g2.1.trans g2.2.symm)) fun z z' hz => ?_
      exact Rel.ok ⟨g1, rfl, ⟨hz.1.trans h3.1, hz.2.trans h3.1⟩, g3, g4⟩
  · rintro ⟨s, o, r, t, l⟩ ⟨s', o', r', t', l'⟩ ⟨h1, h2, h3, h4, h5⟩
    dsimp only at h1 h2 h3 h4 h5 ⊢
    refine Rel.bind (hH.thash r r' P.forsTrees c c' q q' (h3.1.trans h3.2.symm) hc (hq.1.trans hq.2.symm)) fun z z' hz => ?_
    exact Rel.ok ⟨h1, hz⟩

include hH hc in
theorem low_merkle_sign (hw : P.w ≤ 256) {sig sig' root root' : Bytes} {wa wa' ta ta' : Addr} {idx : Nat}
    (hs : Len sig sig') (hr : LenN P.n root root') (hr2 : (P.WotsValid ∧ root = root') ∨ 2 ^ 32 - 1 ≤ idx)
    (hwa : Len wa wa') (hta : Len ta ta') :
    Rel (fun r r' => Len r.1 r'.1 ∧ LenN P.n r.2.1 r'.2.1 ∧ Len r.2.2 r'.2.2) (merkle_sign ⟨P, H, G⟩ sig root c wa ta idx)
      (merkle_sign ⟨P, H', G'⟩ sig' root' c' wa' ta' idx) := by
  unfold merkle_sign
  dsimp only
  refine Rel.bind (R := fun x y => LenN P.wotsLen (x.map fun _ => 0#8) (y.map fun _ => 0#8) ∧
    (x = y ∨ 2 ^ 32 - 1 ≤ idx)) ?_ ?_
  · rcases hr2 with ⟨hP, e⟩ | e
    · subst e
      refine (low_chain_lengths (P := P) (H := H) (H' := H') (G := G) (G' := G') (o := uninit (fun i => (G 7 i).toNat) P.wotsLen)
        (o' := uninit (fun i => (G' 7 i).toNat) P.wotsLen)
        (by rw [Len, len_uninit, len_uninit]) (rfl : Len root root)).mono fun x y hx hy hl => ?_
      have hxy := low_chain_lengths_eq (H := H) (H' := H') (G := G) (G' := G') hP
        (len_uninit (fun i => (G 7 i).toNat) P.wotsLen) (len_uninit (fun i => (G' 7 i).toNat) P.wotsLen) hr.1
      have hxy := hxy.2
      rw [hx, hy] at hxy
      rw [len_uninit] at hl
      refine ⟨⟨by rw [List.length_map, hl.1], by rw [List.length_map, hl.2]⟩, .inl hxy⟩
    · refine (low_chain_lengths (by rw [Len, len_uninit, len_uninit]) (hr.1.trans hr.2.symm)).weaken fun x y hl => ?_
      rw [len_uninit] at hl
      exact ⟨⟨by rw [List.length_map, hl.1], by rw [List.length_map, hl.2]⟩, .inr e⟩
  rintro st st' ⟨⟨hst, hst'⟩, hsame⟩
  rw [List.length_map] at hst hst'
  refine Rel.bind (low_set_type hta) fun t t' ht => ?_
  refine Rel.bind (low_set_type (x := zeroAddr) (y := zeroAddr) rfl) fun p p' hp => ?_
  refine Rel.bind (low_copy_subtree_addr (x := zeroAddr) (y := zeroAddr) rfl hwa) fun l l' hl => ?_
  refine Rel.bind (low_copy_subtree_addr (hp.1.trans hp.2.symm) hwa) fun q q' hq => ?_
  refine Rel.bind (Rel.rd hs rfl rfl) fun w w' hws => ?_
  refine Rel.bind (Rel.sub_len hs rfl) fun a a' ha => ?_
  refine Rel.bind (low_treehashx1 hH hc (Q := InfoRel P) (fun j i i' hj hth hi => ?_)
    (ha.1.trans ha.2.symm) (ht.1.trans ht.2.symm)
    ⟨hws.1.trans hws.2.symm, rfl, hst.trans hst'.symm, hsame, hl.1.trans hl.2.symm, hq.1.trans hq.2.symm⟩) ?_
  · have h31 : 2 ^ P.treeHeight ≤ 2 ^ 30 := Nat.pow_le_pow_right (by omega) (by omega)
    exact low_wots_gen_leafx1 hH hc hw (Nat.lt_of_le_of_lt (Nat.mod_le _ _) (by omega)) hi
  · rintro ⟨x1, x2, x3, x4⟩ ⟨y1, y2, y3, y4⟩ ⟨g1, g2, g3, g4⟩
    refine Rel.ok ⟨?_, g1, g3⟩
    show (x4.wots_sig ++ x2).length = (y4.wots_sig ++ y2).length
    rw [List.length_append, List.length_append, g4.sig, g2]

include hH hc in
theorem low_merkle_gen_root (hw : P.w ≤ 256) {root root' : Bytes} (hr : LenN P.n root root') :
    Rel (LenN P.n) (merkle_gen_root ⟨P, H, G⟩ root c) (merkle_gen_root ⟨P, H', G'⟩ root' c') := by
  unfold merkle_gen_root
  dsimp only
  refine Rel.bind (low_set_layer_addr (x := zeroAddr) (y := zeroAddr) rfl) fun t t' ht => ?_
  refine Rel.bind (low_set_layer_addr (x := zeroAddr) (y := zeroAddr) rfl) fun w w' hws => ?_
  refine Rel.bind (low_merkle_sign hH hc hw (by rw [Len, len_uninit, len_uninit]) hr (.inr (Nat.le_refl _))
    (hws.1.trans hws.2.symm) (ht.1.trans ht.2.symm)) ?_
  rintro ⟨x1, x2, x3⟩ ⟨y1, y2, y3⟩ ⟨g1, g2, g3⟩
  exact Rel.ok g2

end

end Spx.Leak
