import Verif.Proof.LeakSign
import Verif.Proof.EraseParallel
import Verif.Proof.Lanes
/-! # Two runs of the tree code of the optimised implementations leave the same trace -/

namespace Spx.Leak

/-- Buffers of the same sizes, lane by lane. -/
abbrev Lens {α β : Type} (x : List (List α)) (y : List (List β)) : Prop := x.map List.length = y.map List.length

theorem Lens.len {α β : Type} {x : List (List α)} {y : List (List β)} (h : Lens x y) : Len x y := by
  have := congrArg List.length h
  rwa [List.length_map, List.length_map] at this

theorem Lens.get {α β : Type} {x : List (List α)} {y : List (List β)} (h : Lens x y) {i : Nat} {a : List α}
    {b : List β} (ha : x[i]? = some a) (hb : y[i]? = some b) : Len a b := by
  have := congrArg (fun l => l[i]?) h
  simp only [List.getElem?_map, ha, hb, Option.map_some, Option.some.injEq] at this
  exact this

theorem Lens.set {α β : Type} {x : List (List α)} {y : List (List β)} (h : Lens x y) (i : Nat) {a : List α}
    {b : List β} (hab : Len a b) : Lens (x.set i a) (y.set i b) := by
  rw [Lens, List.map_set, List.map_set, h, hab]

theorem Lens.append {α β : Type} {x x' : List (List α)} {y y' : List (List β)} (h : Lens x y) (h' : Lens x' y') :
    Lens (x ++ x') (y ++ y') := by
  rw [Lens, List.map_append, List.map_append, h, h']

theorem low_lanes {k : Nat} {f f' : Nat → Addr → L Addr} {x y : List Addr} (h : Lens x y)
    (hf : ∀ j a b, Len a b → Rel (fun a b => Len a b) (f j a) (f' j b)) :
    Rel Lens (lanes k f x) (lanes k f' y) := by
  unfold lanes
  refine Rel.forRange Lens rfl h fun i s s' _ hs => ?_
  refine Rel.bind (Rel.rd1 hs.len rfl) fun a b ⟨ha, hb⟩ => ?_
  refine Rel.bind (hf i a b (hs.get ha hb)) fun a b hab => ?_
  refine (Rel.wr1 hs.len rfl).weaken ?_
  rintro _ _ ⟨rfl, rfl⟩
  exact hs.set i hab

theorem low_tabulate {α β : Type} {k : Nat} {f : Nat → L (List α)} {f' : Nat → L (List β)}
    (hf : ∀ j, j < k → Rel (fun a b => Len a b) (f j) (f' j)) : Rel Lens (tabulate k f) (tabulate k f') := by
  unfold tabulate
  refine Rel.forRange Lens rfl rfl fun i s s' hi hs => ?_
  refine Rel.bind (hf i hi) fun a b hab => Rel.ok ?_
  exact hs.append (by show [a.length] = [b.length]; rw [hab])

theorem low_subLanes {k base stride : Nat} {x y : Bytes} (h : Len x y) :
    Rel Lens (subLanes k x base stride) (subLanes k y base stride) :=
  low_tabulate fun _ _ => (Rel.sub_len h rfl).weaken fun _ _ h => h.1.trans h.2.symm

theorem low_wrLanes {k base stride : Nat} {x y : Bytes} (h : Len x y) {o o' : List Bytes} (ho : Lens o o') :
    Rel (fun a b => a.length = x.length ∧ b.length = x.length) (wrLanes k x base stride o) (wrLanes k y base stride o') := by
  unfold wrLanes
  refine Rel.forLen rfl h fun i s s' _ h1 h2 => ?_
  refine Rel.bind (Rel.rd1 ho.len rfl) fun a b ⟨ha, hb⟩ => ?_
  refine (Rel.wr (h1.trans h2.symm) rfl (ho.get ha hb)).weaken fun a b h => ?_
  exact ⟨h.1.trans h1, h.2.trans h1⟩

/-- Two versions of the functions working on several lanes (they may differ in the contents of
uninitialised memory) leave the same trace on inputs of the same lengths and give results of the same
lengths. -/
structure LaneLow (X X' : LaneHash) : Prop where
  prf : ∀ c c' a a', CtxLow c c' → Lens a a' → Rel Lens (X.prf_addrx c a) (X'.prf_addrx c' a')
  thash : ∀ i i' k c c' a a', Lens i i' → CtxLow c c' → Lens a a' →
    Rel Lens (X.thashx i k c a) (X'.thashx i' k c' a')

theorem envX_L {E : Env} {lg : Nat} {X : LaneHash} : EnvX.L ⟨E, lg, X⟩ = 2 ^ lg := rfl

section
variable {P : Params} {H H' : HashImpl} {G G' : Nat → Nat → Byte} (hH : HashLow P H H') {lg : Nat} {X X' : LaneHash}
  (hX : LaneLow X X') {c c' : Ctx} (hc : CtxLow c c')

/-- Two states of the inner loop of `treehashx`. -/
structure InnerRelX (s s' : ThxInner) : Prop where
  current : Len s.current s'.current
  auth_path : Len s.auth_path s'.auth_path
  tree_addr : Lens s.tree_addr s'.tree_addr
  h : s.h = s'.h
  internal_idx : s.internal_idx = s'.internal_idx
  internal_leaf : s.internal_leaf = s'.internal_leaf
  left_adj : s.left_adj = s'.left_adj
  prev_left_adj : s.prev_left_adj = s'.prev_left_adj

/-- Two results of the inner loop of `treehashx`. -/
def InnerEndX (n idx max : Nat) (x y : Option Bytes × ThxInner) : Prop :=
  InnerRelX x.2 y.2 ∧ ((∃ r r', x.1 = some r ∧ y.1 = some r' ∧ LenN n r r') ∨ (x.1 = none ∧ y.1 = none ∧ idx < max))

theorem low_treehashx_ins {st st' cu cu' : Bytes} {h : Nat} (hst : Len st st') (hcu : Len cu cu') :
    Rel Lens (treehashx_ins ⟨⟨P, H, G⟩, lg, X⟩ st cu h) (treehashx_ins ⟨⟨P, H', G'⟩, lg, X'⟩ st' cu' h) := by
  unfold treehashx_ins
  simp only [envX_L]
  refine Rel.bind (low_subLanes hst) fun a a' ha => ?_
  refine Rel.bind (low_subLanes hcu) fun b b' hb => ?_
  exact Rel.ok (ha.append hb)

include hX hc in
theorem low_treehashx_combine {idx max th : Nat} {st st' : Bytes} {s s' : ThxInner} (hst : Len st st')
    (h : InnerRelX s s') :
    Rel (SumRel InnerRelX (InnerEndX P.n idx max)) (treehashx_combine ⟨⟨P, H, G⟩, lg, X⟩ c idx max th st s)
      (treehashx_combine ⟨⟨P, H', G'⟩, lg, X'⟩ c' idx max th st' s') := by
  obtain ⟨cu, au, ta, hh, ii, il, io, la, pa⟩ := s
  obtain ⟨cu', au', ta', hh', ii', il', io', la', pa'⟩ := s'
  obtain ⟨h1, h2, h3, h4, h5, h6, h7, h8⟩ := h
  dsimp only at h1 h2 h3 h4 h5 h6 h7 h8
  subst h4 h5 h6 h7 h8
  unfold treehashx_combine
  simp only [envX_L]
  generalize (2 ^ 32 : Nat) = w32
  refine Rel.branch Iff.rfl (fun _ => ?_) (fun _ => ?_)
  · refine Rel.bind (Rel.rd h1 rfl rfl) fun r r' hr => ?_
    exact Rel.ok_inr ⟨⟨h1, h2, h3, rfl, rfl, rfl, rfl, rfl⟩, .inl ⟨r, r', rfl, rfl, hr⟩⟩
  · refine Rel.bind (R := fun x y => Len x y) (Rel.branch Iff.rfl (fun _ => ?_) (fun _ => Rel.ok h2)) fun a a' ha => ?_
    · refine Rel.bind (Rel.rd h1 rfl rfl) fun r r' hr => ?_
      exact (Rel.wr h2 rfl (hr.1.trans hr.2.symm)).weaken fun _ _ h => h.1.trans h.2.symm
    · refine Rel.branchAnd Iff.rfl Iff.rfl (fun hlt => ?_) (fun _ => ?_)
      · exact Rel.ok_inr ⟨⟨h1, ha, h3, rfl, rfl, rfl, rfl, rfl⟩, .inr ⟨rfl, rfl, hlt.2⟩⟩
      · refine Rel.bind (low_lanes h3 fun j a b hab => ?_) fun t t' ht => ?_
        · refine Rel.bind (low_set_tree_height hab) fun t t' ht => ?_
          exact (low_set_tree_index (ht.1.trans ht.2.symm)).weaken fun _ _ h => h.1.trans h.2.symm
        · refine Rel.bind (low_treehashx_ins hst h1) fun i i' hi => ?_
          refine Rel.bind (hX.thash i i' 2 c c' t t' hi hc ht) fun o o' ho => ?_
          refine Rel.bind (low_wrLanes h1 ho) fun w w' hw => ?_
          exact Rel.ok_inl ⟨hw.1.trans hw.2.symm, ha, ht, rfl, rfl, rfl, rfl, rfl⟩

include hX hc in
theorem low_treehashx_inner {idx max th : Nat} {st st' : Bytes} {s s' : ThxInner} (hst : Len st st')
    (h : InnerRelX s s') :
    Rel (SumRel InnerRelX (InnerEndX P.n idx max)) (treehashx_inner ⟨⟨P, H, G⟩, lg, X⟩ c idx max th st s)
      (treehashx_inner ⟨⟨P, H', G'⟩, lg, X'⟩ c' idx max th st' s') := by
  unfold treehashx_inner
  simp only [envX_L]
  generalize (2 ^ 32 : Nat) = w32
  rw [← h.h]
  refine Rel.branch Iff.rfl (fun _ => ?_) (fun _ => low_treehashx_combine hX hc hst h)
  refine Rel.branch Iff.rfl (fun _ => ?_) (fun _ => ?_)
  · refine Rel.bind (Rel.rd h.current rfl rfl) fun r r' hr => ?_
    exact Rel.ok_inr ⟨h, .inl ⟨r, r', rfl, rfl, hr⟩⟩
  · refine Rel.bind (Rel.shl1 _) ?_
    rintro k _ ⟨rfl, _⟩
    exact low_treehashx_combine hX hc hst
      ⟨h.current, h.auth_path, h.tree_addr, rfl, h.internal_idx, h.internal_leaf, rfl, h.left_adj⟩

/-- Two states of the outer loop of `treehashx`. -/
structure OuterRelX {ι : Type} (Q : ι → ι → Prop) (max : Nat) (s s' : Thx ι) : Prop where
  idx : s.idx = s'.idx
  le : s.idx ≤ max
  stack : Len s.stack s'.stack
  auth_path : Len s.auth_path s'.auth_path
  tree_addr : Lens s.tree_addr s'.tree_addr
  info : Q s.info s'.info
  left_adj : s.left_adj = s'.left_adj
  prev_left_adj : s.prev_left_adj = s'.prev_left_adj

/-- Two results of `treehashx`. -/
def TreeEndX {ι : Type} (n : Nat) (Q : ι → ι → Prop) (x y : Bytes × Bytes × List Addr × ι) : Prop :=
  LenN n x.1 y.1 ∧ Len x.2.1 y.2.1 ∧ Lens x.2.2.1 y.2.2.1 ∧ Q x.2.2.2 y.2.2.2

include hX hc in
theorem low_treehashx_body {ι : Type} {Q : ι → ι → Prop} {leaf off th max : Nat}
    {gl gl' : Bytes → Nat → ι → L (Bytes × ι)} (hmax : max < 2 ^ 31)
    (hg : ∀ d d' j i i', j ≤ max → Len d d' → Q i i' →
      Rel (fun r r' => Len r.1 r'.1 ∧ Q r.2 r'.2) (gl d ((2 ^ lg * j + off) % 2 ^ 32) i)
        (gl' d' ((2 ^ lg * j + off) % 2 ^ 32) i'))
    {s s' : Thx ι} (h : OuterRelX Q max s s') :
    Rel (SumRel (OuterRelX Q max) (TreeEndX P.n Q)) (treehashx_body ⟨⟨P, H, G⟩, lg, X⟩ c leaf off th max gl s)
      (treehashx_body ⟨⟨P, H', G'⟩, lg, X'⟩ c' leaf off th max gl' s') := by
  obtain ⟨ix, st, au, ta, inf, la, pa⟩ := s
  obtain ⟨ix', st', au', ta', inf', la', pa'⟩ := s'
  obtain ⟨h1, h2, h3, h4, h5, h6, h7, h8⟩ := h
  dsimp only at h1 h2 h3 h4 h5 h6 h7 h8
  subst h1 h7 h8
  unfold treehashx_body
  simp only [envX_L]
  refine Rel.bind (hg _ _ ix inf inf' h2 (by rw [Len, len_uninit, len_uninit]) h6) ?_
  rintro ⟨lf, i⟩ ⟨lf', i'⟩ ⟨hl, hi⟩
  dsimp only at hl hi ⊢
  refine Rel.bind (Rel.loop InnerRelX (InnerEndX P.n ix max) rfl ⟨hl, h4, h5, rfl, rfl, rfl, rfl, rfl⟩
    fun _ _ => low_treehashx_inner hX hc h3) ?_
  rintro ⟨o, q⟩ ⟨o', q'⟩ ⟨hq, ho⟩
  dsimp only at hq ho ⊢
  rcases ho with ⟨r, r', e1, e2, hr⟩ | ⟨e1, e2, hlt⟩
  · subst e1 e2
    exact Rel.ok_inr ⟨hr, hq.auth_path, hq.tree_addr, hi⟩
  · subst e1 e2
    unfold treehashx_next
    simp only [envX_L]
    refine Rel.bind (Rel.rd hq.current rfl rfl) fun x x' hx => ?_
    refine Rel.bind (Rel.wr h3 (by rw [hq.h]) (hx.1.trans hx.2.symm)) fun y y' hy => ?_
    refine Rel.ok_inl ⟨rfl, ?_, hy.1.trans hy.2.symm, hq.auth_path, hq.tree_addr, hi, hq.left_adj, hq.prev_left_adj⟩
    show (ix + 1) % 2 ^ 32 ≤ max
    rw [Nat.mod_eq_of_lt (by omega)]
    omega

include hX hc in
theorem low_treehashx {ι : Type} {Q : ι → ι → Prop} {leaf off th : Nat}
    {gl gl' : Bytes → Nat → ι → L (Bytes × ι)} (hth : th ≤ 30) (hlg : lg < 32)
    (hg : ∀ d d' j i i', 2 ^ lg * j + 2 ^ lg ≤ 2 ^ 30 → Len d d' → Q i i' →
      Rel (fun r r' => Len r.1 r'.1 ∧ Q r.2 r'.2) (gl d ((2 ^ lg * j + off) % 2 ^ 32) i)
        (gl' d' ((2 ^ lg * j + off) % 2 ^ 32) i'))
    {au au' : Bytes} {ta ta' : List Addr} {i i' : ι} (ha : Len au au') (ht : Lens ta ta') (hi : Q i i') :
    Rel (TreeEndX P.n Q) (treehashx ⟨⟨P, H, G⟩, lg, X⟩ au c leaf off th gl ta i)
      (treehashx ⟨⟨P, H', G'⟩, lg, X'⟩ au' c' leaf off th gl' ta' i') := by
  unfold treehashx
  simp only [envX_L]
  refine Rel.bind (Rel.shl1_lt _) ?_
  rintro k k' ⟨hk, rfl, rfl⟩
  have hle : lg ≤ th := by
    rcases Nat.lt_or_ge th lg with h | h
    · rw [Nat.mod_eq_of_lt (by omega)] at hk; omega
    · exact h
  have hm : (th + 2 ^ 32 - lg) % 2 ^ 32 = th - lg := by omega
  rw [hm]
  have hp : 2 ^ lg * 2 ^ (th - lg) ≤ 2 ^ 30 := by
    rw [← Nat.pow_add, Nat.add_sub_cancel' hle]
    exact Nat.pow_le_pow_right (by omega) hth
  have h31 : 2 ^ (th - lg) ≤ 2 ^ 30 := Nat.pow_le_pow_right (by omega) (by omega)
  have hpos := Nat.two_pow_pos (th - lg)
  clear hm
  have hbody : ∀ s s', OuterRelX Q (2 ^ (th - lg) - 1) s s' →
      Rel (SumRel (OuterRelX Q (2 ^ (th - lg) - 1)) (TreeEndX P.n Q))
        (treehashx_body ⟨⟨P, H, G⟩, lg, X⟩ c leaf off th (2 ^ (th - lg) - 1) gl s)
        (treehashx_body ⟨⟨P, H', G'⟩, lg, X'⟩ c' leaf off th (2 ^ (th - lg) - 1) gl' s') :=
    fun _ _ => low_treehashx_body hX hc (by omega) fun d d' j i i' hj => hg d d' j i i' (by
      refine Nat.le_trans ?_ hp
      rw [← Nat.mul_succ]
      exact Nat.mul_le_mul_left _ (by omega))
  generalize (2 ^ 32 : Nat) = fuel
  exact Rel.loop (OuterRelX Q (2 ^ (th - lg) - 1)) (TreeEndX P.n Q) rfl
    ⟨rfl, Nat.zero_le _, by show (uninit _ _).length = (uninit _ _).length; rw [len_uninit, len_uninit], ha, ht, hi, rfl, rfl⟩
    hbody

/-- Two states of the loop down `L` WOTS chains. -/
def ChainRelX (P : Params) (x y : Nat × Bytes × Bytes × List Addr) : Prop :=
  (x.1 = y.1 ∧ x.1 ≤ P.w - 1) ∧ Len x.2.1 y.2.1 ∧ Len x.2.2.1 y.2.2.1 ∧ Lens x.2.2.2 y.2.2.2

/-- Two results of the loop down `L` WOTS chains. -/
def ChainEndX (x y : Bytes × Bytes × List Addr) : Prop :=
  Len x.1 y.1 ∧ Len x.2.1 y.2.1 ∧ Lens x.2.2 y.2.2

include hX hc in
theorem low_wots_gen_leafx_chain {i k k' m : Nat} (hk : ∀ j, j ≤ P.w - 1 → (j = k ↔ j = k'))
    {x y : Nat × Bytes × Bytes × List Addr} (h : ChainRelX P x y) :
    Rel (SumRel (ChainRelX P) ChainEndX) (wots_gen_leafx_chain ⟨⟨P, H, G⟩, lg, X⟩ c i k m x)
      (wots_gen_leafx_chain ⟨⟨P, H', G'⟩, lg, X'⟩ c' i k' m y) := by
  obtain ⟨j, b, ws, la⟩ := x
  obtain ⟨j', b', ws', la'⟩ := y
  obtain ⟨⟨h1, h0⟩, h2, h3, h4⟩ := h
  dsimp only at h0 h1 h2 h3 h4
  subst h1
  unfold wots_gen_leafx_chain
  simp only [envX_L]
  refine Rel.bind (R := fun x y => Len x y) (Rel.branch (hk j h0) (fun _ => ?_) (fun _ => Rel.ok h3)) fun w w' hw => ?_
  · refine Rel.bind (Rel.rd h2 rfl rfl) fun r r' hr => ?_
    exact (Rel.wr h3 rfl (hr.1.trans hr.2.symm)).weaken fun _ _ h => h.1.trans h.2.symm
  · refine Rel.branch Iff.rfl (fun _ => Rel.ok_inr ⟨h2, hw, h4⟩) (fun hne => ?_)
    refine Rel.bind (low_lanes h4 fun j a b hab => ?_) fun l l' hl => ?_
    · exact (low_set_hash_addr hab).weaken fun _ _ h => h.1.trans h.2.symm
    refine Rel.bind (low_subLanes h2) fun s s' hs => ?_
    refine Rel.bind (hX.thash s s' 1 c c' l l' hs hc hl) fun z z' hz => ?_
    refine Rel.bind (low_wrLanes h2 hz) fun v v' hv => ?_
    refine Rel.ok_inl ⟨⟨rfl, ?_⟩, hv.1.trans hv.2.symm, hw, hl⟩
    show j + 1 ≤ P.w - 1
    omega

/-- Two `info` objects of `wots_gen_leafx`: the chain lengths are the same, or none of the leaves is
the one to sign with. -/
structure InfoRelX (x y : LeafInfoX) : Prop where
  sig : Len x.wots_sig y.wots_sig
  leaf : x.wots_sign_leaf = y.wots_sign_leaf
  steps : Len x.wots_steps y.wots_steps
  same : x.wots_steps = y.wots_steps ∨ x.wots_sign_leaf = 2 ^ 32 - 1
  leaf_addr : Lens x.leaf_addr y.leaf_addr
  pk_addr : Lens x.pk_addr y.pk_addr

include hX hc in
theorem low_wots_gen_leafx (hw : P.w ≤ 256) {d d' : Bytes} {j : Nat} {x y : LeafInfoX} (hd : Len d d')
    (hj : (j ^^^ (2 ^ 32 - 1)) &&& (2 ^ 32 - 2 ^ lg) ≠ 0) (h : InfoRelX x y) :
    Rel (fun r r' => Len r.1 r'.1 ∧ InfoRelX r.2 r'.2) (wots_gen_leafx ⟨⟨P, H, G⟩, lg, X⟩ c d j x)
      (wots_gen_leafx ⟨⟨P, H', G'⟩, lg, X'⟩ c' d' j y) := by
  obtain ⟨ws, sl, st, la, pa⟩ := x
  obtain ⟨ws', sl', st', la', pa'⟩ := y
  obtain ⟨h1, h2, h3, h4, h5, h6⟩ := h
  dsimp only at h1 h2 h3 h4 h5 h6
  subst h2
  unfold wots_gen_leafx
  simp only [envX_L]
  refine Rel.bind (R := fun x y => x = y ∧ (st = st' ∨ x.1 = 2 ^ 32 - 1)) (Rel.branch Iff.rfl (fun hs => ?_) (fun hs => ?_)) ?_
  · refine Rel.ok ⟨rfl, .inl (h4.resolve_right fun e => hj ?_)⟩
    rw [← e]
    exact hs
  · exact Rel.ok ⟨rfl, .inr rfl⟩
  rintro ⟨mask, m⟩ _ ⟨rfl, hmask⟩
  dsimp only at hmask ⊢
  have hkp : ∀ (j : Nat) (a b : Addr), Len a b → Rel (fun a b => Len a b) (set_keypair_addr P.fam a j)
      (set_keypair_addr P.fam b j) := fun j a b hab => (low_set_keypair_addr hab).weaken fun _ _ h => h.1.trans h.2.symm
  refine Rel.bind (low_lanes h5 fun i a b hab => hkp _ a b hab) fun a a' ha => ?_
  refine Rel.bind (low_lanes h6 fun i a b hab => hkp _ a b hab) fun b b' hb => ?_
  refine Rel.bind (Rel.forRange (fun x y => Len x.1 y.1 ∧ Len x.2.1 y.2.1 ∧ Lens x.2.2 y.2.2) rfl
    ⟨by show (uninit _ _).length = (uninit _ _).length; rw [len_uninit, len_uninit], h1, ha⟩ ?_) ?_
  · rintro i ⟨p, w, l⟩ ⟨p', w', l'⟩ _ ⟨q1, q2, q3⟩
    dsimp only at q1 q2 q3 ⊢
    refine Rel.bind (Rel.rd1 h3 rfl) ?_
    rintro s s' ⟨e1, e2⟩
    have hk : ∀ k, k ≤ P.w - 1 → (k = (s ||| mask) ↔ k = (s' ||| mask)) := by
      intro k hk
      rcases hmask with hm | hm
      · rw [hm, e2] at e1; cases e1; exact Iff.rfl
      · rw [hm]
        have g1 : 2 ^ 32 - 1 ≤ s ||| (2 ^ 32 - 1) := Nat.right_le_or
        have g2 : 2 ^ 32 - 1 ≤ s' ||| (2 ^ 32 - 1) := Nat.right_le_or
        exact ⟨fun h => by omega, fun h => by omega⟩
    refine Rel.bind (low_lanes q3 fun j a b hab => ?_) fun l1 l1' hl1 => ?_
    · refine Rel.bind (low_set_chain_addr hab) fun l1 l1' hl1 => ?_
      refine Rel.bind (low_set_hash_addr (hl1.1.trans hl1.2.symm)) fun l2 l2' hl2 => ?_
      exact (low_set_type (hl2.1.trans hl2.2.symm)).weaken fun _ _ h => h.1.trans h.2.symm
    refine Rel.bind (hX.prf c c' l1 l1' hc hl1) fun u u' hu => ?_
    refine Rel.bind (low_wrLanes q1 hu) fun v v' hv => ?_
    refine Rel.bind (low_lanes hl1 fun j a b hab => ?_) fun l2 l2' hl2 => ?_
    · exact (low_set_type hab).weaken fun _ _ h => h.1.trans h.2.symm
    exact Rel.loop (ChainRelX P) ChainEndX rfl
      ⟨⟨rfl, Nat.zero_le _⟩, hv.1.trans hv.2.symm, q2, hl2⟩ fun _ _ => low_wots_gen_leafx_chain hX hc hk
  · rintro ⟨p, w, l⟩ ⟨p', w', l'⟩ ⟨q1, q2, q3⟩
    dsimp only at q1 q2 q3 ⊢
    refine Rel.bind (low_subLanes q1) fun s s' hs => ?_
    refine Rel.bind (hX.thash s s' P.wotsLen c c' b b' hs hc hb) fun z z' hz => ?_
    refine Rel.bind (low_wrLanes hd hz) fun v v' hv => ?_
    exact Rel.ok ⟨hv.1.trans hv.2.symm, q2, rfl, h3, h4, q3, hb⟩

include hX hc in
theorem low_fors_gen_leafx {d d' : Bytes} {j : Nat} {a a' : List Addr} (hd : Len d d') (ha : Lens a a') :
    Rel (fun r r' => Len r.1 r'.1 ∧ Lens r.2 r'.2) (fors_gen_leafx ⟨⟨P, H, G⟩, lg, X⟩ c d j a)
      (fors_gen_leafx ⟨⟨P, H', G'⟩, lg, X'⟩ c' d' j a') := by
  unfold fors_gen_leafx
  simp only [envX_L]
  generalize (2 ^ 32 : Nat) = w32
  refine Rel.bind (low_lanes ha fun j a b hab => ?_) fun b b' hb => ?_
  · refine Rel.bind (low_set_tree_index hab) fun l1 l1' hl1 => ?_
    exact (low_set_type (hl1.1.trans hl1.2.symm)).weaken fun _ _ h => h.1.trans h.2.symm
  refine Rel.bind (hX.prf c c' b b' hc hb) fun u u' hu => ?_
  refine Rel.bind (low_wrLanes hd hu) fun v v' hv => ?_
  refine Rel.bind (low_lanes hb fun j a b hab => ?_) fun e e' he => ?_
  · exact (low_set_type hab).weaken fun _ _ h => h.1.trans h.2.symm
  refine Rel.bind (low_subLanes (hv.1.trans hv.2.symm)) fun s s' hs => ?_
  refine Rel.bind (hX.thash s s' 1 c c' e e' hs hc he) fun z z' hz => ?_
  refine Rel.bind (low_wrLanes (hv.1.trans hv.2.symm) hz) fun w w' hw => ?_
  exact Rel.ok ⟨hw.1.trans hw.2.symm, he⟩

include hH hX hc in
theorem low_fors_signx (hfh : P.forsHeight ≤ 30) (hlg : lg < 32) {sig sig' m : Bytes} {a a' : Addr} (hs : Len sig sig')
    (hm : P.forsTrees * P.forsHeight ≤ 8 * m.length) (ha : Len a a') :
    Rel (fun r r' => Len r.1 r'.1 ∧ LenN P.n r.2 r'.2) (fors_signx ⟨⟨P, H, G⟩, lg, X⟩ sig m c a)
      (fors_signx ⟨⟨P, H', G'⟩, lg, X'⟩ sig' m c' a') := by
  unfold fors_signx
  simp only [envX_L]
  refine Rel.bind (low_lanes rfl fun j a b hab => ?_) fun t t' ht => ?_
  · refine Rel.bind (low_copy_keypair_addr hab ha) fun l1 l1' hl1 => ?_
    exact (low_set_type (hl1.1.trans hl1.2.symm)).weaken fun _ _ h => h.1.trans h.2.symm
  refine Rel.bind (low_lanes rfl fun j a b hab => ?_) fun l l' hl => ?_
  · exact (low_copy_keypair_addr hab ha).weaken fun _ _ h => h.1.trans h.2.symm
  refine Rel.bind (low_copy_keypair_addr (x := zeroAddr) (y := zeroAddr) rfl ha) fun p p' hp => ?_
  refine Rel.bind (low_set_type (hp.1.trans hp.2.symm)) fun q q' hq => ?_
  refine Rel.bind (low_message_to_indices_eq (by omega) (len_uninit _ _) (len_uninit _ _) hm) ?_
  rintro ind _ rfl
  refine Rel.bind (Rel.forRange (fun x y => Len x.1 y.1 ∧ x.2.1 = y.2.1 ∧ LenN (P.forsTrees * P.n) x.2.2.1 y.2.2.1 ∧
    Lens x.2.2.2.1 y.2.2.2.1 ∧ Lens x.2.2.2.2 y.2.2.2.2) rfl
    ⟨hs, rfl, ⟨len_uninit _ _, len_uninit _ _⟩, ht, hl⟩ ?_) ?_
  · rintro i ⟨s, o, r, t, l⟩ ⟨s', o', r', t', l'⟩ _ ⟨h1, h2, h3, h4, h5⟩
    dsimp only at h1 h2 h3 h4 h5
    subst h2
    unfold fors_signx_body fors_gen_sk
    dsimp only
    refine Rel.bind (Rel.shl1 _) ?_
    rintro k _ ⟨rfl, _⟩
    refine Rel.bind (Rel.rd1 rfl rfl) ?_
    rintro idx idx' ⟨e1, e2⟩
    rw [e1] at e2
    cases e2
    refine Rel.bind (Rel.rd1 h4.len rfl) ?_
    rintro a0 a0' ⟨e3, e4⟩
    refine Rel.bind (low_set_tree_height (h4.get e3 e4)) fun a1 a1' ha1 => ?_
    refine Rel.bind (low_set_tree_index (ha1.1.trans ha1.2.symm)) fun a2 a2' ha2 => ?_
    refine Rel.bind (low_set_type (ha2.1.trans ha2.2.symm)) fun a3 a3' ha3 => ?_
    refine Rel.bind (hH.prf c c' a3 a3' hc (ha3.1.trans ha3.2.symm)) fun u u' hu => ?_
    refine Rel.bind (Rel.wr h1 rfl (hu.1.trans hu.2.symm)) fun v v' hv => ?_
    refine Rel.bind (low_set_type (ha3.1.trans ha3.2.symm)) fun a4 a4' ha4 => ?_
    refine Rel.bind (Rel.wr1 h4.len rfl) ?_
    rintro _ _ ⟨rfl, rfl⟩
    refine Rel.bind (Rel.withSub_len (R := fun x y => LenN P.n x.1 y.1 ∧ Lens x.2.1 y.2.1 ∧ Lens x.2.2 y.2.2)
      (hv.1.trans hv.2.symm) rfl fun p p' hp hp' => ?_) ?_
    · refine Rel.bind (low_treehashx hX hc (Q := fun x y => Lens x y) hfh hlg
        (fun d d' j i i' _ hd hi => low_fors_gen_leafx hX hc hd hi)
        (hp.trans hp'.symm) (h4.set 0 (ha4.1.trans ha4.2.symm)) h5) ?_
      rintro ⟨x1, x2, x3, x4⟩ ⟨y1, y2, y3, y4⟩ ⟨g1, g2, g3, g4⟩
      exact Rel.ok ⟨g2, g1, g3, g4⟩
    · rintro ⟨x1, x2, x3, x4⟩ ⟨y1, y2, y3, y4⟩ ⟨g1, g2, g3, g4⟩
      dsimp only at g1 g2 g3 g4 ⊢
      refine Rel.bind (Rel.wr (h3.1.trans h3.2.symm) rfl (g2.1.trans g2.2.symm)) fun z z' hz => ?_
      exact Rel.ok ⟨g1, rfl, ⟨hz.1.trans h3.1, hz.2.trans h3.1⟩, g3, g4⟩
  · rintro ⟨s, o, r, t, l⟩ ⟨s', o', r', t', l'⟩ ⟨h1, h2, h3, h4, h5⟩
    dsimp only at h1 h2 h3 h4 h5 ⊢
    refine Rel.bind (hH.thash r r' P.forsTrees c c' q q' (h3.1.trans h3.2.symm) hc (hq.1.trans hq.2.symm)) fun z z' hz => ?_
    exact Rel.ok ⟨h1, hz⟩

include hX hc in
theorem low_merkle_signx (hw : P.w ≤ 256) (hth : P.treeHeight ≤ 30) (hlg : lg < 32) {sig sig' root root' : Bytes}
    {wa wa' ta ta' : Addr} {idx : Nat} (hs : Len sig sig') (hr : LenN P.n root root')
    (hr2 : (P.WotsValid ∧ root = root') ∨ idx = 2 ^ 32 - 1) (hwa : Len wa wa') (hta : Len ta ta') :
    Rel (fun r r' => Len r.1 r'.1 ∧ LenN P.n r.2.1 r'.2.1 ∧ Len r.2.2 r'.2.2)
      (merkle_signx ⟨⟨P, H, G⟩, lg, X⟩ sig root c wa ta idx) (merkle_signx ⟨⟨P, H', G'⟩, lg, X'⟩ sig' root' c' wa' ta' idx) := by
  unfold merkle_signx
  simp only [envX_L]
  refine Rel.bind (R := fun x y => LenN P.wotsLen (x.map fun _ => 0#8) (y.map fun _ => 0#8) ∧
    (x = y ∨ idx = 2 ^ 32 - 1)) ?_ ?_
  · rcases hr2 with ⟨hP, e⟩ | e
    · subst e
      refine (low_chain_lengths (P := P) (H := H) (H' := H') (G := G) (G' := G') (o := uninit (fun i => (G 36 i).toNat) P.wotsLen)
        (o' := uninit (fun i => (G' 36 i).toNat) P.wotsLen)
        (by rw [Len, len_uninit, len_uninit]) (rfl : Len root root)).mono fun x y hx hy hl => ?_
      have hxy := low_chain_lengths_eq (H := H) (H' := H') (G := G) (G' := G') hP
        (len_uninit (fun i => (G 36 i).toNat) P.wotsLen) (len_uninit (fun i => (G' 36 i).toNat) P.wotsLen) hr.1
      have hxy := hxy.2
      rw [hx, hy] at hxy
      rw [len_uninit] at hl
      refine ⟨⟨by rw [List.length_map, hl.1], by rw [List.length_map, hl.2]⟩, .inl hxy⟩
    · refine (low_chain_lengths (by rw [Len, len_uninit, len_uninit]) (hr.1.trans hr.2.symm)).weaken fun x y hl => ?_
      rw [len_uninit] at hl
      exact ⟨⟨by rw [List.length_map, hl.1], by rw [List.length_map, hl.2]⟩, .inr e⟩
  rintro st st' ⟨⟨hst, hst'⟩, hsame⟩
  rw [List.length_map] at hst hst'
  have hcp : ∀ (ty : Nat) (x x' : Addr) (_ : Len x x') (_ : Nat) (a b : Addr), Len a b →
      Rel (fun a b => Len a b) (do let a ← set_type P.fam a ty; copy_subtree_addr P.fam a x)
        (do let a ← set_type P.fam b ty; copy_subtree_addr P.fam a x') := fun ty x x' hx _ a b hab => by
    refine Rel.bind (low_set_type hab) fun l1 l1' hl1 => ?_
    exact (low_copy_subtree_addr (hl1.1.trans hl1.2.symm) hx).weaken fun _ _ h => h.1.trans h.2.symm
  refine Rel.bind (low_lanes rfl (hcp _ _ _ hta)) fun t t' ht => ?_
  refine Rel.bind (low_lanes rfl (hcp _ _ _ hwa)) fun l l' hl => ?_
  refine Rel.bind (low_lanes rfl (hcp _ _ _ hwa)) fun q q' hq => ?_
  refine Rel.bind (Rel.rd hs rfl rfl) fun w w' hws => ?_
  refine Rel.bind (Rel.sub_len hs rfl) fun a a' ha => ?_
  refine Rel.bind (low_treehashx hX hc (Q := InfoRelX) hth hlg (fun d d' j i i' hj hd hi => ?_)
    (ha.1.trans ha.2.symm) ht
    ⟨hws.1.trans hws.2.symm, rfl, hst.trans hst'.symm, hsame, hl, hq⟩) ?_
  · refine low_wots_gen_leafx hX hc hw hd ?_ hi
    have hpos := Nat.two_pow_pos lg
    rw [Nat.add_zero, Nat.mod_eq_of_lt (by omega)]
    intro e
    rw [xor_mask_zero (by omega) (by omega) (by omega), Nat.mul_div_cancel_left _ hpos] at e
    have := Nat.lt_mul_div_succ (2 ^ 32 - 1) hpos
    rw [← e, Nat.mul_succ] at this
    omega
  · rintro ⟨x1, x2, x3, x4⟩ ⟨y1, y2, y3, y4⟩ ⟨g1, g2, g3, g4⟩
    refine Rel.ok ⟨?_, g1, hta⟩
    show (x4.wots_sig ++ x2).length = (y4.wots_sig ++ y2).length
    rw [List.length_append, List.length_append, g4.sig, g2]

include hX hc in
theorem low_merkle_gen_rootx (hw : P.w ≤ 256) (hth : P.treeHeight ≤ 30) (hlg : lg < 32) {root root' : Bytes}
    (hr : LenN P.n root root') :
    Rel (LenN P.n) (merkle_gen_rootx ⟨⟨P, H, G⟩, lg, X⟩ root c) (merkle_gen_rootx ⟨⟨P, H', G'⟩, lg, X'⟩ root' c') := by
  unfold merkle_gen_rootx
  dsimp only
  refine Rel.bind (low_set_layer_addr (x := zeroAddr) (y := zeroAddr) rfl) fun t t' ht => ?_
  refine Rel.bind (low_set_layer_addr (x := zeroAddr) (y := zeroAddr) rfl) fun w w' hws => ?_
  refine Rel.bind (low_merkle_signx hX hc hw hth hlg (by rw [Len, len_uninit, len_uninit]) hr (.inr rfl)
    (hws.1.trans hws.2.symm) (ht.1.trans ht.2.symm)) ?_
  rintro ⟨x1, x2, x3⟩ ⟨y1, y2, y3⟩ ⟨g1, g2, g3⟩
  exact Rel.ok g2

end

/-- The tree code of an optimised implementation. -/
theorem low_parCode {P : Params} {H H' : HashImpl} {G G' : Nat → Nat → Byte} (hH : HashLow P H H') (hP : P.Valid)
    {lg : Nat} (hlg : lg < 30) {X X' : LaneHash} (hX : LaneLow X X') :
    TreeLow P (parCode ⟨⟨P, H, G⟩, lg, X⟩) (parCode ⟨⟨P, H', G'⟩, lg, X'⟩) where
  merkle_sign := fun hc _ _ _ _ _ _ _ _ hs hr hwa hta =>
    low_merkle_signx hX hc hP.w_le.2 hP.th_le (by omega) hs ⟨hr, hr⟩ (.inl ⟨hP.wots, rfl⟩) hwa hta
  merkle_gen_root := fun hc _ _ hr => low_merkle_gen_rootx hX hc hP.w_le.2 hP.th_le (by omega) hr
  fors_sign := fun hc _ _ _ _ _ hs hm ha => low_fors_signx hH hX hc hP.fh_le (by omega) hs hm ha

end Spx.Leak
