import Verif.Proof.CountSign
/-! # Calls made by the tree code of the optimised implementations -/

namespace Spx.Leak

/-- Hash functions for several lanes which contain `κ f` calls of the function counted. -/
structure LaneCost (f : Fn) (X : LaneHash) (κ : Fn → Nat) : Prop where
  prfx : ∀ c a, Wp f (X.prf_addrx c a) fun _ k => k = κ .prfx
  thashx : ∀ i b c a, b ≤ 256 → Wp f (X.thashx i b c a) fun _ k => k = κ (.thashx b)

theorem countedX_cost (f : Fn) (X : Spx.LaneHash) : LaneCost f (countedX X) (one f) :=
  ⟨fun _ _ => Wp.call fun _ _ => rfl, fun _ _ _ _ _ => Wp.call fun _ _ => rfl⟩

section
variable {f : Fn} {X : LaneHash} {κ : Fn → Nat} (hx : LaneCost f X κ)
include hx

theorem Wp.prfx {c : Ctx} {a : List Addr} {Q : List Bytes → Nat → Prop}
    (h : ∀ b, (X.prf_addrx c a).res = .ok b → Q b (κ .prfx)) : Wp f (X.prf_addrx c a) Q :=
  (hx.prfx c a).mono fun a _ ha hk => hk ▸ h a ha
theorem Wp.thashx {i : List Bytes} {k : Nat} {c : Ctx} {a : List Addr} {Q : List Bytes → Nat → Prop} (hk : k ≤ 256)
    (h : ∀ b, (X.thashx i k c a).res = .ok b → Q b (κ (.thashx k))) :
    Wp f (X.thashx i k c a) Q := (hx.thashx i k c a hk).mono fun a _ ha hk => hk ▸ h a ha

end

theorem free_treehashx_ins (E : EnvX) (stack current : Bytes) (h : Nat) : Free (treehashx_ins E stack current h) := by
  unfold treehashx_ins; free
macro_rules | `(tactic| free_leaf) => `(tactic| with_reducible exact free_treehashx_ins ..)

variable {f : Fn} {E : EnvX} {κ : Fn → Nat} {ml : Nat}

/-- Combining steps left: trailing ones for all groups but the last, which goes up to the root. -/
def stepsX (last : Prop) [Decidable last] (m th h x : Nat) : Nat := if last then th - h else ones (m - h) x

/-- What the inner loop preserves. -/
structure InnerX (last : Prop) (m th : Nat) (s : ThxInner) : Prop where
  le : s.h ≤ th
  lt : ¬ last → s.h ≤ m ∧ s.internal_idx < 2 ^ (m - s.h) - 1

theorem count_combine (hx : LaneCost f E.X κ) {ctx : Ctx} {idx m th : Nat} {stack : Bytes} {s : ThxInner} (hm : m ≤ th)
    (hs : InnerX (¬ idx < 2 ^ m - 1) m th s) :
    Wp f (treehashx_combine E ctx idx (2 ^ m - 1) th stack s) fun r k =>
      (∀ t, r = .inl t → InnerX (¬ idx < 2 ^ m - 1) m th t ∧
        k + stepsX (¬ idx < 2 ^ m - 1) m th t.h t.internal_idx * κ (.thashx 2) =
          stepsX (¬ idx < 2 ^ m - 1) m th s.h s.internal_idx * κ (.thashx 2)) ∧
      ∀ a, r = .inr a → (a.1.isSome ↔ ¬ idx < 2 ^ m - 1) ∧
        k = stepsX (¬ idx < 2 ^ m - 1) m th s.h s.internal_idx * κ (.thashx 2) := by
  obtain ⟨h1, h2⟩ := hs
  unfold treehashx_combine
  refine Wp.branch (fun h => ?_) (fun h => ?_)
  · skipb
    refine Wp.ok ⟨fun t e => (nomatch e), fun a e => ?_⟩
    cases e
    have hl : ¬ idx < 2 ^ m - 1 := by
      intro hc
      have := h2 (fun h => h hc)
      rw [show m - s.h = 0 by omega] at this
      omega
    refine ⟨⟨fun _ => hl, fun _ => rfl⟩, ?_⟩
    rw [stepsX, if_pos hl, h, Nat.sub_self, Nat.zero_mul]
  · skipb
    rename_i ap _
    refine Wp.branchAnd (fun hh => ?_) (fun hh => ?_)
    · rw [Nat.and_one_is_mod] at hh
      refine Wp.ok ⟨fun t e => (nomatch e), fun a e => ?_⟩
      cases e
      refine ⟨⟨fun h => (nomatch h), fun hc => absurd hh.2 hc⟩, ?_⟩
      rw [stepsX, if_neg (by omega)]
      obtain ⟨n, hn⟩ : ∃ n, m - s.h = n + 1 := by
        have := h2 (by omega)
        rcases Nat.eq_zero_or_pos (m - s.h) with h0 | h0
        · rw [h0] at this; omega
        · exact ⟨m - s.h - 1, by omega⟩
      rw [hn, ones, if_pos hh.1, Nat.zero_mul]
    · rw [Nat.and_one_is_mod] at hh
      skipb
      skipb
      refine Wp.bind (Wp.thashx hx (by omega) fun b _ => ?_)
      skipb
      refine Wp.ok ⟨fun t e => ?_, fun a e => nomatch e⟩
      cases e
      by_cases hc : idx < 2 ^ m - 1
      · have hodd : ¬ s.internal_idx % 2 = 0 := fun h0 => hh ⟨h0, hc⟩
        have hb := h2 (by omega)
        obtain ⟨n, hn⟩ : ∃ n, m - s.h = n + 1 := by
          rcases Nat.eq_zero_or_pos (m - s.h) with h0 | h0
          · rw [h0] at hb; omega
          · exact ⟨m - s.h - 1, by omega⟩
        have hn' : m - (s.h + 1) = n := by omega
        rw [hn, Nat.pow_succ] at hb
        refine ⟨⟨by show s.h + 1 ≤ th; omega, fun _ => ⟨by show s.h + 1 ≤ m; omega, ?_⟩⟩, ?_⟩
        · show s.internal_idx >>> 1 < 2 ^ (m - (s.h + 1)) - 1
          rw [hn', shiftRight_one]
          omega
        · rw [stepsX, stepsX, if_neg (by omega), if_neg (by omega)]
          show _ + ones (m - (s.h + 1)) (s.internal_idx >>> 1) * _ = _
          rw [hn', hn, shiftRight_one, ones, if_neg hodd, Nat.add_mul]
          omega
      · refine ⟨⟨by show s.h + 1 ≤ th; omega, fun h => absurd hc h⟩, ?_⟩
        rw [stepsX, stepsX, if_pos hc, if_pos hc]
        show _ + (th - (s.h + 1)) * _ = _
        rw [show th - s.h = th - (s.h + 1) + 1 by omega, Nat.add_mul _ 1]
        omega

theorem count_treehashx_inner (hx : LaneCost f E.X κ) {ctx : Ctx} {idx m th : Nat} {stack : Bytes} {s : ThxInner} (hm : m ≤ th)
    (hle : (th + 2 ^ 32 - E.lg) % 2 ^ 32 = m) (hs : InnerX (¬ idx < 2 ^ m - 1) m th s) :
    Wp f (treehashx_inner E ctx idx (2 ^ m - 1) th stack s) fun r k =>
      (∀ t, r = .inl t → InnerX (¬ idx < 2 ^ m - 1) m th t ∧
        k + stepsX (¬ idx < 2 ^ m - 1) m th t.h t.internal_idx * κ (.thashx 2) =
          stepsX (¬ idx < 2 ^ m - 1) m th s.h s.internal_idx * κ (.thashx 2)) ∧
      ∀ a, r = .inr a → (a.1.isSome ↔ ¬ idx < 2 ^ m - 1) ∧
        k = stepsX (¬ idx < 2 ^ m - 1) m th s.h s.internal_idx * κ (.thashx 2) := by
  unfold treehashx_inner
  refine Wp.branch (fun h => ?_) (fun h => count_combine hx hm hs)
  replace h : (th + 2 ^ 32 - E.lg) % 2 ^ 32 ≤ s.h := h
  rw [hle] at h
  have hl : ¬ idx < 2 ^ m - 1 := by
    intro hc
    have := hs.lt (fun h => h hc)
    rw [show m - s.h = 0 by omega] at this
    omega
  refine Wp.branch (fun h => ?_) (fun h => ?_)
  · skipb
    refine Wp.ok ⟨fun t e => (nomatch e), fun a e => ?_⟩
    cases e
    refine ⟨⟨fun _ => hl, fun _ => rfl⟩, ?_⟩
    rw [stepsX, if_pos hl, h, Nat.sub_self, Nat.zero_mul]
  · skipb
    simp only [Nat.zero_add]
    generalize hs' : { s with prev_left_adj := s.left_adj, left_adj := _ } = s'
    have e1 : s'.h = s.h := by rw [← hs']
    have e2 : s'.internal_idx = s.internal_idx := by rw [← hs']
    rw [← e1, ← e2]
    exact count_combine hx hm ⟨by rw [e1]; exact hs.le, by rw [e1, e2]; exact hs.lt⟩

/-- Everything from group `j` on. -/
def restCostX (c o m th j : Nat) : Nat :=
  ((List.range' j (2 ^ m - j)).map fun i => c + stepsX (¬ i < 2 ^ m - 1) m th 0 i * o).sum

theorem restCostX_step {c o m th j : Nat} (h : j < 2 ^ m) :
    restCostX c o m th j = c + stepsX (¬ j < 2 ^ m - 1) m th 0 j * o + restCostX c o m th (j + 1) := by
  unfold restCostX
  rw [show 2 ^ m - j = (2 ^ m - (j + 1)) + 1 by omega, List.range'_succ]
  simp

theorem restCostX_end (c o m th : Nat) : restCostX c o m th (2 ^ m) = 0 := by
  unfold restCostX
  rw [Nat.sub_self]
  rfl

theorem ones_all (n : Nat) : ones n (2 ^ n - 1) = n := by
  induction n with
  | zero => rfl
  | succ n ih =>
    have := Nat.two_pow_pos n
    rw [ones, Nat.pow_succ, if_neg (by omega), show (2 ^ n * 2 - 1) / 2 = 2 ^ n - 1 by omega, ih]
    omega

theorem restCostX_all (c o m th : Nat) (h : m ≤ th) :
    restCostX c o m th 0 = 2 ^ m * c + (2 ^ m - 1 + (th - m)) * o := by
  have hp := Nat.two_pow_pos m
  have key : ((List.range (2 ^ m)).map fun i => stepsX (¬ i < 2 ^ m - 1) m th 0 i).sum = 2 ^ m - 1 + (th - m) := by
    have h1 := sum_ones m
    obtain ⟨N, hN⟩ : ∃ N, 2 ^ m = N + 1 := ⟨2 ^ m - 1, by omega⟩
    have h2 := ones_all m
    rw [hN, List.range_succ] at h1 ⊢
    rw [hN] at h2
    simp only [List.map_append, List.sum_append, List.map_cons, List.map_nil, List.sum_cons, List.sum_nil] at h1 ⊢
    have e : (List.range N).map (fun i => stepsX (¬ i < N + 1 - 1) m th 0 i) = (List.range N).map (ones m) := by
      refine List.map_congr_left fun i hi => ?_
      rw [List.mem_range] at hi
      rw [stepsX, if_neg (by omega), Nat.sub_zero]
    rw [e, stepsX, if_pos (by omega)]
    rw [show N + 1 - 1 = N by omega] at h2
    omega
  unfold restCostX
  rw [Nat.sub_zero, ← List.range_eq_range', sum_add (fun _ => c), sum_const, sum_mul, key]

theorem count_treehashx (hx : LaneCost f E.X κ) {ι : Type} {auth : Bytes} {ctx : Ctx} {li off th : Nat}
    {gen : Bytes → Nat → ι → L (Bytes × ι)} {ta : List Addr} {info : ι} {c : Nat} (hlg : E.lg ≤ th) (hth : th < 2 ^ 32)
    (hg : ∀ b i s, Wp f (gen b i s) fun _ k => k = c) :
    Wp f (treehashx E auth ctx li off th gen ta info) fun _ k =>
      k = 2 ^ (th - E.lg) * c + (2 ^ (th - E.lg) - 1 + E.lg) * κ (.thashx 2) := by
  unfold treehashx
  have hle : (th + 2 ^ 32 - E.lg) % 2 ^ 32 = th - E.lg := by omega
  rw [hle]
  have hlg' : th - (th - E.lg) = E.lg := by omega
  generalize hmd : th - E.lg = m at *
  refine Wp.bind (Wp.free (Free.shl1 _) fun N hN => ?_)
  replace hN : Spx.shl1 m = .ok N := hN
  unfold Spx.shl1 at hN
  split at hN
  case isFalse => exact nomatch hN
  rename_i hm31
  cases hN
  have hp32 : 2 ^ m < 2 ^ 32 := Nat.pow_lt_pow_right (by omega) (by omega)
  have hp := Nat.two_pow_pos m
  refine Wp.loop (fun s => s.idx < 2 ^ m) (fun _ => True) (fun s => restCostX c (κ (.thashx 2)) m th s.idx) hp ?_ ?_
  · intro s hs
    unfold treehashx_body
    refine Wp.bind ((hg _ _ _).mono fun lf k _ hk => ?_)
    subst hk
    refine Wp.bind (Wp.loop (InnerX (¬ s.idx < 2 ^ m - 1) m th)
      (fun a => (a.1.isSome ↔ ¬ s.idx < 2 ^ m - 1))
      (fun t => stepsX (¬ s.idx < 2 ^ m - 1) m th t.h t.internal_idx * κ (.thashx 2))
      ⟨Nat.zero_le _, fun h => ⟨Nat.zero_le _, ?_⟩⟩
      (fun t ht => count_treehashx_inner hx (by omega) hle ht) fun a ha => ?_)
    · show s.idx < 2 ^ (m - 0) - 1
      rw [Nat.sub_zero]; omega
    · obtain ⟨res, i⟩ := a
      cases res with
      | some root =>
        have hi : ¬ s.idx < 2 ^ m - 1 := ha.1 rfl
        refine Wp.ok ⟨fun t e => (nomatch e), fun a _ => ⟨trivial, ?_⟩⟩
        have e := restCostX_step (c := k) (o := κ (.thashx 2)) (th := th) hs
        rw [show s.idx + 1 = 2 ^ m by omega, restCostX_end] at e
        rw [e]
        dsimp only
        omega
      | none =>
        have hi : s.idx < 2 ^ m - 1 := by
          rcases Nat.lt_or_ge s.idx (2 ^ m - 1) with h | h
          · exact h
          · exact nomatch ha.2 (by omega)
        unfold treehashx_next
        dsimp only
        skipb
        skipb
        refine Wp.ok ⟨fun t e => ?_, fun a e => nomatch e⟩
        cases e
        have e := restCostX_step (c := k) (o := κ (.thashx 2)) (th := th) hs
        have hmod : (s.idx + 1) % 2 ^ 32 = s.idx + 1 := Nat.mod_eq_of_lt (by omega)
        dsimp only
        rw [hmod, e]
        exact ⟨by omega, by omega⟩
  · intro a _
    rw [restCostX_all _ _ _ _ (by omega), hlg']
    omega

/-! ## Leaves -/

theorem count_chainx (hx : LaneCost f E.X κ) {ctx : Ctx} {i wk wi : Nat} {s : Bytes × Bytes × List Addr} {n : Nat} :
    Wp f (loop n (wots_gen_leafx_chain E ctx i wk wi) (0, s)) fun _ k =>
      k = (E.P.w - 1) * κ (.thashx 1) := by
  refine Wp.loop (fun t => t.1 ≤ E.P.w - 1) (fun _ => True) (fun t => (E.P.w - 1 - t.1) * κ (.thashx 1))
    (Nat.zero_le _) ?_ ?_
  · intro t ht
    obtain ⟨k, b, ws, a⟩ := t
    replace ht : k ≤ E.P.w - 1 := ht
    unfold wots_gen_leafx_chain
    dsimp only
    skipb
    refine Wp.branch (fun h => ?_) (fun h => ?_)
    · replace h : k = E.P.w - 1 := h
      refine Wp.ok ⟨fun t e => (nomatch e), fun a e => ⟨trivial, ?_⟩⟩
      rw [h, Nat.sub_self, Nat.zero_mul]
    · replace h : ¬ k = E.P.w - 1 := h
      skipb
      skipb
      refine Wp.bind (Wp.thashx hx (by omega) fun b _ => ?_)
      skipb
      refine Wp.ok ⟨fun t e => ?_, fun a e => nomatch e⟩
      cases e
      refine ⟨by show k + 1 ≤ _; omega, ?_⟩
      show 0 + (0 + (0 + (κ (.thashx 1) + (0 + 0)))) + (E.P.w - 1 - (k + 1)) * κ (.thashx 1) =
        (E.P.w - 1 - k) * κ (.thashx 1)
      rw [show E.P.w - 1 - k = E.P.w - 1 - (k + 1) + 1 by omega, Nat.add_mul _ 1]
      omega
  · intro a _
    rfl

theorem count_wots_leafx (hx : LaneCost f E.X κ) (hl : E.P.wotsLen ≤ 256) {ctx : Ctx} {dest : Bytes} {li : Nat} {info : LeafInfoX} :
    Wp f (wots_gen_leafx E ctx dest li info) fun _ k =>
      k = E.P.wotsLen * (κ .prfx + (E.P.w - 1) * κ (.thashx 1)) + κ (.thashx E.P.wotsLen) := by
  unfold wots_gen_leafx
  skipb
  rename_i mi _
  obtain ⟨mask, ix⟩ := mi
  dsimp only
  skipb
  skipb
  refine Wp.bind (Wp.forConst (κ .prfx + (E.P.w - 1) * κ (.thashx 1)) (fun i t _ => ?_) fun t => ?_)
  · obtain ⟨pb, ws, la⟩ := t
    dsimp only
    skipb
    skipb
    refine Wp.bind (Wp.prfx hx fun b _ => ?_)
    skipb
    skipb
    refine (count_chainx hx).mono fun a k _ hk => ?_
    subst hk
    omega
  · obtain ⟨pb, ws, la⟩ := t
    dsimp only
    skipb
    refine Wp.bind (Wp.thashx hx hl fun b _ => ?_)
    skipb
    refine Wp.ok ?_
    show 0 + (0 + (0 + (E.P.wotsLen * _ + (0 + (κ (.thashx E.P.wotsLen) + (0 + 0)))))) = _
    omega

theorem count_fors_leafx (hx : LaneCost f E.X κ) {ctx : Ctx} {lf : Bytes} {i : Nat} {a : List Addr} :
    Wp f (fors_gen_leafx E ctx lf i a) fun _ k => k = κ .prfx + κ (.thashx 1) := by
  unfold fors_gen_leafx
  skipb
  refine Wp.bind (Wp.prfx hx fun b _ => ?_)
  skipb
  skipb
  skipb
  refine Wp.bind (Wp.thashx hx (by omega) fun b _ => ?_)
  skipb
  refine Wp.ok ?_
  omega

/-! ## The functions called from sign.c -/

/-- Cost of a subtree. -/
def subtreeCostX (κ : Fn → Nat) (P : Params) (lg : Nat) : Nat :=
  2 ^ (P.treeHeight - lg) * (P.wotsLen * (κ .prfx + (P.w - 1) * κ (.thashx 1)) + κ (.thashx P.wotsLen)) +
    (2 ^ (P.treeHeight - lg) - 1 + lg) * κ (.thashx 2)

/-- Cost of a FORS signature. -/
def forsSignCostX (κ : Fn → Nat) (P : Params) (lg : Nat) : Nat :=
  P.forsTrees * (κ .prf + (2 ^ (P.forsHeight - lg) * (κ .prfx + κ (.thashx 1)) +
    (2 ^ (P.forsHeight - lg) - 1 + lg) * κ (.thashx 2))) + κ (.thash P.forsTrees)

theorem count_merkle_signx (hx : LaneCost f E.X κ) (hl : E.P.wotsLen ≤ 256) (h1 : E.lg ≤ E.P.treeHeight) (h2 : E.P.treeHeight < 2 ^ 32) {sig root : Bytes} {ctx : Ctx}
    {wa ta : Addr} {i : Nat} :
    Wp f (merkle_signx E sig root ctx wa ta i) fun _ k => k = subtreeCostX κ E.P E.lg := by
  unfold merkle_signx
  skipb
  skipb
  skipb
  skipb
  skipb
  skipb
  refine Wp.bind ((count_treehashx hx h1 h2 fun b i s => count_wots_leafx hx hl).mono fun a k _ hk => ?_)
  subst hk
  obtain ⟨r, ap, ta', info⟩ := a
  refine Wp.ok ?_
  show 0 + (0 + (0 + (0 + (0 + (0 + (subtreeCostX κ E.P E.lg + 0)))))) = _
  omega

theorem count_merkle_gen_rootx (hx : LaneCost f E.X κ) (hl : E.P.wotsLen ≤ 256) (h1 : E.lg ≤ E.P.treeHeight) (h2 : E.P.treeHeight < 2 ^ 32) {root : Bytes} {ctx : Ctx} :
    Wp f (merkle_gen_rootx E root ctx) fun _ k => k = subtreeCostX κ E.P E.lg := by
  unfold merkle_gen_rootx
  skipb
  skipb
  refine Wp.bind ((count_merkle_signx hx hl h1 h2).mono fun a k _ hk => ?_)
  subst hk
  obtain ⟨s, r, ta⟩ := a
  refine Wp.ok ?_
  omega

theorem count_fors_signx (hκ : HashCost f E.H κ ml) (hx : LaneCost f E.X κ) (h1 : E.lg ≤ E.P.forsHeight) (h2 : E.P.forsHeight < 2 ^ 32) {sig m : Bytes} {ctx : Ctx}
    {a : Addr} : Wp f (fors_signx E sig m ctx a) fun _ k => k = forsSignCostX κ E.P E.lg := by
  unfold fors_signx
  skipb
  skipb
  skipb
  skipb
  skipb
  refine Wp.bind (Wp.forConst (κ .prf + (2 ^ (E.P.forsHeight - E.lg) * (κ .prfx + κ (.thashx 1)) +
    (2 ^ (E.P.forsHeight - E.lg) - 1 + E.lg) * κ (.thashx 2))) (fun i t _ => ?_) fun t => ?_)
  · obtain ⟨s, off, roots, ta, la⟩ := t
    unfold fors_signx_body fors_gen_sk
    dsimp only
    skipb
    skipb
    skipb
    skipb
    skipb
    skipb
    refine Wp.bind (Wp.prf hκ fun b _ => ?_)
    skipb
    skipb
    skipb
    refine Wp.bind (Wp.withSub fun p => ?_)
    refine Wp.bind ((count_treehashx hx h1 h2 fun b i s => count_fors_leafx hx).mono fun a k _ hk => ?_)
    subst hk
    obtain ⟨r, ap, ta', la'⟩ := a
    dsimp only
    refine Wp.ok ?_
    skipb
    refine Wp.ok ?_
    simp only [Nat.zero_add, Nat.add_zero]
  · obtain ⟨s, off, roots, ta, la⟩ := t
    dsimp only
    refine Wp.bind (Wp.thash hκ fun b _ => ?_)
    refine Wp.ok ?_
    simp only [Nat.zero_add, Nat.add_zero]
    rfl

theorem parCode_cost (hκ : HashCost f E.H κ ml) (hx : LaneCost f E.X κ) (hl : E.P.wotsLen ≤ 256)
    (h1 : E.lg ≤ E.P.treeHeight) (h2 : E.P.treeHeight < 2 ^ 32) (h3 : E.lg ≤ E.P.forsHeight)
    (h4 : E.P.forsHeight < 2 ^ 32) :
    TreeCost f (parCode E) (subtreeCostX κ E.P E.lg) (forsSignCostX κ E.P E.lg) :=
  ⟨fun _ _ _ _ _ _ => count_merkle_signx hx hl h1 h2, fun _ _ => count_merkle_gen_rootx hx hl h1 h2,
    fun _ _ _ _ => count_fors_signx hκ hx h3 h4⟩

/-! ## In the notation of the specification -/

open Spec

theorem weigh_xmssX {P : Params} (hP : P.Valid) (lg : Nat) :
    weigh κ (xmssCostX P.toSpec lg) = subtreeCostX κ P lg := by
  unfold xmssCostX subtreeCostX treeCostX
  rw [weigh_append, weigh_times, weigh_cons, weigh_cons, weigh_cons, weigh_cons, weigh_nil,
    toSpec_len hP.wots, toSpec_w hP.w, show P.toSpec.h' = P.treeHeight from rfl, Nat.mul_add P.wotsLen, Nat.mul_assoc,
    Nat.one_mul]
  simp only [Nat.add_zero, Nat.add_assoc]

theorem weigh_forsX (P : Params) (lg : Nat) : weigh κ (forsCostX P.toSpec lg) = forsSignCostX κ P lg := by
  unfold forsCostX forsSignCostX
  rw [weigh_cons, weigh_cons, weigh_cons, weigh_cons, weigh_cons, weigh_nil, show P.toSpec.k = P.forsTrees from rfl,
    show P.toSpec.a = P.forsHeight from rfl, Nat.mul_add P.forsTrees, Nat.mul_add P.forsTrees,
    Nat.mul_add (2 ^ (P.forsHeight - lg)), Nat.mul_add P.forsTrees, Nat.mul_assoc, Nat.mul_assoc, Nat.mul_assoc]
  unfold treeCostX
  omega

theorem weigh_keygenX {P : Params} (hP : P.Valid) (lg : Nat) :
    weigh κ (keygenCostX P.toSpec lg) = κ .init + subtreeCostX κ P lg := by
  unfold keygenCostX
  rw [weigh_cons, weigh_xmssX hP, Nat.one_mul]

theorem weigh_signX {P : Params} (hP : P.Valid) (lg : Nat) : weigh κ (signCostX P.toSpec lg) =
    κ .init + κ .rand + κ .msg + forsSignCostX κ P lg + P.d * subtreeCostX κ P lg := by
  unfold signCostX
  rw [weigh_append, weigh_append, weigh_cons, weigh_cons, weigh_cons, weigh_nil, weigh_forsX, weigh_times,
    weigh_xmssX hP]
  show 1 * κ .init + (1 * κ .rand + (1 * κ .msg + 0)) + forsSignCostX κ P lg + P.d * subtreeCostX κ P lg = _
  omega

end Spx.Leak
