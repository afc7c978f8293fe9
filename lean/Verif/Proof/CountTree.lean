import Verif.Proof.Count
/-! # Calls made by the tree code of the reference implementation -/

namespace Spx.Leak

/-- 1 for the function which is counted. -/
def one (f g : Fn) : Nat := if g = f then 1 else 0

/-! ## Trailing ones -/

/-- Number of trailing ones among the `n` lowest bits. -/
def ones : Nat → Nat → Nat
  | 0, _ => 0
  | n + 1, x => if x % 2 = 0 then 0 else 1 + ones n (x / 2)

theorem sum_double (g : Nat → Nat) (m : Nat) :
    ((List.range (2 * m)).map g).sum = ((List.range m).map fun i => g (2 * i) + g (2 * i + 1)).sum := by
  induction m with
  | zero => rfl
  | succ m ih =>
    rw [show 2 * (m + 1) = 2 * m + 1 + 1 by omega, List.range_succ, List.range_succ, List.range_succ (n := m)]
    simp only [List.map_append, List.sum_append, ih, List.map_cons, List.map_nil, List.sum_cons, List.sum_nil]
    omega

theorem sum_add (g h : Nat → Nat) (m : Nat) :
    ((List.range m).map fun i => g i + h i).sum = ((List.range m).map g).sum + ((List.range m).map h).sum := by
  induction m with
  | zero => rfl
  | succ m ih =>
    rw [List.range_succ]
    simp only [List.map_append, List.sum_append, ih, List.map_cons, List.map_nil, List.sum_cons, List.sum_nil]
    omega

theorem sum_mul (g : Nat → Nat) (c m : Nat) :
    ((List.range m).map fun i => g i * c).sum = ((List.range m).map g).sum * c := by
  induction m with
  | zero => simp
  | succ m ih =>
    rw [List.range_succ]
    simp only [List.map_append, List.sum_append, ih, List.map_cons, List.map_nil, List.sum_cons, List.sum_nil,
      Nat.add_mul]
    omega

theorem sum_const (c m : Nat) : ((List.range m).map fun _ => c).sum = m * c := by
  rw [List.map_const', List.length_range, List.sum_replicate_nat]

theorem sum_ones (n : Nat) : ((List.range (2 ^ n)).map (ones n)).sum = 2 ^ n - 1 := by
  induction n with
  | zero => rfl
  | succ n ih =>
    have hp : 0 < 2 ^ n := Nat.two_pow_pos n
    rw [Nat.pow_succ, Nat.mul_comm, sum_double]
    have e : (fun i => ones (n + 1) (2 * i) + ones (n + 1) (2 * i + 1)) = fun i => 1 + ones n i := by
      funext i
      rw [ones, ones, if_pos (by omega), if_neg (by omega), show (2 * i + 1) / 2 = i by omega]
      omega
    rw [e, sum_add (fun _ => 1), sum_const, ih]
    omega

theorem shiftRight_one (x : Nat) : x >>> 1 = x / 2 := by rw [Nat.shiftRight_eq_div_pow]

/-! ## Rules for the hash functions -/

/-- Hash functions which contain `κ f` calls of the function counted; `gen_message_random` and `hash_message` when they are
given a message of length `ml`. -/
structure HashCost (f : Fn) (H : HashImpl) (κ : Fn → Nat) (ml : Nat) : Prop where
  init : ∀ c, Wp f (H.initialize_hash_function c) fun _ k => k = κ .init
  prf : ∀ c a, Wp f (H.prf_addr c a) fun _ k => k = κ .prf
  thash : ∀ i b c a, Wp f (H.thash i b c a) fun _ k => k = κ (.thash b)
  rand : ∀ s o m c, m.length = ml → Wp f (H.gen_message_random s o m c) fun _ k => k = κ .rand
  msg : ∀ R pk m c, m.length = ml → Wp f (H.hash_message R pk m c) fun _ k => k = κ .msg

theorem counted_cost (f : Fn) (H : Spx.HashImpl) (ml : Nat) : HashCost f (counted H) (one f) ml :=
  ⟨fun _ => Wp.call fun _ _ => rfl, fun _ _ => Wp.call fun _ _ => rfl, fun _ _ _ _ => Wp.call fun _ _ => rfl,
    fun _ _ _ _ _ => Wp.call fun _ _ => rfl, fun _ _ _ _ _ => Wp.call fun _ _ => rfl⟩

section
variable {f : Fn} {H : HashImpl} {κ : Fn → Nat} {ml : Nat} (hκ : HashCost f H κ ml)
include hκ

theorem Wp.init {c : Ctx} {Q : Ctx → Nat → Prop}
    (h : ∀ a, (H.initialize_hash_function c).res = .ok a → Q a (κ .init)) :
    Wp f (H.initialize_hash_function c) Q := (hκ.init c).mono fun a _ ha hk => hk ▸ h a ha
theorem Wp.prf {c : Ctx} {a : Addr} {Q : Bytes → Nat → Prop} (h : ∀ b, (H.prf_addr c a).res = .ok b → Q b (κ .prf)) :
    Wp f (H.prf_addr c a) Q := (hκ.prf c a).mono fun a _ ha hk => hk ▸ h a ha
theorem Wp.thash {i : Bytes} {k : Nat} {c : Ctx} {a : Addr} {Q : Bytes → Nat → Prop}
    (h : ∀ b, (H.thash i k c a).res = .ok b → Q b (κ (.thash k))) :
    Wp f (H.thash i k c a) Q := (hκ.thash i k c a).mono fun a _ ha hk => hk ▸ h a ha
theorem Wp.rand {k o m : Bytes} {c : Ctx} {Q : Bytes → Nat → Prop} (hm : m.length = ml)
    (h : ∀ b, (H.gen_message_random k o m c).res = .ok b → Q b (κ .rand)) :
    Wp f (H.gen_message_random k o m c) Q := (hκ.rand k o m c hm).mono fun a _ ha hk => hk ▸ h a ha
theorem Wp.msg {R pk m : Bytes} {c : Ctx} {Q : Bytes × Nat × Nat → Nat → Prop} (hm : m.length = ml)
    (h : ∀ b, (H.hash_message R pk m c).res = .ok b → Q b (κ .msg)) :
    Wp f (H.hash_message R pk m c) Q := (hκ.msg R pk m c hm).mono fun a _ ha hk => hk ▸ h a ha
end

/-! ## `treehashx1` -/

section
variable {f : Fn} {E : Env} {κ : Fn → Nat} {ml : Nat} (hκ : HashCost f E.H κ ml)
include hκ

theorem count_treehashx1_inner {ctx : Ctx} {idx th : Nat} {stack : Bytes} {s : Thx1Inner} (h1 : s.h ≤ th)
    (h2 : idx < 2 ^ th - 1 → s.internal_idx < 2 ^ (th - s.h) - 1)
    (h3 : ¬ idx < 2 ^ th - 1 → s.internal_idx = 2 ^ (th - s.h) - 1) :
    Wp f (treehashx1_inner E ctx idx (2 ^ th - 1) th stack s) fun r k =>
      (∀ t, r = .inl t → (t.h ≤ th ∧ (idx < 2 ^ th - 1 → t.internal_idx < 2 ^ (th - t.h) - 1) ∧
        (¬ idx < 2 ^ th - 1 → t.internal_idx = 2 ^ (th - t.h) - 1)) ∧
        k + ones (th - t.h) t.internal_idx * κ (.thash 2) =
          ones (th - s.h) s.internal_idx * κ (.thash 2)) ∧
      ∀ a, r = .inr a → (a.1.isSome ↔ ¬ idx < 2 ^ th - 1) ∧
        k = ones (th - s.h) s.internal_idx * κ (.thash 2) := by
  unfold treehashx1_inner
  refine Wp.branch (fun h => ?_) (fun h => ?_)
  · skipb
    refine Wp.ok ⟨fun t e => (nomatch e), fun a e => ?_⟩
    cases e
    rw [h, Nat.sub_self] at h2 ⊢
    refine ⟨⟨fun _ hc => ?_, fun _ => rfl⟩, ?_⟩
    · have := h2 hc
      omega
    · simp only [ones, Nat.zero_mul]
  · obtain ⟨m, hm⟩ : ∃ m, th - s.h = m + 1 := ⟨th - s.h - 1, by omega⟩
    have hp : 2 ^ (m + 1) = 2 * 2 ^ m := by rw [Nat.pow_succ]; omega
    have hpos : 0 < 2 ^ m := Nat.two_pow_pos m
    rw [hm, hp] at h2 h3
    rw [hm]
    skipb
    rename_i ap _
    refine Wp.branchAnd (fun hh => ?_) (fun hh => ?_)
    · rw [Nat.and_one_is_mod] at hh
      refine Wp.ok ⟨fun t e => (nomatch e), fun a e => ?_⟩
      cases e
      refine ⟨⟨fun h => (nomatch h), fun hc => absurd hh.2 hc⟩, ?_⟩
      simp only [ones, hh.1, if_true, Nat.zero_mul, Nat.add_zero]
    · rw [Nat.and_one_is_mod] at hh
      have hodd : ¬ s.internal_idx % 2 = 0 := by
        intro h0
        by_cases hc : idx < 2 ^ th - 1
        · exact hh ⟨h0, hc⟩
        · have := h3 hc
          omega
      skipb
      skipb
      skipb
      skipb
      refine Wp.bind (Wp.thash hκ fun b _ => ?_)
      skipb
      refine Wp.ok ⟨fun t e => ?_, fun a e => nomatch e⟩
      cases e
      have hm' : th - (s.h + 1) = m := by omega
      simp only [hm', shiftRight_one, ones, hodd, if_false, Nat.add_mul, Nat.zero_add, Nat.one_mul, Nat.add_zero,
        and_true]
      refine ⟨by omega, fun hc => ?_, fun hc => ?_⟩
      · have := h2 hc
        omega
      · have := h3 hc
        omega

/-- Everything from leaf `j` on. -/
def restCost (c o th j : Nat) : Nat := ((List.range' j (2 ^ th - j)).map fun i => c + ones th i * o).sum

omit hκ in
theorem restCost_step {c o th j : Nat} (h : j < 2 ^ th) :
    restCost c o th j = c + ones th j * o + restCost c o th (j + 1) := by
  unfold restCost
  rw [show 2 ^ th - j = (2 ^ th - (j + 1)) + 1 by omega, List.range'_succ]
  simp

omit hκ in
theorem restCost_all (c o th : Nat) : restCost c o th 0 = 2 ^ th * c + (2 ^ th - 1) * o := by
  unfold restCost
  rw [Nat.sub_zero, ← List.range_eq_range', sum_add (fun _ => c), sum_const, sum_mul, sum_ones]

omit hκ in
theorem restCost_end (c o th : Nat) : restCost c o th (2 ^ th) = 0 := by
  unfold restCost
  rw [Nat.sub_self]
  rfl

theorem count_treehashx1 {ι : Type} {auth : Bytes} {ctx : Ctx} {li off th : Nat} {gen : Nat → ι → L (Bytes × ι)}
    {ta : Addr} {info : ι} {c : Nat} (hg : ∀ i s, Wp f (gen i s) fun _ k => k = c) :
    Wp f (treehashx1 E auth ctx li off th gen ta info) fun _ k =>
      k = 2 ^ th * c + (2 ^ th - 1) * κ (.thash 2) := by
  unfold treehashx1
  refine Wp.bind (Wp.free (Free.shl1 _) fun N hN => ?_)
  replace hN : Spx.shl1 th = .ok N := hN
  unfold Spx.shl1 at hN
  split at hN
  case isFalse => exact nomatch hN
  rename_i hth
  cases hN
  have hp32 : 2 ^ th < 2 ^ 32 := Nat.pow_lt_pow_right (by omega) (by omega)
  have hp := Nat.two_pow_pos th
  refine Wp.loop (fun s => s.idx < 2 ^ th) (fun _ => True) (fun s => restCost c (κ (.thash 2)) th s.idx) hp ?_ ?_
  · intro s hs
    unfold treehashx1_body
    refine Wp.bind ((hg _ _).mono fun lf k _ hk => ?_)
    subst hk
    skipb
    refine Wp.bind (Wp.loop (fun t => t.h ≤ th ∧ (s.idx < 2 ^ th - 1 → t.internal_idx < 2 ^ (th - t.h) - 1) ∧
        (¬ s.idx < 2 ^ th - 1 → t.internal_idx = 2 ^ (th - t.h) - 1))
      (fun a => (a.1.isSome ↔ ¬ s.idx < 2 ^ th - 1))
      (fun t => ones (th - t.h) t.internal_idx * κ (.thash 2)) ⟨Nat.zero_le _, fun h => ?_, fun h => ?_⟩
      (fun t ht => count_treehashx1_inner hκ ht.1 ht.2.1 ht.2.2) fun a ha => ?_)
    · rw [Nat.sub_zero]; exact h
    · rw [Nat.sub_zero]; show s.idx = _; omega
    · obtain ⟨res, i⟩ := a
      cases res with
      | some root =>
        have hi : ¬ s.idx < 2 ^ th - 1 := ha.1 rfl
        refine Wp.ok ⟨fun t e => (nomatch e), fun a _ => ⟨trivial, ?_⟩⟩
        have e := restCost_step (c := k) (o := κ (.thash 2)) hs
        rw [show s.idx + 1 = 2 ^ th by omega, restCost_end] at e
        rw [e]
        simp only [Nat.sub_zero]
        omega
      | none =>
        have hi : s.idx < 2 ^ th - 1 := by
          rcases Nat.lt_or_ge s.idx (2 ^ th - 1) with h | h
          · exact h
          · exact nomatch ha.2 (by omega)
        dsimp only
        skipb
        skipb
        refine Wp.ok ⟨fun t e => ?_, fun a e => nomatch e⟩
        cases e
        have e := restCost_step (c := k) (o := κ (.thash 2)) hs
        have hm : (s.idx + 1) % 2 ^ 32 = s.idx + 1 := Nat.mod_eq_of_lt (by omega)
        dsimp only
        rw [hm, e]
        simp only [Nat.sub_zero]
        exact ⟨by omega, by omega⟩
  · intro a _
    rw [restCost_all]
    omega

/-! ## Leaves -/

theorem count_chain {ctx : Ctx} {i wk : Nat} {s : Bytes × Bytes × Addr} {n : Nat} :
    Wp f (loop n (wots_gen_leafx1_chain E ctx i wk) (0, s)) fun _ k => k = (E.P.w - 1) * κ (.thash 1) := by
  refine Wp.loop (fun t => t.1 ≤ E.P.w - 1) (fun _ => True) (fun t => (E.P.w - 1 - t.1) * κ (.thash 1))
    (Nat.zero_le _) ?_ ?_
  · intro t ht
    obtain ⟨k, b, ws, a⟩ := t
    replace ht : k ≤ E.P.w - 1 := ht
    unfold wots_gen_leafx1_chain
    dsimp only
    skipb
    refine Wp.branch (fun h => ?_) (fun h => ?_)
    · replace h : k = E.P.w - 1 := h
      refine Wp.ok ⟨fun t e => (nomatch e), fun a e => ⟨trivial, ?_⟩⟩
      rw [h, Nat.sub_self, Nat.zero_mul]
    · replace h : ¬ k = E.P.w - 1 := h
      skipb
      refine Wp.bind (Wp.thash hκ fun b _ => ?_)
      refine Wp.ok ⟨fun t e => ?_, fun a e => nomatch e⟩
      cases e
      refine ⟨by show k + 1 ≤ _; omega, ?_⟩
      show 0 + (0 + (κ (.thash 1) + 0)) + (E.P.w - 1 - (k + 1)) * κ (.thash 1) = (E.P.w - 1 - k) * κ (.thash 1)
      rw [show E.P.w - 1 - k = E.P.w - 1 - (k + 1) + 1 by omega, Nat.add_mul _ 1]
      omega
  · intro a _
    rfl

theorem count_wots_leaf {ctx : Ctx} {li : Nat} {info : LeafInfoX1} :
    Wp f (wots_gen_leafx1 E ctx li info) fun _ k =>
      k = E.P.wotsLen * (κ .prf + (E.P.w - 1) * κ (.thash 1)) + κ (.thash E.P.wotsLen) := by
  unfold wots_gen_leafx1
  skipb
  skipb
  skipb
  refine Wp.bind (Wp.forConst (κ .prf + (E.P.w - 1) * κ (.thash 1)) (fun i t _ => ?_) fun t => ?_)
  · obtain ⟨pb, ws, la⟩ := t
    dsimp only
    skipb
    skipb
    skipb
    skipb
    refine Wp.bind (Wp.prf hκ fun b _ => ?_)
    skipb
    refine Wp.bind ((count_chain hκ).mono fun a k _ hk => ?_)
    subst hk
    obtain ⟨b', ws', la'⟩ := a
    dsimp only
    skipb
    refine Wp.ok ?_
    omega
  · obtain ⟨pb, ws, la⟩ := t
    dsimp only
    refine Wp.bind (Wp.thash hκ fun b _ => ?_)
    refine Wp.ok ?_
    show 0 + (0 + (0 + (E.P.wotsLen * _ + (κ (.thash E.P.wotsLen) + 0)))) = _
    omega

theorem count_fors_leaf {ctx : Ctx} {i : Nat} {a : Addr} :
    Wp f (fors_gen_leafx1 E ctx i a) fun _ k => k = κ .prf + κ (.thash 1) := by
  unfold fors_gen_leafx1 fors_gen_sk fors_sk_to_leaf
  skipb
  skipb
  refine Wp.bind (Wp.prf hκ fun b _ => ?_)
  skipb
  refine Wp.bind (Wp.thash hκ fun b _ => ?_)
  refine Wp.ok ?_
  omega

/-! ## The functions called from sign.c -/

/-- Cost of a subtree. -/
def subtreeCost (κ : Fn → Nat) (P : Params) : Nat :=
  2 ^ P.treeHeight * (P.wotsLen * (κ .prf + (P.w - 1) * κ (.thash 1)) + κ (.thash P.wotsLen)) +
    (2 ^ P.treeHeight - 1) * κ (.thash 2)

/-- Cost of a FORS signature. -/
def forsSignCost (κ : Fn → Nat) (P : Params) : Nat :=
  P.forsTrees * (κ .prf + (2 ^ P.forsHeight * (κ .prf + κ (.thash 1)) +
    (2 ^ P.forsHeight - 1) * κ (.thash 2))) + κ (.thash P.forsTrees)

theorem count_merkle_sign {sig root : Bytes} {ctx : Ctx} {wa ta : Addr} {i : Nat} :
    Wp f (merkle_sign E sig root ctx wa ta i) fun _ k => k = subtreeCost κ E.P := by
  unfold merkle_sign
  skipb
  skipb
  skipb
  skipb
  skipb
  skipb
  skipb
  refine Wp.bind ((count_treehashx1 hκ fun i s => count_wots_leaf hκ).mono fun a k _ hk => ?_)
  subst hk
  obtain ⟨r, ap, ta', info⟩ := a
  refine Wp.ok ?_
  show 0 + (0 + (0 + (0 + (0 + (0 + (0 + (subtreeCost κ E.P + 0))))))) = _
  omega

theorem count_merkle_gen_root {root : Bytes} {ctx : Ctx} :
    Wp f (merkle_gen_root E root ctx) fun _ k => k = subtreeCost κ E.P := by
  unfold merkle_gen_root
  skipb
  skipb
  refine Wp.bind ((count_merkle_sign hκ).mono fun a k _ hk => ?_)
  subst hk
  obtain ⟨s, r, ta⟩ := a
  refine Wp.ok ?_
  omega

theorem count_fors_sign {sig m : Bytes} {ctx : Ctx} {a : Addr} :
    Wp f (fors_sign E sig m ctx a) fun _ k => k = forsSignCost κ E.P := by
  unfold fors_sign
  skipb
  skipb
  skipb
  skipb
  skipb
  refine Wp.bind (Wp.forConst (κ .prf + (2 ^ E.P.forsHeight * (κ .prf + κ (.thash 1)) +
    (2 ^ E.P.forsHeight - 1) * κ (.thash 2))) (fun i t _ => ?_) fun t => ?_)
  · obtain ⟨s, off, roots, ta, la⟩ := t
    unfold fors_sign_body fors_gen_sk
    dsimp only
    skipb
    skipb
    skipb
    skipb
    skipb
    refine Wp.bind (Wp.prf hκ fun b _ => ?_)
    skipb
    skipb
    refine Wp.bind (Wp.withSub fun p => ?_)
    refine Wp.bind ((count_treehashx1 hκ fun i s => count_fors_leaf hκ).mono fun a k _ hk => ?_)
    subst hk
    obtain ⟨r, ap, ta', la'⟩ := a
    dsimp only
    refine Wp.ok ?_
    skipb
    refine Wp.ok ?_
    show 0 + (0 + (0 + (0 + (0 + (κ .prf + (0 + (0 + (_ + 0 + (0 + 0))))))))) = _
    simp only [Nat.zero_add, Nat.add_zero]
  · obtain ⟨s, off, roots, ta, la⟩ := t
    dsimp only
    refine Wp.bind (Wp.thash hκ fun b _ => ?_)
    refine Wp.ok ?_
    show 0 + (0 + (0 + (0 + (0 + (E.P.forsTrees * _ + (κ (.thash E.P.forsTrees) + 0)))))) = _
    simp only [Nat.zero_add, Nat.add_zero]
    rfl

end

end Spx.Leak
