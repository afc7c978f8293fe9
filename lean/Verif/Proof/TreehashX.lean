import Verif.Proof.TreeX
/-! The outer loop of the parallel tree hashing. -/

namespace Spx
open Spec

section
variable {E : EnvX} {S : Spec.Hash} {R : Refines E.P E.H S} (RX : LaneRefines E R)
variable {ctx : Ctx} (hctx : R.CtxOK ctx)
variable {a : ADRS} (ha : a.OK) {off th leaf_idx : Nat} (hlg : 1 ≤ E.lg) (hlt : E.lg ≤ th) (hth : th ≤ 30)
  (hli : leaf_idx < 2 ^ 32) (hlr : leaf_idx < 2 ^ th ∨ 2 ^ th * E.L ≤ leaf_idx)
  {auth0 : Bytes} {leaf : Nat → Bytes}
  (hauth : th * E.P.n ≤ auth0.length)
  (hn : 2 * E.P.n < 2 ^ 31)
  (hleaf : ∀ i, i < 2 ^ th → (leaf i).length = E.P.n)

/-- Invariant of the outer loop. -/
structure OuterInvX {ι : Type} (E : EnvX) (Hn : Nat → Nat → Bytes → Bytes → Bytes) (leaf : Nat → Bytes)
    (a : ADRS) (th leaf_idx : Nat) (auth0 : Bytes) (I : Nat → ι) (idx : Nat) (s : Thx ι) : Prop where
  hidx : s.idx = idx
  info : s.info = I idx
  len : s.stack.length = th * E.L * E.P.n
  stack : ∀ h, h + E.lg < th → idx / 2 ^ h % 2 = 1 → ∀ j, j < E.L →
    chunk E.P.n s.stack (h * E.L + j) = node Hn leaf h (E.L * (idx / 2 ^ h - 1) + j)
  auth : AuthInv E.P.n th auth0 (fun h => authValX E.P.n E.lg th Hn leaf leaf_idx auth0 idx h) s.auth_path
  addr : SameTrees E.P.fam a E.L s.tree_addr
  left : s.left_adj = 0
  prev : s.prev_left_adj = 0

theorem chunk_write {b b' d : Bytes} {n L h : Nat} (hw : wr b (h * L * n) d = .ok b') (hd : d.length = L * n)
    (hb : (h + 1) * L * n ≤ b.length) :
    (∀ j, j < L → chunk n b' (h * L + j) = chunk n d j) ∧
    (∀ h', h' ≠ h → ∀ j, j < L → chunk n b' (h' * L + j) = chunk n b (h' * L + j)) := by
  have hw' : wr b (h * (L * n)) d = .ok b' := by rw [← Nat.mul_assoc]; exact hw
  have hb' : (h + 1) * (L * n) ≤ b.length := by rw [← Nat.mul_assoc]; exact hb
  have hsub : ∀ (x : Bytes) h' j, j < L → chunk n x (h' * L + j) = chunk n (chunk (L * n) x h') j := by
    intro x h' j hj
    unfold chunk
    have h1 : (j + 1) * n ≤ L * n := Nat.mul_le_mul_right _ hj
    rw [Nat.succ_mul] at h1
    rw [List.drop_take, List.drop_drop, List.take_take, Nat.min_eq_left (by omega), Nat.add_mul, Nat.mul_assoc]
  constructor
  · intro j hj
    rw [hsub _ _ _ hj, wr_chunk_same hd hb' hw']
  · intro h' hne j hj
    rw [hsub _ _ _ hj, hsub _ _ _ hj, wr_chunk_other hd (Ne.symm hne) hw']

/-- The body after the leaves and the inner loop. -/
theorem treehashx_body_eq {ι : Type} {gen_leaf : Bytes → Nat → ι → C (Bytes × ι)} {s : Thx ι}
    {max_idx : Nat} {cur : Bytes} {info : ι} {r : Option Bytes × ThxInner}
    (hg : gen_leaf (uninit (E.G 30) (E.L * E.P.n)) ((E.L * s.idx + off) % 2 ^ 32) s.info = .ok (cur, info))
    (hr : loop 33 (treehashx_inner E ctx s.idx max_idx th s.stack)
        { current := cur, auth_path := s.auth_path, tree_addr := s.tree_addr, h := 0, internal_idx := s.idx,
          internal_leaf := leaf_idx, internal_idx_offset := off, left_adj := s.left_adj,
          prev_left_adj := s.prev_left_adj } = .ok r) :
    treehashx_body E ctx leaf_idx off th max_idx gen_leaf s =
      (match r.1 with
        | some root => .ok (.inr (root, r.2.auth_path, r.2.tree_addr, info))
        | none => do
          let stack ← wr s.stack (r.2.h * E.L * E.P.n) (← rd r.2.current 0 (E.L * E.P.n))
          .ok (.inl { idx := (s.idx + 1) % 2 ^ 32, stack, auth_path := r.2.auth_path,
                      tree_addr := r.2.tree_addr, info, left_adj := r.2.left_adj,
                      prev_left_adj := r.2.prev_left_adj })) := by
  unfold treehashx_body
  rw [hg]
  rw [ok_bind]
  simp only
  rw [hr]
  obtain ⟨res, i⟩ := r
  cases res <;> rfl

include RX hctx ha hlg hlt hth hli hlr hauth hn hleaf in
theorem treehashx_body_spec {ι : Type} {gen_leaf : Bytes → Nat → ι → C (Bytes × ι)} {I : Nat → ι}
    (hgen : ∀ i, i < 2 ^ (th - E.lg) → ∀ buf : Bytes, buf.length = E.L * E.P.n →
      gen_leaf buf ((E.L * i + off) % 2 ^ 32) (I i) =
        .ok (cat E.L (fun j => leaf (E.L * i + j)), I (i + 1)))
    {s : Thx ι} {idx : Nat} (hidx : idx < 2 ^ (th - E.lg))
    (hs : OuterInvX E (offH S ctx.pub_seed a off) leaf a th leaf_idx auth0 I idx s) :
    (idx + 1 < 2 ^ (th - E.lg) ∧ ∃ s' : Thx ι,
      treehashx_body E ctx leaf_idx off th (2 ^ (th - E.lg) - 1) gen_leaf s = .ok (.inl s') ∧
      OuterInvX E (offH S ctx.pub_seed a off) leaf a th leaf_idx auth0 I (idx + 1) s') ∨
    (idx + 1 = 2 ^ (th - E.lg) ∧ ∃ b addr,
      treehashx_body E ctx leaf_idx off th (2 ^ (th - E.lg) - 1) gen_leaf s =
        .ok (.inr (node (offH S ctx.pub_seed a off) leaf th 0, b, addr, I (idx + 1))) ∧
      AuthInv E.P.n th auth0 (fun h =>
        authValX E.P.n E.lg th (offH S ctx.pub_seed a off) leaf leaf_idx auth0 (idx + 1) h) b ∧
      SameTrees E.P.fam a E.L addr) := by
  have hleaf' : ∀ j, j < E.L → (leaf (E.L * idx + j)).length = E.P.n := by
    intro j hj
    apply hleaf
    have h1 : E.L * (idx + 1) ≤ E.L * 2 ^ (th - E.lg) := Nat.mul_le_mul_left _ hidx
    have h2 : E.L * 2 ^ (th - E.lg) = 2 ^ th := by
      unfold EnvX.L; rw [← Nat.pow_add]; congr 1; omega
    rw [h2, Nat.mul_succ] at h1
    omega
  obtain ⟨t, ht, hones, htop⟩ := exists_trailing idx (th - E.lg)
  obtain ⟨t', hones', htop'⟩ : ∃ t', (∀ j, j < t' → j + E.lg < th → idx / 2 ^ j % 2 = 1) ∧
      ((t' + E.lg < th ∧ idx / 2 ^ t' % 2 = 0 ∧ idx + 1 < 2 ^ (th - E.lg)) ∨
      (t' = th ∧ idx + 1 = 2 ^ (th - E.lg))) := by
    by_cases htt : t = th - E.lg
    · refine ⟨th, fun j hj hj2 => hones j (by omega), Or.inr ⟨rfl, ?_⟩⟩
      subst htt
      have hm := ones_of_bits hones
      rw [Nat.mod_eq_of_lt hidx] at hm
      omega
    · have h0 : idx / 2 ^ t % 2 = 0 := htop.resolve_left htt
      refine ⟨t, fun j hj _ => hones j hj, Or.inl ⟨by omega, h0, ?_⟩⟩
      by_cases hlt : idx + 1 < 2 ^ (th - E.lg)
      · exact hlt
      · have : idx % 2 ^ (th - E.lg) = 2 ^ (th - E.lg) - 1 := by rw [Nat.mod_eq_of_lt hidx]; omega
        have := bits_of_ones this (j := t) (by omega)
        omega
  obtain ⟨r, hr, hra, hrauth, hrtop, hrlow⟩ :=
    treehashx_inner_spec RX hctx ha hlg hlt hth hli hlr hauth hn hidx hs.len hs.stack hs.auth hs.addr
      (cur := cat E.L (fun j => leaf (E.L * idx + j))) (cat_length hleaf')
      (fun j hj => chunk_cat hleaf' hj) hones' htop'
  have hbody : treehashx_body E ctx leaf_idx off th (2 ^ (th - E.lg) - 1) gen_leaf s =
      (match r.1 with
        | some root => .ok (.inr (root, r.2.auth_path, r.2.tree_addr, I (idx + 1)))
        | none => do
          let stack ← wr s.stack (r.2.h * E.L * E.P.n) (← rd r.2.current 0 (E.L * E.P.n))
          .ok (.inl { idx := (s.idx + 1) % 2 ^ 32, stack, auth_path := r.2.auth_path,
                      tree_addr := r.2.tree_addr, info := I (idx + 1), left_adj := r.2.left_adj,
                      prev_left_adj := r.2.prev_left_adj })) := by
    have hg := hgen idx hidx (uninit (E.G 30) (E.L * E.P.n)) (uninit_length ..)
    exact treehashx_body_eq (by rw [hs.hidx, hs.info]; exact hg) (by rw [hs.hidx, hs.left, hs.prev]; exact hr)
  have hp30 : 2 ^ (th - E.lg) ≤ 2 ^ 30 := Nat.pow_le_pow_right (by omega) (by omega)
  rcases htop' with ⟨h1, h2, h3⟩ | ⟨h1, h2⟩
  · left
    refine ⟨h3, ?_⟩
    obtain ⟨e1, e2, e3, e4, e5, e6⟩ := hrlow h1
    have hmul : (t' + 1) * E.L * E.P.n ≤ th * E.L * E.P.n :=
      Nat.mul_le_mul_right _ (Nat.mul_le_mul_right _ (by omega))
    obtain ⟨st', hst'⟩ := wr_exists (b := s.stack) (d := r.2.current) (off := t' * E.L * E.P.n) (by
      rw [e5, hs.len]; rw [Nat.succ_mul, Nat.add_mul] at hmul; exact hmul)
    obtain ⟨c1, c2⟩ := chunk_write hst' e5 (by rw [hs.len]; exact hmul)
    have hm : idx % 2 ^ t' = 2 ^ t' - 1 := ones_of_bits (fun j hj => hones' j hj (by omega))
    refine ⟨{ idx := (s.idx + 1) % 2 ^ 32, stack := st', auth_path := r.2.auth_path,
              tree_addr := r.2.tree_addr, info := I (idx + 1), left_adj := r.2.left_adj,
              prev_left_adj := r.2.prev_left_adj }, ?_, ?_, rfl, ?_, ?_, hrauth, hra, e3, e4⟩
    · rw [hbody, e1, e2, rd_ok (by omega), List.drop_zero, List.take_of_length_le (by omega)]
      simp only [ok_bind, hst']
    · simp only [hs.hidx]; omega
    · simp only [wr_length hst', hs.len]
    · intro h hh hbit j hj
      simp only
      by_cases he : h = t'
      · subst he
        rw [c1 j hj, e6 j hj, succ_div_pow_ones hm, Nat.add_sub_cancel]
      · rw [c2 h he j hj]
        have hne : t' < h := by
          rcases Nat.lt_or_gt_of_ne he with hlt' | hgt
          · exfalso
            have hm : idx % 2 ^ h = 2 ^ h - 1 := ones_of_bits (fun j hj => hones' j (by omega) (by omega))
            rw [succ_div_pow_ones hm] at hbit
            have := hones' h hlt' hh
            omega
          · exact hgt
        have hm : idx % 2 ^ h ≠ 2 ^ h - 1 := by
          intro hc
          have := bits_of_ones hc hne
          omega
        rw [succ_div_pow_other hm] at hbit ⊢
        exact hs.stack h hh hbit j hj
  · right
    refine ⟨h2, r.2.auth_path, r.2.tree_addr, ?_, hrauth, hra⟩
    rw [hbody, hrtop h1]

include RX hctx ha hlg hlt hth hli hlr hauth hn hleaf in
/-- The parallel tree hashing returns the root and the authentication path. -/
theorem treehashx_spec {ι : Type} {gen_leaf : Bytes → Nat → ι → C (Bytes × ι)} {I : Nat → ι}
    (hgen : ∀ i, i < 2 ^ (th - E.lg) → ∀ buf : Bytes, buf.length = E.L * E.P.n →
      gen_leaf buf ((E.L * i + off) % 2 ^ 32) (I i) =
        .ok (cat E.L (fun j => leaf (E.L * i + j)), I (i + 1)))
    {tree_addr : List Addr} (haddr : SameTrees E.P.fam a E.L tree_addr) :
    ∃ addr', treehashx E auth0 ctx leaf_idx off th gen_leaf tree_addr (I 0) =
        .ok (node (offH S ctx.pub_seed a off) leaf th 0,
          (if leaf_idx < 2 ^ th then
            authPath (offH S ctx.pub_seed a off) leaf th leaf_idx ++ auth0.drop (th * E.P.n)
           else auth0), addr', I (2 ^ (th - E.lg))) ∧
      SameTrees E.P.fam a E.L addr' := by
  have hp : 0 < 2 ^ (th - E.lg) := Nat.two_pow_pos _
  have hp30 : 2 ^ (th - E.lg) ≤ 2 ^ 30 := Nat.pow_le_pow_right (by omega) (by omega)
  unfold treehashx
  simp only
  rw [show (th + 2 ^ 32 - E.lg) % 2 ^ 32 = th - E.lg by omega, shl1_ok (by omega)]
  simp only [ok_bind]
  obtain ⟨r, hr, hpost⟩ := loop_inv
    (body := treehashx_body E ctx leaf_idx off th (2 ^ (th - E.lg) - 1) gen_leaf)
    (fun idx (s : Thx ι) => OuterInvX E (offH S ctx.pub_seed a off) leaf a th leaf_idx auth0 I idx s)
    (fun r => r.1 = node (offH S ctx.pub_seed a off) leaf th 0 ∧
      AuthInv E.P.n th auth0 (fun h => authValX E.P.n E.lg th (offH S ctx.pub_seed a off) leaf leaf_idx auth0
        (2 ^ (th - E.lg)) h) r.2.1 ∧
      SameTrees E.P.fam a E.L r.2.2.1 ∧ r.2.2.2 = I (2 ^ (th - E.lg)))
    (2 ^ (th - E.lg) - 1) (fuel := 2 ^ 32)
    (fun idx s hi hinv => by
      rcases treehashx_body_spec RX hctx ha hlg hlt hth hli hlr hauth hn hleaf hgen (idx := idx) (by omega) hinv
        with ⟨_, s', hs', hrest⟩ | ⟨hlast, _⟩
      · exact ⟨s', hs', hrest⟩
      · omega)
    (fun s hinv => by
      rcases treehashx_body_spec RX hctx ha hlg hlt hth hli hlr hauth hn hleaf hgen
        (idx := 2 ^ (th - E.lg) - 1) (by omega) hinv
        with ⟨hl, _⟩ | ⟨hlast, b, addr, hb, hauth', haddr'⟩
      · omega
      · rw [hlast] at hb hauth'
        exact ⟨_, hb, rfl, hauth', haddr', rfl⟩)
    (by omega) (s := { idx := 0, stack := uninit (E.G 31) (th * E.L * E.P.n), auth_path := auth0,
                       tree_addr, info := I 0, left_adj := 0, prev_left_adj := 0 })
    ⟨rfl, rfl, by simp, fun h _ hbit => by simp at hbit,
      ⟨rfl, fun h hh => by
        unfold authValX
        rw [if_neg]
        unfold doneX
        by_cases h1 : h + E.lg ≤ th
        · rw [if_pos h1]; simp
        · rw [if_neg h1]; omega, rfl⟩, haddr, rfl, rfl⟩
  obtain ⟨root, b, addr, info⟩ := r
  obtain ⟨e1, hai, e2, e3⟩ := hpost
  simp only at e1 hai e2 e3
  refine ⟨addr, ?_, e2⟩
  rw [hr, e1, e3]
  congr 3
  have hcond : ∀ h, h < th → (doneX E.lg th leaf_idx (2 ^ (th - E.lg)) h ↔ leaf_idx < 2 ^ th) := by
    intro h hh
    unfold doneX
    by_cases h1 : h + E.lg ≤ th
    · rw [if_pos h1, Nat.pow_div (by omega) (by omega), Nat.div_lt_iff_lt_mul (Nat.two_pow_pos _),
        Nat.div_lt_iff_lt_mul (Nat.two_pow_pos _), ← Nat.pow_add, ← Nat.pow_add]
      rw [show th - E.lg - h + E.lg + h = th by omega]
    · rw [if_neg h1]; simp
  have hbl : th * E.P.n ≤ b.length := by rw [hai.len]; exact hauth
  rw [eq_of_chunks hbl hai.chunks, hai.rest]
  by_cases hc : leaf_idx < 2 ^ th
  · rw [if_pos hc]
    congr 1
    unfold authPath
    apply cat_congr
    intro h hh
    rw [authValX, if_pos ((hcond h hh).mpr hc)]
  · rw [if_neg hc]
    conv => rhs; rw [← List.take_append_drop (th * E.P.n) auth0]
    congr 1
    rw [← cat_chunks E.P.n th auth0 hauth]
    apply cat_congr
    intro h hh
    rw [authValX, if_neg (fun hx => hc ((hcond h hh).mp hx))]

end
end Spx
