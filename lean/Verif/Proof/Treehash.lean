import Verif.Proof.Tree

/-! The outer loop of `treehashx1`. -/

namespace Spx
open Spec

section
variable {E : Env} {S : Spec.Hash} (R : Refines E.P E.H S) {ctx : Ctx} (hctx : R.CtxOK ctx)
variable {a : ADRS} (ha : a.OK) {off th leaf_idx : Nat} (hth : th ≤ 30)
  {auth0 : Bytes} {leaf : Nat → Bytes}
  (hauth : th * E.P.n ≤ auth0.length)
  (hn : 2 * E.P.n < 2 ^ 31)
  (hleaf : ∀ i, i < 2 ^ th → (leaf i).length = E.P.n)

include ha hth hauth hleaf hctx hn in
theorem treehashx1_body_spec {ι : Type} {gen_leaf : Nat → ι → C (Bytes × ι)} {I : Nat → ι}
    (hgen : ∀ i, i < 2 ^ th → gen_leaf ((i + off) % 2 ^ 32) (I i) = .ok (leaf i, I (i + 1)))
    {s : Thx1 ι} {idx : Nat} (hidx : idx < 2 ^ th) (hsi : s.idx = idx) (hinfo : s.info = I idx)
    (hsl : s.stack.length = th * E.P.n)
    (hst : ∀ h, h < th → idx / 2 ^ h % 2 = 1 →
      chunk E.P.n s.stack h = node (offH S ctx.pub_seed a off) leaf h (idx / 2 ^ h - 1))
    (hai : AuthInv E.P.n th auth0
      (fun h => authVal E.P.n (offH S ctx.pub_seed a off) leaf leaf_idx auth0 idx h) s.auth_path)
    (haddr : SameTree E.P.fam a s.tree_addr) :
    (idx + 1 < 2 ^ th ∧ ∃ s' : Thx1 ι,
      treehashx1_body E ctx leaf_idx off th (2 ^ th - 1) gen_leaf s = .ok (.inl s') ∧
      s'.idx = idx + 1 ∧ s'.info = I (idx + 1) ∧ s'.stack.length = th * E.P.n ∧
      (∀ h, h < th → (idx + 1) / 2 ^ h % 2 = 1 →
        chunk E.P.n s'.stack h = node (offH S ctx.pub_seed a off) leaf h ((idx + 1) / 2 ^ h - 1)) ∧
      AuthInv E.P.n th auth0
        (fun h => authVal E.P.n (offH S ctx.pub_seed a off) leaf leaf_idx auth0 (idx + 1) h) s'.auth_path ∧
      SameTree E.P.fam a s'.tree_addr) ∨
    (idx + 1 = 2 ^ th ∧ ∃ b addr,
      treehashx1_body E ctx leaf_idx off th (2 ^ th - 1) gen_leaf s =
        .ok (.inr (node (offH S ctx.pub_seed a off) leaf th 0, b, addr, I (idx + 1))) ∧
      AuthInv E.P.n th auth0
        (fun h => authVal E.P.n (offH S ctx.pub_seed a off) leaf leaf_idx auth0 (idx + 1) h) b ∧
      SameTree E.P.fam a addr) := by
  obtain ⟨t, ht, hones, htop⟩ := exists_trailing idx th
  have hll := hleaf idx hidx
  have hcl : ((uninit (E.G 2) (2 * E.P.n)).take E.P.n ++ leaf idx ++
      (uninit (E.G 2) (2 * E.P.n)).drop (E.P.n + (leaf idx).length)).length = 2 * E.P.n := by
    simp [hll]; omega
  obtain ⟨r, hr, hrh, hrl, hrc, hra, hrauth, hr1⟩ :=
    treehashx1_inner_spec R hctx ha hth hauth hn hleaf hidx hsl hst hai haddr
      (cur := (uninit (E.G 2) (2 * E.P.n)).take E.P.n ++ leaf idx ++
        (uninit (E.G 2) (2 * E.P.n)).drop (E.P.n + (leaf idx).length)) hcl (by
        rw [List.append_assoc, List.drop_append, List.drop_of_length_le (by simp; omega),
          show (List.take E.P.n (uninit (E.G 2) (2 * E.P.n))).length = E.P.n by simp; omega]
        simp [hll]; omega) ht hones htop
  have hbody : treehashx1_body E ctx leaf_idx off th (2 ^ th - 1) gen_leaf s =
      (match r.1 with
        | some root => .ok (.inr (root, r.2.auth_path, r.2.tree_addr, I (idx + 1)))
        | none => do
          let stack ← wr s.stack (r.2.h * E.P.n) (← rd r.2.current E.P.n E.P.n)
          .ok (.inl { idx := (s.idx + 1) % 2 ^ 32, stack, auth_path := r.2.auth_path,
                      tree_addr := r.2.tree_addr, info := I (idx + 1) })) := by
    unfold treehashx1_body
    simp only
    rw [hsi, hinfo, hgen idx hidx]
    simp only [ok_bind]
    rw [wr_ok (by simp [hll]; omega)]
    simp only [ok_bind]
    rw [hr]
    rfl
  have hp30 : 2 ^ th ≤ 2 ^ 30 := Nat.pow_le_pow_right (by omega) hth
  by_cases htt : t = th
  · subst htt
    have hm := ones_of_bits hones
    rw [Nat.mod_eq_of_lt hidx] at hm
    right
    refine ⟨by omega, r.2.auth_path, r.2.tree_addr, ?_, hrauth, hra⟩
    rw [hbody, hr1, if_pos rfl, Nat.div_eq_of_lt hidx]
  · left
    have hb0 : idx / 2 ^ t % 2 = 0 := by rcases htop with h | h; exact absurd h htt; exact h
    have hlt : idx + 1 < 2 ^ th := by
      by_cases hlt : idx + 1 < 2 ^ th
      · exact hlt
      · have : idx % 2 ^ th = 2 ^ th - 1 := by rw [Nat.mod_eq_of_lt hidx]; omega
        have := bits_of_ones this (j := t) (by omega)
        omega
    refine ⟨hlt, ?_⟩
    have hmt := ones_of_bits hones
    have hnl : (node (offH S ctx.pub_seed a off) leaf t (idx / 2 ^ t)).length = E.P.n := by
      rw [← hrc]; simp [hrl]; omega
    have hmul : (t + 1) * E.P.n ≤ th * E.P.n := Nat.mul_le_mul_right _ (by omega)
    have hrd : rd r.2.current E.P.n E.P.n = .ok (node (offH S ctx.pub_seed a off) leaf t (idx / 2 ^ t)) := by
      rw [rd_ok (by omega), hrc, List.take_of_length_le (Nat.le_of_eq hnl)]
    obtain ⟨st', hst'⟩ := wr_exists (b := s.stack)
      (d := node (offH S ctx.pub_seed a off) leaf t (idx / 2 ^ t)) (off := t * E.P.n) (by
        rw [hnl, hsl]; rw [Nat.succ_mul] at hmul; exact hmul)
    refine ⟨{ idx := (s.idx + 1) % 2 ^ 32, stack := st', auth_path := r.2.auth_path,
              tree_addr := r.2.tree_addr, info := I (idx + 1) }, ?_, ?_, rfl, ?_, ?_, hrauth, hra⟩
    · rw [hbody, hr1, if_neg htt, hrh, hrd]
      simp only [ok_bind, hst']
    · simp only [hsi]; omega
    · simp only [wr_length hst', hsl]
    · intro h hh hbit
      simp only
      by_cases he : h = t
      · subst he
        rw [wr_chunk_same hnl (by rw [hsl]; exact hmul) hst', succ_div_pow_ones hmt, Nat.add_sub_cancel]
      · rw [wr_chunk_other hnl (Ne.symm he) hst']
        have hne : t < h := by
          rcases Nat.lt_or_gt_of_ne he with hlt' | hgt
          · -- lower bits of idx + 1 are zero
            exfalso
            have hm : idx % 2 ^ h = 2 ^ h - 1 := ones_of_bits (fun j hj => hones j (by omega))
            rw [succ_div_pow_ones hm] at hbit
            have := hones h hlt'
            omega
          · exact hgt
        have hm : idx % 2 ^ h ≠ 2 ^ h - 1 := by
          intro hc
          have := bits_of_ones hc hne
          omega
        rw [succ_div_pow_other hm] at hbit ⊢
        exact hst h hh hbit

theorem sibling_lt {l t : Nat} (ht : 1 ≤ t) : sibling l < 2 ^ t ↔ l < 2 ^ t := by
  obtain ⟨k, rfl⟩ : ∃ k, t = k + 1 := ⟨t - 1, by omega⟩
  unfold sibling
  rw [Nat.pow_succ]
  split <;> omega

include ha hth hauth hleaf hctx hn in
/-- `treehashx1` returns the root and the authentication path. -/
theorem treehashx1_spec {ι : Type} {gen_leaf : Nat → ι → C (Bytes × ι)} {I : Nat → ι}
    (hgen : ∀ i, i < 2 ^ th → gen_leaf ((i + off) % 2 ^ 32) (I i) = .ok (leaf i, I (i + 1)))
    {tree_addr : Addr} (haddr : SameTree E.P.fam a tree_addr) :
    ∃ addr', treehashx1 E auth0 ctx leaf_idx off th gen_leaf tree_addr (I 0) =
        .ok (node (offH S ctx.pub_seed a off) leaf th 0,
          (if leaf_idx < 2 ^ th then
            authPath (offH S ctx.pub_seed a off) leaf th leaf_idx ++ auth0.drop (th * E.P.n)
           else auth0), addr', I (2 ^ th)) ∧
      SameTree E.P.fam a addr' := by
  have hp : 0 < 2 ^ th := Nat.two_pow_pos th
  have hp30 : 2 ^ th ≤ 2 ^ 30 := Nat.pow_le_pow_right (by omega) hth
  unfold treehashx1
  simp only
  rw [shl1_ok (by omega)]
  simp only [ok_bind]
  obtain ⟨r, hr, hpost⟩ := loop_inv
    (body := treehashx1_body E ctx leaf_idx off th (2 ^ th - 1) gen_leaf)
    (fun idx (s : Thx1 ι) => s.idx = idx ∧ s.info = I idx ∧ s.stack.length = th * E.P.n ∧
      (∀ h, h < th → idx / 2 ^ h % 2 = 1 →
        chunk E.P.n s.stack h = node (offH S ctx.pub_seed a off) leaf h (idx / 2 ^ h - 1)) ∧
      AuthInv E.P.n th auth0
        (fun h => authVal E.P.n (offH S ctx.pub_seed a off) leaf leaf_idx auth0 idx h) s.auth_path ∧
      SameTree E.P.fam a s.tree_addr)
    (fun r => r.1 = node (offH S ctx.pub_seed a off) leaf th 0 ∧ 
      AuthInv E.P.n th auth0
        (fun h => authVal E.P.n (offH S ctx.pub_seed a off) leaf leaf_idx auth0 (2 ^ th) h) r.2.1 ∧
      SameTree E.P.fam a r.2.2.1 ∧ r.2.2.2 = I (2 ^ th))
    (2 ^ th - 1) (fuel := 2 ^ 32)
    (fun idx s hi hinv => by
      obtain ⟨h1, h2, h3, h4, h5, h6⟩ := hinv
      rcases treehashx1_body_spec R hctx ha hth hauth hn hleaf hgen (idx := idx) (by omega) h1 h2 h3 h4 h5 h6
        with ⟨_, s', hs', hrest⟩ | ⟨hlast, _⟩
      · exact ⟨s', hs', hrest⟩
      · omega)
    (fun s hinv => by
      obtain ⟨h1, h2, h3, h4, h5, h6⟩ := hinv
      rcases treehashx1_body_spec R hctx ha hth hauth hn hleaf hgen (idx := 2 ^ th - 1) (by omega) h1 h2 h3 h4 h5 h6
        with ⟨hl, _⟩ | ⟨hlast, b, addr, hb, hauth', haddr'⟩
      · omega
      · rw [hlast] at hb hauth'
        exact ⟨_, hb, rfl, hauth', haddr', rfl⟩)
    (by omega) (s := { idx := 0, stack := uninit (E.G 1) (th * E.P.n), auth_path := auth0,
                       tree_addr, info := I 0 })
    ⟨rfl, rfl, by simp, fun h _ hbit => by simp at hbit,
      ⟨rfl, fun h _ => by simp [authVal], rfl⟩, haddr⟩
  obtain ⟨root, b, addr, info⟩ := r
  obtain ⟨e1, hai, e2, e3⟩ := hpost
  simp only at e1 hai e2 e3
  refine ⟨addr, ?_, e2⟩
  rw [hr, e1, e3]
  congr 3
  have hdiv : ∀ h, h < th → 2 ^ th / 2 ^ h = 2 ^ (th - h) := fun h hh =>
    Nat.pow_div (by omega) (by omega)
  have hcond : ∀ h, h < th → (sibling (leaf_idx / 2 ^ h) < 2 ^ th / 2 ^ h ↔ leaf_idx < 2 ^ th) := by
    intro h hh
    rw [hdiv h hh, sibling_lt (by omega), Nat.div_lt_iff_lt_mul (Nat.two_pow_pos h), ← Nat.pow_add,
      Nat.sub_add_cancel (by omega)]
  have hbl : th * E.P.n ≤ b.length := by rw [hai.len]; exact hauth
  rw [eq_of_chunks hbl hai.chunks, hai.rest]
  by_cases hc : leaf_idx < 2 ^ th
  · rw [if_pos hc]
    congr 1
    unfold authPath
    apply cat_congr
    intro h hh
    rw [authVal, if_pos ((hcond h hh).mpr hc)]
  · rw [if_neg hc]
    conv => rhs; rw [← List.take_append_drop (th * E.P.n) auth0]
    congr 1
    rw [← cat_chunks E.P.n th auth0 hauth]
    apply cat_congr
    intro h hh
    rw [authVal, if_neg (fun hx => hc ((hcond h hh).mp hx))]

end
end Spx
