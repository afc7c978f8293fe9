import Verif.Proof.Refine
import Verif.Proof.Arith
import Verif.Model.Tree
/-! `treehashx1` and `compute_root` against the tree specification. -/

namespace Spx
open Spec

/-- Node function of a tree whose address is `a` up to height and index, with an index offset. -/
def offH (S : Spec.Hash) (pub : Bytes) (a : ADRS) (off : Nat) (h i : Nat) (l r : Bytes) : Bytes :=
  S.T pub { a with w2 := h, w3 := (i + off / 2 ^ h) % 2 ^ 32 } (l ++ r)

theorem node_length {H : Nat → Nat → Bytes → Bytes → Bytes} {leaf : Nat → Bytes} {n B : Nat}
    (hH : ∀ h i l r, (H h i l r).length = n) (hl : ∀ i, i < B → (leaf i).length = n) :
    ∀ h i, (i + 1) * 2 ^ h ≤ B → (node H leaf h i).length = n := by
  intro h i hi
  cases h with
  | zero => exact hl i (by simp at hi; omega)
  | succ h => exact hH ..

/-- An address equal to `a` except for height and index. -/
def SameTree (f : Family) (a : ADRS) (x : Addr) : Prop :=
  ∃ u v, u < 256 ∧ v < 2 ^ 32 ∧ x = enc f { a with w2 := u, w3 := v }

theorem SameTree.set {f : Family} {a : ADRS} (ha : a.OK) {x : Addr} (hx : SameTree f a x)
    {h v : Nat} (hh : h < 256) (_hv : v < 2 ^ 32) :
    ∃ y, set_tree_height f x h = .ok y ∧
      set_tree_index f y v = .ok (enc f { a with w2 := h, w3 := v }) := by
  obtain ⟨u, w, hu, hw, rfl⟩ := hx
  obtain ⟨h1, h2, h3, h4, h5, h6⟩ := ha
  have e := set_tree_height_enc (f := f) (a := { a with w2 := u, w3 := w }) ⟨h1, h2, h3, h4, hu, hw⟩ hh
  exact ⟨_, e, set_tree_index_enc⟩

/-- Content of slot `h` of the path buffer when the leaves below `i` have been processed. -/
def authVal (n : Nat) (H : Nat → Nat → Bytes → Bytes → Bytes) (leaf : Nat → Bytes)
    (leaf_idx : Nat) (auth0 : Bytes) (i h : Nat) : Bytes :=
  if sibling (leaf_idx / 2 ^ h) < i / 2 ^ h then node H leaf h (sibling (leaf_idx / 2 ^ h))
  else chunk n auth0 h

structure AuthInv (n th : Nat) (auth0 : Bytes) (val : Nat → Bytes) (b : Bytes) : Prop where
  len : b.length = auth0.length
  chunks : ∀ h, h < th → chunk n b h = val h
  rest : b.drop (th * n) = auth0.drop (th * n)

structure InnerInv (E : Env) (H : Nat → Nat → Bytes → Bytes → Bytes) (leaf : Nat → Bytes)
    (a : ADRS) (off th leaf_idx : Nat) (auth0 : Bytes) (idx h : Nat) (s : Thx1Inner) : Prop where
  hh : s.h = h
  hidx : s.internal_idx = idx / 2 ^ h
  hleaf : s.internal_leaf = leaf_idx / 2 ^ h
  hoff : s.internal_idx_offset = off / 2 ^ h
  len : s.current.length = 2 * E.P.n
  cur : s.current.drop E.P.n = node H leaf h (idx / 2 ^ h)
  addr : SameTree E.P.fam a s.tree_addr
  auth : AuthInv E.P.n th auth0 (fun h' =>
    authVal E.P.n H leaf leaf_idx auth0 (if h' < h then idx + 1 else idx) h') s.auth_path

section
variable {E : Env} {S : Spec.Hash} (R : Refines E.P E.H S) {ctx : Ctx} (hctx : R.CtxOK ctx)
variable {a : ADRS} (ha : a.OK) {off th leaf_idx : Nat} (hth : th ≤ 30)
  {auth0 : Bytes} {leaf : Nat → Bytes}
  (hauth : th * E.P.n ≤ auth0.length)
  (hn : 2 * E.P.n < 2 ^ 31)
  (hleaf : ∀ i, i < 2 ^ th → (leaf i).length = E.P.n)

include ha hth hauth hleaf hctx hn in
theorem treehashx1_inner_spec {idx : Nat} (hidx : idx < 2 ^ th) {stack : Bytes}
    (hsl : stack.length = th * E.P.n)
    (hst : ∀ h, h < th → idx / 2 ^ h % 2 = 1 →
      chunk E.P.n stack h = node (offH S ctx.pub_seed a off) leaf h (idx / 2 ^ h - 1))
    {auth : Bytes}
    (hai : AuthInv E.P.n th auth0
      (fun h => authVal E.P.n (offH S ctx.pub_seed a off) leaf leaf_idx auth0 idx h) auth)
    {addr : Addr} (haddr : SameTree E.P.fam a addr) {cur : Bytes} (hcl : cur.length = 2 * E.P.n)
    (hcur : cur.drop E.P.n = leaf idx)
    {t : Nat} (ht : t ≤ th) (hones : ∀ j, j < t → idx / 2 ^ j % 2 = 1)
    (htop : t = th ∨ idx / 2 ^ t % 2 = 0) :
    ∃ r, loop 33 (treehashx1_inner E ctx idx (2 ^ th - 1) th stack)
        { current := cur, auth_path := auth, tree_addr := addr, h := 0, internal_idx := idx,
          internal_leaf := leaf_idx, internal_idx_offset := off } = .ok r ∧
      r.2.h = t ∧ r.2.current.length = 2 * E.P.n ∧
      r.2.current.drop E.P.n = node (offH S ctx.pub_seed a off) leaf t (idx / 2 ^ t) ∧
      SameTree E.P.fam a r.2.tree_addr ∧
      AuthInv E.P.n th auth0 (fun h =>
        authVal E.P.n (offH S ctx.pub_seed a off) leaf leaf_idx auth0 (idx + 1) h) r.2.auth_path ∧
      r.1 = (if t = th then some (node (offH S ctx.pub_seed a off) leaf t (idx / 2 ^ t)) else none) := by
  generalize hHdef : offH S ctx.pub_seed a off = Hn at *
  have hHlen : ∀ h i l r, (Hn h i l r).length = E.P.n := by
    intro h i l r; rw [← hHdef]; exact R.T_len ..
  have hnl : ∀ h, h ≤ t → (node Hn leaf h (idx / 2 ^ h)).length = E.P.n := by
    intro h hh
    apply node_length hHlen hleaf
    have hm : idx % 2 ^ h = 2 ^ h - 1 := ones_of_bits (fun j hj => hones j (by omega))
    have h1 := Nat.div_add_mod idx (2 ^ h)
    have hp : 0 < 2 ^ h := Nat.two_pow_pos h
    rw [Nat.add_mul, Nat.mul_comm]
    omega
  -- the auth path update at one height
  have hstep : ∀ h (s : Thx1Inner), h ≤ t → h < th →
      InnerInv E Hn leaf a off th leaf_idx auth0 idx h s →
      ∃ b, (if s.internal_idx ^^^ s.internal_leaf = 1 then do
              wr s.auth_path (s.h * E.P.n) (← rd s.current E.P.n E.P.n)
            else .ok s.auth_path) = .ok b ∧
        AuthInv E.P.n th auth0 (fun h' =>
          authVal E.P.n Hn leaf leaf_idx auth0 (if h' < h + 1 then idx + 1 else idx) h') b := by
    intro h s hht hhth hi
    have hm : idx % 2 ^ h = 2 ^ h - 1 := ones_of_bits (fun j hj => hones j (by omega))
    have hsd := succ_div_pow_ones hm
    have hmul : (h + 1) * E.P.n ≤ th * E.P.n := Nat.mul_le_mul_right _ hhth
    have hcr : rd s.current E.P.n E.P.n = .ok (node Hn leaf h (idx / 2 ^ h)) := by
      rw [rd_ok (by have := hi.len; omega), hi.cur, List.take_of_length_le]
      rw [hnl h hht]; exact Nat.le_refl _
    rw [hi.hidx, hi.hleaf, hi.hh]
    simp only [xor_eq_one_iff]
    by_cases hx : idx / 2 ^ h = sibling (leaf_idx / 2 ^ h)
    · rw [if_pos hx, hcr]
      simp only [ok_bind]
      have hl := hi.auth.len
      have hnl' := hnl h hht
      have hb : h * E.P.n + (node Hn leaf h (idx / 2 ^ h)).length ≤ s.auth_path.length := by
        rw [hnl', hl]; rw [Nat.succ_mul] at hmul; omega
      obtain ⟨b, hb⟩ := wr_exists hb
      refine ⟨b, hb, ⟨by rw [wr_length hb, hl], ?_, ?_⟩⟩
      · intro h' hh'
        by_cases he : h' = h
        · subst he
          rw [wr_chunk_same hnl' (by omega) hb]
          simp only [Nat.lt_succ_self, if_true]
          rw [authVal, if_pos (by omega), ← hx]
        · rw [wr_chunk_other hnl' (Ne.symm he) hb, hi.auth.chunks h' hh']
          congr 1
          by_cases h'' : h' < h
          · rw [if_pos h'', if_pos (by omega)]
          · rw [if_neg h'', if_neg (by omega)]
      · rw [wr_drop hb (by rw [hnl']; rw [Nat.succ_mul] at hmul; omega), hi.auth.rest]
    · rw [if_neg hx]
      refine ⟨_, rfl, ⟨hi.auth.len, ?_, hi.auth.rest⟩⟩
      intro h' hh'
      rw [hi.auth.chunks h' hh']
      by_cases he : h' = h
      · subst he
        simp only [Nat.lt_irrefl, if_false, Nat.lt_succ_self, if_true]
        unfold authVal
        rw [hsd]
        by_cases hc : sibling (leaf_idx / 2 ^ h') < idx / 2 ^ h'
        · rw [if_pos hc, if_pos (by omega)]
        · rw [if_neg hc, if_neg (by omega)]
      · congr 1
        by_cases h'' : h' < h
        · rw [if_pos h'', if_pos (by omega)]
        · rw [if_neg h'', if_neg (by omega)]
  refine loop_inv (fun h s => InnerInv E Hn leaf a off th leaf_idx auth0 idx h s) _ t ?_ ?_
    (by omega) ?_
  · -- combining step
    intro h s hh hi
    obtain ⟨b, hb, hbi⟩ := hstep h s (by omega) (by omega) hi
    unfold treehashx1_inner
    simp only
    rw [if_neg (by rw [hi.hh]; omega), hb]
    simp only [ok_bind]
    have hbit := hones h hh
    rw [if_neg (by rw [hi.hidx, and_one]; omega)]
    obtain ⟨y, hy1, hy2⟩ := hi.addr.set ha (h := h + 1)
      (v := (s.internal_idx / 2 + s.internal_idx_offset >>> 1) % 2 ^ 32) (by omega)
      (Nat.mod_lt _ (by omega))
    rw [hi.hh, hy1]
    simp only [ok_bind]
    rw [hy2]
    simp only [ok_bind]
    have hmul : (h + 1) * E.P.n ≤ th * E.P.n := Nat.mul_le_mul_right _ (by omega)
    rw [rd_chunk (by rw [hsl]; exact hmul)]
    simp only [ok_bind]
    rw [hst h (by omega) hbit]
    have hleft : (node Hn leaf h (idx / 2 ^ h - 1)).length = E.P.n := by
      rw [← hst h (by omega) hbit]; exact chunk_length (by rw [hsl]; exact hmul)
    have hright := hnl h (by omega)
    rw [wr_ok (by rw [hleft, hi.len]; omega)]
    simp only [ok_bind, List.take_zero, List.nil_append, Nat.zero_add, hleft, hi.cur]
    have hT := R.thash ctx { a with w2 := h + 1, w3 := (s.internal_idx / 2 + s.internal_idx_offset >>> 1) % 2 ^ 32 }
      (node Hn leaf h (idx / 2 ^ h - 1) ++ node Hn leaf h (idx / 2 ^ h)) 2 hctx
      ⟨ha.layer, ha.tree, ha.typ, ha.w1, by show h + 1 < 256; omega, Nat.mod_lt _ (by omega)⟩ (by omega)
      (by simp [hleft, hright]; omega) (by omega)
    rw [hT]
    simp only [ok_bind]
    have hTl : ∀ x y z, (S.T x y z).length = E.P.n := R.T_len
    rw [wr_ok (by simp [hTl, hleft, hright])]
    simp only [ok_bind]
    have hlr : (node Hn leaf h (idx / 2 ^ h - 1) ++ node Hn leaf h (idx / 2 ^ h)).length = 2 * E.P.n := by
      simp [hleft, hright]; omega
    have htk : (node Hn leaf h (idx / 2 ^ h - 1) ++ node Hn leaf h (idx / 2 ^ h)).take E.P.n
        = node Hn leaf h (idx / 2 ^ h - 1) := by
      rw [← hleft, List.take_left]
    refine ⟨_, rfl, ?_⟩
    refine ⟨rfl, ?_, ?_, ?_, ?_, ?_, ?_, hbi⟩
    · simp only [hi.hidx, shiftRight_one_div]
    · simp only [hi.hleaf, shiftRight_one_div]
    · simp only [hi.hoff, shiftRight_one_div]
    · simp only [List.length_append, List.length_drop, htk, hleft, hright, hTl]; omega
    · rw [htk, List.append_assoc, ← hleft, List.drop_left, hleft,
        List.drop_of_length_le (by simp [hTl, hleft, hright]), List.append_nil]
      rw [node, ← hHdef, offH, hHdef, List.take_of_length_le (Nat.le_of_eq hlr), hi.hidx, hi.hoff,
        shiftRight_one_div, ← div_pow_succ]
      have e1 : 2 * (idx / 2 ^ (h + 1)) = idx / 2 ^ h - 1 := by rw [div_pow_succ]; omega
      have e2 : 2 * (idx / 2 ^ (h + 1)) + 1 = idx / 2 ^ h := by rw [div_pow_succ]; omega
      rw [e2, e1]
    · exact ⟨_, _, by omega, Nat.mod_lt _ (by omega), rfl⟩
  · -- last iteration
    intro s hi
    unfold treehashx1_inner
    simp only
    have hcr : rd s.current E.P.n E.P.n = .ok (node Hn leaf t (idx / 2 ^ t)) := by
      rw [rd_ok (by have := hi.len; omega), hi.cur, List.take_of_length_le]
      rw [hnl t (Nat.le_refl _)]; exact Nat.le_refl _
    by_cases hc : t = th
    · rw [if_pos (by rw [hi.hh]; exact hc), hcr]
      refine ⟨_, rfl, hi.hh, hi.len, hi.cur, hi.addr, ?_, by rw [if_pos hc]⟩
      refine ⟨hi.auth.len, ?_, hi.auth.rest⟩
      intro h' hh'
      rw [hi.auth.chunks h' hh']
      simp only [if_pos (show h' < t by omega)]
    · have hb0 : idx / 2 ^ t % 2 = 0 := by rcases htop with h | h; exact absurd h hc; exact h
      obtain ⟨b, hb, hbi⟩ := hstep t s (Nat.le_refl _) (by omega) hi
      rw [if_neg (by rw [hi.hh]; exact hc), hb]
      simp only [ok_bind]
      have hlt : idx < 2 ^ th - 1 := by
        by_cases hlt : idx < 2 ^ th - 1
        · exact hlt
        · have : idx % 2 ^ th = 2 ^ th - 1 := by rw [Nat.mod_eq_of_lt hidx]; omega
          have := bits_of_ones this (j := t) (by omega)
          omega
      rw [if_pos ⟨by rw [hi.hidx, and_one]; exact hb0, hlt⟩]
      refine ⟨_, rfl, hi.hh, hi.len, hi.cur, hi.addr, ?_, by rw [if_neg hc]⟩
      refine ⟨hbi.len, ?_, hbi.rest⟩
      intro h' hh'
      rw [hbi.chunks h' hh']
      by_cases h'' : h' < t + 1
      · rw [if_pos h'']
      · rw [if_neg h'']
        unfold authVal
        have : idx % 2 ^ h' ≠ 2 ^ h' - 1 := by
          intro hc'
          have := bits_of_ones hc' (j := t) (by omega)
          omega
        rw [succ_div_pow_other this]
  · -- start
    refine ⟨rfl, by simp, by simp, by simp, hcl, ?_, haddr, ?_⟩
    · simp only [Nat.pow_zero, Nat.div_one]; exact hcur
    · simpa using hai

end
end Spx
