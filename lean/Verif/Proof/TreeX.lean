import Verif.Proof.Tree
import Verif.Proof.Treehash
import Verif.Proof.Lanes
/-! The inner loop of the parallel tree hashing. -/

namespace Spx
open Spec

/-- First lane which holds a node of the tree at height `h`. -/
def pla (lg th h : Nat) : Nat := 2 ^ lg - 2 ^ (th - h)

theorem pla_low {lg th h : Nat} (hh : h + lg ≤ th) : pla lg th h = 0 := by
  have : 2 ^ lg ≤ 2 ^ (th - h) := Nat.pow_le_pow_right (by omega) (by omega)
  unfold pla; omega

theorem pla_top {lg th : Nat} : pla lg th th = 2 ^ lg - 1 := by simp [pla]

theorem pla_lt {lg th h : Nat} : pla lg th h < 2 ^ lg := by
  have h1 := Nat.two_pow_pos lg
  have h2 := Nat.two_pow_pos (th - h)
  unfold pla; omega

theorem pla_succ {lg th h : Nat} (hh : h < th) (h1 : th ≤ h + lg) :
    2 * pla lg th (h + 1) = 2 ^ lg + pla lg th h := by
  have e : 2 ^ (th - h) = 2 * 2 ^ (th - (h + 1)) := by
    rw [show th - h = (th - (h + 1)) + 1 by omega, Nat.pow_succ, Nat.mul_comm]
  have e2 : 2 ^ (th - h) ≤ 2 ^ lg := Nat.pow_le_pow_right (by omega) (by omega)
  unfold pla; omega

theorem pla_ge {lg th h : Nat} (h1 : th ≤ h + lg) : 2 ^ lg = pla lg th h + 2 ^ (th - h) := by
  have e2 : 2 ^ (th - h) ≤ 2 ^ lg := Nat.pow_le_pow_right (by omega) (by omega)
  unfold pla; omega

theorem lane_index {x j p o : Nat} (h : p ≤ j) :
    (x + j + 2 ^ 32 - p + o) % 2 ^ 32 = (x + (j - p) + o) % 2 ^ 32 := by
  omega

theorem take_two {n c : Nat} (b : Bytes) : (b.drop (c * n)).take (2 * n) = chunk n b c ++ chunk n b (c + 1) := by
  unfold chunk
  rw [show 2 * n = n + n by omega, List.take_add, List.drop_drop, Nat.succ_mul]

theorem sibling_lanes {lg il : Nat} (hlg : 1 ≤ lg) :
    sibling il = 2 ^ lg * (il / 2 ^ lg) + sibling (il % 2 ^ lg) ∧ sibling (il % 2 ^ lg) < 2 ^ lg := by
  obtain ⟨k, rfl⟩ : ∃ k, lg = k + 1 := ⟨lg - 1, by omega⟩
  have h1 := Nat.div_add_mod il (2 ^ (k + 1))
  have h2 : il % 2 ^ (k + 1) < 2 ^ (k + 1) := Nat.mod_lt _ (Nat.two_pow_pos _)
  have h3 : il % 2 ^ (k + 1) % 2 = il % 2 := Nat.mod_mod_of_dvd _ ⟨2 ^ k, by rw [Nat.pow_succ, Nat.mul_comm]⟩
  have h4 : 2 ^ (k + 1) = 2 * 2 ^ k := by rw [Nat.pow_succ, Nat.mul_comm]
  unfold sibling
  rw [h3]
  generalize 2 ^ (k + 1) * (il / 2 ^ (k + 1)) = x at *
  generalize il % 2 ^ (k + 1) = y at *
  split <;> omega

/-- Whether slot `h` of the path has been written when the first `i` logical leaves are done. -/
def doneX (lg th leaf_idx i h : Nat) : Prop :=
  if h + lg ≤ th then leaf_idx / 2 ^ h / 2 ^ lg < i / 2 ^ h else i = 2 ^ (th - lg) ∧ leaf_idx < 2 ^ th

instance (lg th leaf_idx i h : Nat) : Decidable (doneX lg th leaf_idx i h) := by
  unfold doneX; infer_instance

/-- Content of slot `h` of the path buffer when the first `i` logical leaves are done. -/
def authValX (n lg th : Nat) (H : Nat → Nat → Bytes → Bytes → Bytes) (leaf : Nat → Bytes)
    (leaf_idx : Nat) (auth0 : Bytes) (i h : Nat) : Bytes :=
  if doneX lg th leaf_idx i h then node H leaf h (sibling (leaf_idx / 2 ^ h)) else chunk n auth0 h

/-- Lane addresses equal to `a` up to height and index. -/
def SameTrees (f : Family) (a : ADRS) (L : Nat) (x : List Addr) : Prop :=
  ∃ A : Nat → Addr, x = (List.range L).map A ∧ ∀ j, j < L → SameTree f a (A j)

structure InnerInvX (E : EnvX) (H : Nat → Nat → Bytes → Bytes → Bytes) (leaf : Nat → Bytes)
    (a : ADRS) (off th leaf_idx : Nat) (auth0 : Bytes) (idx h : Nat) (s : ThxInner) : Prop where
  hh : s.h = h
  hidx : s.internal_idx = idx / 2 ^ h
  hleaf : s.internal_leaf = leaf_idx / 2 ^ h
  hoff : s.internal_idx_offset = off / 2 ^ h
  len : s.current.length = E.L * E.P.n
  cur : ∀ j, j < E.L → pla E.lg th h ≤ j →
    chunk E.P.n s.current j = node H leaf h (E.L * (idx / 2 ^ h) + (j - pla E.lg th h))
  addr : SameTrees E.P.fam a E.L s.tree_addr
  left : s.left_adj = pla E.lg th h
  prev : h + E.lg ≤ th → s.prev_left_adj = 0
  auth : AuthInv E.P.n th auth0 (fun h' =>
    authValX E.P.n E.lg th H leaf leaf_idx auth0 (if h' < h then idx + 1 else idx) h') s.auth_path

/-- The invariant at the entry of the combining part. -/
structure CombInvX (E : EnvX) (H : Nat → Nat → Bytes → Bytes → Bytes) (leaf : Nat → Bytes)
    (a : ADRS) (off th leaf_idx : Nat) (auth0 : Bytes) (idx h : Nat) (s : ThxInner) : Prop where
  hh : s.h = h
  hidx : s.internal_idx = idx / 2 ^ h
  hleaf : s.internal_leaf = leaf_idx / 2 ^ h
  hoff : s.internal_idx_offset = off / 2 ^ h
  len : s.current.length = E.L * E.P.n
  cur : ∀ j, j < E.L → pla E.lg th h ≤ j →
    chunk E.P.n s.current j = node H leaf h (E.L * (idx / 2 ^ h) + (j - pla E.lg th h))
  addr : SameTrees E.P.fam a E.L s.tree_addr
  left : s.left_adj = pla E.lg th (h + 1)
  prev : s.prev_left_adj = pla E.lg th h
  auth : AuthInv E.P.n th auth0 (fun h' =>
    authValX E.P.n E.lg th H leaf leaf_idx auth0 (if h' < h then idx + 1 else idx) h') s.auth_path

section
variable {E : EnvX} {S : Spec.Hash} {R : Refines E.P E.H S} (RX : LaneRefines E R)
variable {ctx : Ctx} (hctx : R.CtxOK ctx)
variable {a : ADRS} (ha : a.OK) {off th leaf_idx : Nat} (hlg : 1 ≤ E.lg) (hlt : E.lg ≤ th) (hth : th ≤ 30)
  (hli : leaf_idx < 2 ^ 32) (hlr : leaf_idx < 2 ^ th ∨ 2 ^ th * E.L ≤ leaf_idx)
  {auth0 : Bytes} {leaf : Nat → Bytes}
  (hauth : th * E.P.n ≤ auth0.length)
  (hn : 2 * E.P.n < 2 ^ 31)
  (hleaf : ∀ i, i < 2 ^ th → (leaf i).length = E.P.n)

/-- From the loop invariant to the entry of the combining part. -/
theorem InnerInvX.enter {Hn : Nat → Nat → Bytes → Bytes → Bytes} (hlt : E.lg ≤ th) (hth : th ≤ 30)
    {idx max_idx h : Nat} {stack : Bytes} {s : ThxInner} (hh : h < th)
    (hi : InnerInvX E Hn leaf a off th leaf_idx auth0 idx h s) :
    ∃ s', treehashx_inner E ctx idx max_idx th stack s = treehashx_combine E ctx idx max_idx th stack s' ∧
      CombInvX E Hn leaf a off th leaf_idx auth0 idx h s' := by
  have e1 : (th + 2 ^ 32 - E.lg) % 2 ^ 32 = th - E.lg := by omega
  unfold treehashx_inner
  rw [e1, hi.hh]
  by_cases hk : th - E.lg ≤ h
  · rw [if_pos hk, if_neg (by omega)]
    have e2 : (th + 2 ^ 32 - h - 1) % 2 ^ 32 = th - (h + 1) := by omega
    rw [e2, shl1_ok (by omega)]
    simp only [ok_bind]
    refine ⟨_, rfl, ⟨rfl, hi.hidx, hi.hleaf, hi.hoff, hi.len, hi.cur, hi.addr, ?_, hi.left, hi.auth⟩⟩
    have h1 : 2 ^ (th - (h + 1)) ≤ 2 ^ E.lg := Nat.pow_le_pow_right (by omega) (by omega)
    have h2 : 2 ^ E.lg ≤ 2 ^ 30 := Nat.pow_le_pow_right (by omega) (by omega)
    have h3 := Nat.two_pow_pos (th - (h + 1))
    show (2 ^ E.lg + 2 ^ 32 - 2 ^ (th - (h + 1))) % 2 ^ 32 = 2 ^ E.lg - 2 ^ (th - (h + 1))
    omega
  · rw [if_neg hk]
    refine ⟨s, rfl, ⟨hi.hh, hi.hidx, hi.hleaf, hi.hoff, hi.len, hi.cur, hi.addr, ?_, ?_, hi.auth⟩⟩
    · rw [hi.left, pla_low (by omega), pla_low (by omega)]
    · rw [hi.prev (by omega), pla_low (by omega)]

include hlt hlr in
/-- When the written slots change. -/
theorem doneX_succ {idx h : Nat} (hidx : idx < 2 ^ (th - E.lg)) (hh : h < th)
    (hreach : (h + E.lg ≤ th ∧ idx % 2 ^ h = 2 ^ h - 1) ∨ (th < h + E.lg ∧ idx + 1 = 2 ^ (th - E.lg))) :
    doneX E.lg th leaf_idx (idx + 1) h ↔
      doneX E.lg th leaf_idx idx h ∨ leaf_idx / 2 ^ h / 2 ^ E.lg = idx / 2 ^ h := by
  unfold doneX
  rcases hreach with ⟨h1, h2⟩ | ⟨h1, h2⟩
  · rw [if_pos h1, if_pos h1, succ_div_pow_ones h2]
    omega
  · rw [if_neg (by omega), if_neg (by omega), h2]
    have e0 : idx / 2 ^ h = 0 :=
      Nat.div_eq_of_lt (Nat.lt_of_lt_of_le hidx (Nat.pow_le_pow_right (by omega) (by omega)))
    rw [e0]
    constructor
    · rintro ⟨-, h3⟩
      right
      apply Nat.div_eq_of_lt
      have h4 : leaf_idx / 2 ^ h < 2 ^ (th - h) := by
        rw [Nat.div_lt_iff_lt_mul (Nat.two_pow_pos h), ← Nat.pow_add]
        rwa [Nat.sub_add_cancel (by omega)]
      exact Nat.lt_of_lt_of_le h4 (Nat.pow_le_pow_right (by omega) (by omega))
    · rintro (⟨h3, -⟩ | h3)
      · omega
      · refine ⟨rfl, ?_⟩
        rcases hlr with h4 | h4
        · exact h4
        · exfalso
          have h5 : leaf_idx / 2 ^ h < 2 ^ E.lg := by
            rcases Nat.lt_or_ge (leaf_idx / 2 ^ h) (2 ^ E.lg) with h6 | h6
            · exact h6
            · have := Nat.div_pos h6 (Nat.two_pow_pos _)
              omega
          rw [Nat.div_lt_iff_lt_mul (Nat.two_pow_pos h)] at h5
          have h6 : 2 ^ E.lg * 2 ^ h ≤ 2 ^ E.lg * 2 ^ th :=
            Nat.mul_le_mul_left _ (Nat.pow_le_pow_right (by omega) (by omega))
          have h7 : 2 ^ th * E.L = 2 ^ E.lg * 2 ^ th := Nat.mul_comm ..
          omega

include hlg hlt hth hli hlr hauth in
/-- The path update at one height. -/
theorem auth_stepX {Hn : Nat → Nat → Bytes → Bytes → Bytes} {idx h : Nat} {s : ThxInner}
    (hidx : idx < 2 ^ (th - E.lg)) (hh : h < th)
    (hreach : (h + E.lg ≤ th ∧ idx % 2 ^ h = 2 ^ h - 1) ∨ (th < h + E.lg ∧ idx + 1 = 2 ^ (th - E.lg)))
    (hi : CombInvX E Hn leaf a off th leaf_idx auth0 idx h s) :
    ∃ b, (if (((s.internal_idx <<< E.lg) % 2 ^ 32) ^^^ s.internal_leaf) &&& (2 ^ 32 - E.L) = 0 then do
            wr s.auth_path (s.h * E.P.n)
              (← rd s.current ((((s.internal_leaf &&& (E.L - 1)) ^^^ 1) + s.prev_left_adj) * E.P.n) E.P.n)
          else .ok s.auth_path : C Bytes) = .ok b ∧
      AuthInv E.P.n th auth0 (fun h' =>
        authValX E.P.n E.lg th Hn leaf leaf_idx auth0 (if h' < h + 1 then idx + 1 else idx) h') b := by
  have hds := doneX_succ (E := E) hlt hlr hidx hh hreach
  have hiL : idx / 2 ^ h * 2 ^ E.lg < 2 ^ 30 := by
    have h1 : idx / 2 ^ h ≤ idx := Nat.div_le_self ..
    have h2 : idx / 2 ^ h * 2 ^ E.lg ≤ idx * 2 ^ E.lg := Nat.mul_le_mul_right _ h1
    have h3 : idx * 2 ^ E.lg < 2 ^ (th - E.lg) * 2 ^ E.lg := Nat.mul_lt_mul_of_pos_right hidx (Nat.two_pow_pos _)
    rw [← Nat.pow_add, Nat.sub_add_cancel hlt] at h3
    have h4 : 2 ^ th ≤ 2 ^ 30 := Nat.pow_le_pow_right (by omega) hth
    omega
  have hcond : (((s.internal_idx <<< E.lg) % 2 ^ 32) ^^^ s.internal_leaf) &&& (2 ^ 32 - E.L) = 0 ↔
      leaf_idx / 2 ^ h / 2 ^ E.lg = idx / 2 ^ h := by
    have hle : leaf_idx / 2 ^ h < 2 ^ 32 := Nat.lt_of_le_of_lt (Nat.div_le_self ..) hli
    rw [hi.hidx, hi.hleaf, Nat.shiftLeft_eq, Nat.mod_eq_of_lt (by omega),
      show E.L = 2 ^ E.lg from rfl, xor_mask_zero (by omega) (by omega) hle,
      Nat.mul_div_cancel _ (Nat.two_pow_pos _)]
    exact eq_comm
  have hmul : (h + 1) * E.P.n ≤ th * E.P.n := Nat.mul_le_mul_right _ hh
  by_cases hx : leaf_idx / 2 ^ h / 2 ^ E.lg = idx / 2 ^ h
  · rw [if_pos (hcond.mpr hx)]
    obtain ⟨hs1, hs2⟩ := sibling_lanes (il := leaf_idx / 2 ^ h) hlg
    -- the lane is in range
    have hlane : sibling (leaf_idx / 2 ^ h % 2 ^ E.lg) + pla E.lg th h < E.L := by
      rcases hreach with ⟨h1, -⟩ | ⟨h1, h2⟩
      · rw [pla_low h1]; exact hs2
      · have e0 : idx / 2 ^ h = 0 :=
          Nat.div_eq_of_lt (Nat.lt_of_lt_of_le hidx (Nat.pow_le_pow_right (by omega) (by omega)))
        have hd : doneX E.lg th leaf_idx (idx + 1) h := hds.mpr (Or.inr hx)
        unfold doneX at hd
        rw [if_neg (by omega)] at hd
        have h4 : leaf_idx / 2 ^ h < 2 ^ (th - h) := by
          rw [Nat.div_lt_iff_lt_mul (Nat.two_pow_pos h), ← Nat.pow_add]
          rw [Nat.sub_add_cancel (by omega)]
          exact hd.2
        have h5 := pla_ge (lg := E.lg) (th := th) (h := h) (by omega)
        have h6 : leaf_idx / 2 ^ h % 2 ^ E.lg = leaf_idx / 2 ^ h := Nat.mod_eq_of_lt (by omega)
        have h7 : sibling (leaf_idx / 2 ^ h) < 2 ^ (th - h) := (sibling_lt (by omega)).mpr h4
        rw [h6]
        show _ < 2 ^ E.lg
        omega
    have hrd : rd s.current ((((s.internal_leaf &&& (E.L - 1)) ^^^ 1) + s.prev_left_adj) * E.P.n) E.P.n =
        .ok (node Hn leaf h (sibling (leaf_idx / 2 ^ h))) := by
      rw [hi.hleaf, hi.prev, show E.L = 2 ^ E.lg from rfl, and_low, xor_one, rd_chunk, hi.cur _ hlane (by omega)]
      · congr 2
        rw [Nat.add_sub_cancel, ← hx]
        exact hs1.symm
      · rw [hi.len]; exact Nat.mul_le_mul_right _ hlane
    have hnl' : (node Hn leaf h (sibling (leaf_idx / 2 ^ h))).length = E.P.n := by
      have := hi.cur _ hlane (by omega)
      rw [Nat.add_sub_cancel, ← hx, show E.L = 2 ^ E.lg from rfl, ← hs1] at this
      rw [← this]
      exact chunk_length (by rw [hi.len]; exact Nat.mul_le_mul_right _ hlane)
    rw [hrd, hi.hh]
    simp only [ok_bind]
    have hl := hi.auth.len
    have hb : h * E.P.n + (node Hn leaf h (sibling (leaf_idx / 2 ^ h))).length ≤ s.auth_path.length := by
      rw [hnl', hl]; rw [Nat.succ_mul] at hmul; omega
    obtain ⟨b, hb⟩ := wr_exists hb
    refine ⟨b, hb, ⟨by rw [wr_length hb, hl], ?_, ?_⟩⟩
    · intro h' hh'
      by_cases he : h' = h
      · subst he
        rw [wr_chunk_same hnl' (by omega) hb]
        simp only [Nat.lt_succ_self, if_true]
        rw [authValX, if_pos (hds.mpr (Or.inr hx))]
      · rw [wr_chunk_other hnl' (Ne.symm he) hb, hi.auth.chunks h' hh']
        congr 1
        by_cases h'' : h' < h
        · rw [if_pos h'', if_pos (by omega)]
        · rw [if_neg h'', if_neg (by omega)]
    · rw [wr_drop hb (by rw [hnl']; rw [Nat.succ_mul] at hmul; omega), hi.auth.rest]
  · rw [if_neg (fun hc => hx (hcond.mp hc))]
    refine ⟨_, rfl, ⟨hi.auth.len, ?_, hi.auth.rest⟩⟩
    intro h' hh'
    rw [hi.auth.chunks h' hh']
    by_cases he : h' = h
    · subst he
      simp only [Nat.lt_irrefl, if_false, Nat.lt_succ_self, if_true]
      unfold authValX
      by_cases hc : doneX E.lg th leaf_idx idx h'
      · rw [if_pos hc, if_pos (hds.mpr (Or.inl hc))]
      · rw [if_neg hc, if_neg (fun hc' => (hds.mp hc').elim hc hx)]
    · congr 1
      by_cases h'' : h' < h
      · rw [if_pos h'', if_pos (by omega)]
      · rw [if_neg h'', if_neg (by omega)]

include hlg in
theorem treehashx_ins_ok {stack cur : Bytes} {h : Nat} (hh : h < th) (hsl : stack.length = th * E.L * E.P.n)
    (hcl : cur.length = E.L * E.P.n) :
    treehashx_ins E stack cur h = .ok ((List.range E.L).map fun j =>
      if j < E.L / 2 then stack.drop ((h * E.L + 2 * j) * E.P.n) else cur.drop ((2 * (j - E.L / 2)) * E.P.n)) := by
  have hL2 : E.L / 2 + E.L / 2 = E.L := by
    obtain ⟨k, hk⟩ : ∃ k, E.lg = k + 1 := ⟨E.lg - 1, by omega⟩
    have : E.L = 2 * 2 ^ k := by unfold EnvX.L; rw [hk, Nat.pow_succ, Nat.mul_comm]
    omega
  have hb : (h + 1) * E.L ≤ th * E.L := Nat.mul_le_mul_right _ hh
  have e0 : ∀ j, h * E.L * E.P.n + j * (2 * E.P.n) = (h * E.L + 2 * j) * E.P.n := by
    intro j; rw [Nat.add_mul, ← Nat.mul_assoc, Nat.mul_comm j 2]
  have e1 : ∀ j, 0 + j * (2 * E.P.n) = (2 * j) * E.P.n := by
    intro j; rw [Nat.zero_add, ← Nat.mul_assoc, Nat.mul_comm j 2]
  unfold treehashx_ins
  rw [subLanes_ok, subLanes_ok]
  · simp only [ok_bind]
    congr 1
    conv => rhs; rw [← hL2, List.range_add, List.map_append, List.map_map]
    congr 1
    · apply List.map_congr_left
      intro j hj
      have hj := List.mem_range.mp hj
      rw [if_pos (by omega), e0, hL2]
    · apply List.map_congr_left
      intro j hj
      have hj := List.mem_range.mp hj
      rw [e1]
      simp only [Function.comp]
      rw [if_neg (by omega), hL2, Nat.add_sub_cancel_left]
  · intro j hj
    rw [e1, hcl]
    exact Nat.mul_le_mul_right _ (by omega)
  · intro j hj
    rw [e0, hsl]
    refine Nat.mul_le_mul_right _ ?_
    rw [Nat.succ_mul] at hb
    omega

include RX hctx ha hlg hlt hth hli hlr hauth hn in
/-- One iteration of the inner loop which combines. -/
theorem combine_stepX {idx h : Nat} {stack : Bytes} {s : ThxInner}
    (hidx : idx < 2 ^ (th - E.lg)) (hh : h < th) (hsl : stack.length = th * E.L * E.P.n)
    (hst : h + E.lg < th → ∀ j, j < E.L → chunk E.P.n stack (h * E.L + j) =
      node (offH S ctx.pub_seed a off) leaf h (E.L * (idx / 2 ^ h - 1) + j))
    (hreach : (h + E.lg < th ∧ idx % 2 ^ h = 2 ^ h - 1 ∧ idx / 2 ^ h % 2 = 1) ∨
      (th ≤ h + E.lg ∧ idx + 1 = 2 ^ (th - E.lg)))
    (hi : CombInvX E (offH S ctx.pub_seed a off) leaf a off th leaf_idx auth0 idx h s) :
    ∃ s', treehashx_combine E ctx idx (2 ^ (th - E.lg) - 1) th stack s = .ok (.inl s') ∧
      InnerInvX E (offH S ctx.pub_seed a off) leaf a off th leaf_idx auth0 idx (h + 1) s' := by
  generalize hHdef : offH S ctx.pub_seed a off = Hn at *
  have hL : E.L = 2 ^ E.lg := rfl
  have hL2 : E.L / 2 + E.L / 2 = E.L := by
    obtain ⟨k, hk⟩ : ∃ k, E.lg = k + 1 := ⟨E.lg - 1, by omega⟩
    have : E.L = 2 * 2 ^ k := by unfold EnvX.L; rw [hk, Nat.pow_succ, Nat.mul_comm]
    omega
  have hL30 : E.L ≤ 2 ^ 30 := Nat.pow_le_pow_right (by omega) (by omega)
  have hk30 : 2 ^ (th - E.lg) ≤ 2 ^ 30 := Nat.pow_le_pow_right (by omega) (by omega)
  have hii : idx / 2 ^ h < 2 ^ 32 := Nat.lt_of_le_of_lt (Nat.div_le_self ..) (by omega)
  obtain ⟨b, hb, hbi⟩ := auth_stepX hlg hlt hth hli hlr hauth hidx hh (by
    rcases hreach with ⟨h1, h2, -⟩ | ⟨h1, h2⟩
    · exact Or.inl ⟨by omega, h2⟩
    · rcases Nat.eq_or_lt_of_le h1 with h3 | h3
      · refine Or.inl ⟨by omega, ?_⟩
        have h4 : th - E.lg = h := by omega
        rw [h4] at h2 hidx
        rw [Nat.mod_eq_of_lt hidx]; omega
      · exact Or.inr ⟨h3, h2⟩) hi
  have hstop : ¬(s.internal_idx &&& 1 = 0 ∧ idx < 2 ^ (th - E.lg) - 1) := by
    rintro ⟨h1, h2⟩
    rw [hi.hidx, and_one] at h1
    rcases hreach with ⟨-, -, h3⟩ | ⟨-, h3⟩ <;> omega
  obtain ⟨A, hA, hAs⟩ := hi.addr
  -- index computed for lane j
  have hq : (E.L / 2) * (s.internal_idx &&& (2 ^ 32 - 2)) = E.L * (idx / 2 ^ (h + 1)) := by
    have := and_mask (lg := 1) (x := idx / 2 ^ h) (by omega) hii
    rw [Nat.pow_one] at this
    rw [hi.hidx, this, div_pow_succ idx h, ← Nat.mul_assoc, Nat.mul_right_comm,
      show E.L / 2 * 2 = E.L by omega]
  have hlanes : lanes E.L (fun j a => do
        let a ← set_tree_height E.P.fam a (s.h + 1)
        set_tree_index E.P.fam a
          (((E.L / 2) * (s.internal_idx &&& (2 ^ 32 - 2)) + j + 2 ^ 32 - s.left_adj
            + s.internal_idx_offset >>> 1) % 2 ^ 32)) s.tree_addr = .ok ((List.range E.L).map fun j =>
        enc E.P.fam { a with w2 := h + 1, w3 := (E.L * (idx / 2 ^ (h + 1)) + j + 2 ^ 32 - pla E.lg th (h + 1)
            + off / 2 ^ (h + 1)) % 2 ^ 32 }) := by
    rw [hA]
    refine lanes_ok ?_
    intro j hj
    obtain ⟨y, hy1, hy2⟩ := (hAs j hj).set ha (h := h + 1)
      (v := (E.L * (idx / 2 ^ (h + 1)) + j + 2 ^ 32 - pla E.lg th (h + 1) + off / 2 ^ (h + 1)) % 2 ^ 32)
      (by omega) (Nat.mod_lt _ (by omega))
    rw [hi.hh, hq, hi.left, hi.hoff, shiftRight_one_div, hy1]
    simp only [ok_bind]
    exact hy2
  have hb1 : (h + 1) * E.L ≤ th * E.L := Nat.mul_le_mul_right _ hh
  rw [Nat.succ_mul] at hb1
  have hins := treehashx_ins_ok hlg hh hsl hi.len
  have hT := RX.thashx ctx (fun j => { a with w2 := h + 1, w3 := (E.L * (idx / 2 ^ (h + 1)) + j + 2 ^ 32
      - pla E.lg th (h + 1) + off / 2 ^ (h + 1)) % 2 ^ 32 })
    (fun j => if j < E.L / 2 then stack.drop ((h * E.L + 2 * j) * E.P.n)
      else s.current.drop ((2 * (j - E.L / 2)) * E.P.n)) 2 hctx
    (fun j _ => ⟨ha.layer, ha.tree, ha.typ, ha.w1, by show h + 1 < 256; omega, Nat.mod_lt _ (by omega)⟩)
    (by omega) (by
      intro j hj
      by_cases hj2 : j < E.L / 2
      · simp only [if_pos hj2, List.length_drop, hsl]
        have : (h * E.L + 2 * j + 2) * E.P.n ≤ th * E.L * E.P.n := Nat.mul_le_mul_right _ (by omega)
        rw [Nat.add_mul] at this
        omega
      · simp only [if_neg hj2, List.length_drop, hi.len]
        have : (2 * (j - E.L / 2) + 2) * E.P.n ≤ E.L * E.P.n := Nat.mul_le_mul_right _ (by omega)
        rw [Nat.add_mul] at this
        omega) hn
  have hw := wrLanes_all (b := s.current) hi.len (o := fun j => S.T ctx.pub_seed { a with w2 := h + 1, w3 := (E.L * (idx / 2 ^ (h + 1)) + j + 2 ^ 32
      - pla E.lg th (h + 1) + off / 2 ^ (h + 1)) % 2 ^ 32 } ((if j < E.L / 2 then stack.drop ((h * E.L + 2 * j) * E.P.n)
      else s.current.drop ((2 * (j - E.L / 2)) * E.P.n)).take (2 * E.P.n))) (fun j _ => R.T_len ..)
  unfold treehashx_combine
  simp only
  rw [if_neg (by rw [hi.hh]; omega), hb]
  simp only [ok_bind]
  rw [if_neg hstop, hlanes]
  simp only [ok_bind]
  rw [hi.hh, hins]
  simp only [ok_bind]
  rw [hT]
  simp only [ok_bind]
  rw [hw]
  simp only [ok_bind]
  refine ⟨_, rfl, ?_⟩
  refine ⟨rfl, ?_, ?_, ?_, ?_, ?_, ?_, hi.left, ?_, hbi⟩
  · simp only [hi.hidx, shiftRight_one_div]
  · simp only [hi.hleaf, shiftRight_one_div]
  · simp only [hi.hoff, shiftRight_one_div]
  · exact cat_length (fun j _ => R.T_len ..)
  · intro j hj hpj
    simp only
    rw [chunk_cat (fun j _ => R.T_len ..) hj, node, ← hHdef, offH, hHdef]
    have hpl := pla_lt (lg := E.lg) (th := th) (h := h + 1)
    congr 1
    · congr 1
      exact lane_index hpj
    · rcases hreach with ⟨h1, -, h2⟩ | ⟨h1, h2⟩
      · have ep : pla E.lg th (h + 1) = 0 := pla_low (by omega)
        have ep0 : pla E.lg th h = 0 := pla_low (by omega)
        have e1 : idx / 2 ^ h = 2 * (idx / 2 ^ (h + 1)) + 1 := by rw [div_pow_succ]; omega
        have e2 : E.L * (2 * (idx / 2 ^ (h + 1))) = 2 * (E.L * (idx / 2 ^ (h + 1))) := Nat.mul_left_comm ..
        have e3 : E.L * (2 * (idx / 2 ^ (h + 1)) + 1) = 2 * (E.L * (idx / 2 ^ (h + 1))) + E.L := by
          rw [Nat.mul_add, e2, Nat.mul_one]
        rw [ep]
        by_cases hj2 : j < E.L / 2
        · rw [if_pos hj2, take_two, hst h1 _ (by omega),
            show h * E.L + 2 * j + 1 = h * E.L + (2 * j + 1) by omega, hst h1 _ (by omega), e1, Nat.add_sub_cancel, e2]
          congr 2 <;> omega
        · rw [if_neg hj2, take_two, hi.cur _ (by omega) (by omega), hi.cur _ (by omega) (by omega), e1, e3, ep0]
          congr 2 <;> omega
      · have ep := pla_succ hh h1
        have e1 : idx / 2 ^ h = 0 :=
          Nat.div_eq_of_lt (Nat.lt_of_lt_of_le hidx (Nat.pow_le_pow_right (by omega) (by omega)))
        have e2 : idx / 2 ^ (h + 1) = 0 :=
          Nat.div_eq_of_lt (Nat.lt_of_lt_of_le hidx (Nat.pow_le_pow_right (by omega) (by omega)))
        have hj2 : ¬ j < E.L / 2 := by omega
        rw [if_neg hj2, take_two, hi.cur _ (by omega) (by omega), hi.cur _ (by omega) (by omega), e1, e2]
        congr 2 <;> omega
  · exact ⟨_, rfl, fun j _ => ⟨_, _, by omega, Nat.mod_lt _ (by omega), rfl⟩⟩
  · intro h1
    simp only
    rw [hi.prev, pla_low (by omega)]

include RX hctx ha hlg hlt hth hli hlr hauth hn in
/-- The inner loop of `treehashx`. -/
theorem treehashx_inner_spec {idx : Nat} (hidx : idx < 2 ^ (th - E.lg)) {stack : Bytes}
    (hsl : stack.length = th * E.L * E.P.n)
    (hst : ∀ h, h + E.lg < th → idx / 2 ^ h % 2 = 1 → ∀ j, j < E.L → chunk E.P.n stack (h * E.L + j) =
      node (offH S ctx.pub_seed a off) leaf h (E.L * (idx / 2 ^ h - 1) + j))
    {auth : Bytes}
    (hai : AuthInv E.P.n th auth0
      (fun h => authValX E.P.n E.lg th (offH S ctx.pub_seed a off) leaf leaf_idx auth0 idx h) auth)
    {addr : List Addr} (haddr : SameTrees E.P.fam a E.L addr) {cur : Bytes} (hcl : cur.length = E.L * E.P.n)
    (hcur : ∀ j, j < E.L → chunk E.P.n cur j = leaf (E.L * idx + j))
    {t : Nat} (hones : ∀ j, j < t → j + E.lg < th → idx / 2 ^ j % 2 = 1)
    (htop : (t + E.lg < th ∧ idx / 2 ^ t % 2 = 0 ∧ idx + 1 < 2 ^ (th - E.lg)) ∨
      (t = th ∧ idx + 1 = 2 ^ (th - E.lg))) :
    ∃ r, loop 33 (treehashx_inner E ctx idx (2 ^ (th - E.lg) - 1) th stack)
        { current := cur, auth_path := auth, tree_addr := addr, h := 0, internal_idx := idx,
          internal_leaf := leaf_idx, internal_idx_offset := off, left_adj := 0, prev_left_adj := 0 } = .ok r ∧
      SameTrees E.P.fam a E.L r.2.tree_addr ∧
      AuthInv E.P.n th auth0 (fun h =>
        authValX E.P.n E.lg th (offH S ctx.pub_seed a off) leaf leaf_idx auth0 (idx + 1) h) r.2.auth_path ∧
      (t = th → r.1 = some (node (offH S ctx.pub_seed a off) leaf th 0)) ∧
      (t + E.lg < th → r.1 = none ∧ r.2.h = t ∧ r.2.left_adj = 0 ∧ r.2.prev_left_adj = 0 ∧
        r.2.current.length = E.L * E.P.n ∧
        ∀ j, j < E.L → chunk E.P.n r.2.current j =
          node (offH S ctx.pub_seed a off) leaf t (E.L * (idx / 2 ^ t) + j)) := by
  have hLp : 0 < E.L := Nat.two_pow_pos _
  have ht : t ≤ th := by rcases htop with h | h <;> omega
  refine loop_inv (fun h s => InnerInvX E (offH S ctx.pub_seed a off) leaf a off th leaf_idx auth0 idx h s) _ t ?_ ?_
    (by omega) ?_
  · intro h s hh hi
    obtain ⟨s1, e1, hi1⟩ := hi.enter (ctx := ctx) (max_idx := 2 ^ (th - E.lg) - 1) (stack := stack) hlt hth (by omega)
    rw [e1]
    have hreach : (h + E.lg < th ∧ idx % 2 ^ h = 2 ^ h - 1 ∧ idx / 2 ^ h % 2 = 1) ∨
        (th ≤ h + E.lg ∧ idx + 1 = 2 ^ (th - E.lg)) := by
      by_cases h1 : h + E.lg < th
      · exact Or.inl ⟨h1, ones_of_bits (fun j hj => hones j (by omega) (by omega)), hones h hh h1⟩
      · rcases htop with h2 | h2
        · omega
        · exact Or.inr ⟨by omega, h2.2⟩
    exact combine_stepX RX hctx ha hlg hlt hth hli hlr hauth hn hidx (by omega) hsl
      (fun h1 => hst h h1 (hones h hh h1)) hreach hi1
  · intro s hi
    rcases htop with ⟨h1, h2, h3⟩ | ⟨h1, h2⟩
    · obtain ⟨s1, e1, hi1⟩ := hi.enter (ctx := ctx) (max_idx := 2 ^ (th - E.lg) - 1) (stack := stack) hlt hth (by omega)
      rw [e1]
      obtain ⟨b, hb, hbi⟩ := auth_stepX hlg hlt hth hli hlr hauth hidx (by omega)
        (Or.inl ⟨by omega, ones_of_bits (fun j hj => hones j hj (by omega))⟩) hi1
      unfold treehashx_combine
      simp only
      rw [if_neg (by rw [hi1.hh]; omega), hb]
      simp only [ok_bind]
      rw [if_pos ⟨by rw [hi1.hidx, and_one]; exact h2, by omega⟩]
      have ep : pla E.lg th t = 0 := pla_low (by omega)
      refine ⟨_, rfl, hi1.addr, ?_, fun h4 => by omega, fun _ => ⟨rfl, hi1.hh, ?_, ?_, hi1.len, ?_⟩⟩
      · refine ⟨hbi.len, ?_, hbi.rest⟩
        intro h' hh'
        rw [hbi.chunks h' hh']
        by_cases h'' : h' < t + 1
        · rw [if_pos h'']
        · rw [if_neg h'']
          unfold authValX
          have hiff : doneX E.lg th leaf_idx idx h' ↔ doneX E.lg th leaf_idx (idx + 1) h' := by
            unfold doneX
            by_cases h4 : h' + E.lg ≤ th
            · have : idx % 2 ^ h' ≠ 2 ^ h' - 1 := by
                intro hc'
                have := bits_of_ones hc' (j := t) (by omega)
                omega
              rw [if_pos h4, if_pos h4, succ_div_pow_other this]
            · rw [if_neg h4, if_neg h4]
              omega
          simp only [hiff]
      · rw [hi1.left, pla_low (by omega)]
      · rw [hi1.prev, ep]
      · intro j hj
        have := hi1.cur j hj (by omega)
        rw [ep, Nat.sub_zero] at this
        exact this
    · subst h1
      unfold treehashx_inner
      have e1 : (t + 2 ^ 32 - E.lg) % 2 ^ 32 = t - E.lg := by omega
      rw [e1, if_pos (by rw [hi.hh]; omega), if_pos hi.hh, rd_chunk (by rw [hi.len]; exact Nat.mul_le_mul_right _ (by omega))]
      simp only [ok_bind]
      have ep : pla E.lg t t = E.L - 1 := pla_top
      refine ⟨_, rfl, hi.addr, ?_, fun _ => ?_, fun h4 => by omega⟩
      · refine ⟨hi.auth.len, ?_, hi.auth.rest⟩
        intro h' hh'
        rw [hi.auth.chunks h' hh']
        simp only [if_pos (show h' < t by omega)]
      · simp only
        rw [hi.cur _ (by omega) (by omega), ep, Nat.sub_self, Nat.div_eq_of_lt
          (Nat.lt_of_lt_of_le hidx (Nat.pow_le_pow_right (by omega) (by omega)))]
        rfl
  · have ep : pla E.lg th 0 = 0 := pla_low (by omega)
    refine ⟨rfl, by simp, by simp, by simp, hcl, ?_, haddr, ep.symm, fun _ => rfl, ?_⟩
    · intro j hj _
      rw [ep, Nat.pow_zero, Nat.div_one, Nat.sub_zero]
      exact hcur j hj
    · simpa using hai

end
end Spx
