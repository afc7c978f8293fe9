import Verif.Proof.Treehash
import Verif.Model.Treehash
/-! The stack-based `treehash` against the tree specification. -/

namespace Spx
open Spec

/-- Height and position of the completed nodes when `i` nodes at height `h` are complete, highest
first; `k` levels are looked at. -/
def frontier : Nat → Nat → Nat → List (Nat × Nat)
  | 0, _, _ => []
  | k + 1, h, i => frontier k (h + 1) (i / 2) ++ (if i % 2 = 1 then [(h, i - 1)] else [])

theorem frontier_length (k h i : Nat) : (frontier k h i).length ≤ k := by
  induction k generalizing h i with
  | zero => simp [frontier]
  | succ k ih =>
    have := ih (h + 1) (i / 2)
    rw [frontier, List.length_append]
    split <;> simp <;> omega

theorem frontier_height {k h i : Nat} : ∀ x ∈ frontier k h i, h ≤ x.1 := by
  induction k generalizing h i with
  | zero => simp [frontier]
  | succ k ih =>
    intro x hx
    rw [frontier, List.mem_append] at hx
    rcases hx with hx | hx
    · have := ih x hx; omega
    · split at hx
      · simp at hx; simp [hx]
      · simp at hx

/-- The low zero bits do not matter. -/
theorem frontier_shift (k h i t : Nat) : frontier (k + t) h (i * 2 ^ t) = frontier k (h + t) i := by
  induction t generalizing h with
  | zero => simp
  | succ t ih =>
    rw [← Nat.add_assoc, frontier, Nat.pow_succ, ← Nat.mul_assoc, Nat.mul_div_cancel _ (by omega), ih,
      if_neg (by omega), List.append_nil]
    congr 1
    omega

theorem frontier_zero (k h : Nat) : frontier k h 0 = [] := by
  induction k generalizing h with
  | zero => rfl
  | succ k ih => rw [frontier, Nat.zero_div, ih]; rfl

/-- The concrete stack holds the nodes `B`. -/
structure StackRel (n th : Nat) (val : Nat × Nat → Bytes) (B : List (Nat × Nat)) (s : Th) : Prop where
  off : s.offset = B.length
  hl : s.heights.length = th + 1
  sl : s.stack.length = (th + 1) * n
  heights : s.heights.take B.length = B.map (·.1)
  stack : s.stack.take (B.length * n) = (B.map val).flatten

theorem flatten_len {n : Nat} {val : Nat × Nat → Bytes} : ∀ {B : List (Nat × Nat)}, (∀ x ∈ B, (val x).length = n) →
    (B.map val).flatten.length = B.length * n := by
  intro B h
  induction B with
  | nil => simp
  | cons x xs ih =>
    rw [List.map_cons, List.flatten_cons, List.length_append, h x (by simp), ih (fun y hy => h y (by simp [hy])),
      List.length_cons, Nat.succ_mul, Nat.add_comm]

theorem xor_one_sibling (l : Nat) : l ^^^ 1 = sibling l := by
  have h := (xor_eq_one_iff (sibling l) l).mpr rfl
  rw [← h, ← Nat.xor_assoc, Nat.xor_comm l, Nat.xor_assoc, Nat.xor_self, Nat.xor_zero]

section
variable {E : Env} {S : Spec.Hash} (R : Refines E.P E.H S) {ctx : Ctx} (hctx : R.CtxOK ctx)
variable {a : ADRS} (ha : a.OK) {off th leaf_idx : Nat} (hth : th ≤ 30)
  {auth0 : Bytes} {leaf : Nat → Bytes}
  {m : Nat} (hm : th ≤ m) (hauth : m * E.P.n ≤ auth0.length)
  (hn : 2 * E.P.n < 2 ^ 31)
  (hleaf : ∀ i, i < 2 ^ th → (leaf i).length = E.P.n)
  (hli : leaf_idx / 2 ^ th ≠ 1 ∨ th < m)

include hm hauth hli in
/-- The path update when the node above leaf `idx` at height `h` is complete. -/
theorem auth_step {H : Nat → Nat → Bytes → Bytes → Bytes} {idx h : Nat} {b0 : Bytes} (hidx : idx < 2 ^ th)
    (hones : ∀ j, j < h → idx / 2 ^ j % 2 = 1) (hh : h ≤ th)
    (hnl : (node H leaf h (idx / 2 ^ h)).length = E.P.n)
    (hi : AuthInv E.P.n m auth0 (fun h' =>
      authVal E.P.n H leaf leaf_idx auth0 (if h' < h then idx + 1 else idx) h') b0) :
    ∃ b, (if sibling (leaf_idx / 2 ^ h) = idx / 2 ^ h then wr b0 (h * E.P.n) (node H leaf h (idx / 2 ^ h))
        else .ok b0) = .ok b ∧
      AuthInv E.P.n m auth0 (fun h' =>
        authVal E.P.n H leaf leaf_idx auth0 (if h' < h + 1 then idx + 1 else idx) h') b := by
  have hsd := succ_div_pow_ones (ones_of_bits hones)
  by_cases hx : sibling (leaf_idx / 2 ^ h) = idx / 2 ^ h
  · have hlt : h < m := by
      rcases Nat.lt_or_ge h th with hlt | hge
      · omega
      · rcases hli with hli | hli
        rotate_left
        · omega
        exfalso
        have : h = th := by omega
        subst this
        rw [Nat.div_eq_of_lt hidx] at hx
        unfold sibling at hx
        generalize leaf_idx / 2 ^ h = q at *
        split at hx <;> omega
    have hmul : (h + 1) * E.P.n ≤ m * E.P.n := Nat.mul_le_mul_right _ hlt
    rw [if_pos hx]
    have hl := hi.len
    have hb : h * E.P.n + (node H leaf h (idx / 2 ^ h)).length ≤ b0.length := by
      rw [hnl, hl]; rw [Nat.succ_mul] at hmul; omega
    obtain ⟨b, hb⟩ := wr_exists hb
    refine ⟨b, hb, ⟨by rw [wr_length hb, hl], ?_, ?_⟩⟩
    · intro h' hh'
      by_cases he : h' = h
      · subst he
        rw [wr_chunk_same hnl (by omega) hb]
        simp only [Nat.lt_succ_self, if_true]
        rw [authVal, if_pos (by omega), ← hx]
      · rw [wr_chunk_other hnl (Ne.symm he) hb, hi.chunks h' hh']
        congr 1
        by_cases h'' : h' < h
        · rw [if_pos h'', if_pos (by omega)]
        · rw [if_neg h'', if_neg (by omega)]
    · rw [wr_drop hb (by rw [hnl]; rw [Nat.succ_mul] at hmul; omega), hi.rest]
  · rw [if_neg hx]
    refine ⟨_, rfl, ⟨hi.len, ?_, hi.rest⟩⟩
    intro h' hh'
    rw [hi.chunks h' hh']
    by_cases he : h' = h
    · subst he
      simp only [Nat.lt_irrefl, if_false, Nat.lt_succ_self, if_true]
      unfold authVal
      rw [hsd]
      by_cases hc : sibling (leaf_idx / 2 ^ h') < idx / 2 ^ h'
      · rw [if_pos hc, if_pos (by omega)]
      · rw [if_neg hc, if_neg (by omega)]
    · congr 1
      by_cases h'' : h' < h
      · rw [if_pos h'', if_pos (by omega)]
      · rw [if_neg h'', if_neg (by omega)]

/-- State inside the while loop when the node at height `h` above leaf `idx` is on top. -/
structure WhileInv (E : Env) (H : Nat → Nat → Bytes → Bytes → Bytes) (leaf : Nat → Bytes)
    (a : ADRS) (th m leaf_idx : Nat) (auth0 : Bytes) (idx h : Nat) (s : Th) : Prop where
  rel : StackRel E.P.n th (fun x => node H leaf x.1 x.2)
    (frontier (th + 1 - h) h (idx / 2 ^ h) ++ [(h, idx / 2 ^ h)]) s
  addr : SameTree E.P.fam a s.tree_addr
  auth : AuthInv E.P.n m auth0 (fun h' =>
    authVal E.P.n H leaf leaf_idx auth0 (if h' < h + 1 then idx + 1 else idx) h') s.auth_path

theorem frontier_nodes_len {H : Nat → Nat → Bytes → Bytes → Bytes} {n : Nat}
    (hH : ∀ h i l r, (H h i l r).length = n) {B : Nat} (hl : ∀ i, i < B → (leaf i).length = n) :
    ∀ {k h i : Nat}, i * 2 ^ h ≤ B → ∀ x ∈ frontier k h i, (node H leaf x.1 x.2).length = n := by
  intro k
  induction k with
  | zero => intro h i _ x hx; simp [frontier] at hx
  | succ k ih =>
    intro h i hi x hx
    rw [frontier, List.mem_append] at hx
    rcases hx with hx | hx
    · refine ih ?_ x hx
      refine Nat.le_trans ?_ hi
      rw [Nat.pow_succ, Nat.mul_comm (2 ^ h), ← Nat.mul_assoc]
      exact Nat.mul_le_mul_right _ (Nat.div_mul_le_self i 2)
    · split at hx
      · simp at hx
        subst hx
        exact node_length hH hl _ _ (by rw [show i - 1 + 1 = i by omega]; exact hi)
      · simp at hx

include ha hth hm hauth hleaf hctx hn hli in
theorem treehash_while_step {idx h : Nat} (hidx : idx < 2 ^ th) (hones : ∀ j, j < h + 1 → idx / 2 ^ j % 2 = 1)
    (hh : h < th) {s : Th} (hi : WhileInv E (offH S ctx.pub_seed a off) leaf a th m leaf_idx auth0 idx h s) :
    ∃ s', treehash_while E ctx leaf_idx off idx s = .ok (.inl s') ∧
      WhileInv E (offH S ctx.pub_seed a off) leaf a th m leaf_idx auth0 idx (h + 1) s' := by
  generalize hHdef : offH S ctx.pub_seed a off = Hn at *
  have hHlen : ∀ h i l r, (Hn h i l r).length = E.P.n := by
    intro h i l r; rw [← hHdef]; exact R.T_len ..
  obtain ⟨hrel, haddr, hai⟩ := hi
  have hodd := hones h (by omega)
  have hk : th + 1 - h = (th - h) + 1 := by omega
  rw [hk, frontier, if_pos hodd, ← div_pow_succ] at hrel
  have hm1 : idx % 2 ^ (h + 1) = 2 ^ (h + 1) - 1 := ones_of_bits hones
  have hfull : (idx / 2 ^ (h + 1) + 1) * 2 ^ (h + 1) ≤ 2 ^ th := by
    have h1 := Nat.div_add_mod idx (2 ^ (h + 1))
    have hp : 0 < 2 ^ (h + 1) := Nat.two_pow_pos _
    rw [Nat.add_mul, Nat.mul_comm]
    omega
  have hfl : ∀ x ∈ frontier (th - h) (h + 1) (idx / 2 ^ (h + 1)), (node Hn leaf x.1 x.2).length = E.P.n :=
    frontier_nodes_len hHlen hleaf (Nat.le_trans (Nat.mul_le_mul_right _ (Nat.le_succ _)) hfull)
  have hflen := frontier_length (th - h) (h + 1) (idx / 2 ^ (h + 1))
  have hL : (node Hn leaf h (idx / 2 ^ h - 1)).length = E.P.n := by
    apply node_length hHlen hleaf
    have hpos : idx / 2 ^ h - 1 + 1 = idx / 2 ^ h := by
      generalize idx / 2 ^ h = q at hodd ⊢
      omega
    rw [hpos]
    exact Nat.le_trans (Nat.div_mul_le_self idx (2 ^ h)) (Nat.le_of_lt hidx)
  have hmh : idx % 2 ^ h = 2 ^ h - 1 := ones_of_bits (fun j hj => hones j (by omega))
  have hRn : (node Hn leaf h (idx / 2 ^ h)).length = E.P.n := by
    apply node_length hHlen hleaf
    have h1 := Nat.div_add_mod idx (2 ^ h)
    have hp : 0 < 2 ^ h := Nat.two_pow_pos _
    rw [Nat.add_mul, Nat.mul_comm]
    omega
  have hnode : node Hn leaf (h + 1) (idx / 2 ^ (h + 1)) =
      Hn (h + 1) (idx / 2 ^ (h + 1)) (node Hn leaf h (idx / 2 ^ h - 1)) (node Hn leaf h (idx / 2 ^ h)) := by
    rw [node, div_pow_succ]
    congr 2 <;> omega
  generalize hF : frontier (th - h) (h + 1) (idx / 2 ^ (h + 1)) = F at *
  obtain ⟨hoff, hhl, hsl, hhe, hst⟩ := hrel
  simp only [List.append_assoc, List.cons_append, List.nil_append, List.length_append, List.length_cons,
    List.length_nil, List.map_append, List.map_cons, List.map_nil, List.flatten_append, List.flatten_cons,
    List.flatten_nil, List.append_nil] at hoff hhe hst
  have hflat := flatten_len hfl
  generalize hfm : (F.map fun x => node Hn leaf x.1 x.2).flatten = fl at *
  -- split the arrays
  have hhe' : s.heights = F.map (·.1) ++ h :: h :: s.heights.drop (F.length + 2) := by
    conv => lhs; rw [← List.take_append_drop (F.length + 2) s.heights]
    rw [show F.length + 2 = F.length + (0 + 1 + 1) by omega, hhe]
    simp
  have hst' : s.stack = fl ++ (node Hn leaf h (idx / 2 ^ h - 1) ++
      (node Hn leaf h (idx / 2 ^ h) ++ s.stack.drop ((F.length + 2) * E.P.n))) := by
    conv => lhs; rw [← List.take_append_drop ((F.length + 2) * E.P.n) s.stack]
    rw [show F.length + 2 = F.length + (0 + 1 + 1) by omega, hst]
    simp
  generalize hhr : s.heights.drop (F.length + 2) = hr at hhe'
  generalize hsr : s.stack.drop ((F.length + 2) * E.P.n) = sr at hst'
  obtain ⟨stack, heights, offset, auth, addr⟩ := s
  simp only at *
  subst hoff hhe' hst'
  have hmapl : (F.map (·.1)).length = F.length := List.length_map ..
  have r1 : rd1 (F.map (·.1) ++ h :: h :: hr) (F.length + (0 + 1 + 1) - 1) = .ok h := by
    unfold rd1
    rw [List.getElem?_append_right (by omega), hmapl, show F.length + (0 + 1 + 1) - 1 - F.length = 1 by omega]
    rfl
  have r2 : rd1 (F.map (·.1) ++ h :: h :: hr) (F.length + (0 + 1 + 1) - 2) = .ok h := by
    unfold rd1
    rw [List.getElem?_append_right (by omega), hmapl, show F.length + (0 + 1 + 1) - 2 - F.length = 0 by omega]
    rfl
  have e1 : ∀ x, shr32 x (h + 1) = .ok (x / 2 ^ (h + 1)) := fun x => by
    unfold shr32
    rw [if_pos (by omega), Nat.shiftRight_eq_div_pow]
  obtain ⟨y, hy1, hy2⟩ := haddr.set ha (h := h + 1)
    (v := (idx / 2 ^ (h + 1) + off / 2 ^ (h + 1)) % 2 ^ 32) (by omega) (Nat.mod_lt _ (by omega))
  have hT := R.thash ctx { a with w2 := h + 1, w3 := (idx / 2 ^ (h + 1) + off / 2 ^ (h + 1)) % 2 ^ 32 }
    (node Hn leaf h (idx / 2 ^ h - 1) ++ (node Hn leaf h (idx / 2 ^ h) ++ sr)) 2 hctx
    ⟨ha.layer, ha.tree, ha.typ, ha.w1, by show h + 1 < 256; omega, Nat.mod_lt _ (by omega)⟩ (by omega)
    (by simp [hL, hRn]; omega) (by omega)
  have htk : (node Hn leaf h (idx / 2 ^ h - 1) ++ (node Hn leaf h (idx / 2 ^ h) ++ sr)).take (2 * E.P.n) =
      node Hn leaf h (idx / 2 ^ h - 1) ++ node Hn leaf h (idx / 2 ^ h) := by
    rw [← List.append_assoc]
    exact List.take_left' (by simp [hL, hRn]; omega)
  have hTv : S.T ctx.pub_seed { a with w2 := h + 1, w3 := (idx / 2 ^ (h + 1) + off / 2 ^ (h + 1)) % 2 ^ 32 }
      (node Hn leaf h (idx / 2 ^ h - 1) ++ node Hn leaf h (idx / 2 ^ h)) = node Hn leaf (h + 1) (idx / 2 ^ (h + 1)) := by
    rw [hnode]
    simp only [← hHdef, offH]
  rw [htk, hTv] at hT
  have hNl : (node Hn leaf (h + 1) (idx / 2 ^ (h + 1))).length = E.P.n := by rw [hnode]; exact hHlen ..
  have hoffs : (F.length + (0 + 1 + 1) - 2) * E.P.n = fl.length := by rw [hflat]; congr 1
  obtain ⟨b, hb, hbi⟩ := auth_step (E := E) (leaf := leaf) hm hauth hli hidx hones (by omega) hNl hai
  have hw : wr (fl ++ (node Hn leaf h (idx / 2 ^ h - 1) ++ (node Hn leaf h (idx / 2 ^ h) ++ sr))) fl.length
      (node Hn leaf (h + 1) (idx / 2 ^ (h + 1))) =
      .ok (fl ++ (node Hn leaf (h + 1) (idx / 2 ^ (h + 1)) ++ (node Hn leaf h (idx / 2 ^ h) ++ sr))) := by
    rw [wr_ok (by simp [hL, hRn, hNl])]
    congr 1
    rw [List.take_left' rfl, List.append_assoc, List.drop_append, List.drop_of_length_le (by omega),
      List.nil_append, show fl.length + (node Hn leaf (h + 1) (idx / 2 ^ (h + 1))).length - fl.length = E.P.n by omega,
      List.drop_left' hL]
  have hw1 : wr1 (F.map (·.1) ++ h :: h :: hr) (F.length + (0 + 1 + 1) - 1 - 1) (h + 1) =
      .ok (F.map (·.1) ++ (h + 1) :: h :: hr) := by
    rw [wr1_ok (by simp)]
    congr 1
    rw [List.set_append_right _ _ (by simp), hmapl,
      show F.length + (0 + 1 + 1) - 1 - 1 - F.length = 0 by omega]
    rfl
  have r3 : rd1 (F.map (·.1) ++ h :: h :: hr) (F.length + (0 + 1 + 1) - 1 - 1) = .ok h := r2
  have r4 : rd1 (F.map (·.1) ++ (h + 1) :: h :: hr) (F.length + (0 + 1 + 1) - 1 - 1) = .ok (h + 1) := by
    unfold rd1
    rw [List.getElem?_append_right (by omega), hmapl, show F.length + (0 + 1 + 1) - 1 - 1 - F.length = 0 by omega]
    rfl
  have rr : rd (fl ++ (node Hn leaf (h + 1) (idx / 2 ^ (h + 1)) ++ (node Hn leaf h (idx / 2 ^ h) ++ sr)))
      ((F.length + (0 + 1 + 1) - 1 - 1) * E.P.n) E.P.n = .ok (node Hn leaf (h + 1) (idx / 2 ^ (h + 1))) := by
    rw [show (F.length + (0 + 1 + 1) - 1 - 1) * E.P.n = fl.length from hoffs, rd_ok (by simp [hNl]),
      List.drop_left' rfl, List.take_left' hNl]
  refine ⟨{ stack := fl ++ (node Hn leaf (h + 1) (idx / 2 ^ (h + 1)) ++ (node Hn leaf h (idx / 2 ^ h) ++ sr)),
            heights := F.map (·.1) ++ (h + 1) :: h :: hr, offset := F.length + (0 + 1 + 1) - 1, auth_path := b,
            tree_addr := enc E.P.fam { a with w2 := h + 1, w3 := (idx / 2 ^ (h + 1) + off / 2 ^ (h + 1)) % 2 ^ 32 } },
    ?_, ?_⟩
  · unfold treehash_while
    simp only
    rw [if_pos (by omega), r1]
    simp only [ok_bind]
    rw [r2]
    simp only [ok_bind, if_true]
    rw [e1]
    simp only [ok_bind]
    rw [hy1]
    simp only [ok_bind]
    rw [e1]
    simp only [ok_bind]
    rw [hy2]
    simp only [ok_bind]
    rw [hoffs, sub_ok (by simp), List.drop_left' rfl]
    simp only [ok_bind]
    rw [hT]
    simp only [ok_bind]
    rw [hw]
    simp only [ok_bind]
    rw [r3]
    simp only [ok_bind]
    rw [hw1]
    simp only [ok_bind]
    rw [r4]
    simp only [ok_bind]
    rw [e1]
    simp only [ok_bind]
    rw [rr]
    simp only [ok_bind, xor_one_sibling]
    rw [hb]
    rfl
  · refine ⟨⟨?_, ?_, ?_, ?_, ?_⟩, ⟨_, _, by omega, Nat.mod_lt _ (by omega), rfl⟩, hbi⟩
    · rw [show th + 1 - (h + 1) = th - h by omega, hF]
      simp
    · rw [← hhl]; simp
    · rw [← hsl]; simp [hL, hNl]
    · rw [show th + 1 - (h + 1) = th - h by omega, hF]
      simp only [List.length_append, List.length_singleton, List.map_append, List.map_cons, List.map_nil]
      rw [show F.map (·.1) ++ (h + 1) :: h :: hr = F.map (·.1) ++ [h + 1] ++ (h :: hr) by simp]
      exact List.take_left' (by simp)
    · rw [show th + 1 - (h + 1) = th - h by omega, hF]
      simp only [List.length_append, List.length_cons, List.length_nil, List.map_append, List.map_cons, List.map_nil,
        List.flatten_append, List.flatten_cons, List.flatten_nil, List.append_nil, hfm]
      rw [← List.append_assoc]
      exact List.take_left' (by rw [List.length_append, hNl, hflat, Nat.add_mul]; simp)

theorem treehash_while_stop {idx h : Nat} (heven : idx / 2 ^ h % 2 = 0) (hh : h ≤ th) {s : Th}
    {H : Nat → Nat → Bytes → Bytes → Bytes}
    (hi : WhileInv E H leaf a th m leaf_idx auth0 idx h s) :
    treehash_while E ctx leaf_idx off idx s = .ok (.inr s) := by
  obtain ⟨⟨hoff, hhl, hsl, hhe, hst⟩, _, _⟩ := hi
  have hk : th + 1 - h = (th - h) + 1 := by omega
  rw [hk, frontier, if_neg (by omega), List.append_nil] at hoff hhe
  have hfh := frontier_height (k := th - h) (h := h + 1) (i := idx / 2 ^ h / 2)
  have hflen := frontier_length (th - h) (h + 1) (idx / 2 ^ h / 2)
  generalize frontier (th - h) (h + 1) (idx / 2 ^ h / 2) = F at *
  unfold treehash_while
  simp only
  rw [List.length_append, List.length_singleton] at hoff hhe
  by_cases h2 : 2 ≤ s.offset
  · rw [if_pos h2]
    have hg : ∀ j, j < F.length + 1 → s.heights[j]? = ((F ++ [(h, idx / 2 ^ h)]).map (·.1))[j]? := by
      intro j hj
      rw [← hhe, List.getElem?_take_of_lt hj]
    have g1 : rd1 s.heights (s.offset - 1) = .ok h := by
      unfold rd1
      rw [hoff, hg _ (by omega), Nat.add_sub_cancel]
      simp
    obtain ⟨x, hx⟩ : ∃ x, F[F.length - 1]? = some x := ⟨_, List.getElem?_eq_getElem (by omega)⟩
    have g2 : rd1 s.heights (s.offset - 2) = .ok x.1 := by
      unfold rd1
      rw [hoff, hg _ (by omega), show F.length + 1 - 2 = F.length - 1 by omega]
      rw [List.map_append, List.getElem?_append_left (by simp; omega), List.getElem?_map, hx]
      rfl
    have hxm : h + 1 ≤ x.1 := hfh x (List.mem_of_getElem? hx)
    rw [g1]
    simp only [ok_bind]
    rw [g2]
    simp only [ok_bind]
    rw [if_neg (by omega)]
  · rw [if_neg h2]

include ha hth hm hauth hleaf hctx hn hli in
theorem treehash_for_spec {gen_leaf : Nat → Addr → C Bytes}
    (hgen : ∀ i, i < 2 ^ th → ∀ x, SameTree E.P.fam a x → gen_leaf ((i + off) % 2 ^ 32) x = .ok (leaf i))
    {idx : Nat} (hidx : idx < 2 ^ th) {s : Th}
    (hrel : StackRel E.P.n th (fun x => node (offH S ctx.pub_seed a off) leaf x.1 x.2) (frontier (th + 1) 0 idx) s)
    (haddr : SameTree E.P.fam a s.tree_addr)
    (hai : AuthInv E.P.n m auth0
      (fun h => authVal E.P.n (offH S ctx.pub_seed a off) leaf leaf_idx auth0 idx h) s.auth_path) :
    ∃ s', treehash_for E ctx leaf_idx off gen_leaf idx s = .ok s' ∧
      StackRel E.P.n th (fun x => node (offH S ctx.pub_seed a off) leaf x.1 x.2) (frontier (th + 1) 0 (idx + 1)) s' ∧
      SameTree E.P.fam a s'.tree_addr ∧
      AuthInv E.P.n m auth0
        (fun h => authVal E.P.n (offH S ctx.pub_seed a off) leaf leaf_idx auth0 (idx + 1) h) s'.auth_path := by
  obtain ⟨t, ht, hones, htop⟩ := exists_trailing idx th
  have hte : idx / 2 ^ t % 2 = 0 := by
    rcases htop with h | h
    · rw [h, Nat.div_eq_of_lt hidx]
    · exact h
  have hHlen : ∀ h i l r, (offH S ctx.pub_seed a off h i l r).length = E.P.n := fun _ _ _ _ => R.T_len ..
  have hfl : ∀ x ∈ frontier (th + 1) 0 idx, (node (offH S ctx.pub_seed a off) leaf x.1 x.2).length = E.P.n :=
    frontier_nodes_len hHlen hleaf (by omega)
  have hflen := frontier_length th 1 (idx / 2)
  have hll := hleaf idx hidx
  -- room for one more node
  have hroom : (frontier (th + 1) 0 idx).length ≤ th := by
    have key : ∀ k h i, i < 2 ^ k → (frontier (k + 1) h i).length ≤ k := by
      intro k
      induction k with
      | zero => intro h i hi; simp at hi; subst hi; simp [frontier]
      | succ k ih =>
        intro h i hi
        have := ih (h + 1) (i / 2) (by rw [Nat.pow_succ] at hi; omega)
        rw [frontier, List.length_append]
        split <;> simp <;> omega
    exact key th 0 idx hidx
  obtain ⟨hoff, hhl, hsl, hhe, hst⟩ := hrel
  have hflat := flatten_len hfl
  have hwl : s.offset * E.P.n + (leaf idx).length ≤ s.stack.length := by
    rw [hoff, hll, hsl, ← Nat.succ_mul]
    exact Nat.mul_le_mul_right _ (by omega)
  have hrd : rd (s.stack.take (s.offset * E.P.n) ++ leaf idx ++ s.stack.drop (s.offset * E.P.n + (leaf idx).length))
      ((s.offset + 1 - 1) * E.P.n) E.P.n = .ok (leaf idx) := by
    have h0 : (s.stack.take (s.offset * E.P.n)).length = s.offset * E.P.n := by
      rw [List.length_take]; omega
    rw [Nat.add_sub_cancel, rd_ok (by simp only [List.length_append, h0]; omega), List.append_assoc,
      List.drop_left' h0, List.take_left' hll]
  obtain ⟨b, hb, hbi⟩ := auth_step (E := E) (leaf := leaf) (h := 0) hm hauth hli (H := offH S ctx.pub_seed a off) hidx
    (fun j hj => by omega) (by omega) (by simpa [node] using hll) (b0 := s.auth_path) (by simpa using hai)
  simp only [Nat.pow_zero, Nat.div_one, Nat.zero_mul, node] at hb
  obtain ⟨r, hr, hpost⟩ := loop_inv (body := treehash_while E ctx leaf_idx off idx)
    (fun h s => WhileInv E (offH S ctx.pub_seed a off) leaf a th m leaf_idx auth0 idx h s)
    (fun r => WhileInv E (offH S ctx.pub_seed a off) leaf a th m leaf_idx auth0 idx t r) t
    (fun h s hh hi => treehash_while_step R hctx ha hth hm hauth hn hleaf hli hidx
      (fun j hj => hones j (by omega)) (by omega) hi)
    (fun s hi => ⟨s, treehash_while_stop hte ht hi, hi⟩) (fuel := 33) (by omega)
    (s := { stack := s.stack.take (s.offset * E.P.n) ++ leaf idx ++ s.stack.drop (s.offset * E.P.n + (leaf idx).length),
            heights := s.heights.set (s.offset + 1 - 1) 0, offset := s.offset + 1, auth_path := b,
            tree_addr := s.tree_addr })
    ⟨⟨by simp [hoff], by simp [hhl], (wr_length (wr_ok hwl)).trans hsl, by
        simp only [Nat.sub_zero, Nat.pow_zero, Nat.div_one, List.length_append, List.length_singleton,
          List.map_append, List.map_cons, List.map_nil, Nat.add_sub_cancel]
        rw [← hhe, hoff, List.take_add_one, List.take_set_of_le (Nat.le_refl _),
          List.getElem?_set_self (by omega)]
        rfl, by
        simp only [Nat.sub_zero, Nat.pow_zero, Nat.div_one, List.length_append, List.length_singleton,
          List.map_append, List.map_cons, List.map_nil, List.flatten_append, List.flatten_cons, List.flatten_nil,
          List.append_nil, node]
        rw [hoff, hst]
        refine List.take_left' ?_
        rw [List.length_append, hflat, hll, Nat.add_mul, Nat.one_mul]⟩, haddr, hbi⟩
  obtain ⟨hrel', haddr', hai'⟩ := hpost
  refine ⟨r, ?_, ?_, haddr', ?_⟩
  · unfold treehash_for
    simp only
    rw [hgen idx hidx _ haddr]
    simp only [ok_bind]
    rw [wr_ok hwl]
    simp only [ok_bind]
    rw [wr1_ok (by omega)]
    simp only [ok_bind, xor_one_sibling]
    rw [hrd]
    simp only [ok_bind]
    rw [hb]
    simp only [ok_bind]
    exact hr
  · have hm1 := ones_of_bits hones
    have hdv := succ_div_pow_ones hm1
    have heq : idx + 1 = (idx / 2 ^ t + 1) * 2 ^ t := by
      have h1 := Nat.div_add_mod idx (2 ^ t)
      have hp : 0 < 2 ^ t := Nat.two_pow_pos _
      rw [Nat.add_mul, Nat.mul_comm (idx / 2 ^ t)]
      omega
    rw [heq, show th + 1 = (th + 1 - t) + t by omega, frontier_shift, Nat.zero_add,
      show th + 1 - t = (th - t) + 1 by omega, frontier, if_pos (by omega),
      show (idx / 2 ^ t + 1) / 2 = idx / 2 ^ t / 2 by omega, Nat.add_sub_cancel]
    rw [show th + 1 - t = (th - t) + 1 by omega, frontier, if_neg (by omega), List.append_nil] at hrel'
    exact hrel'
  · refine ⟨hai'.len, fun h hh => ?_, hai'.rest⟩
    rw [hai'.chunks h hh]
    by_cases hc : h < t + 1
    · rw [if_pos hc]
    · rw [if_neg hc]
      unfold authVal
      have hmo : idx % 2 ^ h ≠ 2 ^ h - 1 := by
        intro hmo
        have := bits_of_ones hmo (j := t) (by omega)
        omega
      rw [succ_div_pow_other hmo]

include ha hth hm hauth hleaf hctx hn hli in
/-- The stack-based `treehash` returns the root; the path buffer has the nodes prescribed. -/
theorem treehash_core {gst : Nat → Byte} {gh : Nat → Nat} {gen_leaf : Nat → Addr → C Bytes}
    (hgen : ∀ i, i < 2 ^ th → ∀ x, SameTree E.P.fam a x → gen_leaf ((i + off) % 2 ^ 32) x = .ok (leaf i))
    {tree_addr : Addr} (haddr : SameTree E.P.fam a tree_addr) :
    ∃ path addr', treehash E gst gh auth0 ctx leaf_idx off th gen_leaf tree_addr =
        .ok (node (offH S ctx.pub_seed a off) leaf th 0, path, addr') ∧
      SameTree E.P.fam a addr' ∧
      AuthInv E.P.n m auth0
        (fun h => authVal E.P.n (offH S ctx.pub_seed a off) leaf leaf_idx auth0 (2 ^ th) h) path := by
  have hp : 0 < 2 ^ th := Nat.two_pow_pos th
  obtain ⟨s, hs, hrel, ha', hai⟩ := forRange_inv (n := 2 ^ th) (body := treehash_for E ctx leaf_idx off gen_leaf)
    (s := { stack := uninit gst ((th + 1) * E.P.n), heights := uninit gh (th + 1), offset := 0,
            auth_path := auth0, tree_addr })
    (fun idx s => StackRel E.P.n th (fun x => node (offH S ctx.pub_seed a off) leaf x.1 x.2) (frontier (th + 1) 0 idx) s ∧
      SameTree E.P.fam a s.tree_addr ∧
      AuthInv E.P.n m auth0
        (fun h => authVal E.P.n (offH S ctx.pub_seed a off) leaf leaf_idx auth0 idx h) s.auth_path)
    (by
      refine ⟨⟨?_, by simp, by simp, ?_, ?_⟩, haddr, rfl, fun h _ => by simp [authVal], rfl⟩ <;>
        simp [frontier_zero])
    (fun i s hi hinv => treehash_for_spec R hctx ha hth hm hauth hn hleaf hli hgen hi hinv.1 hinv.2.1 hinv.2.2)
  have hfr : frontier (th + 1) 0 (2 ^ th) = [(th, 0)] := by
    have := frontier_shift 1 0 1 th
    rw [Nat.one_mul, Nat.add_comm 1 th, Nat.zero_add] at this
    rw [this]
    simp [frontier]
  rw [hfr] at hrel
  have hroot : rd s.stack 0 E.P.n = .ok (node (offH S ctx.pub_seed a off) leaf th 0) := by
    have h1 := hrel.stack
    rw [rd_ok (by rw [hrel.sl, Nat.add_mul]; omega)]
    simpa using h1
  refine ⟨s.auth_path, s.tree_addr, ?_, ha', hai⟩
  unfold treehash
  simp only
  rw [shl1_ok (by omega)]
  simp only [ok_bind]
  rw [hs]
  simp only [ok_bind]
  rw [hroot]
  rfl

/-- A node of the path is complete at the end exactly if the leaf is one of the tree. -/
theorem path_complete {h : Nat} (hh : h < th) : sibling (leaf_idx / 2 ^ h) < 2 ^ th / 2 ^ h ↔ leaf_idx < 2 ^ th := by
  rw [Nat.pow_div (by omega) (by omega), sibling_lt (by omega), Nat.div_lt_iff_lt_mul (Nat.two_pow_pos h), ← Nat.pow_add,
    Nat.sub_add_cancel (by omega)]

end

section
variable {E : Env} {S : Spec.Hash} (R : Refines E.P E.H S) {ctx : Ctx} (hctx : R.CtxOK ctx)
variable {a : ADRS} (ha : a.OK) {off th leaf_idx : Nat} (hth : th ≤ 30)
  {auth0 : Bytes} {leaf : Nat → Bytes}
  (hn : 2 * E.P.n < 2 ^ 31)
  (hleaf : ∀ i, i < 2 ^ th → (leaf i).length = E.P.n)

include ha hth hleaf hctx hn in
/-- The stack-based `treehash` returns the root and the authentication path. -/
theorem treehash_spec (hauth : th * E.P.n ≤ auth0.length) (hli : leaf_idx / 2 ^ th ≠ 1)
    {gst : Nat → Byte} {gh : Nat → Nat} {gen_leaf : Nat → Addr → C Bytes}
    (hgen : ∀ i, i < 2 ^ th → ∀ x, SameTree E.P.fam a x → gen_leaf ((i + off) % 2 ^ 32) x = .ok (leaf i))
    {tree_addr : Addr} (haddr : SameTree E.P.fam a tree_addr) :
    ∃ addr', treehash E gst gh auth0 ctx leaf_idx off th gen_leaf tree_addr =
        .ok (node (offH S ctx.pub_seed a off) leaf th 0,
          (if leaf_idx < 2 ^ th then
            authPath (offH S ctx.pub_seed a off) leaf th leaf_idx ++ auth0.drop (th * E.P.n)
           else auth0), addr') ∧
      SameTree E.P.fam a addr' := by
  obtain ⟨path, addr', e, ha', hai⟩ := treehash_core R hctx ha hth (Nat.le_refl th) hauth hn hleaf (.inl hli)
    (gst := gst) (gh := gh) hgen haddr
  refine ⟨addr', ?_, ha'⟩
  rw [e]
  congr 3
  have hbl : th * E.P.n ≤ path.length := by rw [hai.len]; exact hauth
  rw [eq_of_chunks hbl hai.chunks, hai.rest]
  by_cases hc : leaf_idx < 2 ^ th
  · rw [if_pos hc]
    congr 1
    unfold authPath
    apply cat_congr
    intro h hh
    rw [authVal, if_pos ((path_complete hh).mpr hc)]
  · rw [if_neg hc]
    conv => rhs; rw [← List.take_append_drop (th * E.P.n) auth0]
    congr 1
    rw [← cat_chunks E.P.n th auth0 hauth]
    apply cat_congr
    intro h hh
    rw [authVal, if_neg (fun hx => hc ((path_complete hh).mp hx))]

include ha hth hleaf hctx hn in
/-- For `leaf_idx >> tree_height = 1` the root is stored behind the path. -/
theorem treehash_behind (hauth : (th + 1) * E.P.n ≤ auth0.length) (hli : leaf_idx / 2 ^ th = 1)
    {gst : Nat → Byte} {gh : Nat → Nat} {gen_leaf : Nat → Addr → C Bytes}
    (hgen : ∀ i, i < 2 ^ th → ∀ x, SameTree E.P.fam a x → gen_leaf ((i + off) % 2 ^ 32) x = .ok (leaf i))
    {tree_addr : Addr} (haddr : SameTree E.P.fam a tree_addr) :
    ∃ addr', treehash E gst gh auth0 ctx leaf_idx off th gen_leaf tree_addr =
        .ok (node (offH S ctx.pub_seed a off) leaf th 0,
          auth0.take (th * E.P.n) ++ node (offH S ctx.pub_seed a off) leaf th 0 ++ auth0.drop ((th + 1) * E.P.n),
          addr') ∧
      SameTree E.P.fam a addr' := by
  obtain ⟨path, addr', e, ha', hai⟩ := treehash_core R hctx ha hth (Nat.le_succ th) hauth hn hleaf
    (.inr (Nat.lt_succ_self th)) (gst := gst) (gh := gh) hgen haddr
  refine ⟨addr', ?_, ha'⟩
  rw [e]
  congr 3
  have hbl : (th + 1) * E.P.n ≤ path.length := by rw [hai.len]; exact hauth
  have hc : ¬ leaf_idx < 2 ^ th := fun h => by rw [Nat.div_eq_of_lt h] at hli; omega
  have hth' : th * E.P.n ≤ auth0.length := Nat.le_trans (Nat.mul_le_mul_right _ (Nat.le_succ th)) hauth
  rw [eq_of_chunks hbl hai.chunks, hai.rest]
  congr 1
  show cat th _ ++ _ = _
  congr 1
  · rw [← cat_chunks E.P.n th auth0 hth']
    apply cat_congr
    intro h hh
    rw [authVal, if_neg (fun hx => hc ((path_complete hh).mp hx))]
  · rw [authVal, hli, Nat.div_self (Nat.two_pow_pos th), if_pos (by decide)]
    rfl

end

/-! Runs with path buffers of different lengths -/

/-- The run `u` with a shorter path buffer does what `v` does with `x` behind it, or leaves its buffer. -/
def Shorter {σ τ : Type} (ext : σ → τ) (u : C σ) (v : C τ) : Prop :=
  ∀ t, v = .ok t → u = .error .oob ∨ ∃ s, u = .ok s ∧ t = ext s

theorem Shorter.ok {σ τ : Type} {ext : σ → τ} {s : σ} {t : τ} (h : t = ext s) : Shorter ext (.ok s) (.ok t) :=
  fun _ ht => .inr ⟨s, rfl, by cases ht; exact h⟩

theorem Shorter.same {α σ τ : Type} {ext : σ → τ} {c : C α} {f : α → C σ} {g : α → C τ}
    (h : ∀ a, Shorter ext (f a) (g a)) : Shorter ext (c >>= f) (c >>= g) := by
  intro t ht
  cases c with
  | error e => cases ht
  | ok a => exact h a t ht

theorem Shorter.bind {α β σ τ : Type} {e1 : α → β} {ext : σ → τ} {c : C α} {d : C β} {f : α → C σ} {g : β → C τ}
    (h1 : Shorter e1 c d) (h : ∀ a, Shorter ext (f a) (g (e1 a))) : Shorter ext (c >>= f) (d >>= g) := by
  intro t ht
  cases d with
  | error e => cases ht
  | ok b =>
    rcases h1 b rfl with h2 | ⟨a, h2, rfl⟩
    · exact .inl (by rw [h2]; rfl)
    · rw [h2]
      exact h a t ht

theorem Shorter.ite {σ τ : Type} {ext : σ → τ} {p : Prop} [Decidable p] {u u' : C σ} {v v' : C τ}
    (h1 : Shorter ext u v) (h2 : Shorter ext u' v') : Shorter ext (if p then u else u') (if p then v else v') := by
  split
  · exact h1
  · exact h2

theorem Shorter.wr {b x d : Bytes} {o : Nat} : Shorter (· ++ x) (wr b o d) (wr (b ++ x) o d) := by
  intro t ht
  by_cases h : o + d.length ≤ b.length
  · refine .inr ⟨_, wr_ok h, ?_⟩
    rw [wr_ok (by rw [List.length_append]; omega)] at ht
    cases ht
    rw [List.take_append_of_le_length (by omega), List.drop_append_of_le_length (by omega), List.append_assoc]
    simp
  · left
    unfold Spx.wr
    rw [if_neg h]

unseal Spx.loop in
theorem Shorter.loop {σ : Type} {ext : σ → σ} {body : σ → C (σ ⊕ σ)}
    (h : ∀ s, Shorter (Sum.map ext ext) (body s) (body (ext s))) (k : Nat) (s : σ) :
    Shorter ext (loop k body s) (loop k body (ext s)) := by
  induction k generalizing s with
  | zero => intro t ht; exact nomatch (show (Except.error UB.fuel : C σ) = .ok t from ht)
  | succ k ih =>
    rw [loop_succ, loop_succ]
    refine Shorter.bind (h s) fun r => ?_
    cases r with
    | inl r => exact ih r
    | inr r => exact Shorter.ok rfl

theorem Shorter.forRange {σ : Type} {ext : σ → σ} {body : Nat → σ → C σ}
    (h : ∀ i s, Shorter ext (body i s) (body i (ext s))) (k : Nat) (s : σ) :
    Shorter ext (forRange k body s) (forRange k body (ext s)) := by
  induction k with
  | zero => exact Shorter.ok rfl
  | succ k ih => exact Shorter.bind ih fun r => h k r

theorem div_eq_one {i th : Nat} (hlo : 2 ^ th ≤ i) (hhi : i < 2 ^ (th + 1)) : i / 2 ^ th = 1 := by
  have hp := Nat.two_pow_pos th
  rw [Nat.pow_succ] at hhi
  rw [Nat.div_eq_iff hp]
  omega

/-- The state with `x` behind the path buffer. -/
def Th.ext (x : Bytes) (s : Th) : Th := { s with auth_path := s.auth_path ++ x }

theorem treehash_while_shorter (E : Env) (x : Bytes) (ctx : Ctx) (leaf_idx off idx : Nat) (s : Th) :
    Shorter (Sum.map (Th.ext x) (Th.ext x)) (treehash_while E ctx leaf_idx off idx s)
      (treehash_while E ctx leaf_idx off idx (s.ext x)) := by
  unfold treehash_while
  simp only [Th.ext]
  refine Shorter.ite ?_ (Shorter.ok rfl)
  refine Shorter.same fun h => Shorter.same fun h' => Shorter.ite ?_ (Shorter.ok rfl)
  refine Shorter.same fun _ => Shorter.same fun _ => Shorter.same fun _ => Shorter.same fun _ => Shorter.same fun _ =>
    Shorter.same fun _ => Shorter.same fun _ => Shorter.same fun _ => Shorter.same fun _ => Shorter.same fun _ =>
    Shorter.same fun _ => ?_
  refine Shorter.bind (e1 := (· ++ x)) (Shorter.ite (Shorter.same fun _ => Shorter.wr) (Shorter.ok rfl)) fun b => ?_
  exact Shorter.ok rfl

theorem treehash_for_shorter (E : Env) (x : Bytes) (ctx : Ctx) (leaf_idx off : Nat) (gen_leaf : Nat → Addr → C Bytes)
    (idx : Nat) (s : Th) :
    Shorter (Th.ext x) (treehash_for E ctx leaf_idx off gen_leaf idx s)
      (treehash_for E ctx leaf_idx off gen_leaf idx (s.ext x)) := by
  unfold treehash_for
  simp only [Th.ext]
  refine Shorter.same fun _ => Shorter.same fun _ => Shorter.same fun _ => ?_
  refine Shorter.bind (e1 := (· ++ x)) (Shorter.ite (Shorter.same fun _ => Shorter.wr) (Shorter.ok rfl)) fun b => ?_
  exact Shorter.loop (ext := Th.ext x) (treehash_while_shorter E x ctx leaf_idx off idx) 33 _

theorem treehash_shorter (E : Env) (x : Bytes) (gst : Nat → Byte) (gh : Nat → Nat) (auth0 : Bytes) (ctx : Ctx)
    (leaf_idx off th : Nat) (gen_leaf : Nat → Addr → C Bytes) (tree_addr : Addr) :
    Shorter (fun r => (r.1, r.2.1 ++ x, r.2.2)) (treehash E gst gh auth0 ctx leaf_idx off th gen_leaf tree_addr)
      (treehash E gst gh (auth0 ++ x) ctx leaf_idx off th gen_leaf tree_addr) := by
  unfold treehash
  simp only
  refine Shorter.same fun k => ?_
  refine Shorter.bind (e1 := Th.ext x) (Shorter.forRange (ext := Th.ext x)
    (treehash_for_shorter E x ctx leaf_idx off gen_leaf) k _) fun s => ?_
  exact Shorter.same fun _ => Shorter.ok rfl

section
variable {E : Env} {S : Spec.Hash} (R : Refines E.P E.H S) {ctx : Ctx} (hctx : R.CtxOK ctx)
variable {a : ADRS} (ha : a.OK) {off th leaf_idx : Nat} (hth : th ≤ 30)
  {auth0 : Bytes} {leaf : Nat → Bytes}
  (hn : 2 * E.P.n < 2 ^ 31)
  (hleaf : ∀ i, i < 2 ^ th → (leaf i).length = E.P.n)

include ha hth hleaf hctx hn in
/-- For `leaf_idx >> tree_height = 1` a buffer with room for the path only is left. -/
theorem treehash_overrun (hauth : th * E.P.n ≤ auth0.length) (hshort : auth0.length < (th + 1) * E.P.n)
    (hli : leaf_idx / 2 ^ th = 1) {gst : Nat → Byte} {gh : Nat → Nat} {gen_leaf : Nat → Addr → C Bytes}
    (hgen : ∀ i, i < 2 ^ th → ∀ x, SameTree E.P.fam a x → gen_leaf ((i + off) % 2 ^ 32) x = .ok (leaf i))
    {tree_addr : Addr} (haddr : SameTree E.P.fam a tree_addr) :
    treehash E gst gh auth0 ctx leaf_idx off th gen_leaf tree_addr = .error .oob := by
  have hrl : (node (offH S ctx.pub_seed a off) leaf th 0).length = E.P.n :=
    node_length (fun _ _ _ _ => R.T_len ..) hleaf _ _ (by omega)
  rw [Nat.succ_mul] at hshort
  have hk : auth0.length - th * E.P.n < (node (offH S ctx.pub_seed a off) leaf th 0).length := by omega
  obtain ⟨y, hy⟩ : ∃ y, y = (node (offH S ctx.pub_seed a off) leaf th 0)[auth0.length - th * E.P.n] := ⟨_, rfl⟩
  have hl : (auth0 ++ List.replicate E.P.n (y + 1)).length = auth0.length + E.P.n := by
    rw [List.length_append, List.length_replicate]
  obtain ⟨addr', e, -⟩ := treehash_behind R hctx ha hth (auth0 := auth0 ++ List.replicate E.P.n (y + 1)) hn hleaf
    (by rw [hl, Nat.succ_mul]; omega) hli (gst := gst) (gh := gh) hgen haddr
  rcases treehash_shorter E (List.replicate E.P.n (y + 1)) gst gh auth0 ctx leaf_idx off th gen_leaf tree_addr _ e with
    h | ⟨⟨r, p, b⟩, -, h⟩
  · exact h
  · exfalso
    have hp := congrArg (fun z => z.2.1) h
    dsimp only at hp
    have hpl := congrArg List.length hp
    rw [List.take_append_of_le_length hauth] at hp hpl
    simp only [List.length_append, List.length_take, List.length_drop, List.length_replicate, hrl, Nat.succ_mul] at hpl
    have h1 := congrArg (fun z : Bytes => z[auth0.length]?) hp
    rw [List.append_assoc, List.getElem?_append_right (by rw [List.length_take]; omega), List.length_take,
      Nat.min_eq_left hauth, List.getElem?_append_left hk, List.getElem?_eq_getElem hk, ← hy,
      List.getElem?_append_right (by omega), List.getElem?_replicate, if_pos (by omega)] at h1
    have h2 : y = y + 1 := Option.some.inj h1
    revert h2
    generalize y = z
    revert z
    decide

end
end Spx
