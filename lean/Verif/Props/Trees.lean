import Verif.Proof.Ready
import Verif.Proof.ComputeRoot
import Verif.Proof.TreehashOld
/-! # Properties of the tree hashing routines: C14, C15, C16

The specification is `node`, `authPath` of Verif/Spec/Merkle.lean: the full binary tree over
`leaf 0 … leaf (2^h - 1)` whose inner node at height `h`, position `i` is `treeHash … h i l r` of its
children. -/

namespace Spx
open Spec

/-- The hash of an inner node, as the specification prescribes: the tweakable hash of the two
children under the address `a` of the tree with height `h` and index `i` plus the offset of the tree
in its enclosing forest, `off / 2^h`. -/
def treeHash (P : Params) (pub : Bytes) (a : ADRS) (off h i : Nat) (l r : Bytes) : Bytes :=
  (specHash P).T pub { a with w2 := h, w3 := (i + off / 2 ^ h) % 2 ^ 32 } (l ++ r)

section
variable {P : Params} (hP : P ∈ shipped) (G g : Nat → Nat → Byte) {ctx : Ctx} (hctx : ctx.Ready P g)
  {a : ADRS} (ha : a.OK) {off th leaf_idx : Nat} (hth : th ≤ 30) {leaf : Nat → Bytes}
  (hleaf : ∀ i, i < 2 ^ th → (leaf i).length = P.n)
include hP hctx ha hth hleaf

/-- C14: `treehashx1` calls the generator once per leaf, in order, and returns the Merkle root.  If
`leaf_idx` is a leaf of the tree the first `th*n` bytes of the path buffer become its authentication
path; otherwise, in particular for the "no path" value `~0`, the buffer is left unchanged. -/
theorem C14_treehashx1 {ι : Type} {gen_leaf : Nat → ι → C (Bytes × ι)} {I : Nat → ι}
    (hgen : ∀ i, i < 2 ^ th → gen_leaf ((i + off) % 2 ^ 32) (I i) = .ok (leaf i, I (i + 1)))
    {auth0 : Bytes} (hauth : th * P.n ≤ auth0.length) :
    ∃ u v, treehashx1 (build P G g) auth0 ctx leaf_idx off th gen_leaf (enc P.fam a) (I 0) =
      .ok (node (treeHash P ctx.pub_seed a off) leaf th 0,
        (if leaf_idx < 2 ^ th then
          authPath (treeHash P ctx.pub_seed a off) leaf th leaf_idx ++ auth0.drop (th * P.n)
         else auth0),
        enc P.fam { a with w2 := u, w3 := v }, I (2 ^ th)) := by
  obtain ⟨x, e, u, v, hu, hv, rfl⟩ := treehashx1_spec (E := build P G g) (buildRefines hP G g)
    (hctx.ctxOK hP G) ha hth (auth0 := auth0) hauth (two_n_small hP) hleaf (leaf_idx := leaf_idx) (off := off)
    hgen (tree_addr := enc P.fam a) ⟨a.w2, a.w3, ha.w2, ha.w3, rfl⟩
  exact ⟨u, v, e⟩

/-- C14: with the "no path" leaf index the root is the same as for every other leaf index. -/
theorem C14_no_path {ι : Type} {gen_leaf : Nat → ι → C (Bytes × ι)} {I : Nat → ι}
    (hgen : ∀ i, i < 2 ^ th → gen_leaf ((i + off) % 2 ^ 32) (I i) = .ok (leaf i, I (i + 1)))
    {auth0 : Bytes} (hauth : th * P.n ≤ auth0.length) :
    ∃ root addr path addr', treehashx1 (build P G g) auth0 ctx (2 ^ 32 - 1) off th gen_leaf (enc P.fam a) (I 0) =
        .ok (root, auth0, addr, I (2 ^ th)) ∧
      treehashx1 (build P G g) auth0 ctx leaf_idx off th gen_leaf (enc P.fam a) (I 0) =
        .ok (root, path, addr', I (2 ^ th)) := by
  have hp : 2 ^ th ≤ 2 ^ 30 := Nat.pow_le_pow_right (by omega) hth
  obtain ⟨u, v, e⟩ := C14_treehashx1 hP G g hctx ha hth hleaf (leaf_idx := leaf_idx) hgen hauth
  obtain ⟨u', v', e'⟩ := C14_treehashx1 hP G g hctx ha hth hleaf (leaf_idx := 2 ^ 32 - 1) hgen hauth
  rw [if_neg (by omega)] at e'
  exact ⟨_, _, _, _, e', e⟩

/-- C15: `compute_root` on a leaf and the path `treehashx1` wrote for it returns the root
`treehashx1` returned.  Height and index fields of the address it is given do not matter, nor does
what follows leaf and path in memory. -/
theorem C15_compute_root_inverts (G' : Nat → Nat → Byte) {ι : Type} {gen_leaf : Nat → ι → C (Bytes × ι)} {I : Nat → ι}
    (hgen : ∀ i, i < 2 ^ th → gen_leaf ((i + off) % 2 ^ 32) (I i) = .ok (leaf i, I (i + 1)))
    {auth0 : Bytes} (hauth : th * P.n ≤ auth0.length) (hpos : 1 ≤ th) (hl : leaf_idx < 2 ^ th)
    {root path : Bytes} {addr : Addr} {info : ι}
    (hrun : treehashx1 (build P G g) auth0 ctx leaf_idx off th gen_leaf (enc P.fam a) (I 0) =
      .ok (root, path, addr, info))
    {u v : Nat} (hu : u < 256) (hv : v < 2 ^ 32) (junk : Bytes) :
    ∃ addr', compute_root (build P G' g) (leaf leaf_idx ++ junk) leaf_idx off path th ctx
      (enc P.fam { a with w2 := u, w3 := v }) = .ok (root, addr') := by
  obtain ⟨x, y, e⟩ := C14_treehashx1 hP G g hctx ha hth hleaf (leaf_idx := leaf_idx) hgen hauth
  rw [e, if_pos hl] at hrun
  injection hrun with hrun
  injection hrun with h1 h2
  injection h2 with h2 _
  have hHlen : ∀ h i l r, (treeHash P ctx.pub_seed a off h i l r).length = P.n :=
    fun _ _ _ _ => (buildRefines hP G g).T_len ..
  have hsib : ∀ h, h < th → (node (treeHash P ctx.pub_seed a off) leaf h (sibling (leaf_idx / 2 ^ h))).length = P.n := by
    intro h hh
    apply node_length hHlen hleaf
    have hs : sibling (leaf_idx / 2 ^ h) < 2 ^ (th - h) := by
      rw [sibling_lt (by omega), Nat.div_lt_iff_lt_mul (Nat.two_pow_pos h), ← Nat.pow_add,
        Nat.sub_add_cancel (by omega)]
      exact hl
    calc (sibling (leaf_idx / 2 ^ h) + 1) * 2 ^ h ≤ 2 ^ (th - h) * 2 ^ h := Nat.mul_le_mul_right _ hs
      _ = 2 ^ th := by rw [← Nat.pow_add, Nat.sub_add_cancel (by omega)]
  have hpl : path.length = auth0.length := by
    rw [← h2, List.length_append, List.length_drop, authPath, cat_length hsib]
    omega
  have hll := hleaf leaf_idx hl
  obtain ⟨addr', hc, -⟩ := compute_root_spec (E := build P G' g) (buildRefines hP G' g) (hctx.ctxOK hP G') ha hth
    (two_n_small hP) hpos (leaf_idx := leaf_idx) (off := off) (lf := leaf leaf_idx ++ junk) (auth := path)
    (by change P.n ≤ _; rw [List.length_append, hll]; omega) (by change th * P.n ≤ _; rw [hpl]; exact hauth)
    (addr := enc P.fam { a with w2 := u, w3 := v }) ⟨u, v, hu, hv, rfl⟩
  refine ⟨addr', ?_⟩
  rw [hc]
  change Except.ok (climb (treeHash P ctx.pub_seed a off) leaf_idx (chunk P.n path) ((leaf leaf_idx ++ junk).take P.n) th,
    addr') = _
  rw [List.take_left' hll, climb_authPath (leaf := leaf), Nat.div_eq_of_lt hl, h1]
  intro h hh
  rw [← h2]
  unfold chunk authPath
  exact cat_chunk hsib hh _

/-- C16: the exported stack-based `treehash` computes the same root, the same path buffer and
overwrites the address in the same two fields as `treehashx1`.  Its generator gets the tree address
(whose height and index fields it must not depend on).  The missing case is
`2^th ≤ leaf_idx < 2^(th+1)`, where `treehash` writes outside the path buffer:
`C16_treehash_overrun` and `C16_treehash_behind`. -/
theorem C16_treehash_agrees_partial {ι : Type} {gen_leaf : Nat → ι → C (Bytes × ι)} {I : Nat → ι}
    (hgen : ∀ i, i < 2 ^ th → gen_leaf ((i + off) % 2 ^ 32) (I i) = .ok (leaf i, I (i + 1)))
    {gen_leaf' : Nat → Addr → C Bytes}
    (hgen' : ∀ i, i < 2 ^ th → ∀ u v, u < 256 → v < 2 ^ 32 →
      gen_leaf' ((i + off) % 2 ^ 32) (enc P.fam { a with w2 := u, w3 := v }) = .ok (leaf i))
    {auth0 : Bytes} (hauth : th * P.n ≤ auth0.length) (hli : leaf_idx < 2 ^ th ∨ 2 ^ (th + 1) ≤ leaf_idx)
    (gst : Nat → Byte) (gh : Nat → Nat) :
    ∃ root path u v u' v',
      treehash (build P G g) gst gh auth0 ctx leaf_idx off th gen_leaf' (enc P.fam a) =
        .ok (root, path, enc P.fam { a with w2 := u, w3 := v }) ∧
      treehashx1 (build P G g) auth0 ctx leaf_idx off th gen_leaf (enc P.fam a) (I 0) =
        .ok (root, path, enc P.fam { a with w2 := u', w3 := v' }, I (2 ^ th)) := by
  have hli' : leaf_idx / 2 ^ th ≠ 1 := by
    intro h
    have hp := Nat.two_pow_pos th
    rcases hli with hl | hl
    · rw [Nat.div_eq_of_lt hl] at h; omega
    · have := (Nat.le_div_iff_mul_le hp).mpr (show 2 * 2 ^ th ≤ leaf_idx by rw [Nat.mul_comm, ← Nat.pow_succ]; exact hl)
      omega
  obtain ⟨u', v', e'⟩ := C14_treehashx1 hP G g hctx ha hth hleaf (leaf_idx := leaf_idx) hgen hauth
  obtain ⟨x, e, u, v, hu, hv, rfl⟩ := treehash_spec (E := build P G g) (buildRefines hP G g)
    (hctx.ctxOK hP G) ha hth (auth0 := auth0) (two_n_small hP) hleaf hauth hli' (off := off)
    (gst := gst) (gh := gh) (gen_leaf := gen_leaf')
    (fun i hi x ⟨u, v, hu, hv, hx⟩ => by rw [hx]; exact hgen' i hi u v hu hv)
    (tree_addr := enc P.fam a) ⟨a.w2, a.w3, ha.w2, ha.w3, rfl⟩
  exact ⟨_, _, u, v, u', v', e, e'⟩

/-- The stated property is false for every `leaf_idx` with `leaf_idx >> th = 1`, whatever the height:
`treehash` then stores the root behind the path.  With a path buffer of the `th*n` bytes a path takes (or anything
less than `n` bytes more) `treehashx1` succeeds and leaves the buffer alone, while `treehash` writes out of bounds. -/
theorem C16_treehash_overrun {ι : Type} {gen_leaf : Nat → ι → C (Bytes × ι)} {I : Nat → ι}
    (hgen : ∀ i, i < 2 ^ th → gen_leaf ((i + off) % 2 ^ 32) (I i) = .ok (leaf i, I (i + 1)))
    {gen_leaf' : Nat → Addr → C Bytes}
    (hgen' : ∀ i, i < 2 ^ th → ∀ u v, u < 256 → v < 2 ^ 32 →
      gen_leaf' ((i + off) % 2 ^ 32) (enc P.fam { a with w2 := u, w3 := v }) = .ok (leaf i))
    {auth0 : Bytes} (hauth : th * P.n ≤ auth0.length) (hshort : auth0.length < (th + 1) * P.n)
    (hlo : 2 ^ th ≤ leaf_idx) (hhi : leaf_idx < 2 ^ (th + 1)) (gst : Nat → Byte) (gh : Nat → Nat) :
    treehash (build P G g) gst gh auth0 ctx leaf_idx off th gen_leaf' (enc P.fam a) = .error .oob ∧
      ∃ root addr, treehashx1 (build P G g) auth0 ctx leaf_idx off th gen_leaf (enc P.fam a) (I 0) =
        .ok (root, auth0, addr, I (2 ^ th)) := by
  constructor
  · exact treehash_overrun (E := build P G g) (buildRefines hP G g) (hctx.ctxOK hP G) ha hth (two_n_small hP) hleaf
      hauth hshort (div_eq_one hlo hhi) (gst := gst) (gh := gh) (gen_leaf := gen_leaf')
      (fun i hi x ⟨u, v, hu, hv, hx⟩ => by rw [hx]; exact hgen' i hi u v hu hv)
      (tree_addr := enc P.fam a) ⟨a.w2, a.w3, ha.w2, ha.w3, rfl⟩
  · obtain ⟨u, v, e⟩ := C14_treehashx1 hP G g hctx ha hth hleaf (leaf_idx := leaf_idx) hgen hauth
    rw [if_neg (by omega)] at e
    exact ⟨_, _, e⟩

/-- With room for one more node the two functions compute the same root for such a `leaf_idx` too, and
`treehash` differs only in storing that root in the `n` bytes behind the place of the path. -/
theorem C16_treehash_behind {ι : Type} {gen_leaf : Nat → ι → C (Bytes × ι)} {I : Nat → ι}
    (hgen : ∀ i, i < 2 ^ th → gen_leaf ((i + off) % 2 ^ 32) (I i) = .ok (leaf i, I (i + 1)))
    {gen_leaf' : Nat → Addr → C Bytes}
    (hgen' : ∀ i, i < 2 ^ th → ∀ u v, u < 256 → v < 2 ^ 32 →
      gen_leaf' ((i + off) % 2 ^ 32) (enc P.fam { a with w2 := u, w3 := v }) = .ok (leaf i))
    {auth0 : Bytes} (hauth : (th + 1) * P.n ≤ auth0.length)
    (hlo : 2 ^ th ≤ leaf_idx) (hhi : leaf_idx < 2 ^ (th + 1)) (gst : Nat → Byte) (gh : Nat → Nat) :
    ∃ root u v u' v', root.length = P.n ∧
      treehash (build P G g) gst gh auth0 ctx leaf_idx off th gen_leaf' (enc P.fam a) =
        .ok (root, auth0.take (th * P.n) ++ root ++ auth0.drop ((th + 1) * P.n),
          enc P.fam { a with w2 := u, w3 := v }) ∧
      treehashx1 (build P G g) auth0 ctx leaf_idx off th gen_leaf (enc P.fam a) (I 0) =
        .ok (root, auth0, enc P.fam { a with w2 := u', w3 := v' }, I (2 ^ th)) := by
  obtain ⟨x, e, u, v, hu, hv, rfl⟩ := treehash_behind (E := build P G g) (buildRefines hP G g)
    (hctx.ctxOK hP G) ha hth (auth0 := auth0) (two_n_small hP) hleaf hauth (div_eq_one hlo hhi) (off := off)
    (gst := gst) (gh := gh) (gen_leaf := gen_leaf')
    (fun i hi x ⟨u, v, hu, hv, hx⟩ => by rw [hx]; exact hgen' i hi u v hu hv)
    (tree_addr := enc P.fam a) ⟨a.w2, a.w3, ha.w2, ha.w3, rfl⟩
  obtain ⟨u', v', e'⟩ := C14_treehashx1 hP G g hctx ha hth hleaf (leaf_idx := leaf_idx) hgen
    (Nat.le_trans (Nat.mul_le_mul_right _ (Nat.le_succ th)) hauth)
  rw [if_neg (by omega)] at e'
  exact ⟨_, u, v, u', v', node_length (fun _ _ _ _ => (buildRefines hP G g).T_len ..) hleaf _ _ (by omega), e, e'⟩

end

/-- Concrete instance for C14–C16: a tree of 2^10 leaves in the middle of a FORS forest, whose leaf
generator keeps a call counter, path for leaf 777; all hypotheses are met. -/
example : ∃ ctx root path u v, ctx.Ready (sha2_192f true) (fun _ _ => 0) ∧
    treehashx1 (build (sha2_192f true) (fun _ _ => 0) (fun _ _ => 0)) (List.replicate 240 9) ctx 777 (3 * 2 ^ 10) 10
      (fun i (k : Nat) => .ok (List.replicate 24 (BitVec.ofNat 8 i), k + 1))
      (enc .sha2 ⟨0, 5, 3, 2, 0, 0⟩) 0 =
        .ok (root, path, enc .sha2 { (⟨0, 5, 3, 2, 0, 0⟩ : ADRS) with w2 := u, w3 := v }, 2 ^ 10) ∧
    (∃ addr, compute_root (build (sha2_192f true) (fun _ _ => 1) (fun _ _ => 0))
      (List.replicate 24 (BitVec.ofNat 8 (777 + 3 * 2 ^ 10)) ++ []) 777 (3 * 2 ^ 10) path 10 ctx
      (enc .sha2 ⟨0, 5, 3, 2, 7, 8⟩) = .ok (root, addr)) ∧
    (∃ u v, treehash (build (sha2_192f true) (fun _ _ => 0) (fun _ _ => 0)) (fun _ => 3) (fun _ => 4)
      (List.replicate 240 9) ctx 777 (3 * 2 ^ 10) 10 (fun i _ => .ok (List.replicate 24 (BitVec.ofNat 8 i)))
      (enc .sha2 ⟨0, 5, 3, 2, 0, 0⟩) =
        .ok (root, path, enc .sha2 { (⟨0, 5, 3, 2, 0, 0⟩ : ADRS) with w2 := u, w3 := v })) := by
  have hP : sha2_192f true ∈ shipped := by decide
  obtain ⟨ctx, -, hr, -, -⟩ := (Ctx.zeroed_sized (P := sha2_192f true) (pub := List.replicate 24 0)
    (sk := List.replicate 24 0) List.length_replicate List.length_replicate).ready hP (fun _ _ => 0)
  have ha : (⟨0, 5, 3, 2, 0, 0⟩ : ADRS).OK := ⟨by decide, by decide, by decide, by decide, by decide, by decide⟩
  have hg : ∀ i, i < 2 ^ 10 → (fun i (k : Nat) => (.ok (List.replicate 24 (BitVec.ofNat 8 i), k + 1) : C (Bytes × Nat)))
      ((i + 3 * 2 ^ 10) % 2 ^ 32) i = .ok (List.replicate 24 (BitVec.ofNat 8 (i + 3 * 2 ^ 10)), i + 1) := by
    intro i hi
    dsimp only
    rw [Nat.mod_eq_of_lt (by omega)]
  obtain ⟨root, path, u, v, u', v', e, e'⟩ := C16_treehash_agrees_partial hP (fun _ _ => 0) (fun _ _ => 0) hr ha (th := 10)
    (by omega) (leaf := fun i => List.replicate 24 (BitVec.ofNat 8 (i + 3 * 2 ^ 10))) (leaf_idx := 777) (off := 3 * 2 ^ 10)
    (fun _ _ => List.length_replicate) (gen_leaf := fun i (k : Nat) => .ok (List.replicate 24 (BitVec.ofNat 8 i), k + 1))
    (I := fun i => i) hg
    (gen_leaf' := fun i _ => .ok (List.replicate 24 (BitVec.ofNat 8 i)))
    (fun i hi _ _ _ _ => by rw [Nat.mod_eq_of_lt (by omega)]) (auth0 := List.replicate 240 9)
    (by rw [List.length_replicate]; decide) (by omega) (fun _ => 3) (fun _ => 4)
  obtain ⟨addr', hc⟩ := C15_compute_root_inverts hP (fun _ _ => 0) (fun _ _ => 0) hr ha (th := 10)
    (by omega) (leaf := fun i => List.replicate 24 (BitVec.ofNat 8 (i + 3 * 2 ^ 10))) (leaf_idx := 777) (off := 3 * 2 ^ 10)
    (fun _ _ => List.length_replicate) (fun _ _ => 1) (gen_leaf := fun i (k : Nat) => .ok (List.replicate 24 (BitVec.ofNat 8 i), k + 1))
    (I := fun i => i) hg (auth0 := List.replicate 240 9)
    (by rw [List.length_replicate]; decide) (by omega) (by omega) e' (u := 7) (v := 8) (by omega) (by omega) []
  exact ⟨ctx, root, path, u', v', hr, e', ⟨addr', hc⟩, u, v, e⟩

/-- Concrete instance for the exceptional case of C16: a tree of 2^10 leaves, leaf index 1500. -/
example : ∃ ctx root, ctx.Ready (sha2_192f true) (fun _ _ => 0) ∧ root.length = 24 ∧
    treehash (build (sha2_192f true) (fun _ _ => 0) (fun _ _ => 0)) (fun _ => 3) (fun _ => 4)
      (List.replicate 240 9) ctx 1500 0 10 (fun i _ => .ok (List.replicate 24 (BitVec.ofNat 8 i)))
      (enc .sha2 ⟨0, 5, 3, 2, 0, 0⟩) = .error .oob ∧
    ∃ u v, treehash (build (sha2_192f true) (fun _ _ => 0) (fun _ _ => 0)) (fun _ => 3) (fun _ => 4)
      (List.replicate 264 9) ctx 1500 0 10 (fun i _ => .ok (List.replicate 24 (BitVec.ofNat 8 i)))
      (enc .sha2 ⟨0, 5, 3, 2, 0, 0⟩) =
        .ok (root, List.replicate 240 9 ++ root, enc .sha2 { (⟨0, 5, 3, 2, 0, 0⟩ : ADRS) with w2 := u, w3 := v }) := by
  have hP : sha2_192f true ∈ shipped := by decide
  obtain ⟨ctx, -, hr, -, -⟩ := (Ctx.zeroed_sized (P := sha2_192f true) (pub := List.replicate 24 0)
    (sk := List.replicate 24 0) List.length_replicate List.length_replicate).ready hP (fun _ _ => 0)
  have ha : (⟨0, 5, 3, 2, 0, 0⟩ : ADRS).OK := ⟨by decide, by decide, by decide, by decide, by decide, by decide⟩
  have hg : ∀ i, i < 2 ^ 10 → (fun i (k : Nat) => (.ok (List.replicate 24 (BitVec.ofNat 8 i), k + 1) : C (Bytes × Nat)))
      ((i + 0) % 2 ^ 32) i = .ok (List.replicate 24 (BitVec.ofNat 8 i), i + 1) := by
    intro i hi
    dsimp only
    rw [Nat.add_zero, Nat.mod_eq_of_lt (by omega)]
  have hg' : ∀ i, i < 2 ^ 10 → ∀ u v, u < 256 → v < 2 ^ 32 →
      (fun i (_ : Addr) => (.ok (List.replicate 24 (BitVec.ofNat 8 i)) : C Bytes)) ((i + 0) % 2 ^ 32)
        (enc .sha2 { (⟨0, 5, 3, 2, 0, 0⟩ : ADRS) with w2 := u, w3 := v }) = .ok (List.replicate 24 (BitVec.ofNat 8 i)) := by
    intro i hi _ _ _ _
    dsimp only
    rw [Nat.add_zero, Nat.mod_eq_of_lt (by omega)]
  obtain ⟨h1, -⟩ := C16_treehash_overrun hP (fun _ _ => 0) (fun _ _ => 0) hr ha (th := 10)
    (by omega) (leaf := fun i => List.replicate 24 (BitVec.ofNat 8 i)) (leaf_idx := 1500) (off := 0)
    (fun _ _ => List.length_replicate) (gen_leaf := fun i (k : Nat) => .ok (List.replicate 24 (BitVec.ofNat 8 i), k + 1))
    (I := fun i => i) hg (gen_leaf' := fun i _ => .ok (List.replicate 24 (BitVec.ofNat 8 i))) hg' (auth0 := List.replicate 240 9)
    (by rw [List.length_replicate]; decide) (by rw [List.length_replicate]; decide) (by omega) (by omega)
    (fun _ => 3) (fun _ => 4)
  obtain ⟨root, u, v, -, -, hl, h2, -⟩ := C16_treehash_behind hP (fun _ _ => 0) (fun _ _ => 0) hr ha (th := 10)
    (by omega) (leaf := fun i => List.replicate 24 (BitVec.ofNat 8 i)) (leaf_idx := 1500) (off := 0)
    (fun _ _ => List.length_replicate) (gen_leaf := fun i (k : Nat) => .ok (List.replicate 24 (BitVec.ofNat 8 i), k + 1))
    (I := fun i => i) hg (gen_leaf' := fun i _ => .ok (List.replicate 24 (BitVec.ofNat 8 i))) hg' (auth0 := List.replicate 264 9)
    (by rw [List.length_replicate]; decide) (by omega) (by omega) (fun _ => 3) (fun _ => 4)
  rw [List.take_replicate, List.drop_replicate, show 264 - (10 + 1) * (sha2_192f true).n = 0 by decide,
    show min (10 * (sha2_192f true).n) 264 = 240 by decide, List.replicate_zero, List.append_nil] at h2
  exact ⟨ctx, root, hr, hl, h1, u, v, h2⟩

end Spx
