import Verif.Proof.Wots
import Verif.Proof.Shift
import Verif.Proof.Treehash
import Verif.Proof.ComputeRoot
import Verif.Model.Merkle
/-! `merkle_sign` and `merkle_gen_root` against the specification. -/

namespace Spx
open Spec

section
variable {E : Env} {S : Spec.Hash} (R : Refines E.P E.H S) (hP : E.P.Valid)
  {ctx : Ctx} (hctx : R.CtxOK ctx) {layer tree : Nat} (hlay : layer < 256) (htr : tree < 2 ^ 64)

/-- The tree nodes of `treehashx1` with offset 0 are the nodes of the specification. -/
theorem offH_tree {t : Nat} (ht : t ≤ 30) (pub : Bytes) (h i : Nat) (l r : Bytes) (_hh : h ≤ t)
    (hi : i < 2 ^ (t - h)) :
    offH S pub ⟨layer, tree, TREE, 0, 0, 0⟩ 0 h i l r =
      treeH S pub layer tree h (i + 0 * 2 ^ (t - h)) l r := by
  have h30 : 2 ^ (t - h) ≤ 2 ^ 30 := Nat.pow_le_pow_right (by omega) (by omega)
  unfold offH treeH
  rw [Nat.zero_div, Nat.add_zero, Nat.zero_mul, Nat.add_zero, Nat.mod_eq_of_lt (by omega)]

include hP hctx hlay htr in
theorem merkle_sign_core {wa : ADRS} (hwl : wa.layer = layer) (hwt : wa.tree = tree)
    {tree_addr : Addr} {ty : Nat} (hty : ty < 256)
    (hta : SameTree E.P.fam ⟨layer, tree, ty, 0, 0, 0⟩ tree_addr)
    {sig root : Bytes} (hroot : root.length = E.P.n)
    (hsig : E.P.wotsBytes + E.P.treeHeight * E.P.n ≤ sig.length) {idx : Nat} :
    ∃ addr', SameTree E.P.fam ⟨layer, tree, TREE, 0, 0, 0⟩ addr' ∧
      merkle_sign E sig root ctx (enc E.P.fam wa) tree_addr idx =
        .ok ((if idx < 2 ^ E.P.treeHeight then
            xmssSig E.P.toSpec S ctx.pub_seed ctx.sk_seed layer tree idx root ++
              sig.drop (E.P.wotsBytes + E.P.treeHeight * E.P.n)
          else sig),
          xmssRoot E.P.toSpec S ctx.pub_seed ctx.sk_seed layer tree, addr') := by
  have hth := hP.th_le
  have hp30 : 2 ^ E.P.treeHeight ≤ 2 ^ 30 := Nat.pow_le_pow_right (by omega) hth
  have hlen := hP.len_le
  have hw := hP.w_le
  have hlwL : ∀ v ∈ lengths E.P.toSpec root, v < E.P.w := fun v hv => lengths_lt hP.wots hv
  have hll := lengths_length hP.wots root
  generalize hL : lengths E.P.toSpec root = L at *
  obtain ⟨u, v, hu, hv, rfl⟩ := hta
  -- the address and info set-up
  have e1 := set_type_enc (f := E.P.fam) (a := ⟨layer, tree, ty, 0, u, v⟩)
    (okA hlay htr hty (by omega) hu hv) (t := SPX_ADDR_TYPE_HASHTREE) (by decide)
  have e2 : set_type E.P.fam zeroAddr SPX_ADDR_TYPE_WOTSPK = .ok (enc E.P.fam ⟨0, 0, WOTS_PK, 0, 0, 0⟩) := by
    rw [zeroAddr_eq E.P.fam]
    exact set_type_enc (f := E.P.fam) (a := zeroADRS)
      (okA (by omega) (by omega) (by omega) (by omega) (by omega) (by omega)) (by decide)
  have e3 : copy_subtree_addr E.P.fam zeroAddr (enc E.P.fam wa) =
      .ok (enc E.P.fam ⟨layer, tree, WOTS_HASH, 0, 0, 0⟩) := by
    rw [zeroAddr_eq E.P.fam, copy_subtree_enc, hwl, hwt]
    rfl
  have e4 : copy_subtree_addr E.P.fam (enc E.P.fam ⟨0, 0, WOTS_PK, 0, 0, 0⟩) (enc E.P.fam wa) =
      .ok (enc E.P.fam ⟨layer, tree, WOTS_PK, 0, 0, 0⟩) := by
    rw [copy_subtree_enc, hwl, hwt]
  have hwb : (sig.take E.P.wotsBytes).length = E.P.wotsBytes := by simp; omega
  let I : Nat → LeafInfoX1 := fun i =>
    { wots_sig := if idx < i then
        wotsSigOf S ctx.pub_seed ctx.sk_seed E.P.wotsLen layer tree idx L else sig.take E.P.wotsBytes
      wots_sign_leaf := idx, wots_steps := L
      leaf_addr := if i = 0 then enc E.P.fam ⟨layer, tree, WOTS_HASH, 0, 0, 0⟩ else
        enc E.P.fam ⟨layer, tree, WOTS_HASH, i - 1, E.P.wotsLen - 1, E.P.w - 2⟩
      pk_addr := enc E.P.fam ⟨layer, tree, WOTS_PK, i - 1, 0, 0⟩ }
  have hsl : (wotsSigOf S ctx.pub_seed ctx.sk_seed E.P.wotsLen layer tree idx L).length = E.P.wotsBytes := by
    unfold wotsSigOf
    exact cat_length fun i _ => chain_length (wotsF_length R) (R.PRF_len ..) _ _
  have hgen : ∀ i, i < 2 ^ E.P.treeHeight →
      wots_gen_leafx1 E ctx ((i + 0) % 2 ^ 32) (I i) =
        .ok (wotsPk E.P.toSpec S ctx.pub_seed ctx.sk_seed layer tree i, I (i + 1)) := by
    intro i hi
    rw [Nat.add_zero, Nat.mod_eq_of_lt (by omega)]
    have hla : ∃ k0 u v, u < 256 ∧ v < 256 ∧
        (I i).leaf_addr = enc E.P.fam ⟨layer, tree, WOTS_HASH, k0, u, v⟩ := by
      by_cases h0 : i = 0
      · exact ⟨0, 0, 0, by omega, by omega, if_pos h0⟩
      · exact ⟨i - 1, E.P.wotsLen - 1, E.P.w - 2, by omega, by omega, if_neg h0⟩
    obtain ⟨k0, u, v, hu, hv, hla⟩ := hla
    rw [wots_gen_leafx1_spec R hP hctx hlay htr (kp := i) (by omega) hu hv hla rfl hll hlwL (by
      show (if idx < i then _ else _ : Bytes).length = _
      split
      · exact hsl
      · exact hwb)]
    show Except.ok (_, LeafInfoX1.mk _ _ _ _ _) = Except.ok (_, LeafInfoX1.mk _ _ _ _ _)
    rw [if_neg (show ¬ i + 1 = 0 by omega), Nat.add_sub_cancel]
    congr 3
    show (if i = idx then _ else (if idx < i then _ else _ : Bytes)) = _
    by_cases h1 : i = idx
    · subst h1
      rw [if_pos rfl, if_pos (by omega)]
    · rw [if_neg h1]
      by_cases h2 : idx < i
      · rw [if_pos h2, if_pos (by omega)]
      · rw [if_neg h2, if_neg (by omega)]
  have hleaf : ∀ i, i < 2 ^ E.P.treeHeight →
      (wotsPk E.P.toSpec S ctx.pub_seed ctx.sk_seed layer tree i).length = E.P.n := fun i _ => R.T_len ..
  have hoff := offH_tree (S := S) (layer := layer) (tree := tree) hth ctx.pub_seed
  obtain ⟨addr', e5, haddr'⟩ := treehashx1_spec R hctx (a := ⟨layer, tree, TREE, 0, 0, 0⟩)
    (off := 0) (leaf_idx := idx) (auth0 := sig.drop E.P.wotsBytes)
    (okA hlay htr (by decide) (by omega) (by omega) (by omega)) hth (by simp; omega) hP.n_lt hleaf
    (I := I) hgen (tree_addr := enc E.P.fam ⟨layer, tree, TREE, 0, u, v⟩)
    ⟨u, v, hu, hv, rfl⟩
  refine ⟨addr', haddr', ?_⟩
  have hI0 : I 0 = LeafInfoX1.mk (sig.take E.P.wotsBytes) idx L
      (enc E.P.fam ⟨layer, tree, WOTS_HASH, 0, 0, 0⟩) (enc E.P.fam ⟨layer, tree, WOTS_PK, 0, 0, 0⟩) := by
    show LeafInfoX1.mk _ _ _ _ _ = _
    rw [if_neg (by omega), if_pos rfl]
  have hcl : chain_lengths E (uninit (fun i => (E.G 7 i).toNat) E.P.wotsLen) root = .ok L := by
    rw [chain_lengths_spec hP.wots (by simp) hroot, hL]
  unfold merkle_sign
  rw [hcl]
  simp only [ok_bind]
  rw [e1]
  simp only [ok_bind]
  rw [e2]
  simp only [ok_bind]
  rw [e3]
  simp only [ok_bind]
  rw [e4]
  simp only [ok_bind]
  rw [rd_ok (by omega), sub_ok (by omega)]
  simp only [ok_bind, List.drop_zero]
  rw [← hI0, show (SPX_ADDR_TYPE_HASHTREE : Nat) = TREE from rfl, e5]
  simp only [ok_bind]
  congr 2
  · have hws : (I (2 ^ E.P.treeHeight)).wots_sig = if idx < 2 ^ E.P.treeHeight then
        wotsSigOf S ctx.pub_seed ctx.sk_seed E.P.wotsLen layer tree idx L else sig.take E.P.wotsBytes := rfl
    rw [hws]
    by_cases hc : idx < 2 ^ E.P.treeHeight
    · rw [if_pos hc, if_pos hc, if_pos hc, ← List.append_assoc, List.drop_drop]
      congr 1
      unfold xmssSig wotsSig wotsSigOf
      rw [toSpec_len hP.wots, hL]
      congr 1
      have := authPath_shift (i0 := 0) hoff
        (leaf := wotsPk E.P.toSpec S ctx.pub_seed ctx.sk_seed layer tree)
        (leaf' := wotsPk E.P.toSpec S ctx.pub_seed ctx.sk_seed layer tree)
        (fun j _ => by rw [Nat.zero_mul, Nat.add_zero]) hc
      rwa [Nat.zero_mul, Nat.add_zero] at this
    · rw [if_neg hc, if_neg hc, if_neg hc, List.take_append_drop]
  · congr 1
    have := node_shift (i0 := 0) hoff
        (leaf := wotsPk E.P.toSpec S ctx.pub_seed ctx.sk_seed layer tree)
        (leaf' := wotsPk E.P.toSpec S ctx.pub_seed ctx.sk_seed layer tree)
        (fun j _ => by rw [Nat.zero_mul, Nat.add_zero]) E.P.treeHeight 0 (Nat.le_refl _) (by simp)
    rwa [Nat.zero_mul, Nat.add_zero] at this

include hP hctx in
/-- `merkle_gen_root` computes the root of the top subtree, whatever the previous content. -/
theorem merkle_gen_root_spec {root0 : Bytes} (hr : root0.length = E.P.n) :
    merkle_gen_root E root0 ctx =
      .ok (xmssRoot E.P.toSpec S ctx.pub_seed ctx.sk_seed (E.P.d - 1) 0) := by
  have hd := hP.d_le
  have hth := hP.th_le
  have hp30 : 2 ^ E.P.treeHeight ≤ 2 ^ 30 := Nat.pow_le_pow_right (by omega) hth
  have e1 : set_layer_addr E.P.fam zeroAddr (E.P.d - 1) = .ok (enc E.P.fam ⟨E.P.d - 1, 0, 0, 0, 0, 0⟩) := by
    rw [zeroAddr_eq E.P.fam]
    exact set_layer_enc (f := E.P.fam) (a := zeroADRS)
      (okA (by omega) (by omega) (by omega) (by omega) (by omega) (by omega)) (by omega)
  unfold merkle_gen_root
  simp only
  rw [e1]
  simp only [ok_bind]
  obtain ⟨addr', _, h⟩ := merkle_sign_core R hP hctx (layer := E.P.d - 1) (tree := 0) (by omega) (by omega)
    (wa := ⟨E.P.d - 1, 0, 0, 0, 0, 0⟩) rfl rfl (ty := 0) (by omega)
    (tree_addr := enc E.P.fam ⟨E.P.d - 1, 0, 0, 0, 0, 0⟩) ⟨0, 0, by omega, by omega, rfl⟩
    (sig := uninit (E.G 8) (E.P.treeHeight * E.P.n + E.P.wotsBytes)) (root := root0) hr
    (by simp; omega) (idx := 2 ^ 32 - 1)
  rw [h]
  rfl

end
end Spx
