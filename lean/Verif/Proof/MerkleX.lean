import Verif.Proof.WotsX
import Verif.Proof.TreehashX
import Verif.Proof.Merkle
/-! The parallel `merkle_sign` and `merkle_gen_root`. -/

namespace Spx
open Spec

/-- `idx` lies in a group of `L` leaves among the first `2^(t-lg)` iff it is one of the `2^t` leaves. -/
theorem group_lt {lg t idx : Nat} (hlt : lg ≤ t) : idx / 2 ^ lg < 2 ^ (t - lg) ↔ idx < 2 ^ t := by
  rw [Nat.div_lt_iff_lt_mul (Nat.two_pow_pos lg), ← Nat.pow_add, Nat.sub_add_cancel hlt]

section
variable {E : EnvX} {S : Spec.Hash} {R : Refines E.P E.H S} (RX : LaneRefines E R) (hP : E.P.Valid)
  (hlg : 1 ≤ E.lg) (hlt : E.lg ≤ E.P.treeHeight)
  {ctx : Ctx} (hctx : R.CtxOK ctx) {layer tree : Nat} (hlay : layer < 256) (htr : tree < 2 ^ 64)

/-- Setting up `L` lane addresses from zero. -/
theorem lanes_setup {sa : ADRS} (hl : sa.layer = layer) (ht : sa.tree = tree) {t : Nat} (htt : t < 256) :
    lanes E.L (fun _ a => (do
      let a ← set_type E.P.fam a t
      copy_subtree_addr E.P.fam a (enc E.P.fam sa) : C Addr)) (List.replicate E.L zeroAddr) =
      .ok ((List.range E.L).map fun _ => enc E.P.fam ⟨layer, tree, t, 0, 0, 0⟩) := by
  rw [replicate_map]
  refine lanes_ok fun j hj => ?_
  have e := set_type_enc (f := E.P.fam) (a := zeroADRS)
      (okA (by omega) (by omega) (by omega) (by omega) (by omega) (by omega)) (t := t) htt
  rw [zeroAddr_eq E.P.fam, e, ok_bind, copy_subtree_enc, hl, ht]
  rfl

include RX hP hlg hlt hctx hlay htr in
theorem merkle_signx_core {wa : ADRS} (hwl : wa.layer = layer) (hwt : wa.tree = tree)
    {ta : ADRS} (htl : ta.layer = layer) (htt : ta.tree = tree)
    {sig root : Bytes} (hroot : root.length = E.P.n)
    (hsig : E.P.wotsBytes + E.P.treeHeight * E.P.n ≤ sig.length) {idx : Nat} (hidx : idx < 2 ^ 32)
    (hrange : idx < 2 ^ E.P.treeHeight ∨ 2 ^ E.P.treeHeight * E.L ≤ idx) :
    merkle_signx E sig root ctx (enc E.P.fam wa) (enc E.P.fam ta) idx =
      .ok ((if idx < 2 ^ E.P.treeHeight then
          xmssSig E.P.toSpec S ctx.pub_seed ctx.sk_seed layer tree idx root ++
            sig.drop (E.P.wotsBytes + E.P.treeHeight * E.P.n)
        else sig),
        xmssRoot E.P.toSpec S ctx.pub_seed ctx.sk_seed layer tree, enc E.P.fam ta) := by
  have hth := hP.th_le
  have hp30 : 2 ^ E.P.treeHeight ≤ 2 ^ 30 := Nat.pow_le_pow_right (by omega) hth
  have hlen := hP.len_le
  have hw := hP.w_le
  have hLp : 0 < E.L := Nat.two_pow_pos _
  have hLe : E.L = 2 ^ E.lg := rfl
  have hprod : E.L * 2 ^ (E.P.treeHeight - E.lg) = 2 ^ E.P.treeHeight := by
    rw [hLe, ← Nat.pow_add, Nat.add_sub_cancel' hlt]
  have hlwL : ∀ v ∈ lengths E.P.toSpec root, v < E.P.w := fun v hv => lengths_lt hP.wots hv
  have hll := lengths_length hP.wots root
  generalize hLs : lengths E.P.toSpec root = Ls at *
  have e1 := lanes_setup (E := E) htl htt (t := SPX_ADDR_TYPE_HASHTREE) (by decide)
  have e2 := lanes_setup (E := E) hwl hwt (t := SPX_ADDR_TYPE_WOTS) (by decide)
  have e3 := lanes_setup (E := E) hwl hwt (t := SPX_ADDR_TYPE_WOTSPK) (by decide)
  have hwb : (sig.take E.P.wotsBytes).length = E.P.wotsBytes := by simp; omega
  have hsl : (wotsSigOf S ctx.pub_seed ctx.sk_seed E.P.wotsLen layer tree idx Ls).length = E.P.wotsBytes := by
    unfold wotsSigOf
    exact cat_length fun i _ => chain_length (wotsF_length R) (R.PRF_len ..) _ _
  obtain ⟨W, hWpos, hWneg⟩ : ∃ W : Nat → Bytes,
      (∀ i, idx / E.L < i → W i = wotsSigOf S ctx.pub_seed ctx.sk_seed E.P.wotsLen layer tree idx Ls) ∧
      (∀ i, ¬ idx / E.L < i → W i = sig.take E.P.wotsBytes) :=
    ⟨fun i => if idx / E.L < i then wotsSigOf S ctx.pub_seed ctx.sk_seed E.P.wotsLen layer tree idx Ls
      else sig.take E.P.wotsBytes, fun _ h => if_pos h, fun _ h => if_neg h⟩
  obtain ⟨LA, hLA0, hLAs⟩ : ∃ LA : Nat → List Addr,
      LA 0 = ((List.range E.L).map fun _ => enc E.P.fam ⟨layer, tree, WOTS_HASH, 0, 0, 0⟩) ∧
      ∀ i, LA (i + 1) = chainAddrs E.P.fam E.L layer tree (E.L * i) (E.P.wotsLen - 1) (E.P.w - 2) :=
    ⟨fun i => match i with
      | 0 => (List.range E.L).map fun _ => enc E.P.fam ⟨layer, tree, WOTS_HASH, 0, 0, 0⟩
      | i + 1 => chainAddrs E.P.fam E.L layer tree (E.L * i) (E.P.wotsLen - 1) (E.P.w - 2), rfl, fun _ => rfl⟩
  obtain ⟨PA, hPA0, hPAs⟩ : ∃ PA : Nat → List Addr,
      PA 0 = ((List.range E.L).map fun _ => enc E.P.fam ⟨layer, tree, WOTS_PK, 0, 0, 0⟩) ∧
      ∀ i, PA (i + 1) = ((List.range E.L).map fun j => enc E.P.fam ⟨layer, tree, WOTS_PK, E.L * i + j, 0, 0⟩) :=
    ⟨fun i => match i with
      | 0 => (List.range E.L).map fun _ => enc E.P.fam ⟨layer, tree, WOTS_PK, 0, 0, 0⟩
      | i + 1 => (List.range E.L).map fun j => enc E.P.fam ⟨layer, tree, WOTS_PK, E.L * i + j, 0, 0⟩, rfl,
      fun _ => rfl⟩
  have hWl : ∀ i, (W i).length = E.P.wotsBytes := by
    intro i
    by_cases h : idx / E.L < i
    · rw [hWpos i h]; exact hsl
    · rw [hWneg i h]; exact hwb
  have hgen : ∀ i, i < 2 ^ (E.P.treeHeight - E.lg) → ∀ buf : Bytes, buf.length = E.L * E.P.n →
      wots_gen_leafx E ctx buf ((E.L * i + 0) % 2 ^ 32) (LeafInfoX.mk (W i) idx Ls (LA i) (PA i)) =
        .ok (cat E.L (fun j => wotsPk E.P.toSpec S ctx.pub_seed ctx.sk_seed layer tree (E.L * i + j)),
          LeafInfoX.mk (W (i + 1)) idx Ls (LA (i + 1)) (PA (i + 1))) := by
    intro i hi buf hbuf
    have hb : E.L * (i + 1) ≤ E.L * 2 ^ (E.P.treeHeight - E.lg) := Nat.mul_le_mul_left _ hi
    rw [hprod, Nat.mul_succ] at hb
    rw [Nat.add_zero, Nat.mod_eq_of_lt (by omega)]
    have hla : ∃ A : Nat → ADRS, LA i = ((List.range E.L).map fun j => enc E.P.fam (A j)) ∧
        ∀ j, j < E.L → ∃ k u v, u < 256 ∧ v < 256 ∧ A j = ⟨layer, tree, WOTS_HASH, k, u, v⟩ := by
      cases i with
      | zero => exact ⟨_, hLA0, fun j _ => ⟨0, 0, 0, by omega, by omega, rfl⟩⟩
      | succ i => exact ⟨_, hLAs i, fun j _ => ⟨_, _, _, by omega, by omega, rfl⟩⟩
    have hpa : ∃ B : Nat → ADRS, PA i = ((List.range E.L).map fun j => enc E.P.fam (B j)) ∧
        ∀ j, j < E.L → ∃ k, B j = ⟨layer, tree, WOTS_PK, k, 0, 0⟩ := by
      cases i with
      | zero => exact ⟨_, hPA0, fun j _ => ⟨0, rfl⟩⟩
      | succ i => exact ⟨_, hPAs i, fun j _ => ⟨_, rfl⟩⟩
    obtain ⟨A, hA1, hA2⟩ := hla
    obtain ⟨B, hB1, hB2⟩ := hpa
    rw [wots_gen_leafx_spec RX hP hctx hlay htr (kp := E.L * i) (by omega) (by omega) hidx
      (Nat.mul_mod_right ..) hA1 hA2 hB1 hB2 hll hlwL (hWl i) hbuf, hLAs, hPAs]
    congr 2
    simp only
    congr 1
    rw [Nat.mul_div_cancel_left _ hLp]
    by_cases h1 : i = idx / E.L
    · rw [if_pos h1, hWpos _ (by omega)]
    · rw [if_neg h1]
      by_cases h2 : idx / E.L < i
      · rw [hWpos _ h2, hWpos _ (by omega)]
      · rw [hWneg _ h2, hWneg _ (by omega)]
  have hleaf : ∀ i, i < 2 ^ E.P.treeHeight →
      (wotsPk E.P.toSpec S ctx.pub_seed ctx.sk_seed layer tree i).length = E.P.n := fun i _ => R.T_len ..
  have hoff := offH_tree (S := S) (layer := layer) (tree := tree) hth ctx.pub_seed
  obtain ⟨addr', e5, haddr'⟩ := treehashx_spec RX hctx (a := ⟨layer, tree, TREE, 0, 0, 0⟩)
    (off := 0) (leaf_idx := idx) (auth0 := sig.drop E.P.wotsBytes)
    (okA hlay htr (by decide) (by omega) (by omega) (by omega)) hlg hlt hth hidx hrange (by simp; omega) hP.n_lt hleaf
    (I := fun i => LeafInfoX.mk (W i) idx Ls (LA i) (PA i)) hgen
    (tree_addr := (List.range E.L).map fun _ => enc E.P.fam ⟨layer, tree, TREE, 0, 0, 0⟩)
    ⟨_, rfl, fun j _ => ⟨0, 0, by omega, by omega, rfl⟩⟩
  have hcl : chain_lengths E.toEnv (uninit (fun i => (E.G 36 i).toNat) E.P.wotsLen) root = .ok Ls := by
    rw [chain_lengths_spec hP.wots (by simp) hroot, hLs]
  rw [hLA0, hPA0, hWneg 0 (Nat.not_lt_zero _)] at e5
  unfold merkle_signx
  simp only
  rw [hcl, ok_bind, e1, ok_bind, e2, ok_bind, e3, ok_bind, rd_ok (by omega), ok_bind, sub_ok (by omega), ok_bind,
    List.drop_zero, show (SPX_ADDR_TYPE_HASHTREE : Nat) = TREE from rfl,
    show (SPX_ADDR_TYPE_WOTS : Nat) = WOTS_HASH from rfl, show (SPX_ADDR_TYPE_WOTSPK : Nat) = WOTS_PK from rfl, e5,
    ok_bind]
  simp only
  congr 2
  · have hgl := group_lt (idx := idx) hlt
    rw [← hLe] at hgl
    by_cases hc : idx < 2 ^ E.P.treeHeight
    · rw [hWpos _ (hgl.mpr hc), if_pos hc, if_pos hc, ← List.append_assoc, List.drop_drop]
      congr 1
      unfold xmssSig wotsSig wotsSigOf
      rw [toSpec_len hP.wots, hLs]
      congr 1
      have := authPath_shift (i0 := 0) hoff
        (leaf := wotsPk E.P.toSpec S ctx.pub_seed ctx.sk_seed layer tree)
        (leaf' := wotsPk E.P.toSpec S ctx.pub_seed ctx.sk_seed layer tree)
        (fun j _ => by rw [Nat.zero_mul, Nat.add_zero]) hc
      rwa [Nat.zero_mul, Nat.add_zero] at this
    · rw [hWneg _ (fun h => hc (hgl.mp h)), if_neg hc, if_neg hc, List.take_append_drop]
  · congr 1
    have := node_shift (i0 := 0) hoff
        (leaf := wotsPk E.P.toSpec S ctx.pub_seed ctx.sk_seed layer tree)
        (leaf' := wotsPk E.P.toSpec S ctx.pub_seed ctx.sk_seed layer tree)
        (fun j _ => by rw [Nat.zero_mul, Nat.add_zero]) E.P.treeHeight 0 (Nat.le_refl _) (by simp)
    rwa [Nat.zero_mul, Nat.add_zero] at this

include RX hP hlg hlt hctx in
theorem merkle_gen_rootx_spec {root0 : Bytes} (hr : root0.length = E.P.n)
    (hbig : E.P.treeHeight + E.lg < 32) :
    merkle_gen_rootx E root0 ctx =
      .ok (xmssRoot E.P.toSpec S ctx.pub_seed ctx.sk_seed (E.P.d - 1) 0) := by
  have hd := hP.d_le
  have e1 : set_layer_addr E.P.fam zeroAddr (E.P.d - 1) = .ok (enc E.P.fam ⟨E.P.d - 1, 0, 0, 0, 0, 0⟩) := by
    rw [zeroAddr_eq E.P.fam]
    exact set_layer_enc (f := E.P.fam) (a := zeroADRS)
      (okA (by omega) (by omega) (by omega) (by omega) (by omega) (by omega)) (by omega)
  have hb : 2 ^ E.P.treeHeight * E.L ≤ 2 ^ 31 := by
    show 2 ^ E.P.treeHeight * 2 ^ E.lg ≤ 2 ^ 31
    rw [← Nat.pow_add]
    exact Nat.pow_le_pow_right (by omega) (by omega)
  unfold merkle_gen_rootx
  simp only
  rw [e1, ok_bind, ok_bind]
  rw [merkle_signx_core RX hP hlg hlt hctx (layer := E.P.d - 1) (tree := 0) (by omega) (by omega)
    (wa := ⟨E.P.d - 1, 0, 0, 0, 0, 0⟩) rfl rfl (ta := ⟨E.P.d - 1, 0, 0, 0, 0, 0⟩) rfl rfl
    (sig := uninit (E.G 37) (E.P.treeHeight * E.P.n + E.P.wotsBytes)) (root := root0) hr
    (by simp; omega) (idx := 2 ^ 32 - 1) (by omega) (Or.inr (by omega))]
  rfl

end
end Spx
