import Verif.Proof.ChainsX
/-! The parallel WOTS+ leaf generation. -/

namespace Spx
open Spec

/-- A lane of the public key buffer. -/
theorem lane_chunks {b : Bytes} {L len n j : Nat} (hb : b.length = L * (len * n)) (hj : j < L) :
    (b.drop (j * (len * n))).take (len * n) = cat len fun i => chunk n b (j * len + i) := by
  have h1 : (j + 1) * (len * n) ≤ L * (len * n) := Nat.mul_le_mul_right _ hj
  rw [Nat.succ_mul] at h1
  refine eq_cat_of_chunks (n := n) (by rw [List.length_take, List.length_drop, hb]; omega) ?_
  intro i hi
  have h2 : (i + 1) * n ≤ len * n := Nat.mul_le_mul_right _ hi
  rw [Nat.succ_mul] at h2
  unfold chunk
  rw [List.drop_take, List.drop_drop, List.take_take, Nat.min_eq_left (by omega), Nat.add_mul, Nat.mul_assoc]

theorem lane_index_inj {len i i' j j' : Nat} (hi : i < len) (hi' : i' < len)
    (h : j * len + i = j' * len + i') : j = j' ∧ i = i' := by
  have h1 : (j * len + i) / len = j := by
    rw [Nat.mul_comm, Nat.mul_add_div (by omega), Nat.div_eq_of_lt hi, Nat.add_zero]
  have h2 : (j' * len + i') / len = j' := by
    rw [Nat.mul_comm, Nat.mul_add_div (by omega), Nat.div_eq_of_lt hi', Nat.add_zero]
  have h3 : j = j' := by rw [← h1, ← h2, h]
  subst h3
  exact ⟨rfl, by omega⟩

section
variable {E : EnvX} {S : Spec.Hash} {R : Refines E.P E.H S} (RX : LaneRefines E R) (hP : E.P.Valid)
  {ctx : Ctx} (hctx : R.CtxOK ctx) {layer tree kp : Nat} (hlay : layer < 256) (htr : tree < 2 ^ 64)
  (hkp : kp + E.L ≤ 2 ^ 32)

/-- Lane addresses of a chain. -/
def chainAddrs (f : Family) (L layer tree kp i v : Nat) : List Addr :=
  (List.range L).map fun j => enc f ⟨layer, tree, WOTS_HASH, kp + j, i, v⟩

include RX hP hctx hlay htr hkp in
/-- The loop down `L` chains. -/
theorem wots_gen_leafx_chain_spec {i v wots_k idx : Nat} (hi : i < E.P.wotsLen) (hv : v < 256) (hidx : idx < E.L)
    {x : Nat → Bytes} {b0 sig sig' : Bytes}
    (hb : b0.length = E.L * E.P.wotsBytes) (hbx : ∀ j, j < E.L → chunk E.P.n b0 (j * E.P.wotsLen + i) = x j)
    (hsig : (wots_k < E.P.w ∧
        wr sig (i * E.P.n) (chain (wotsF S ctx.pub_seed layer tree (kp + idx) i) (x idx) 0 wots_k) = .ok sig') ∨
      (E.P.w ≤ wots_k ∧ sig' = sig)) :
    ∃ b, loop (2 ^ 32) (wots_gen_leafx_chain E ctx i wots_k idx)
        (0, b0, sig, chainAddrs E.P.fam E.L layer tree kp i v) =
      .ok (b, sig', chainAddrs E.P.fam E.L layer tree kp i (E.P.w - 2)) ∧
      b.length = E.L * E.P.wotsBytes ∧
      (∀ j, j < E.L → chunk E.P.n b (j * E.P.wotsLen + i) =
        chain (wotsF S ctx.pub_seed layer tree (kp + j) i) (x j) 0 (E.P.w - 1)) ∧
      (∀ m, (∀ j, j < E.L → j * E.P.wotsLen + i ≠ m) → chunk E.P.n b m = chunk E.P.n b0 m) := by
  have hw := hP.w_le
  have hlen := hP.len_le
  have hn := hP.n_lt
  have hwb : E.P.wotsBytes = E.P.wotsLen * E.P.n := rfl
  have hoff : ∀ j, i * E.P.n + j * E.P.wotsBytes = (j * E.P.wotsLen + i) * E.P.n := by
    intro j
    rw [hwb, Nat.add_mul, Nat.mul_assoc, Nat.add_comm]
  have hbnd : ∀ j, j < E.L → (j * E.P.wotsLen + i + 1) * E.P.n ≤ E.L * E.P.wotsBytes := by
    intro j hj
    rw [hwb, ← Nat.mul_assoc]
    apply Nat.mul_le_mul_right
    have : (j + 1) * E.P.wotsLen ≤ E.L * E.P.wotsLen := Nat.mul_le_mul_right _ hj
    rw [Nat.succ_mul] at this
    omega
  -- the conditional copy
  have hcopy : ∀ k (b : Bytes), k < E.P.w → b.length = E.L * E.P.wotsBytes →
      chunk E.P.n b (idx * E.P.wotsLen + i) =
        chain (wotsF S ctx.pub_seed layer tree (kp + idx) i) (x idx) 0 k →
      (if k = wots_k then do
        wr (if wots_k < k then sig' else sig) (i * E.P.n) (← rd b (i * E.P.n + idx * E.P.wotsBytes) E.P.n)
      else .ok (if wots_k < k then sig' else sig) : C Bytes) =
        .ok (if wots_k < k + 1 then sig' else sig) := by
    intro k b hk hbl hbc
    rcases hsig with ⟨h1, h2⟩ | ⟨h1, h2⟩
    · by_cases hc : k = wots_k
      · subst hc
        rw [if_pos rfl, if_neg (by omega), if_pos (by omega), hoff, rd_chunk (by rw [hbl]; exact hbnd idx hidx), hbc]
        exact h2
      · rw [if_neg hc]
        congr 1
        by_cases hlt : wots_k < k
        · rw [if_pos hlt, if_pos (by omega)]
        · rw [if_neg hlt, if_neg (by omega)]
    · rw [if_neg (by omega), if_neg (by omega), if_neg (by omega)]
  obtain ⟨r, hr, hp1, hp2, hp3, hp4, hp5⟩ := loop_inv (body := wots_gen_leafx_chain E ctx i wots_k idx) (fuel := 2 ^ 32)
    (fun k (s : Nat × Bytes × Bytes × List Addr) => s.1 = k ∧ s.2.1.length = E.L * E.P.wotsBytes ∧
      (∀ j, j < E.L → chunk E.P.n s.2.1 (j * E.P.wotsLen + i) =
        chain (wotsF S ctx.pub_seed layer tree (kp + j) i) (x j) 0 k) ∧
      (∀ m, (∀ j, j < E.L → j * E.P.wotsLen + i ≠ m) → chunk E.P.n s.2.1 m = chunk E.P.n b0 m) ∧
      s.2.2.1 = (if wots_k < k then sig' else sig) ∧
      s.2.2.2 = chainAddrs E.P.fam E.L layer tree kp i (if k = 0 then v else k - 1))
    (fun r => r.1.length = E.L * E.P.wotsBytes ∧
      (∀ j, j < E.L → chunk E.P.n r.1 (j * E.P.wotsLen + i) =
        chain (wotsF S ctx.pub_seed layer tree (kp + j) i) (x j) 0 (E.P.w - 1)) ∧
      (∀ m, (∀ j, j < E.L → j * E.P.wotsLen + i ≠ m) → chunk E.P.n r.1 m = chunk E.P.n b0 m) ∧
      r.2.1 = sig' ∧ r.2.2 = chainAddrs E.P.fam E.L layer tree kp i (E.P.w - 2))
    (E.P.w - 1)
    (by
      rintro k ⟨k', b, sg, ad⟩ hk ⟨h1, h2, h3, h4, h5, h6⟩
      simp only at h1 h2 h3 h4 h5 h6
      have e1 : lanes E.L (fun _ a => set_hash_addr E.P.fam a k) ad =
          .ok (chainAddrs E.P.fam E.L layer tree kp i k) := by
        rw [h6]
        refine lanes_ok ?_
        intro j hj
        refine set_hash_enc (f := E.P.fam) (a := ⟨layer, tree, WOTS_HASH, kp + j, i, _⟩) ?_ (by omega)
        show (if k = 0 then v else k - 1) < 256
        split <;> omega
      have e2 := subLanes_ok (k := E.L) (b := b) (base := i * E.P.n) (stride := E.P.wotsBytes) (by
        intro j hj
        have := hbnd j hj
        rw [hoff, h2]
        rw [Nat.succ_mul] at this
        omega)
      have e3 := RX.thashx ctx (fun j => ⟨layer, tree, WOTS_HASH, kp + j, i, k⟩)
        (fun j => b.drop (i * E.P.n + j * E.P.wotsBytes)) 1 hctx
        (fun j hj => okA hlay htr (by decide) (by omega) (by omega) (by omega)) (by omega) (by
          intro j hj
          have := hbnd j hj
          rw [hoff, List.length_drop, h2]
          rw [Nat.succ_mul] at this
          omega) (by omega)
      have e4 : ∀ j, j < E.L → S.T ctx.pub_seed ⟨layer, tree, WOTS_HASH, kp + j, i, k⟩
          ((b.drop (i * E.P.n + j * E.P.wotsBytes)).take (1 * E.P.n)) =
          chain (wotsF S ctx.pub_seed layer tree (kp + j) i) (x j) 0 (k + 1) := by
        intro j hj
        have := h3 j hj
        unfold chunk at this
        rw [hoff, Nat.one_mul, this, chain, Nat.zero_add]
        rfl
      obtain ⟨b', w1, w2, w3, w4⟩ := wrLanes_ok (k := E.L) (n := E.P.n) (b := b) (base := i * E.P.n)
        (stride := E.P.wotsBytes) (o := fun j => S.T ctx.pub_seed ⟨layer, tree, WOTS_HASH, kp + j, i, k⟩
          ((b.drop (i * E.P.n + j * E.P.wotsBytes)).take (1 * E.P.n))) (c := fun j => j * E.P.wotsLen + i)
        (fun j _ => hoff j) (fun p q _ _ h => (lane_index_inj hi hi h).1)
        (fun j hj => by rw [h2]; exact hbnd j hj) (fun j _ => R.T_len ..)
      refine ⟨(k + 1, b', if wots_k < k + 1 then sig' else sig, chainAddrs E.P.fam E.L layer tree kp i k), ?_,
        rfl, by simp only; rw [w2, h2], ?_, ?_, rfl, ?_⟩
      · unfold wots_gen_leafx_chain
        simp only
        rw [h1, h5, hcopy k b (by omega) h2 (h3 idx hidx)]
        simp only [ok_bind]
        rw [if_neg (by omega), e1, ok_bind, e2, ok_bind, show chainAddrs E.P.fam E.L layer tree kp i k = _ from rfl, chainAddrs, e3, ok_bind, w1]
        rfl
      · intro j hj
        simp only
        rw [w3 j hj, e4 j hj]
      · intro m hm
        simp only
        rw [w4 m hm, h4 m hm]
      · simp only
        rw [if_neg (show ¬ k + 1 = 0 by omega), Nat.add_sub_cancel])
    (by
      rintro ⟨k', b, sg, ad⟩ ⟨h1, h2, h3, h4, h5, h6⟩
      simp only at h1 h2 h3 h4 h5 h6
      refine ⟨(b, sig', ad), ?_, h2, h3, h4, rfl, ?_⟩
      · unfold wots_gen_leafx_chain
        simp only
        rw [h1, h5, hcopy (E.P.w - 1) b (by omega) h2 (h3 idx hidx)]
        simp only [ok_bind]
        rw [if_pos trivial]
        have hs : (if wots_k < E.P.w - 1 + 1 then sig' else sig) = sig' := by
          rcases hsig with ⟨h1, h2⟩ | ⟨h1, h2⟩
          · rw [if_pos (by omega)]
          · rw [if_neg (by omega), h2]
        rw [hs]
      · simp only
        rw [h6, if_neg (by omega), show E.P.w - 1 - 1 = E.P.w - 2 by omega])
    (by omega) (s := (0, b0, sig, chainAddrs E.P.fam E.L layer tree kp i v))
    ⟨rfl, hb, fun j hj => hbx j hj, fun _ _ => rfl, by simp, by simp⟩
  obtain ⟨b, sg, ad⟩ := r
  simp only at hp1 hp2 hp3 hp4 hp5
  exact ⟨b, by rw [hr, hp4, hp5], hp1, hp2, hp3⟩

include hkp in
theorem lanes_type {i u v t t' : Nat} (hlay : layer < 256) (htr : tree < 2 ^ 64) (ht : t < 256) (ht' : t' < 256)
    (hu : u < 256) (hv : v < 256) :
    lanes E.L (fun _ a => set_type E.P.fam a t')
      ((List.range E.L).map fun j => enc E.P.fam ⟨layer, tree, t, kp + j, u, v⟩) =
      .ok ((List.range E.L).map fun j => enc E.P.fam ⟨layer, tree, t', kp + j, u, v⟩) :=
  lanes_ok fun j hj => set_type_enc (f := E.P.fam) (a := ⟨layer, tree, t, kp + j, u, v⟩)
    (okA hlay htr ht (by omega) hu (by omega)) ht'

include RX hP hctx hlay htr hkp in
/-- `wots_gen_leafx` returns `L` compressed public keys, and writes the signature if the leaf to sign
with is among them. -/
theorem wots_gen_leafx_spec {info : LeafInfoX} {dest : Bytes} {A B : Nat → ADRS}
    (hlg : E.lg ≤ 32) (hsgn : info.wots_sign_leaf < 2 ^ 32) (hal : kp % E.L = 0)
    (hla : info.leaf_addr = (List.range E.L).map fun j => enc E.P.fam (A j))
    (hA : ∀ j, j < E.L → ∃ k u v, u < 256 ∧ v < 256 ∧ A j = ⟨layer, tree, WOTS_HASH, k, u, v⟩)
    (hpa : info.pk_addr = (List.range E.L).map fun j => enc E.P.fam (B j))
    (hB : ∀ j, j < E.L → ∃ k, B j = ⟨layer, tree, WOTS_PK, k, 0, 0⟩)
    (hsl : info.wots_steps.length = E.P.wotsLen) (hst : ∀ x ∈ info.wots_steps, x < E.P.w)
    (hsig : info.wots_sig.length = E.P.wotsBytes) (hdest : dest.length = E.L * E.P.n) :
    wots_gen_leafx E ctx dest kp info =
      .ok (cat E.L fun j => wotsPk E.P.toSpec S ctx.pub_seed ctx.sk_seed layer tree (kp + j),
        { info with
          wots_sig := if kp / E.L = info.wots_sign_leaf / E.L then
              wotsSigOf S ctx.pub_seed ctx.sk_seed E.P.wotsLen layer tree info.wots_sign_leaf info.wots_steps
            else info.wots_sig
          leaf_addr := chainAddrs E.P.fam E.L layer tree kp (E.P.wotsLen - 1) (E.P.w - 2)
          pk_addr := (List.range E.L).map fun j => enc E.P.fam ⟨layer, tree, WOTS_PK, kp + j, 0, 0⟩ }) := by
  have hw := hP.w_le
  have hlen := hP.len_le
  have hLp : 0 < E.L := Nat.two_pow_pos _
  have hL : E.L = 2 ^ E.lg := rfl
  have hl1 : 1 ≤ E.P.wotsLen := by
    have := hP.n_pos
    unfold Params.wotsLen Params.len1 Params.logw
    split <;> omega
  have hwb : E.P.wotsBytes = E.P.wotsLen * E.P.n := rfl
  have hmask : ∀ x, x < E.P.w → x ||| (2 ^ 32 - 1) = 2 ^ 32 - 1 := by
    intro x hx
    apply Nat.eq_of_testBit_eq
    intro i
    rw [Nat.testBit_or, Nat.testBit_two_pow_sub_one]
    by_cases hi : i < 32
    · simp [hi]
    · simp only [hi, decide_false, Bool.or_false]
      apply Nat.testBit_lt_two_pow
      exact Nat.lt_of_lt_of_le (show x < 2 ^ 32 by omega) (Nat.pow_le_pow_right (by omega) (by omega))
  -- mask and index
  obtain ⟨mask, idx, hmi, hidx, hyes, hno⟩ : ∃ mask idx,
      (if (kp ^^^ info.wots_sign_leaf) &&& (2 ^ 32 - E.L) = 0 then
        (0, info.wots_sign_leaf &&& (E.L - 1)) else (2 ^ 32 - 1, 0)) = (mask, idx) ∧ idx < E.L ∧
      (kp / E.L = info.wots_sign_leaf / E.L → mask = 0 ∧ kp + idx = info.wots_sign_leaf) ∧
      (kp / E.L ≠ info.wots_sign_leaf / E.L → mask = 2 ^ 32 - 1) := by
    have hiff : (kp ^^^ info.wots_sign_leaf) &&& (2 ^ 32 - E.L) = 0 ↔ kp / E.L = info.wots_sign_leaf / E.L :=
      xor_mask_zero hlg (by omega) hsgn
    by_cases h : kp / E.L = info.wots_sign_leaf / E.L
    · refine ⟨_, _, if_pos (hiff.mpr h), ?_, fun _ => ⟨rfl, ?_⟩, fun h' => absurd h h'⟩
      · rw [hL, and_low]; exact Nat.mod_lt _ hLp
      · rw [hL, and_low, ← hL]
        have h1 := Nat.div_add_mod kp E.L
        have h2 := Nat.div_add_mod info.wots_sign_leaf E.L
        rw [← h] at h2
        omega
    · exact ⟨_, _, if_neg (fun h' => h (hiff.mp h')), hLp, fun h' => absurd h' h, fun _ => rfl⟩
  have ela : lanes E.L (fun j a => set_keypair_addr E.P.fam a ((kp + j) % 2 ^ 32)) info.leaf_addr =
      .ok ((List.range E.L).map fun j => enc E.P.fam { A j with w1 := kp + j }) := by
    rw [hla]
    refine lanes_ok fun j hj => ?_
    rw [Nat.mod_eq_of_lt (by omega)]
    exact set_keypair_enc
  have epa : lanes E.L (fun j a => set_keypair_addr E.P.fam a ((kp + j) % 2 ^ 32)) info.pk_addr =
      .ok ((List.range E.L).map fun j => enc E.P.fam ⟨layer, tree, WOTS_PK, kp + j, 0, 0⟩) := by
    rw [hpa]
    refine lanes_ok fun j hj => ?_
    obtain ⟨k, e⟩ := hB j hj
    rw [Nat.mod_eq_of_lt (by omega), e]
    exact set_keypair_enc
  obtain ⟨fpk, hfd⟩ : ∃ fpk : Nat → Nat → Bytes, ∀ j i, fpk j i =
      chain (wotsF S ctx.pub_seed layer tree (kp + j) i)
        (wotsSk S ctx.pub_seed ctx.sk_seed layer tree (kp + j) i) 0 (E.P.w - 1) := ⟨_, fun _ _ => rfl⟩
  obtain ⟨fsig, hfs⟩ : ∃ fsig : Nat → Bytes, ∀ i, fsig i =
      chain (wotsF S ctx.pub_seed layer tree (kp + idx) i)
        (wotsSk S ctx.pub_seed ctx.sk_seed layer tree (kp + idx) i) 0 (info.wots_steps.getD i 0) := ⟨_, fun _ => rfl⟩
  have hsk : ∀ kp i, (wotsSk S ctx.pub_seed ctx.sk_seed layer tree kp i).length = E.P.n := fun kp i => R.PRF_len ..
  have hfsig : ∀ i, (fsig i).length = E.P.n := fun i => by
    rw [hfs]; exact chain_length (wotsF_length R) (hsk _ i) _ _
  have hoff : ∀ i j, i * E.P.n + j * E.P.wotsBytes = (j * E.P.wotsLen + i) * E.P.n := by
    intro i j
    rw [hwb, Nat.add_mul, Nat.mul_assoc, Nat.add_comm]
  have hbnd : ∀ i j, i < E.P.wotsLen → j < E.L → (j * E.P.wotsLen + i + 1) * E.P.n ≤ E.L * E.P.wotsBytes := by
    intro i j hi hj
    rw [hwb, ← Nat.mul_assoc]
    apply Nat.mul_le_mul_right
    have : (j + 1) * E.P.wotsLen ≤ E.L * E.P.wotsLen := Nat.mul_le_mul_right _ hj
    rw [Nat.succ_mul] at this
    omega
  obtain ⟨⟨pkb, sg, ad⟩, hs', h1, h2, h3, -, h4⟩ := forRange_inv (n := E.P.wotsLen)
    (s := (uninit (E.G 35) (E.L * E.P.wotsBytes), info.wots_sig,
      (List.range E.L).map fun j => enc E.P.fam { A j with w1 := kp + j }))
    (body := fun i (s : Bytes × Bytes × List Addr) => (do
      let (pk_buffer, wots_sig, leaf_addr) := s
      let wots_k := (← rd1 info.wots_steps i) ||| mask
      let leaf_addr ← lanes E.L (fun _ a => do
        let a ← set_chain_addr E.P.fam a i
        let a ← set_hash_addr E.P.fam a 0
        set_type E.P.fam a SPX_ADDR_TYPE_WOTSPRF) leaf_addr
      let pk_buffer ← wrLanes E.L pk_buffer (i * E.P.n) E.P.wotsBytes (← E.X.prf_addrx ctx leaf_addr)
      let leaf_addr ← lanes E.L (fun _ a => set_type E.P.fam a SPX_ADDR_TYPE_WOTS) leaf_addr
      loop (2 ^ 32) (wots_gen_leafx_chain E ctx i wots_k idx)
        (0, pk_buffer, wots_sig, leaf_addr) : C (Bytes × Bytes × List Addr)))
    (fun i s => s.1.length = E.L * E.P.wotsBytes ∧
      (∀ j i', j < E.L → i' < i → chunk E.P.n s.1 (j * E.P.wotsLen + i') = fpk j i') ∧
      s.2.1 = (if kp / E.L = info.wots_sign_leaf / E.L then cat i fsig ++ info.wots_sig.drop (i * E.P.n)
        else info.wots_sig) ∧
      (∃ A : Nat → ADRS, s.2.2 = ((List.range E.L).map fun j => enc E.P.fam (A j)) ∧
        ∀ j, j < E.L → ∃ u v, u < 256 ∧ v < 256 ∧ A j = ⟨layer, tree, WOTS_HASH, kp + j, u, v⟩) ∧
      (i = E.P.wotsLen → s.2.2 = chainAddrs E.P.fam E.L layer tree kp (E.P.wotsLen - 1) (E.P.w - 2)))
    ⟨uninit_length .., fun j i' _ h => by omega, by simp [cat], ⟨fun j => { A j with w1 := kp + j }, rfl, by
      intro j hj
      obtain ⟨k, u, v, hu, hv, e⟩ := hA j hj
      exact ⟨u, v, hu, hv, by simp only [e]⟩⟩, fun h => by omega⟩ (by
      rintro i ⟨b, sg, ad⟩ hi ⟨h1, h2, h3, ⟨A, h4, h5⟩, -⟩
      simp only at h1 h2 h3 h4
      have hik : info.wots_steps.getD i 0 = info.wots_steps[i]'(by omega) := getD_lt (by omega)
      have hiw := hst (info.wots_steps[i]'(by omega)) (List.getElem_mem _)
      have hmul : (i + 1) * E.P.n ≤ E.P.wotsLen * E.P.n := Nat.mul_le_mul_right _ hi
      have e1 : lanes E.L (fun _ a => (do
          let a ← set_chain_addr E.P.fam a i
          let a ← set_hash_addr E.P.fam a 0
          set_type E.P.fam a SPX_ADDR_TYPE_WOTSPRF : C Addr)) ad =
          .ok ((List.range E.L).map fun j =>
            enc E.P.fam ⟨layer, tree, SPX_ADDR_TYPE_WOTSPRF, kp + j, i, 0⟩) := by
        rw [h4]
        refine lanes_ok fun j hj => ?_
        obtain ⟨u, v, hu, hv, e⟩ := h5 j hj
        have e1 := set_chain_enc (f := E.P.fam) (a := ⟨layer, tree, WOTS_HASH, kp + j, u, v⟩)
          (okA hlay htr (by decide) (by omega) hu (by omega)) (c := i) (by omega)
        have e2 := set_hash_enc (f := E.P.fam) (a := ⟨layer, tree, WOTS_HASH, kp + j, i, v⟩) hv
          (c := 0) (by omega)
        have e3 := set_type_enc (f := E.P.fam) (a := ⟨layer, tree, WOTS_HASH, kp + j, i, 0⟩)
          (okA hlay htr (by decide) (by omega) (by omega) (by decide))
          (t := SPX_ADDR_TYPE_WOTSPRF) (by decide)
        rw [e, e1]
        simp only [ok_bind]
        rw [e2]
        simp only [ok_bind]
        exact e3
      have e2 := RX.prf ctx (fun j => ⟨layer, tree, SPX_ADDR_TYPE_WOTSPRF, kp + j, i, 0⟩) hctx
        (fun j hj => okA hlay htr (by decide) (by omega) (by omega) (by decide))
      obtain ⟨b1, w1, w2, w3, w4⟩ := wrLanes_ok (k := E.L) (n := E.P.n) (b := b) (base := i * E.P.n)
        (stride := E.P.wotsBytes)
        (o := fun j => S.PRF ctx.pub_seed ctx.sk_seed ⟨layer, tree, SPX_ADDR_TYPE_WOTSPRF, kp + j, i, 0⟩)
        (c := fun j => j * E.P.wotsLen + i)
        (fun j _ => hoff i j) (fun p q _ _ h => (lane_index_inj hi hi h).1)
        (fun j hj => by rw [h1]; exact hbnd i j hi hj) (fun j _ => R.PRF_len ..)
      have e3 := lanes_type (E := E) (layer := layer) (tree := tree) (kp := kp) hkp (i := i) (u := i) (v := 0)
        (t := SPX_ADDR_TYPE_WOTSPRF) (t' := SPX_ADDR_TYPE_WOTS) hlay htr (by decide) (by decide) (by omega) (by omega)
      obtain ⟨sg', hsg', hsg''⟩ : ∃ sg', ((info.wots_steps[i]'(by omega) ||| mask < E.P.w ∧
          wr sg (i * E.P.n) (chain (wotsF S ctx.pub_seed layer tree (kp + idx) i)
            (S.PRF ctx.pub_seed ctx.sk_seed ⟨layer, tree, SPX_ADDR_TYPE_WOTSPRF, kp + idx, i, 0⟩) 0
            (info.wots_steps[i]'(by omega) ||| mask)) = .ok sg') ∨
          (E.P.w ≤ info.wots_steps[i]'(by omega) ||| mask ∧ sg' = sg)) ∧
          sg' = (if kp / E.L = info.wots_sign_leaf / E.L then
              cat (i + 1) fsig ++ info.wots_sig.drop ((i + 1) * E.P.n)
            else info.wots_sig) := by
        by_cases hk : kp / E.L = info.wots_sign_leaf / E.L
        · obtain ⟨hm, -⟩ := hyes hk
          simp only [if_pos hk] at h3 ⊢
          refine ⟨_, Or.inl ⟨by rw [hm, Nat.or_zero]; exact hiw, ?_⟩, rfl⟩
          have := wr_fill (n := E.P.n) (i := i) (f := fsig) (b := info.wots_sig) (fun j _ => hfsig j)
            (by rw [hsig]; exact hmul)
          rw [hm, Nat.or_zero, ← hik, h3, ← this]
          congr 1
          exact (hfs i).symm
        · simp only [if_neg hk] at h3 ⊢
          exact ⟨_, Or.inr ⟨by rw [hno hk, hmask _ hiw]; omega, h3.symm⟩, rfl⟩
      obtain ⟨b2, l1, l2, l3, l4⟩ := wots_gen_leafx_chain_spec RX hP hctx hlay htr hkp (i := i) (v := 0)
        (idx := idx) (b0 := b1) (sig := sg) (sig' := sg') hi (by omega) hidx
        (x := fun j => S.PRF ctx.pub_seed ctx.sk_seed ⟨layer, tree, SPX_ADDR_TYPE_WOTSPRF, kp + j, i, 0⟩)
        (by rw [w2, h1]) w3 hsg'
      refine ⟨(b2, sg', chainAddrs E.P.fam E.L layer tree kp i (E.P.w - 2)), ?_, l2, ?_, hsg'',
        ⟨_, rfl, fun j _ => ⟨i, E.P.w - 2, by omega, by omega, rfl⟩⟩, fun h => by simp only; rw [← h, Nat.add_sub_cancel]⟩
      · simp only
        rw [rd1_ok (by omega), ok_bind, e1, ok_bind, e2, ok_bind, w1, ok_bind, e3, ok_bind]
        exact l1
      · intro j i' hj hi'
        simp only
        by_cases h : i' = i
        · subst h
          rw [l3 j hj, hfd]
          rfl
        · rw [l4 _ (fun q _ hq => h (lane_index_inj hi (by omega) hq).2.symm),
            w4 _ (fun q _ hq => h (lane_index_inj hi (by omega) hq).2.symm), h2 j i' hj (by omega)])
  simp only at h1 h2 h3 h4
  have h4 := h4 trivial
  have e5 := subLanes_ok (k := E.L) (b := pkb) (base := 0) (stride := E.P.wotsBytes) (by
    intro j hj
    rw [h1, Nat.zero_add]
    exact Nat.mul_le_mul_right _ (by omega))
  have e6 := RX.thashx ctx (fun j => ⟨layer, tree, WOTS_PK, kp + j, 0, 0⟩)
    (fun j => pkb.drop (0 + j * E.P.wotsBytes)) E.P.wotsLen hctx
    (fun j hj => okA hlay htr (by decide) (by omega) (by decide) (by decide)) hl1 (by
      intro j hj
      have : (j + 1) * E.P.wotsBytes ≤ E.L * E.P.wotsBytes := Nat.mul_le_mul_right _ hj
      rw [Nat.succ_mul] at this
      rw [List.length_drop, h1, Nat.zero_add, ← hwb]
      omega) hP.len_n
  have e7 := wrLanes_all (b := dest) hdest (o := fun j => S.T ctx.pub_seed ⟨layer, tree, WOTS_PK, kp + j, 0, 0⟩
    ((pkb.drop (0 + j * E.P.wotsBytes)).take (E.P.wotsLen * E.P.n))) (fun j _ => R.T_len ..)
  unfold wots_gen_leafx
  simp only
  rw [hmi]
  simp only
  rw [ela, ok_bind, epa, ok_bind, hs', ok_bind]
  simp only
  rw [e5, ok_bind, e6, ok_bind, e7, ok_bind]
  rw [h3, h4]
  congr 2
  · apply cat_congr
    intro j hj
    rw [Nat.zero_add, hwb, lane_chunks (by rw [h1, hwb]) hj]
    unfold wotsPk
    rw [toSpec_len hP.wots, toSpec_w hP.w]
    congr 1
    apply cat_congr
    intro i hi
    rw [h2 j i hj hi, hfd]
  · congr 1
    by_cases hk : kp / E.L = info.wots_sign_leaf / E.L
    · rw [if_pos hk, if_pos hk, List.drop_of_length_le (by rw [hsig]; exact Nat.le_refl _), List.append_nil]
      unfold wotsSigOf
      apply cat_congr
      intro i hi
      rw [hfs, (hyes hk).2]
    · rw [if_neg hk, if_neg hk]

end
end Spx
