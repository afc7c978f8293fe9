import Verif.Proof.Sort
import Verif.Proof.Wots
/-! `gen_chains` of the parallel code. -/

namespace Spx
open Spec

/-- The buffers with the first `g` lanes active. -/
def bufsAt (L : Nat) (c : Nat → Nat) (g : Nat) : List Buf :=
  (List.range L).map fun j => if j < g then Buf.out (c j) else .empty

theorem bufsAt_set {L : Nat} {c : Nat → Nat} {g : Nat} :
    (bufsAt L c (g + 1)).set g .empty = bufsAt L c g := by
  unfold bufsAt
  rw [map_range_set]
  apply List.map_congr_left
  intro j _
  by_cases h : j = g
  · subst h; simp
  · by_cases h2 : j < g
    · rw [if_neg h, if_pos (by omega), if_pos h2]
    · rw [if_neg h, if_neg (by omega), if_neg h2]

theorem bufsAt_length {L : Nat} {c : Nat → Nat} {g : Nat} : (bufsAt L c g).length = L := by
  simp [bufsAt]

theorem bufsAt_rd1 {L : Nat} {c : Nat → Nat} {g j : Nat} (hj : j < L) :
    rd1 (bufsAt L c g) j = .ok (if j < g then Buf.out (c j) else .empty) := by
  rw [rd1_ok (by rw [bufsAt_length]; exact hj)]
  simp [bufsAt]

/-- Lanes whose chain is complete are retired. -/
theorem chains_watch_spec {steps idxs : List Nat} {i k L : Nat} {c s : Nat → Nat} :
    ∀ (wt fuel : Nat), wt < fuel → wt < L →
    (∀ j, j ≤ wt → rd1 idxs (i + j) = .ok (c j)) → (∀ j, j ≤ wt → rd1 steps (c j) = .ok (s j)) →
    ∃ done bufs wt', loop fuel (chains_watch steps idxs i k) (bufsAt L c (wt + 1), wt) = .ok (done, bufs, wt') ∧
      ((done = true ∧ bufs.length = L ∧ ∀ j, j ≤ wt → s j = k) ∨
       (done = false ∧ bufs = bufsAt L c (wt' + 1) ∧ wt' ≤ wt ∧ s wt' ≠ k ∧
          ∀ j, wt' < j → j ≤ wt → s j = k)) := by
  intro wt
  induction wt with
  | zero =>
    intro fuel hf hL h1 h2
    obtain ⟨f, rfl⟩ : ∃ f, fuel = f + 1 := ⟨fuel - 1, by omega⟩
    rw [loop_succ]
    unfold chains_watch
    simp only
    rw [h1 0 (by omega)]
    simp only [ok_bind]
    rw [h2 0 (by omega)]
    simp only [ok_bind]
    by_cases hk : k = s 0
    · rw [if_pos hk, wr1_ok (by rw [bufsAt_length]; exact hL)]
      refine ⟨true, _, 0, rfl, Or.inl ⟨rfl, by simp [bufsAt_length], ?_⟩⟩
      intro j hj
      rw [show j = 0 by omega, hk]
    · rw [if_neg hk]
      refine ⟨false, _, 0, rfl, Or.inr ⟨rfl, rfl, by omega, fun h => hk h.symm, fun j h3 h4 => by omega⟩⟩
  | succ wt ih =>
    intro fuel hf hL h1 h2
    obtain ⟨f, rfl⟩ : ∃ f, fuel = f + 1 := ⟨fuel - 1, by omega⟩
    rw [loop_succ]
    by_cases hk : k = s (wt + 1)
    · have hstep : chains_watch steps idxs i k (bufsAt L c (wt + 1 + 1), wt + 1) =
          .ok (.inl (bufsAt L c (wt + 1), wt)) := by
        unfold chains_watch
        simp only
        rw [h1 (wt + 1) (by omega)]
        simp only [ok_bind]
        rw [h2 (wt + 1) (by omega)]
        simp only [ok_bind]
        rw [if_pos hk, wr1_ok (by rw [bufsAt_length]; exact hL), bufsAt_set]
        simp only [ok_bind]
        rw [if_neg (by omega), Nat.add_sub_cancel]
      rw [hstep]
      obtain ⟨done, bufs, wt', e, hcase⟩ := ih f (by omega) (by omega) (fun j hj => h1 j (by omega))
        (fun j hj => h2 j (by omega))
      refine ⟨done, bufs, wt', e, ?_⟩
      rcases hcase with ⟨h3, h4, h5⟩ | ⟨h3, h4, h5, h6, h7⟩
      · refine Or.inl ⟨h3, h4, fun j hj => ?_⟩
        rcases Nat.lt_or_ge j (wt + 1) with h | h
        · exact h5 j (by omega)
        · rw [show j = wt + 1 by omega, hk]
      · refine Or.inr ⟨h3, h4, by omega, h6, fun j hj hj2 => ?_⟩
        rcases Nat.lt_or_ge j (wt + 1) with h | h
        · exact h7 j hj (by omega)
        · rw [show j = wt + 1 by omega, hk]
    · have hstep : chains_watch steps idxs i k (bufsAt L c (wt + 1 + 1), wt + 1) =
          .ok (.inr (false, bufsAt L c (wt + 1 + 1), wt + 1)) := by
        unfold chains_watch
        simp only
        rw [h1 (wt + 1) (by omega)]
        simp only [ok_bind]
        rw [h2 (wt + 1) (by omega)]
        simp only [ok_bind]
        rw [if_neg hk]
      rw [hstep]
      exact ⟨false, _, wt + 1, rfl, Or.inr ⟨rfl, rfl, by omega, fun h => hk h.symm, fun j h3 h4 => by omega⟩⟩

/-- The lanes without a chain are retired at the start. -/
theorem chains_trim_spec {E : EnvX} {i g : Nat} {c : Nat → Nat} {old : Nat → Buf} (hg : 1 ≤ g)
    (hgl : ∀ j, j < E.L → (E.P.wotsLen ≤ i + j ↔ g ≤ j)) :
    ∀ (d fuel : Nat), d < fuel → g + d ≤ E.L →
    loop fuel (chains_trim E i) ((List.range E.L).map (fun j => if j < g then Buf.out (c j)
        else if g + d ≤ j then .empty else old j), g + d - 1) = .ok (bufsAt E.L c g, g - 1) := by
  intro d
  induction d with
  | zero =>
    intro fuel hf hL
    obtain ⟨f, rfl⟩ : ∃ f, fuel = f + 1 := ⟨fuel - 1, by omega⟩
    rw [loop_succ]
    unfold chains_trim
    simp only
    rw [if_neg (by rw [hgl _ (by omega)]; omega)]
    simp only [ok_bind, Nat.add_zero]
    congr 2
    apply List.map_congr_left
    intro j _
    by_cases h : j < g
    · rw [if_pos h, if_pos h]
    · rw [if_neg h, if_neg h, if_pos (by omega)]
  | succ d ih =>
    intro fuel hf hL
    obtain ⟨f, rfl⟩ : ∃ f, fuel = f + 1 := ⟨fuel - 1, by omega⟩
    rw [loop_succ]
    have hstep : chains_trim E i ((List.range E.L).map (fun j => if j < g then Buf.out (c j)
        else if g + (d + 1) ≤ j then .empty else old j), g + (d + 1) - 1) =
        .ok (.inl ((List.range E.L).map (fun j => if j < g then Buf.out (c j)
        else if g + d ≤ j then .empty else old j), g + d - 1)) := by
      unfold chains_trim
      simp only
      rw [if_pos (by rw [hgl _ (by omega)]; omega), wr1_ok (by simp; omega), map_range_set]
      simp only [ok_bind]
      rw [if_neg (by omega), show g + (d + 1) - 1 = g + d by omega]
      congr 3
      apply List.map_congr_left
      intro j _
      by_cases h : j = g + d
      · subst h
        rw [if_pos rfl, if_neg (by omega), if_pos (Nat.le_refl _)]
      · rw [if_neg h]
        by_cases h2 : j < g
        · rw [if_pos h2, if_pos h2]
        · rw [if_neg h2, if_neg h2]
          by_cases h3 : g + d ≤ j
          · rw [if_pos h3, if_pos (by omega)]
          · rw [if_neg h3, if_neg (by omega)]
    rw [hstep]
    exact ih f (by omega) (by omega)

/-- A WOTS+ address of this key pair. -/
def WAddr (f : Family) (layer tree kp : Nat) (x : Addr) : Prop :=
  ∃ u v, u < 256 ∧ v < 256 ∧ x = enc f ⟨layer, tree, WOTS_HASH, kp, u, v⟩

section
variable {E : EnvX} {S : Spec.Hash} {R : Refines E.P E.H S} (RX : LaneRefines E R) (hP : E.P.Valid)
  {ctx : Ctx} (hctx : R.CtxOK ctx) {layer tree kp : Nat} (hlay : layer < 256) (htr : tree < 2 ^ 64)
  (hkp : kp < 2 ^ 32)

/-- The lane outputs are written to their buffers. -/
theorem writeBufs_spec {out empty : Bytes} {c : Nat → Nat} {g L len n : Nat} {o : Nat → Bytes}
    (hn : E.P.n = n) (hgL : g ≤ L) (hout : out.length = len * n) (hemp : empty.length = n)
    (ho : ∀ j, j < L → (o j).length = n) (hc : ∀ j, j < g → c j < len)
    (hinj : ∀ i j, i < g → j < g → c i = c j → i = j) :
    ∃ out' empty', forRange L (fun j (s : Bytes × Bytes) => (do
        writeBuf E s.1 s.2 (← rd1 (bufsAt L c g) j) (← rd1 ((List.range L).map o) j) : C (Bytes × Bytes)))
          (out, empty) = .ok (out', empty') ∧
      out'.length = len * n ∧ empty'.length = n ∧
      (∀ j, j < g → chunk n out' (c j) = o j) ∧
      (∀ m, (∀ j, j < g → c j ≠ m) → chunk n out' m = chunk n out m) := by
  obtain ⟨⟨out', empty'⟩, e, h1, h2, h3, h4⟩ := forRange_inv (n := L)
    (body := fun j (s : Bytes × Bytes) => (do
        writeBuf E s.1 s.2 (← rd1 (bufsAt L c g) j) (← rd1 ((List.range L).map o) j) : C (Bytes × Bytes)))
    (s := (out, empty))
    (fun t s => s.1.length = len * n ∧ s.2.length = n ∧
      (∀ j, j < g → j < t → chunk n s.1 (c j) = o j) ∧
      (∀ m, (∀ j, j < g → j < t → c j ≠ m) → chunk n s.1 m = chunk n out m))
    ⟨hout, hemp, fun j _ h => by omega, fun _ _ => rfl⟩ (by
      rintro t ⟨b, em⟩ ht ⟨h1, h2, h3, h4⟩
      simp only at h1 h2 h3 h4
      have hr : rd1 ((List.range L).map o) t = .ok (o t) := by
        rw [rd1_ok (by simp; exact ht)]; simp
      simp only
      rw [bufsAt_rd1 ht, hr]
      simp only [ok_bind]
      by_cases hg : t < g
      · rw [if_pos hg]
        unfold writeBuf
        simp only
        rw [hn, Nat.mul_comm]
        have hb : (c t + 1) * n ≤ b.length := by rw [h1]; exact Nat.mul_le_mul_right _ (hc t hg)
        obtain ⟨b2, hb2⟩ := wr_exists (b := b) (d := o t) (off := c t * n) (by
          rw [ho t ht]; rw [Nat.succ_mul] at hb; exact hb)
        rw [hb2]
        simp only [ok_bind]
        refine ⟨_, rfl, by simp only [wr_length hb2, h1], h2, ?_, ?_⟩
        · intro j hj hjt
          simp only
          by_cases he : j = t
          · subst he
            exact wr_chunk_same (ho j ht) hb hb2
          · rw [wr_chunk_other (ho t ht) (fun hcc => he (hinj t j hg hj hcc).symm) hb2, h3 j hj (by omega)]
        · intro m hm
          simp only
          rw [wr_chunk_other (ho t ht) (hm t hg (by omega)) hb2]
          exact h4 m (fun j hj hjt => hm j hj (by omega))
      · rw [if_neg hg]
        unfold writeBuf
        simp only
        obtain ⟨b2, hb2⟩ := wr_exists (b := em) (d := o t) (off := 0) (by rw [ho t ht, h2]; omega)
        rw [hb2]
        simp only [ok_bind]
        refine ⟨_, rfl, h1, by simp only [wr_length hb2, h2], ?_, ?_⟩
        · intro j hj hjt
          exact h3 j hj (by omega)
        · intro m hm
          exact h4 m (fun j hj hjt => hm j hj (by omega)))
  exact ⟨out', empty', e, h1, h2, fun j hj => h3 j hj (by omega), fun m hm => h4 m (fun j hj _ => hm j hj)⟩

/-- State of a group of chains after `k` steps. -/
structure ChainsInv (E : EnvX) (F : Nat → Nat → Bytes → Bytes) (layer tree kp : Nat) (out0 : Bytes)
    (c s a : Nat → Nat) (g k : Nat) (st : ChainsK) : Prop where
  hk : st.k = k
  wt : st.watching < g
  bufs : st.bufs = bufsAt E.L c (st.watching + 1)
  act : ∀ j, j ≤ st.watching → k ≤ s j
  fin : ∀ j, st.watching < j → j < g → s j ≤ k
  len : st.out.length = E.P.wotsLen * E.P.n
  elen : st.empty.length = E.P.n
  out : ∀ j, j < g → chunk E.P.n st.out (c j) =
    chain (F (c j)) (chunk E.P.n out0 (c j)) (a j) (min k (s j))
  other : ∀ m, (∀ j, j < g → c j ≠ m) → chunk E.P.n st.out m = chunk E.P.n out0 m
  addr : ∃ A : Nat → ADRS, st.addrs = (List.range E.L).map (fun j => enc E.P.fam (A j)) ∧
    (∀ j, j < E.L → ∃ u v, u < 256 ∧ v < 256 ∧ A j = ⟨layer, tree, WOTS_HASH, kp, u, v⟩) ∧
    (∀ j, j < g → ∃ v, v < 256 ∧ A j = ⟨layer, tree, WOTS_HASH, kp, c j, v⟩)

include RX hP hctx hlay htr hkp in
theorem chains_step_spec {start steps idxs : List Nat} {out0 : Bytes} {c s a : Nat → Nat} {i g k : Nat}
    (hgL : g ≤ E.L) (hg : 1 ≤ g)
    (h1 : ∀ j, j < g → rd1 idxs (i + j) = .ok (c j)) (h2 : ∀ j, j < g → rd1 steps (c j) = .ok (s j))
    (h3 : ∀ j, j < g → rd1 start (c j) = .ok (a j))
    (hmono : ∀ p q, p ≤ q → q < g → s q ≤ s p)
    (hc : ∀ j, j < g → c j < E.P.wotsLen) (hinj : ∀ i j, i < g → j < g → c i = c j → i = j)
    (hsum : ∀ j, j < g → a j + s j < E.P.w) {st : ChainsK}
    (hi : ChainsInv E (wotsF S ctx.pub_seed layer tree kp) layer tree kp out0 c s a g k st) :
    (k < s 0 → ∃ st', chains_step E start steps idxs ctx i st = .ok (.inl st') ∧
      ChainsInv E (wotsF S ctx.pub_seed layer tree kp) layer tree kp out0 c s a g (k + 1) st') ∧
    (k = s 0 → ∃ bufs, chains_step E start steps idxs ctx i st =
      .ok (.inr (st.out, st.empty, st.addrs, bufs)) ∧ bufs.length = E.L) := by
  have hw := hP.w_le
  have hlen := hP.len_le
  have hwt := hi.wt
  obtain ⟨done, bufs, wt', e, hcase⟩ := chains_watch_spec (steps := steps) (idxs := idxs) (i := i) (k := k)
    (L := E.L) (c := c) (s := s) st.watching (E.L + 1) (by omega) (by omega) (fun j hj => h1 j (by omega))
    (fun j hj => h2 j (by omega))
  constructor
  · intro hk
    rcases hcase with ⟨d1, d2, d3⟩ | ⟨d1, d2, d3, d4, d5⟩
    · have := d3 0 (by omega); omega
    · have hks : ∀ j, j ≤ wt' → k < s j := by
        intro j hj
        have e1 := hi.act wt' d3
        have e2 := hmono j wt' hj (by omega)
        omega
      have hke : ∀ j, wt' < j → j < g → s j ≤ k := by
        intro j hj hjg
        rcases Nat.lt_or_ge st.watching j with h | h
        · exact hi.fin j h hjg
        · rw [d5 j hj h]; exact Nat.le_refl _
      obtain ⟨A, hA, hA1, hA2⟩ := hi.addr
      -- the addresses
      obtain ⟨A', hAp, hAn⟩ : ∃ A' : Nat → ADRS,
          (∀ j, j < wt' + 1 → A' j = ⟨layer, tree, WOTS_HASH, kp, c j, k + a j⟩) ∧
          (∀ j, ¬ j < wt' + 1 → A' j = A j) :=
        ⟨fun j => if j < wt' + 1 then ⟨layer, tree, WOTS_HASH, kp, c j, k + a j⟩ else A j,
          fun j h => if_pos h, fun j h => if_neg h⟩
      have elanes : lanes (wt' + 1) (fun j x => (do
          let sa ← rd1 start (← rd1 idxs (i + j))
          set_hash_addr E.P.fam x ((k + sa) % 2 ^ 32) : C Addr)) st.addrs =
          .ok ((List.range E.L).map fun j => enc E.P.fam (A' j)) := by
        rw [hA, lanes_part (k := wt' + 1) (L := E.L) (A := fun j => enc E.P.fam (A j))
          (B := fun j => enc E.P.fam ⟨layer, tree, WOTS_HASH, kp, c j, k + a j⟩) (by omega) (by
          intro j hj
          obtain ⟨v, hv, eA⟩ := hA2 j (by omega)
          have hs := hsum j (by omega)
          have hkj := hks j (by omega)
          rw [h1 j (by omega)]
          simp only [ok_bind]
          rw [h3 j (by omega)]
          simp only [ok_bind]
          rw [Nat.mod_eq_of_lt (by omega), eA]
          exact set_hash_enc (f := E.P.fam) (a := ⟨layer, tree, WOTS_HASH, kp, c j, v⟩) hv (by omega))]
        congr 1
        apply List.map_congr_left
        intro j _
        by_cases h : j < wt' + 1
        · rw [if_pos h, hAp j h]
        · rw [if_neg h, hAn j h]
      have hA'ok : ∀ j, j < E.L → ∃ u v, u < 256 ∧ v < 256 ∧ A' j = ⟨layer, tree, WOTS_HASH, kp, u, v⟩ := by
        intro j hj
        by_cases h : j < wt' + 1
        · have hs := hsum j (by omega)
          have hkj := hks j (by omega)
          have := hc j (by omega)
          exact ⟨c j, k + a j, by omega, by omega, hAp j h⟩
        · obtain ⟨u, v, hu, hv, eA⟩ := hA1 j hj
          exact ⟨u, v, hu, hv, (hAn j h).trans eA⟩
      -- the inputs
      have hcn : ∀ j, j < g → (c j + 1) * E.P.n ≤ st.out.length := by
        intro j hj; rw [hi.len]; exact Nat.mul_le_mul_right _ (hc j hj)
      obtain ⟨I, hIp, hIn⟩ : ∃ I : Nat → Bytes, (∀ j, j < wt' + 1 → I j = st.out.drop (c j * E.P.n)) ∧
          (∀ j, ¬ j < wt' + 1 → I j = st.empty) :=
        ⟨fun j => if j < wt' + 1 then st.out.drop (c j * E.P.n) else st.empty,
          fun j h => if_pos h, fun j h => if_neg h⟩
      have hIl : ∀ j, j < E.L → 1 * E.P.n ≤ (I j).length := by
        intro j hj
        by_cases h : j < wt' + 1
        · rw [hIp j h, List.length_drop]
          have := hcn j (by omega)
          rw [Nat.succ_mul] at this
          omega
        · rw [hIn j h, hi.elen]; omega
      have eins : tabulate E.L (fun j => (do readBuf E st.out st.empty (← rd1 bufs j) : C Bytes)) =
          .ok ((List.range E.L).map I) := by
        refine tabulate_ok ?_
        intro j hj
        rw [d2, bufsAt_rd1 hj]
        simp only [ok_bind]
        by_cases h : j < wt' + 1
        · rw [if_pos h, hIp j h]
          have := hcn j (by omega)
          rw [Nat.succ_mul] at this
          unfold readBuf
          simp only
          rw [Nat.mul_comm, sub_ok (by omega)]
        · rw [if_neg h, hIn j h]
          rfl
      have hn := hP.n_lt
      have eth := RX.thashx ctx A' I 1 hctx (by
        intro j hj
        obtain ⟨u, v, hu, hv, eA⟩ := hA'ok j hj
        rw [eA]
        exact okA hlay htr (by decide) hkp hu (by omega)) (by omega) hIl (by omega)
      obtain ⟨out', empty', ew, w1, w2, w3, w4⟩ := writeBufs_spec (E := E) (out := st.out) (empty := st.empty) (c := c)
        (g := wt' + 1) (L := E.L) (len := E.P.wotsLen) (n := E.P.n)
        (o := fun j => S.T ctx.pub_seed (A' j) ((I j).take (1 * E.P.n))) rfl (by omega) hi.len hi.elen
        (fun j _ => R.T_len ..) (fun j hj => hc j (by omega)) (fun p q hp hq => hinj p q (by omega) (by omega))
      refine ⟨{ out := out', empty := empty', addrs := (List.range E.L).map fun j => enc E.P.fam (A' j),
                bufs, watching := wt', k := k + 1 }, ?_, ?_⟩
      · unfold chains_step
        rw [hi.bufs, hi.hk, e, ok_bind]
        simp only
        rw [d1, if_neg (by decide), elanes]
        simp only [ok_bind]
        rw [eins]
        simp only [ok_bind]
        rw [eth]
        simp only [ok_bind]
        rw [d2, ew]
        rfl
      · refine ⟨rfl, by show wt' < g; omega, d2, ?_, ?_, w1, w2, ?_, ?_, A', rfl, hA'ok, ?_⟩
        · intro j hj; exact hks j hj
        · intro j hj hjg
          have := hke j hj hjg
          omega
        · intro j hj
          simp only
          by_cases h : j < wt' + 1
          · have hkj := hks j (by omega)
            rw [w3 j h, show min (k + 1) (s j) = k + 1 by omega, chain]
            have ho := hi.out j hj
            rw [show min k (s j) = k by omega] at ho
            rw [← ho]
            rw [hAp j h, hIp j h, Nat.one_mul, Nat.add_comm (a j) k]
            rfl
          · have hs := hke j (by omega) hj
            rw [w4 (c j) (fun q hq hcc => by have := hinj q j (by omega) hj hcc; omega), hi.out j hj]
            congr 1
            omega
        · intro m hm
          simp only
          rw [w4 m (fun j hj => hm j (by omega)), hi.other m hm]
        · intro j hj
          by_cases h : j < wt' + 1
          · have hs := hsum j (by omega)
            have hkj := hks j (by omega)
            exact ⟨k + a j, by omega, hAp j h⟩
          · obtain ⟨v, hv, eA⟩ := hA2 j hj
            exact ⟨v, hv, (hAn j h).trans eA⟩
  · intro hk
    rcases hcase with ⟨d1, d2, d3⟩ | ⟨d1, d2, d3, d4, d5⟩
    · refine ⟨bufs, ?_, d2⟩
      unfold chains_step
      rw [hi.bufs, hi.hk, e, ok_bind]
      simp only
      rw [d1, if_pos rfl]
    · have e1 := hi.act wt' d3
      have e2 := hmono 0 wt' (by omega) (by omega)
      omega

/-- State between groups. -/
structure GroupOK (E : EnvX) (layer tree kp : Nat) (s : Bytes × Bytes × List Addr × List Buf) : Prop where
  len : s.1.length = E.P.wotsLen * E.P.n
  elen : s.2.1.length = E.P.n
  addr : ∃ A : Nat → ADRS, s.2.2.1 = (List.range E.L).map (fun j => enc E.P.fam (A j)) ∧
    (∀ j, j < E.L → ∃ u v, u < 256 ∧ v < 256 ∧ A j = ⟨layer, tree, WOTS_HASH, kp, u, v⟩)
  bufs : s.2.2.2.length = E.L

include RX hP hctx hlay htr hkp in
/-- One group of chains. -/
theorem chains_group_spec {start steps idxs : List Nat} {i : Nat} (hi : i < E.P.wotsLen)
    (hsl : steps.length = E.P.wotsLen) (hal : start.length = E.P.wotsLen)
    (hsum : ∀ c, c < E.P.wotsLen → start.getD c 0 + steps.getD c 0 < E.P.w)
    (hs : Sorted (fun c => steps.getD c 0) E.P.wotsLen idxs)
    {s : Bytes × Bytes × List Addr × List Buf} (hok : GroupOK E layer tree kp s) :
    ∃ s', chains_group E start steps idxs ctx i s = .ok s' ∧ GroupOK E layer tree kp s' ∧
      (∀ p, i ≤ p → p < i + E.L → p < E.P.wotsLen → chunk E.P.n s'.1 (idxs.getD p 0) =
        chain (wotsF S ctx.pub_seed layer tree kp (idxs.getD p 0)) (chunk E.P.n s.1 (idxs.getD p 0))
          (start.getD (idxs.getD p 0) 0) (steps.getD (idxs.getD p 0) 0)) ∧
      (∀ p, p < E.P.wotsLen → ¬(i ≤ p ∧ p < i + E.L) →
        chunk E.P.n s'.1 (idxs.getD p 0) = chunk E.P.n s.1 (idxs.getD p 0)) := by
  obtain ⟨out0, empty0, addrs0, bufs0⟩ := s
  obtain ⟨k1, k2, ⟨A0, k3, k4⟩, k5⟩ := hok
  simp only at k1 k2 k3 k5
  have hlen := hP.len_le
  have hw := hP.w_le
  have hLp : 0 < E.L := Nat.two_pow_pos _
  generalize hg : min E.L (E.P.wotsLen - i) = g
  have hg1 : 1 ≤ g := by omega
  have hgL : g ≤ E.L := by omega
  have hgi : ∀ j, j < g → i + j < E.P.wotsLen := by intro j hj; omega
  obtain ⟨c, hcd⟩ : ∃ c : Nat → Nat, ∀ j, c j = idxs.getD (i + j) 0 := ⟨_, fun _ => rfl⟩
  have hc : ∀ j, j < g → c j < E.P.wotsLen := by intro j hj; rw [hcd]; exact hs.lt _ (hgi j hj)
  have hinj : ∀ p q, p < g → q < g → c p = c q → p = q := by
    intro p q hp hq h
    rw [hcd, hcd] at h
    have := hs.inj _ _ (hgi p hp) (hgi q hq) h
    omega
  have h1 : ∀ j, j < g → rd1 idxs (i + j) = .ok (c j) := by
    intro j hj
    have := hgi j hj
    rw [rd1_ok (by rw [hs.hlen]; exact this), hcd, getD_lt (by rw [hs.hlen]; exact this)]
  have h2 : ∀ j, j < g → rd1 steps (c j) = .ok (steps.getD (c j) 0) := by
    intro j hj
    have := hc j hj
    rw [rd1_ok (by omega), getD_lt (by omega)]
  have h3 : ∀ j, j < g → rd1 start (c j) = .ok (start.getD (c j) 0) := by
    intro j hj
    have := hc j hj
    rw [rd1_ok (by omega), getD_lt (by omega)]
  have hmono : ∀ p q, p ≤ q → q < g → steps.getD (c q) 0 ≤ steps.getD (c p) 0 := by
    intro p q hpq hq
    rw [hcd, hcd]
    exact hs.mono _ _ (by omega) (hgi q hq)
  -- chain addresses
  obtain ⟨A1, hAp, hAn⟩ : ∃ A1 : Nat → ADRS,
      (∀ j, j < g → ∃ v, v < 256 ∧ A1 j = ⟨layer, tree, WOTS_HASH, kp, c j, v⟩ ∧
        set_chain_addr E.P.fam (enc E.P.fam (A0 j)) (c j) = .ok (enc E.P.fam (A1 j))) ∧
      (∀ j, ¬ j < g → A1 j = A0 j) := by
    refine ⟨fun j => if j < g then { A0 j with w2 := c j } else A0 j, ?_, fun j h => if_neg h⟩
    intro j hj
    obtain ⟨u, v, hu, hv, e⟩ := k4 j (by omega)
    have := hc j hj
    refine ⟨v, hv, ?_, ?_⟩
    · simp only [if_pos hj, e]
    · simp only [if_pos hj, e]
      exact set_chain_enc (f := E.P.fam) (a := ⟨layer, tree, WOTS_HASH, kp, u, v⟩)
        (okA hlay htr (by decide) hkp hu (by omega)) (by omega)
  have e1 : lanes g (fun j x => (do set_chain_addr E.P.fam x (← rd1 idxs (i + j)) : C Addr)) addrs0 =
      .ok ((List.range E.L).map fun j => enc E.P.fam (A1 j)) := by
    rw [k3, lanes_part (k := g) (L := E.L) (A := fun j => enc E.P.fam (A0 j))
      (B := fun j => enc E.P.fam (A1 j)) hgL (by
        intro j hj
        obtain ⟨v, -, -, e⟩ := hAp j hj
        rw [h1 j hj]
        simp only [ok_bind]
        exact e)]
    congr 1
    apply List.map_congr_left
    intro j _
    by_cases h : j < g
    · rw [if_pos h]
    · rw [if_neg h, hAn j h]
  have e2 : forRange g (fun j bufs => (do wr1 bufs j (.out (← rd1 idxs (i + j))) : C (List Buf))) bufs0 =
      .ok ((List.range E.L).map fun j => if j < g then Buf.out (c j)
        else if g + (E.L - g) ≤ j then .empty else bufs0.getD j .none) := by
    refine forRange_eq' (fun t => (List.range E.L).map fun j => if j < t then Buf.out (c j)
        else bufs0.getD j .none) ?_ ?_ ?_
    · apply List.ext_getElem?
      intro j
      by_cases hj : j < E.L
      · simp [hj, k5]
      · simp [hj, k5]
    · apply List.map_congr_left
      intro j hj
      have := List.mem_range.mp hj
      by_cases h : j < g
      · rw [if_pos h, if_pos h]
      · rw [if_neg h, if_neg h, if_neg (by omega)]
    · intro t ht
      rw [h1 t ht]
      simp only [ok_bind]
      rw [wr1_ok (by simp; omega), map_range_set]
      congr 1
      apply List.map_congr_left
      intro j _
      by_cases h : j = t
      · subst h; simp
      · by_cases h4 : j < t
        · rw [if_neg h, if_pos h4, if_pos (by omega)]
        · rw [if_neg h, if_neg h4, if_neg (by omega)]
  have e3 := chains_trim_spec (E := E) (i := i) (g := g) (c := c) (old := fun j => bufs0.getD j .none) hg1
    (fun j hj => by omega) (E.L - g) (E.L + 1) (by omega) (by omega)
  rw [show g + (E.L - g) - 1 = E.L - 1 by omega] at e3
  have hstep := fun k st => chains_step_spec RX hP hctx hlay htr hkp (start := start) (steps := steps) (idxs := idxs)
    (out0 := out0) (c := c) (s := fun j => steps.getD (c j) 0) (a := fun j => start.getD (c j) 0) (i := i) (g := g)
    (k := k) hgL hg1 h1 h2 h3 hmono hc hinj (fun j hj => hsum _ (hc j hj)) (st := st)
  have hs0 := hsum (c 0) (hc 0 (by omega))
  obtain ⟨r, hr, hpost⟩ := loop_inv (body := chains_step E start steps idxs ctx i) (fuel := 2 ^ 32)
    (fun k st => ChainsInv E (wotsF S ctx.pub_seed layer tree kp) layer tree kp out0 c
      (fun j => steps.getD (c j) 0) (fun j => start.getD (c j) 0) g k st)
    (fun r => GroupOK E layer tree kp r ∧
      (∀ j, j < g → chunk E.P.n r.1 (c j) = chain (wotsF S ctx.pub_seed layer tree kp (c j))
        (chunk E.P.n out0 (c j)) (start.getD (c j) 0) (steps.getD (c j) 0)) ∧
      (∀ m, (∀ j, j < g → c j ≠ m) → chunk E.P.n r.1 m = chunk E.P.n out0 m))
    (steps.getD (c 0) 0)
    (fun k st hk hinv => (hstep k st hinv).1 hk)
    (fun st hinv => by
      obtain ⟨bufs, hb, hbl⟩ := (hstep _ st hinv).2 rfl
      obtain ⟨A, a1, a2, a3⟩ := hinv.addr
      refine ⟨_, hb, ⟨hinv.len, hinv.elen, ⟨A, a1, a2⟩, hbl⟩, ?_, hinv.other⟩
      intro j hj
      have hm := hmono 0 j (by omega) hj
      have ho := hinv.out j hj
      rw [Nat.min_eq_right hm] at ho
      exact ho)
    (by omega)
    (s := { out := out0, empty := empty0, addrs := (List.range E.L).map fun j => enc E.P.fam (A1 j),
            bufs := bufsAt E.L c g, watching := g - 1, k := 0 })
    (by
      refine ⟨rfl, by show g - 1 < g; omega, ?_, fun j _ => Nat.zero_le _, fun j h4 h5 => ?_, k1, k2, ?_, fun m _ => rfl,
        A1, rfl, ?_, ?_⟩
      · simp only
        rw [Nat.sub_add_cancel hg1]
      · simp only at h4; omega
      · intro j hj
        rw [Nat.zero_min]
        rfl
      · intro j hj
        by_cases h : j < g
        · obtain ⟨v, hv, e, -⟩ := hAp j h
          have := hc j h
          exact ⟨c j, v, by omega, hv, e⟩
        · rw [hAn j h]; exact k4 j hj
      · intro j hj
        obtain ⟨v, hv, e, -⟩ := hAp j hj
        exact ⟨v, hv, e⟩)
  obtain ⟨p1, p2, p3⟩ := hpost
  refine ⟨r, ?_, p1, ?_, ?_⟩
  · unfold chains_group
    simp only
    rw [hg, e1]
    simp only [ok_bind]
    rw [e2]
    simp only [ok_bind]
    rw [e3, ok_bind]
    simp only
    exact hr
  · intro p hp1 hp2 hp3
    have := p2 (p - i) (by omega)
    rw [hcd, show i + (p - i) = p by omega] at this
    exact this
  · intro p hp1 hp2
    refine p3 _ ?_
    intro j hj hcc
    rw [hcd] at hcc
    have := hs.inj _ _ (hgi j hj) hp1 hcc
    omega

include RX hP hctx hlay htr hkp in
/-- `gen_chains` completes every chain. -/
theorem gen_chains_spec {start steps : List Nat} {out inp : Bytes} {u v : Nat} (hu : u < 256) (hv : v < 256)
    (hsl : steps.length = E.P.wotsLen) (hal : start.length = E.P.wotsLen)
    (hsum : ∀ c, c < E.P.wotsLen → start.getD c 0 + steps.getD c 0 < E.P.w)
    (hout : out.length = E.P.wotsLen * E.P.n) (hinp : E.P.wotsLen * E.P.n ≤ inp.length) :
    gen_chains E out inp start steps ctx (enc E.P.fam ⟨layer, tree, WOTS_HASH, kp, u, v⟩) =
      .ok (cat E.P.wotsLen fun c => chain (wotsF S ctx.pub_seed layer tree kp c) (chunk E.P.n inp c)
        (start.getD c 0) (steps.getD c 0)) := by
  have hlen := hP.len_le
  have hw := hP.w_le
  have hLp : 0 < E.L := Nat.two_pow_pos _
  obtain ⟨idxs, e1, hs⟩ := sort_chains_spec E (steps := steps) (by omega) (by omega) hsl
    (fun c hc => by have := hsum c hc; omega)
  have hol : (inp.take (E.P.wotsLen * E.P.n)).length = E.P.wotsLen * E.P.n := by simp; omega
  have hoc : ∀ c, c < E.P.wotsLen → chunk E.P.n (inp.take (E.P.wotsLen * E.P.n)) c = chunk E.P.n inp c := by
    intro c hc
    have h1 : (c + 1) * E.P.n ≤ E.P.wotsLen * E.P.n := Nat.mul_le_mul_right _ hc
    rw [Nat.succ_mul] at h1
    unfold chunk
    rw [List.drop_take, List.take_take, Nat.min_eq_left (by omega)]
  obtain ⟨s', hs', hok, hdone, -⟩ := forRange_inv (n := (E.P.wotsLen + (E.L - 1)) / E.L)
    (body := fun t s => chains_group E start steps idxs ctx (t * E.L) s)
    (s := (inp.take (E.P.wotsLen * E.P.n), uninit (E.G 33) E.P.n,
      List.replicate E.L (enc E.P.fam ⟨layer, tree, WOTS_HASH, kp, u, v⟩), List.replicate E.L Buf.none))
    (fun t s => GroupOK E layer tree kp s ∧
      (∀ p, p < E.P.wotsLen → p < t * E.L → chunk E.P.n s.1 (idxs.getD p 0) =
        chain (wotsF S ctx.pub_seed layer tree kp (idxs.getD p 0)) (chunk E.P.n inp (idxs.getD p 0))
          (start.getD (idxs.getD p 0) 0) (steps.getD (idxs.getD p 0) 0)) ∧
      (∀ p, p < E.P.wotsLen → t * E.L ≤ p →
        chunk E.P.n s.1 (idxs.getD p 0) = chunk E.P.n inp (idxs.getD p 0)))
    ⟨⟨hol, uninit_length .., ⟨fun _ => ⟨layer, tree, WOTS_HASH, kp, u, v⟩, replicate_map .., fun j _ =>
        ⟨u, v, hu, hv, rfl⟩⟩, by simp⟩, fun p _ h => by omega, fun p hp _ => hoc _ (hs.lt p hp)⟩
    (by
      rintro t s ht ⟨g1, g2, g3⟩
      have hti : t * E.L < E.P.wotsLen := by
        have h1 : (t + 1) * E.L ≤ E.P.wotsLen + (E.L - 1) := (Nat.le_div_iff_mul_le hLp).mp ht
        rw [Nat.succ_mul] at h1
        omega
      obtain ⟨s', e, h1, h2, h3⟩ := chains_group_spec RX hP hctx hlay htr hkp hti hsl hal hsum hs g1
      refine ⟨s', e, h1, ?_, ?_⟩
      · intro p hp hpt
        rw [Nat.succ_mul] at hpt
        rcases Nat.lt_or_ge p (t * E.L) with h | h
        · rw [h3 p hp (by omega), g2 p hp h]
        · rw [h2 p h hpt hp, g3 p hp h]
      · intro p hp hpt
        rw [Nat.succ_mul] at hpt
        rw [h3 p hp (by omega), g3 p hp (by omega)])
  have hcover : E.P.wotsLen ≤ (E.P.wotsLen + (E.L - 1)) / E.L * E.L := by
    have h1 := Nat.div_add_mod (E.P.wotsLen + (E.L - 1)) E.L
    have h2 := Nat.mod_lt (E.P.wotsLen + (E.L - 1)) hLp
    rw [Nat.mul_comm] at h1
    omega
  unfold gen_chains
  rw [rd_ok (by omega), ok_bind, List.drop_zero, wr_whole (by rw [hol, hout]), ok_bind, e1, ok_bind]
  rw [hs', ok_bind]
  obtain ⟨o, rest⟩ := s'
  simp only
  congr 1
  refine eq_cat_of_chunks hok.len ?_
  intro c hc
  obtain ⟨p, hp, hpc⟩ := hs.surj c hc
  have := hdone p hp (by omega)
  rw [hpc] at this
  exact this

include RX hP hctx hlay htr hkp in
/-- The parallel `wots_pk_from_sig` completes all chains. -/
theorem wots_pk_from_sigx_spec {u v : Nat} (hu : u < 256) (hv : v < 256) {pk sig msg : Bytes}
    (hpk : pk.length = E.P.wotsBytes) (hsig : E.P.wotsBytes ≤ sig.length) (hm : msg.length = E.P.n) :
    wots_pk_from_sigx E pk sig msg ctx (enc E.P.fam ⟨layer, tree, WOTS_HASH, kp, u, v⟩) =
      .ok (cat E.P.wotsLen (fun i =>
          chain (wotsF S ctx.pub_seed layer tree kp i) (chunk E.P.n sig i)
            ((lengths E.P.toSpec msg).getD i 0)
            (E.P.w - 1 - (lengths E.P.toSpec msg).getD i 0)),
          enc E.P.fam ⟨layer, tree, WOTS_HASH, kp, u, v⟩) := by
  have hw := hP.w_le
  have hlen := hP.len_le
  unfold wots_pk_from_sigx
  rw [chain_lengths_spec hP.wots (by simp) hm, ok_bind]
  generalize hL : lengths E.P.toSpec msg = L
  have hLl : L.length = E.P.wotsLen := by rw [← hL]; exact lengths_length hP.wots msg
  have hLw : ∀ i, L.getD i 0 < E.P.w := by rw [← hL]; exact lengths_getD_lt hP.wots msg
  have et : tabulate E.P.wotsLen (fun i => (do
      .ok ((E.P.w - 1 + 2 ^ 32 - (← rd1 L i)) % 2 ^ 32) : C Nat)) =
      .ok ((List.range E.P.wotsLen).map fun i => E.P.w - 1 - L.getD i 0) := by
    refine tabulate_ok ?_
    intro i hi
    have := hLw i
    rw [rd1_ok (by omega), getD_lt (by omega)]
    rw [getD_lt (by omega)] at this
    simp only [ok_bind]
    congr 1
    omega
  have hg : ∀ i, i < E.P.wotsLen →
      ((List.range E.P.wotsLen).map fun i => E.P.w - 1 - L.getD i 0).getD i 0 = E.P.w - 1 - L.getD i 0 := by
    intro i hi
    rw [getD_lt (by simp; exact hi)]
    simp
  rw [et, ok_bind, gen_chains_spec RX hP hctx hlay htr hkp hu hv (by simp) hLl (by
    intro c hc
    rw [hg c hc]
    have := hLw c
    omega) hpk hsig, ok_bind]
  congr 2
  apply cat_congr
  intro c hc
  rw [hg c hc]

end
end Spx
