import Verif.Proof.CountParallel
import Verif.Proof.CountVerify
import Verif.Proof.EraseVerifyX
import Verif.Proof.ChainsX
/-! # Calls made by verification in the optimised implementations -/

namespace Spx.Leak

open Spec

section
variable {f : Fn} {E : EnvX} {κ : Fn → Nat}

theorem free_sort_chains (E : EnvX) (steps : List Nat) : Free (sort_chains E steps) := by
  unfold sort_chains; free
macro_rules | `(tactic| free_leaf) => `(tactic| with_reducible exact free_sort_chains ..)

theorem free_readBuf (E : EnvX) (o e : Bytes) (b : Buf) : Free (readBuf E o e b) := by
  cases b <;> unfold readBuf <;> dsimp only <;> free
macro_rules | `(tactic| free_leaf) => `(tactic| with_reducible exact free_readBuf ..)

theorem free_writeBuf (E : EnvX) (o e : Bytes) (b : Buf) (d : Bytes) : Free (writeBuf E o e b d) := by
  cases b <;> unfold writeBuf <;> dsimp only <;> free
macro_rules | `(tactic| free_leaf) => `(tactic| with_reducible exact free_writeBuf ..)

theorem rd1_getD {l : List Nat} {i x : Nat} (h : Spx.rd1 l i = .ok x) : x = l.getD i 0 := by
  unfold Spx.rd1 at h
  split at h
  · next a ha =>
    cases h
    rw [List.getD_eq_getElem?_getD, ha]
    rfl
  · exact nomatch h

/-- The loop over the chains which are complete. -/
theorem count_watch {steps idxs : List Nat} {i k n : Nat} {bufs : List Buf} {w : Nat} {s : Nat → Nat}
    (hs : ∀ j, s j = steps.getD (idxs.getD (i + j) 0) 0) :
    Wp f (loop n (chains_watch steps idxs i k) (bufs, w)) fun r c => c = 0 ∧
      (r.1 = true → k = s 0) ∧ (r.1 = false → r.2.2 ≤ w ∧ k ≠ s r.2.2) := by
  refine Wp.loop (fun t => t.2 ≤ w) (fun r => (r.1 = true → k = s 0) ∧ (r.1 = false → r.2.2 ≤ w ∧ k ≠ s r.2.2))
    (fun _ => 0) (Nat.le_refl w) ?_ fun a ha => ⟨rfl, ha⟩
  rintro ⟨b, v⟩ hv
  dsimp only at hv
  unfold chains_watch
  dsimp only
  refine Wp.bind (Wp.free (by free) fun x hx => ?_)
  refine Wp.bind (Wp.free (by free) fun y hy => ?_)
  have e1 := rd1_getD hx
  have e2 := rd1_getD hy
  have e3 : y = s v := by rw [e2, e1, hs]
  refine Wp.branch (fun h => ?_) (fun h => ?_)
  · refine Wp.bind (Wp.free (by free) fun b' _ => ?_)
    refine Wp.branch (fun h0 => ?_) (fun h0 => ?_)
    · refine Wp.ok ⟨fun t' e => (nomatch e), fun a e => ?_⟩
      cases e
      refine ⟨⟨fun _ => ?_, fun e => (nomatch e)⟩, rfl⟩
      rw [h, e3, h0]
    · refine Wp.ok ⟨fun t' e => ?_, fun a e => (nomatch e)⟩
      cases e
      exact ⟨by show v - 1 ≤ w; omega, rfl⟩
  · refine Wp.ok ⟨fun t' e => (nomatch e), fun a e => ?_⟩
    cases e
    refine ⟨⟨fun e => (nomatch e), fun _ => ⟨hv, ?_⟩⟩, rfl⟩
    rw [← e3]
    exact h

theorem count_step (hx : LaneCost f E.X κ) {start steps idxs : List Nat} {ctx : Ctx} {i : Nat} {st : ChainsK} {s : Nat → Nat}
    (hs : ∀ j, s j = steps.getD (idxs.getD (i + j) 0) 0) :
    Wp f (chains_step E start steps idxs ctx i st) fun r c =>
      (∀ t, r = .inl t → c = κ (.thashx 1) ∧ t.k = st.k + 1 ∧ t.watching ≤ st.watching ∧ st.k ≠ s t.watching) ∧
      ∀ a, r = .inr a → c = 0 ∧ st.k = s 0 := by
  unfold chains_step
  refine Wp.bind ((count_watch hs).mono fun r c _ h => ?_)
  obtain ⟨done, bufs, w⟩ := r
  obtain ⟨rfl, h1, h2⟩ := h
  dsimp only at h1 h2 ⊢
  refine Wp.branch (fun h => ?_) (fun h => ?_)
  · refine Wp.ok ⟨fun t e => (nomatch e), fun a e => ⟨rfl, h1 h⟩⟩
  · skipb
    skipb
    refine Wp.bind (Wp.thashx hx (by omega) fun b _ => ?_)
    skipb
    refine Wp.ok ⟨fun t e => ?_, fun a e => (nomatch e)⟩
    cases e
    obtain ⟨h3, h4⟩ := h2 (by simpa using h)
    exact ⟨by omega, rfl, h3, h4⟩

theorem count_group (hx : LaneCost f E.X κ) {start steps idxs : List Nat} {ctx : Ctx} {i : Nat} {t : Bytes × Bytes × List Addr × List Buf}
    (hs : Sorted (fun c => steps.getD c 0) E.P.wotsLen idxs) :
    Wp f (chains_group E start steps idxs ctx i t) fun _ c =>
      c = steps.getD (idxs.getD i 0) 0 * κ (.thashx 1) := by
  obtain ⟨out, empty, addrs, bufs⟩ := t
  unfold chains_group
  dsimp only
  skipb
  skipb
  have ht : ∀ n b w, Wp f (loop n (chains_trim E i) (b, w)) fun r c => c = 0 ∧ i + r.2 < E.P.wotsLen := by
    intro n b w
    refine Wp.loop (fun _ => True) (fun r => i + r.2 < E.P.wotsLen) (fun _ => 0) trivial ?_ fun a ha => ⟨rfl, ha⟩
    rintro ⟨b, v⟩ -
    unfold chains_trim
    dsimp only
    refine Wp.branch (fun h => ?_) (fun h => ?_)
    · refine Wp.bind (Wp.free (by free) fun b' _ => ?_)
      by_cases h0 : v = 0
      · rw [if_pos h0]; exact Wp.error
      · rw [if_neg h0]
        exact Wp.ok ⟨fun t e => ⟨trivial, rfl⟩, fun a e => (nomatch e)⟩
    · refine Wp.ok ⟨fun t' e => (nomatch e), fun a e => ?_⟩
      cases e
      exact ⟨Nat.lt_of_not_le h, rfl⟩
  refine Wp.bind ((ht _ _ _).mono fun r c _ h => ?_)
  obtain ⟨b, w⟩ := r
  obtain ⟨rfl, hw⟩ := h
  dsimp only at hw ⊢
  generalize hsd : (fun j => steps.getD (idxs.getD (i + j) 0) 0) = s
  have hs' : ∀ j, s j = steps.getD (idxs.getD (i + j) 0) 0 := fun j => by rw [← hsd]
  have hm : ∀ p q, p ≤ q → i + q < E.P.wotsLen → s q ≤ s p := fun p q hpq hq => by
    rw [hs', hs']
    exact hs.mono (i + p) (i + q) (by omega) hq
  have e0 : steps.getD (idxs.getD i 0) 0 = s 0 := by rw [hs']; rfl
  rw [e0]
  refine Wp.loop (fun t => i + t.watching < E.P.wotsLen ∧ t.k ≤ s t.watching) (fun _ => True)
    (fun t => (s 0 - t.k) * κ (.thashx 1)) ⟨hw, Nat.zero_le _⟩ (fun t ht => ?_) fun a _ => ?_
  · refine (count_step hx hs').mono fun r c _ h => ⟨fun t' e => ?_, fun a e => ⟨trivial, ?_⟩⟩
    · obtain ⟨rfl, h1, h2, h3⟩ := h.1 t' e
      have h4 := hm t'.watching t.watching h2 ht.1
      have h5 := hm 0 t'.watching (by omega) (by omega)
      refine ⟨⟨by omega, by omega⟩, ?_⟩
      rw [h1, show s 0 - t.k = 1 + (s 0 - (t.k + 1)) by omega, Nat.add_mul, Nat.one_mul]
    · obtain ⟨rfl, h1⟩ := h.2 a e
      rw [h1, Nat.sub_self, Nat.zero_mul]
  · show 0 + (0 + (0 + (s 0 - 0) * _)) = _
    simp only [Nat.zero_add, Nat.sub_zero]

/-- The sorted list of the specification is the one the counting sort goes through. -/
theorem sorted_getD {steps idxs : List Nat} {n : Nat} (hl : steps.length = n)
    (hs : Sorted (fun c => steps.getD c 0) n idxs) (p : Nat) (hp : p < n) :
    steps.getD (idxs.getD p 0) 0 = (steps.mergeSort fun a b => b ≤ a).getD p 0 := by
  have h1 : idxs.map (fun c => steps.getD c 0) = steps.mergeSort fun a b => b ≤ a := by
    have hperm : idxs.Perm (List.range n) := by
      have hnd : idxs.Nodup := by
        refine List.pairwise_iff_getElem.mpr fun a b ha hb hab e => ?_
        have hlen := hs.hlen
        have := hs.inj a b (by omega) (by omega) (by rw [getD_lt ha, getD_lt hb]; exact e)
        omega
      refine (List.perm_ext_iff_of_nodup hnd List.nodup_range).mpr fun c => ?_
      rw [List.mem_range]
      constructor
      · intro hc
        obtain ⟨q, hq, rfl⟩ := List.getElem_of_mem hc
        have := hs.lt q (by rw [← hs.hlen]; exact hq)
        rwa [getD_lt hq] at this
      · intro hc
        obtain ⟨q, hq, e⟩ := hs.surj c hc
        rw [← e, getD_lt (by rw [hs.hlen]; exact hq)]
        exact List.getElem_mem _
    have h2 : (idxs.map fun c => steps.getD c 0).Perm steps := by
      have h3 : (List.range n).map (fun c => steps.getD c 0) = steps := by
        apply List.ext_getElem
        · simp [hl]
        · intro i h4 h5
          simp [List.getElem?_eq_getElem h5]
      conv => rhs; rw [← h3]
      exact hperm.map _
    refine List.Perm.eq_of_pairwise (le := fun a b => b ≤ a) ?_ ?_ ?_ (h2.trans (List.mergeSort_perm _ _).symm)
    · intro a b _ _ h4 h5
      omega
    · rw [List.pairwise_iff_getElem]
      intro i j hi hj hij
      rw [List.length_map] at hi hj
      rw [List.getElem_map, List.getElem_map]
      have := hs.mono i j (by omega) (by rw [← hs.hlen]; exact hj)
      rwa [getD_lt hi, getD_lt hj] at this
    · have := List.pairwise_mergeSort (le := fun a b : Nat => decide (b ≤ a)) (fun a b c h h' => by simp at *; omega)
        (fun a b => by simp; omega) steps
      exact this.imp fun h => by simpa using h
  rw [← h1]
  have hp' : p < idxs.length := by rw [hs.hlen]; exact hp
  rw [getD_lt (l := idxs.map _) (by rw [List.length_map]; exact hp'), List.getElem_map, getD_lt hp']

theorem count_wots_pk_from_sigx (hx : LaneCost f E.X κ) (hP : E.P.Valid) :
    WotsCost f E.P (wots_pk_from_sigx E) fun m => weigh κ [(chainRestX E.P.toSpec E.lg m, .thashx 1)] := by
  intro pk sig msg ctx a hm
  have hw := hP.w_le
  have hlen := hP.len_le
  have hLl := lengths_length hP.wots msg
  have hLw := lengths_getD_lt hP.wots msg
  dsimp only
  rw [weigh_cons, weigh_nil]
  unfold wots_pk_from_sigx chainRestX
  rw [toSpec_w hP.w, toSpec_len hP.wots]
  refine Wp.bind (Wp.known (a := lengths E.P.toSpec msg) (by free) ?_ ?_)
  · rw [erase_chain_lengths]
    exact chain_lengths_spec hP.wots (by simp) hm
  generalize lengths E.P.toSpec msg = Ls at *
  have et : Spx.tabulate E.P.wotsLen (fun i => (do
      .ok ((E.P.w - 1 + 2 ^ 32 - (← Spx.rd1 Ls i)) % 2 ^ 32) : C Nat)) = .ok (Ls.map fun x => E.P.w - 1 - x) := by
    have e : Ls.map (fun x => E.P.w - 1 - x) = (List.range E.P.wotsLen).map fun i => E.P.w - 1 - Ls.getD i 0 := by
      apply List.ext_getElem
      · simp [hLl]
      · intro i h1 h2
        rw [List.length_map] at h1
        simp [List.getElem?_eq_getElem h1]
    rw [e]
    refine tabulate_ok ?_
    intro i hi
    have := hLw i
    rw [rd1_ok (by omega), getD_lt (by omega)]
    rw [getD_lt (by omega)] at this
    simp only [ok_bind]
    congr 1
    omega
  refine Wp.bind (Wp.known (a := Ls.map fun x => E.P.w - 1 - x) (by free) ?_ ?_)
  · refine Eq.trans ?_ et
    refine erase_tabulate _ fun j => ?_
    erase
  generalize hst : Ls.map (fun x => E.P.w - 1 - x) = steps
  have hsl : steps.length = E.P.wotsLen := by rw [← hst, List.length_map]; exact hLl
  have hstw : ∀ i, i < E.P.wotsLen → steps.getD i 0 < E.P.w := by
    intro i hi
    rw [← hst, getD_lt (by rw [List.length_map]; omega), List.getElem_map]
    omega
  obtain ⟨idxs, e1, hs⟩ := sort_chains_spec E.erase (steps := steps) (by show E.P.w < _; omega) (by show E.P.wotsLen < _; omega) hsl hstw
  unfold gen_chains
  dsimp only
  refine Wp.bind ?_
  skipb
  skipb
  refine Wp.bind (Wp.known (a := idxs) (by free) ((erase_sort_chains E steps).trans e1) ?_)
  have hLp : 0 < E.L := Nat.two_pow_pos _
  refine Wp.bind (Wp.forInv (fun _ _ => True)
    (fun t => (steps.mergeSort fun a b => b ≤ a).getD (t * E.L) 0 * κ (.thashx 1)) trivial (fun t s ht _ => ?_)
    fun s _ => ?_)
  · refine (count_group hx hs).mono fun r c _ h => ⟨trivial, ?_⟩
    have hti : t * E.L < E.P.wotsLen := by
      have h1 : (t + 1) * E.L ≤ E.P.wotsLen + (E.L - 1) := (Nat.le_div_iff_mul_le hLp).mp ht
      rw [Nat.succ_mul] at h1
      omega
    rw [← sorted_getD hsl hs _ hti]
    exact h
  · obtain ⟨o, rest⟩ := s
    dsimp only
    refine Wp.ok (Wp.ok ?_)
    have e : E.P.wotsLen + (E.L - 1) = E.P.wotsLen + 2 ^ E.lg - 1 := by
      have e : E.L = 2 ^ E.lg := rfl
      omega
    show 0 + (0 + (0 + (0 + (0 + (((List.range ((E.P.wotsLen + (E.L - 1)) / E.L)).map _).sum + 0))) + 0)) = _
    rw [e, sum_mul fun t => (steps.mergeSort fun a b => b ≤ a).getD (t * E.L) 0]
    simp only [Nat.zero_add, Nat.add_zero]
    rfl

end
end Spx.Leak
