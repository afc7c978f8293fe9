import Verif.Proof.Forge
/-! The list of calls made by verification is complete, and its positions are positions of the scheme. -/

namespace Spx
open Spec

theorem chain_agree {F F' : Nat → Bytes → Bytes} {x : Bytes} {a : Nat} : ∀ {s : Nat},
    (∀ t, t < s → F' (a + t) (chain F x a t) = F (a + t) (chain F x a t)) → chain F' x a s = chain F x a s := by
  intro s
  induction s with
  | zero => intro _; rfl
  | succ s ih =>
    intro h
    rw [chain, chain, ih fun t ht => h t (by omega), h s (by omega)]

theorem climb_agree {H H' : Nat → Nat → Bytes → Bytes → Bytes} {i : Nat} {path : Nat → Bytes} {v : Bytes} :
    ∀ {t : Nat}, (∀ h, h < t → if i / 2 ^ h % 2 = 0 then
        H' (h + 1) (i / 2 ^ (h + 1)) (climb H i path v h) (path h) =
          H (h + 1) (i / 2 ^ (h + 1)) (climb H i path v h) (path h)
      else H' (h + 1) (i / 2 ^ (h + 1)) (path h) (climb H i path v h) =
          H (h + 1) (i / 2 ^ (h + 1)) (path h) (climb H i path v h)) →
    climb H' i path v t = climb H i path v t := by
  intro t
  induction t with
  | zero => intro _; rfl
  | succ t ih =>
    intro h
    have ht := h t (by omega)
    rw [climb, climb, ih fun k hk => h k (by omega)]
    by_cases hb : i / 2 ^ t % 2 = 0
    · rw [if_pos hb] at ht
      rw [if_pos hb, if_pos hb, ht]
    · rw [if_neg hb] at ht
      rw [if_neg hb, if_neg hb, ht]

/-- The two hash functions give the same output for the listed calls. -/
def Agree (S S' : Spec.Hash) (pub : Bytes) (cs : List HashCall) : Prop :=
  ∀ c ∈ cs, S'.T pub c.1.adrs c.2 = S.T pub c.1.adrs c.2

section
variable {p : Par} {S S' : Spec.Hash} {pub : Bytes}

theorem climb_agree' {H H' : Nat → Nat → Bytes → Bytes → Bytes} {pos : Nat → Nat → Position} {i t : Nat}
    {path : Nat → Bytes} {v : Bytes} (hH : ∀ h i l r, H h i l r = S.T pub (pos h i).adrs (l ++ r))
    (hH' : ∀ h i l r, H' h i l r = S'.T pub (pos h i).adrs (l ++ r))
    (h : Agree S S' pub (climbCalls pos H i path v t)) : climb H' i path v t = climb H i path v t := by
  refine climb_agree fun k hk => ?_
  have := h _ (List.mem_map.mpr ⟨k, List.mem_range.mpr hk, rfl⟩)
  split
  · rename_i hb
    rw [if_pos hb] at this
    rw [hH, hH', this]
  · rename_i hb
    rw [if_neg hb] at this
    rw [hH, hH', this]

theorem wots_agree {layer tree kp : Nat} {sig m : Bytes} (h : Agree S S' pub (wotsCalls p S pub layer tree kp sig m)) :
    wotsPkFromSig p S' pub layer tree kp sig m = wotsPkFromSig p S pub layer tree kp sig m := by
  have hc : (cat p.len fun i => chain (wotsF S' pub layer tree kp i) (chunk p.n sig i) ((lengths p m).getD i 0)
        (p.w - 1 - (lengths p m).getD i 0)) =
      cat p.len fun i => chain (wotsF S pub layer tree kp i) (chunk p.n sig i) ((lengths p m).getD i 0)
        (p.w - 1 - (lengths p m).getD i 0) := by
    refine cat_congr fun i hi => chain_agree fun t ht => ?_
    exact h _ (List.mem_append_left _ (List.mem_flatMap.mpr ⟨i, List.mem_range.mpr hi,
      List.mem_map.mpr ⟨t, List.mem_range.mpr ht, rfl⟩⟩))
  unfold wotsPkFromSig
  rw [hc]
  exact h _ (List.mem_append_right _ (List.mem_singleton.mpr rfl))

theorem xmss_agree {layer tree leaf : Nat} {sig m : Bytes}
    (h : Agree S S' pub (xmssCalls p S pub layer tree leaf sig m)) :
    xmssRootFromSig p S' pub layer tree leaf sig m = xmssRootFromSig p S pub layer tree leaf sig m := by
  unfold xmssRootFromSig
  rw [wots_agree fun c hc => h c (List.mem_append_left _ hc)]
  exact climb_agree' (pos := .treeNode layer tree) (fun _ _ _ _ => rfl) (fun _ _ _ _ => rfl)
    fun c hc => h c (List.mem_append_right _ hc)

theorem ht_agree {tree leaf : Nat} {sig m : Bytes} (h : Agree S S' pub (htCalls p S pub tree leaf sig m)) :
    ∀ j, j ≤ p.d → htRoot p S' pub tree leaf sig m j = htRoot p S pub tree leaf sig m j := by
  intro j
  induction j with
  | zero => intro _; rfl
  | succ j ih =>
    intro hj
    rw [htRoot, htRoot, ih (by omega)]
    exact xmss_agree fun c hc => h c (List.mem_flatMap.mpr ⟨j, List.mem_range.mpr hj, hc⟩)

theorem fors_agree {tree kp : Nat} {sig md : Bytes} (h : Agree S S' pub (forsCalls p S pub tree kp sig md)) :
    forsPkFromSig p S' pub tree kp sig md = forsPkFromSig p S pub tree kp sig md := by
  have hmem : ∀ i, i < p.k → ∀ c, c ∈ ((.forsLeaf tree kp (i * 2 ^ p.a + forsIdx p md i),
            (sig.drop (i * ((p.a + 1) * p.n))).take p.n) ::
          climbCalls (.forsNode tree kp) (forsH S pub tree kp) (i * 2 ^ p.a + forsIdx p md i)
            (chunk p.n ((sig.drop (i * ((p.a + 1) * p.n))).drop p.n))
            (forsLeafOf S pub tree kp (i * 2 ^ p.a + forsIdx p md i) ((sig.drop (i * ((p.a + 1) * p.n))).take p.n)) p.a) →
          S'.T pub c.1.adrs c.2 = S.T pub c.1.adrs c.2 := fun i hi c hc =>
        h c (List.mem_append_left _ (List.mem_flatMap.mpr ⟨i, List.mem_range.mpr hi, hc⟩))
  have hc : (cat p.k fun i => climb (forsH S' pub tree kp) (i * 2 ^ p.a + forsIdx p md i)
        (chunk p.n ((sig.drop (i * ((p.a + 1) * p.n))).drop p.n))
        (forsLeafOf S' pub tree kp (i * 2 ^ p.a + forsIdx p md i) ((sig.drop (i * ((p.a + 1) * p.n))).take p.n)) p.a) =
      cat p.k fun i => climb (forsH S pub tree kp) (i * 2 ^ p.a + forsIdx p md i)
        (chunk p.n ((sig.drop (i * ((p.a + 1) * p.n))).drop p.n))
        (forsLeafOf S pub tree kp (i * 2 ^ p.a + forsIdx p md i) ((sig.drop (i * ((p.a + 1) * p.n))).take p.n)) p.a := by
    refine cat_congr fun i hi => ?_
    have h0 := hmem i hi _ List.mem_cons_self
    rw [show forsLeafOf S' pub tree kp (i * 2 ^ p.a + forsIdx p md i) ((sig.drop (i * ((p.a + 1) * p.n))).take p.n) =
      forsLeafOf S pub tree kp (i * 2 ^ p.a + forsIdx p md i) ((sig.drop (i * ((p.a + 1) * p.n))).take p.n) from h0]
    exact climb_agree' (pos := .forsNode tree kp) (fun _ _ _ _ => rfl) (fun _ _ _ _ => rfl)
      fun c hc => hmem i hi c (List.mem_cons_of_mem _ hc)
  unfold forsPkFromSig
  simp only
  rw [hc]
  exact h _ (List.mem_append_right _ (List.mem_singleton.mpr rfl))

/-- Verification depends on the tweakable hash only at the listed calls. -/
theorem verify_agree {pk m sig : Bytes} (hH : S'.Hmsg = S.Hmsg)
    (h : Agree S S' (pk.take p.n) (verifyCalls p S pk m sig)) : verify p S' pk m sig = verify p S pk m sig := by
  have e1 : forsPkFromSig p S' (pk.take p.n) (selected p S pk m sig).2.1 (selected p S pk m sig).2.2 (sig.drop p.n)
      (selected p S pk m sig).1 = forsPkFromSig p S (pk.take p.n) (selected p S pk m sig).2.1
      (selected p S pk m sig).2.2 (sig.drop p.n) (selected p S pk m sig).1 :=
    fors_agree fun c hc => h c (List.mem_append_left _ hc)
  have e2 : htRoot p S' (pk.take p.n) (selected p S pk m sig).2.1 (selected p S pk m sig).2.2
      (sig.drop (p.n + forsBytes p)) (forsPkFromSig p S (pk.take p.n) (selected p S pk m sig).2.1
      (selected p S pk m sig).2.2 (sig.drop p.n) (selected p S pk m sig).1) p.d = htRoot p S (pk.take p.n)
      (selected p S pk m sig).2.1 (selected p S pk m sig).2.2
      (sig.drop (p.n + forsBytes p)) (forsPkFromSig p S (pk.take p.n) (selected p S pk m sig).2.1
      (selected p S pk m sig).2.2 (sig.drop p.n) (selected p S pk m sig).1) p.d :=
    ht_agree (fun c hc => h c (List.mem_append_right _ hc)) _ (Nat.le_refl _)
  unfold verify
  rw [hH]
  change (htRoot p S' (pk.take p.n) (selected p S pk m sig).2.1 (selected p S pk m sig).2.2
      (sig.drop (p.n + forsBytes p)) (forsPkFromSig p S' (pk.take p.n) (selected p S pk m sig).2.1
      (selected p S pk m sig).2.2 (sig.drop p.n) (selected p S pk m sig).1) p.d == _) = _
  rw [e1, e2]
  rfl

/-! ### Validity of the positions -/

theorem climbCalls_mem {pos : Nat → Nat → Position} {H : Nat → Nat → Bytes → Bytes → Bytes} {i t : Nat}
    {path : Nat → Bytes} {v : Bytes} {c : HashCall} (h : c ∈ climbCalls pos H i path v t) :
    ∃ k, k < t ∧ c.1 = pos (k + 1) (i / 2 ^ (k + 1)) := by
  obtain ⟨k, hk, rfl⟩ := List.mem_map.mp h
  exact ⟨k, List.mem_range.mp hk, rfl⟩

theorem treeAt_bound (hd : p.h' * p.d = p.h) {tree j : Nat} (ht : tree < 2 ^ (p.h' * (p.d - 1))) (hj : j < p.d) :
    treeAt p tree j < 2 ^ (p.h - (j + 1) * p.h') := by
  unfold treeAt
  have : p.h' * (p.d - 1) = p.h' * j + (p.h - (j + 1) * p.h') := by
    rw [← hd, Nat.mul_comm (j + 1), ← Nat.mul_sub, ← Nat.mul_add]
    congr 1
    omega
  rw [this, Nat.pow_add] at ht
  exact Nat.div_lt_of_lt_mul ht

theorem xmssCalls_valid {layer tree leaf : Nat} {sig m : Bytes} (h1 : layer < p.d)
    (h2 : tree < 2 ^ (p.h - (layer + 1) * p.h')) (h3 : leaf < 2 ^ p.h') {c : HashCall}
    (hc : c ∈ xmssCalls p S pub layer tree leaf sig m) : c.1.Valid p := by
  rcases List.mem_append.mp hc with hc | hc
  · rcases List.mem_append.mp hc with hc | hc
    · obtain ⟨i, hi, hc⟩ := List.mem_flatMap.mp hc
      obtain ⟨s, hs, rfl⟩ := List.mem_map.mp hc
      have := List.mem_range.mp hs
      exact ⟨h1, h2, h3, List.mem_range.mp hi, by omega⟩
    · rw [List.mem_singleton.mp hc]
      exact ⟨h1, h2, h3⟩
  · obtain ⟨k, hk, e⟩ := climbCalls_mem hc
    rw [e]
    refine ⟨h1, h2, by omega, by omega, ?_⟩
    rw [show p.h' = (k + 1) + (p.h' - (k + 1)) by omega, Nat.pow_add] at h3
    exact Nat.div_lt_of_lt_mul h3

theorem forsCalls_valid {tree kp : Nat} {sig md : Bytes} (h2 : tree < 2 ^ (p.h - p.h')) (h3 : kp < 2 ^ p.h')
    {c : HashCall} (hc : c ∈ forsCalls p S pub tree kp sig md) : c.1.Valid p := by
  rcases List.mem_append.mp hc with hc | hc
  · obtain ⟨i, hi, hc⟩ := List.mem_flatMap.mp hc
    have hi := List.mem_range.mp hi
    have hlt : forsIdx p md i < 2 ^ p.a := Nat.mod_lt _ (Nat.two_pow_pos _)
    have hj : i * 2 ^ p.a + forsIdx p md i < p.k * 2 ^ p.a := by
      have := Nat.mul_le_mul_right (2 ^ p.a) (show i + 1 ≤ p.k from hi)
      rw [Nat.succ_mul] at this
      omega
    rcases List.mem_cons.mp hc with rfl | hc
    · exact ⟨h2, h3, hj⟩
    · obtain ⟨k, hk, e⟩ := climbCalls_mem hc
      rw [e]
      refine ⟨h2, h3, by omega, by omega, ?_⟩
      rw [show 2 ^ p.a = 2 ^ (p.a - (k + 1)) * 2 ^ (k + 1) by rw [← Nat.pow_add]; congr 1; omega,
        ← Nat.mul_assoc, ← Nat.mul_assoc] at hj
      have : (i * 2 ^ (p.a - (k + 1)) * 2 ^ (k + 1) + forsIdx p md i) / 2 ^ (k + 1) < p.k * 2 ^ (p.a - (k + 1)) :=
        Nat.div_lt_of_lt_mul (by rw [Nat.mul_comm (2 ^ (k + 1))]; exact hj)
      have he : 2 ^ p.a = 2 ^ (p.a - (k + 1)) * 2 ^ (k + 1) := by rw [← Nat.pow_add]; congr 1; omega
      rw [he, ← Nat.mul_assoc]
      exact this
  · rw [List.mem_singleton.mp hc]
    exact ⟨h2, h3⟩

theorem verifyCalls_valid (hd : p.h' * p.d = p.h) {pk m sig : Bytes} {c : HashCall}
    (hc : c ∈ verifyCalls p S pk m sig) : c.1.Valid p := by
  have ht : (selected p S pk m sig).2.1 < 2 ^ (p.h' * (p.d - 1)) := splitDigest_tree_lt ..
  have hl : (selected p S pk m sig).2.2 < 2 ^ p.h' := splitDigest_leaf_lt ..
  unfold verifyCalls at hc
  generalize selected p S pk m sig = sel at *
  obtain ⟨md, tree, leaf⟩ := sel
  simp only at hc ht hl
  rcases List.mem_append.mp hc with hc | hc
  · refine forsCalls_valid ?_ hl hc
    rwa [Nat.mul_sub, hd, Nat.mul_one] at ht
  · obtain ⟨j, hj, hc⟩ := List.mem_flatMap.mp hc
    have hj := List.mem_range.mp hj
    exact xmssCalls_valid hj (treeAt_bound hd ht hj) (leafAt_lt hl j) hc

end
end Spx
