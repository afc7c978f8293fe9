import Verif.Spec.Calls
import Verif.Proof.ForgeCalls
import Verif.Proof.Correct
/-! The scheme uses its hash functions at the listed positions only. -/

namespace Spx
open Spec

theorem node_same {H H' : Nat → Nat → Bytes → Bytes → Bytes} {leaf leaf' : Nat → Bytes} {n K T : Nat}
    (hlen : ∀ h i, (node H leaf h i).length = n)
    (hH : ∀ h i l r, 1 ≤ h → h ≤ T → i < K * 2 ^ (T - h) → l.length = n → r.length = n → H' h i l r = H h i l r)
    (hl : ∀ i, i < K * 2 ^ T → leaf' i = leaf i) :
    ∀ h i, h ≤ T → i < K * 2 ^ (T - h) → node H' leaf' h i = node H leaf h i := by
  intro h
  induction h with
  | zero => intro i _ hi; exact hl i (by simpa using hi)
  | succ h ih =>
    intro i hT hi
    have e : K * 2 ^ (T - h) = 2 * (K * 2 ^ (T - (h + 1))) := by
      rw [show T - h = T - (h + 1) + 1 by omega, Nat.pow_succ, ← Nat.mul_assoc, Nat.mul_comm]
    rw [node, node, ih _ (by omega) (by omega), ih _ (by omega) (by omega)]
    exact hH _ _ _ _ (by omega) hT hi (hlen ..) (hlen ..)

theorem sibling_bound {i b : Nat} (h : i < 2 * b) : sibling i < 2 * b := by
  unfold sibling
  split <;> omega

theorem authPath_same {H H' : Nat → Nat → Bytes → Bytes → Bytes} {leaf leaf' : Nat → Bytes} {n K T i : Nat}
    (hlen : ∀ h i, (node H leaf h i).length = n)
    (hH : ∀ h i l r, 1 ≤ h → h ≤ T → i < K * 2 ^ (T - h) → l.length = n → r.length = n → H' h i l r = H h i l r)
    (hl : ∀ i, i < K * 2 ^ T → leaf' i = leaf i) (hi : i < K * 2 ^ T) :
    authPath H' leaf' T i = authPath H leaf T i := by
  unfold authPath
  refine cat_congr fun h hh => ?_
  refine node_same hlen hH hl h _ (Nat.le_of_lt hh) ?_
  have e : K * 2 ^ (T - h) = 2 * (K * 2 ^ (T - (h + 1))) := by
    rw [show T - h = T - (h + 1) + 1 by omega, Nat.pow_succ, ← Nat.mul_assoc, Nat.mul_comm]
  rw [e]
  apply sibling_bound
  rw [← e]
  apply Nat.div_lt_of_lt_mul
  rw [Nat.mul_left_comm, ← Nat.pow_add, show h + (T - h) = T by omega]
  exact hi

section
variable {p : Par} {S S' : Spec.Hash} (hS : SameAt p S S') (hL : HashLen p.n S)
include hS hL

theorem wotsChain_same {pub sk : Bytes} {layer tree kp i s : Nat} (h1 : layer < p.d)
    (h2 : tree < 2 ^ (p.h - (layer + 1) * p.h')) (h3 : kp < 2 ^ p.h') (hi : i < p.len) (hs : s ≤ p.w - 1) :
    chain (wotsF S' pub layer tree kp i) (wotsSk S' pub sk layer tree kp i) 0 s =
      chain (wotsF S pub layer tree kp i) (wotsSk S pub sk layer tree kp i) 0 s := by
  have e : wotsSk S' pub sk layer tree kp i = wotsSk S pub sk layer tree kp i :=
    hS.PRF pub sk (.wotsPrf layer tree kp i) ⟨h1, h2, h3, hi⟩ rfl
  rw [e]
  refine chain_agree fun t ht => ?_
  exact hS.T pub (.wotsHash layer tree kp i (0 + t)) _ ⟨h1, h2, h3, hi, by omega⟩ rfl
    (chain_length (fun _ _ => hL.T ..) (hL.PRF ..) _ _)

theorem wotsPk_same {pub sk : Bytes} {layer tree kp : Nat} (h1 : layer < p.d)
    (h2 : tree < 2 ^ (p.h - (layer + 1) * p.h')) (h3 : kp < 2 ^ p.h') :
    wotsPk p S' pub sk layer tree kp = wotsPk p S pub sk layer tree kp := by
  unfold wotsPk
  rw [cat_congr fun i hi => wotsChain_same hS hL h1 h2 h3 hi (Nat.le_refl _)]
  exact hS.T pub (.wotsPk layer tree kp) _ ⟨h1, h2, h3⟩ rfl
    (cat_length fun _ _ => chain_length (fun _ _ => hL.T ..) (hL.PRF ..) _ _)

theorem xmssRoot_same {pub sk : Bytes} {layer tree : Nat} (h1 : layer < p.d)
    (h2 : tree < 2 ^ (p.h - (layer + 1) * p.h')) :
    xmssRoot p S' pub sk layer tree = xmssRoot p S pub sk layer tree := by
  unfold xmssRoot
  refine node_same (n := p.n) (K := 1) (T := p.h') (fun h i => node_length' (fun _ _ _ _ => hL.T ..) (fun _ => hL.T ..) h i)
    (fun h i l r ha hb hi hl hr => ?_) (fun i hi => wotsPk_same hS hL h1 h2 (by omega)) _ _ (Nat.le_refl _)
    (by rw [Nat.sub_self]; decide)
  exact hS.T pub (.treeNode layer tree h i) _ ⟨h1, h2, ha, hb, by omega⟩ rfl
    (by rw [List.length_append, hl, hr]; exact (Nat.two_mul _).symm)

theorem xmssSig_same (hw : ∀ m i, (lengths p m).getD i 0 ≤ p.w - 1) {pub sk m : Bytes} {layer tree leaf : Nat} (h1 : layer < p.d)
    (h2 : tree < 2 ^ (p.h - (layer + 1) * p.h')) (h3 : leaf < 2 ^ p.h') :
    xmssSig p S' pub sk layer tree leaf m = xmssSig p S pub sk layer tree leaf m := by
  unfold xmssSig wotsSig
  rw [cat_congr fun i hi => wotsChain_same hS hL h1 h2 h3 hi (hw m i)]
  congr 1
  refine authPath_same (n := p.n) (K := 1) (T := p.h') (fun h i => node_length' (fun _ _ _ _ => hL.T ..) (fun _ => hL.T ..) h i)
    (fun h i l r ha hb hi hl hr => ?_) (fun i hi => wotsPk_same hS hL h1 h2 (by omega)) (by omega)
  exact hS.T pub (.treeNode layer tree h i) _ ⟨h1, h2, ha, hb, by omega⟩ rfl
    (by rw [List.length_append, hl, hr]; exact (Nat.two_mul _).symm)

omit hL in
theorem forsSk_same {pub sk : Bytes} {tree kp i : Nat} (h1 : tree < 2 ^ (p.h - p.h')) (h2 : kp < 2 ^ p.h')
    (hi : i < p.k * 2 ^ p.a) : forsSk S' pub sk tree kp i = forsSk S pub sk tree kp i :=
  hS.PRF pub sk (.forsPrf tree kp i) ⟨h1, h2, hi⟩ rfl

theorem forsLeaf_same {pub sk : Bytes} {tree kp i : Nat} (h1 : tree < 2 ^ (p.h - p.h')) (h2 : kp < 2 ^ p.h')
    (hi : i < p.k * 2 ^ p.a) : forsLeaf S' pub sk tree kp i = forsLeaf S pub sk tree kp i := by
  unfold forsLeaf
  rw [forsSk_same hS h1 h2 hi]
  exact hS.T pub (.forsLeaf tree kp i) _ ⟨h1, h2, hi⟩ rfl (hL.PRF ..)

omit hL in
theorem forsH_same {pub : Bytes} {tree kp : Nat} (h1 : tree < 2 ^ (p.h - p.h')) (h2 : kp < 2 ^ p.h')
    (h i : Nat) (l r : Bytes) (ha : 1 ≤ h) (hb : h ≤ p.a) (hi : i < p.k * 2 ^ (p.a - h)) (hl : l.length = p.n)
    (hr : r.length = p.n) : forsH S' pub tree kp h i l r = forsH S pub tree kp h i l r :=
  hS.T pub (.forsNode tree kp h i) _ ⟨h1, h2, ha, hb, hi⟩ rfl
    (by rw [List.length_append, hl, hr]; exact (Nat.two_mul _).symm)

omit hS hL in
theorem fors_index_lt (md : Bytes) {i : Nat} (hi : i < p.k) : i * 2 ^ p.a + forsIdx p md i < p.k * 2 ^ p.a := by
  have hlt : forsIdx p md i < 2 ^ p.a := Nat.mod_lt _ (Nat.two_pow_pos _)
  have := Nat.mul_le_mul_right (2 ^ p.a) (show i + 1 ≤ p.k from hi)
  rw [Nat.succ_mul] at this
  omega

theorem forsSig_same {pub sk md : Bytes} {tree kp : Nat} (h1 : tree < 2 ^ (p.h - p.h')) (h2 : kp < 2 ^ p.h') :
    forsSig p S' pub sk tree kp md = forsSig p S pub sk tree kp md := by
  unfold forsSig
  refine cat_congr fun i hi => ?_
  have hj := fors_index_lt md hi
  simp only []
  rw [forsSk_same hS h1 h2 hj]
  congr 1
  exact authPath_same (n := p.n) (K := p.k) (T := p.a)
    (fun h i => node_length' (fun _ _ _ _ => hL.T ..) (fun _ => hL.T ..) h i) (forsH_same hS h1 h2)
    (fun i hi => forsLeaf_same hS hL h1 h2 hi) hj

theorem forsPk_same {pub sk : Bytes} {tree kp : Nat} (h1 : tree < 2 ^ (p.h - p.h')) (h2 : kp < 2 ^ p.h') :
    forsPk p S' pub sk tree kp = forsPk p S pub sk tree kp := by
  unfold forsPk
  rw [cat_congr fun i hi => node_same (n := p.n) (K := p.k) (T := p.a)
    (fun h i => node_length' (fun _ _ _ _ => hL.T ..) (fun _ => hL.T ..) h i) (forsH_same hS h1 h2)
    (fun i hi => forsLeaf_same hS hL h1 h2 hi) p.a i (Nat.le_refl _) (by rw [Nat.sub_self]; omega)]
  exact hS.T pub (.forsRoots tree kp) _ ⟨h1, h2⟩ rfl
    (cat_length fun _ _ => node_length' (fun _ _ _ _ => hL.T ..) (fun _ => hL.T ..) _ _)

theorem htSig_same (hd : p.h' * p.d = p.h) (hw : ∀ m i, (lengths p m).getD i 0 ≤ p.w - 1) {pub sk m : Bytes}
    {tree leaf : Nat} (ht : tree < 2 ^ (p.h' * (p.d - 1))) (hl : leaf < 2 ^ p.h') :
    htSig p S' pub sk tree leaf m = htSig p S pub sk tree leaf m := by
  unfold htSig
  refine cat_congr fun j hj => ?_
  have e : htMsg p S' pub sk tree m j = htMsg p S pub sk tree m j := by
    cases j with
    | zero => rfl
    | succ j => exact xmssRoot_same hS hL (by omega) (treeAt_bound hd ht (by omega))
  rw [e]
  exact xmssSig_same hS hL hw hj (treeAt_bound hd ht hj) (leafAt_lt hl j)

theorem sign_same (hd : p.h' * p.d = p.h) (hw : ∀ m i, (lengths p m).getD i 0 ≤ p.w - 1) (sk optrand m : Bytes) :
    Spec.sign p S' sk optrand m = Spec.sign p S sk optrand m := by
  unfold Spec.sign
  simp only [hS.PRFmsg, hS.Hmsg]
  generalize S.Hmsg _ _ _ _ _ = dg
  have ht : (splitDigest p dg).2.1 < 2 ^ (p.h' * (p.d - 1)) := splitDigest_tree_lt ..
  have hl : (splitDigest p dg).2.2 < 2 ^ p.h' := splitDigest_leaf_lt ..
  generalize splitDigest p dg = sel at *
  obtain ⟨md, tree, leaf⟩ := sel
  simp only at ht hl ⊢
  have ht' : tree < 2 ^ (p.h - p.h') := by rwa [Nat.mul_sub, hd, Nat.mul_one] at ht
  rw [forsSig_same hS hL ht' hl, forsPk_same hS hL ht' hl, htSig_same hS hL hd hw ht hl]

theorem root_same (h1 : 1 ≤ p.d) (pub sk : Bytes) :
    xmssRoot p S' pub sk (p.d - 1) 0 = xmssRoot p S pub sk (p.d - 1) 0 :=
  xmssRoot_same hS hL (by omega) (Nat.two_pow_pos _)

/-! ### Verification -/

omit hS hL in
theorem climbCalls_len {pos : Nat → Nat → Position} {H : Nat → Nat → Bytes → Bytes → Bytes} {i t : Nat}
    {path : Nat → Bytes} {v : Bytes} (hH : ∀ h i l r, (H h i l r).length = p.n) (hv : v.length = p.n)
    (hp : ∀ k, k < t → (path k).length = p.n) {c : HashCall} (h : c ∈ climbCalls pos H i path v t) :
    c.2.length = 2 * p.n := by
  obtain ⟨k, hk, rfl⟩ := List.mem_map.mp h
  have hk := List.mem_range.mp hk
  have := climb_length hH hv (i := i) (path := path) k
  simp only
  split
  · rw [List.length_append, this, hp k hk]; omega
  · rw [List.length_append, this, hp k hk]; omega

omit hS hL in
theorem chunk_len {sig : Bytes} {n i k : Nat} (hi : i < k) (h : k * n ≤ sig.length) : (chunk n sig i).length = n := by
  unfold chunk
  have := Nat.mul_le_mul_right n (show i + 1 ≤ k from hi)
  rw [Nat.succ_mul] at this
  simp
  omega

omit hS in
theorem xmssCalls_ok {layer tree leaf : Nat} {pub sig m : Bytes} (hl : xmssBytes p ≤ sig.length) {c : HashCall}
    (hc : c ∈ xmssCalls p S pub layer tree leaf sig m) : c.1.isPrf = false ∧ c.2.length = c.1.inLen p := by
  unfold xmssBytes at hl
  rcases List.mem_append.mp hc with hc | hc
  · rcases List.mem_append.mp hc with hc | hc
    · obtain ⟨i, hi, hc⟩ := List.mem_flatMap.mp hc
      obtain ⟨s, hs, rfl⟩ := List.mem_map.mp hc
      exact ⟨rfl, chain_length (fun _ _ => hL.T ..) (chunk_len (List.mem_range.mp hi) (by omega)) _ _⟩
    · rw [List.mem_singleton.mp hc]
      exact ⟨rfl, cat_length fun i hi => chain_length (fun _ _ => hL.T ..) (chunk_len hi (by omega)) _ _⟩
  · obtain ⟨k, hk, e⟩ := climbCalls_mem hc
    rw [e]
    exact ⟨rfl, climbCalls_len (p := p) (fun _ _ _ _ => hL.T ..) (hL.T ..)
      (fun k hk => chunk_len hk (by rw [List.length_drop]; omega)) hc⟩

omit hS in
theorem forsCalls_ok {tree kp : Nat} {pub sig md : Bytes} (hl : Spec.forsBytes p ≤ sig.length) {c : HashCall}
    (hc : c ∈ forsCalls p S pub tree kp sig md) : c.1.isPrf = false ∧ c.2.length = c.1.inLen p := by
  unfold Spec.forsBytes at hl
  have hi' : ∀ i, i < p.k → (p.a + 1) * p.n ≤ (sig.drop (i * ((p.a + 1) * p.n))).length := by
    intro i hi
    have := Nat.mul_le_mul_right ((p.a + 1) * p.n) (show i + 1 ≤ p.k from hi)
    rw [Nat.succ_mul] at this
    rw [List.length_drop]
    omega
  have hleaf : ∀ i, i < p.k → ((sig.drop (i * ((p.a + 1) * p.n))).take p.n).length = p.n := by
    intro i hi
    have := hi' i hi
    have e : (p.a + 1) * p.n = p.a * p.n + p.n := Nat.succ_mul ..
    rw [List.length_take]
    omega
  have hpath : ∀ i, i < p.k → ∀ k, k < p.a → (chunk p.n ((sig.drop (i * ((p.a + 1) * p.n))).drop p.n) k).length = p.n := by
    intro i hi k hk
    have := hi' i hi
    have e : (p.a + 1) * p.n = p.a * p.n + p.n := Nat.succ_mul ..
    exact chunk_len hk (by rw [List.length_drop]; omega)
  rcases List.mem_append.mp hc with hc | hc
  · obtain ⟨i, hi, hc⟩ := List.mem_flatMap.mp hc
    have hi := List.mem_range.mp hi
    rcases List.mem_cons.mp hc with rfl | hc
    · exact ⟨rfl, hleaf i hi⟩
    · obtain ⟨k, hk, e⟩ := climbCalls_mem hc
      rw [e]
      exact ⟨rfl, climbCalls_len (p := p) (fun _ _ _ _ => hL.T ..) (hL.T ..) (hpath i hi) hc⟩
  · rw [List.mem_singleton.mp hc]
    exact ⟨rfl, cat_length fun i hi => climb_length (fun _ _ _ _ => hL.T ..) (hL.T ..) _⟩

theorem verify_same (hd : p.h' * p.d = p.h) {pk m sig : Bytes}
    (hsig : p.n + Spec.forsBytes p + p.d * xmssBytes p ≤ sig.length) :
    verify p S' pk m sig = verify p S pk m sig := by
  refine verify_agree hS.Hmsg fun c hc => ?_
  have hv := verifyCalls_valid hd hc
  have : c.1.isPrf = false ∧ c.2.length = c.1.inLen p := by
    unfold verifyCalls at hc
    generalize selected p S pk m sig = sel at *
    obtain ⟨md, tree, leaf⟩ := sel
    simp only at hc
    rcases List.mem_append.mp hc with hc | hc
    · exact forsCalls_ok hL (by rw [List.length_drop]; omega) hc
    · obtain ⟨j, hj, hc⟩ := List.mem_flatMap.mp hc
      have hj := List.mem_range.mp hj
      have := Nat.mul_le_mul_right (xmssBytes p) (show j + 1 ≤ p.d from hj)
      rw [Nat.succ_mul] at this
      exact xmssCalls_ok hL (by rw [List.length_drop, List.length_drop]; omega) hc
  exact hS.T _ _ _ hv this.1 this.2

end
end Spx
