import Verif.Spec.Bound
import Verif.Proof.ForgeCalls
/-! One signature accepted for two messages. -/

namespace Spx
open Spec

/-- No call of the first list collides with one of the second. -/
def Apart (S : Spec.Hash) (pub : Bytes) (cs cs' : List HashCall) : Prop :=
  ∀ c ∈ cs, ∀ c' ∈ cs', ¬ Collide S pub c c'

theorem Apart.mono {S : Spec.Hash} {pub : Bytes} {cs cs' ds ds' : List HashCall} (h : Apart S pub cs cs')
    (h1 : ∀ c ∈ ds, c ∈ cs) (h2 : ∀ c ∈ ds', c ∈ cs') : Apart S pub ds ds' :=
  fun c hc c' hc' => h c (h1 c hc) c' (h2 c' hc')

theorem Apart.eq {S : Spec.Hash} {pub : Bytes} {cs cs' : List HashCall} (h : Apart S pub cs cs') {c c' : HashCall}
    (hc : c ∈ cs) (hc' : c' ∈ cs') (hl : c.2.length = c'.2.length)
    (ht : S.T pub c.1.adrs c.2 = S.T pub c'.1.adrs c'.2) : c.1.adrs = c'.1.adrs ∧ c.2 = c'.2 := by
  have h0 := h c hc c' hc'
  by_cases he : (c.1.adrs, c.2) = (c'.1.adrs, c'.2)
  · exact Prod.mk.inj he
  · exact absurd ⟨he, hl, ht⟩ h0

/-- Two climbs with one path that end in the same value started from the same place and value. -/
theorem climb_same {S : Spec.Hash} {pub : Bytes} {n : Nat} (pos : Nat → Nat → Position)
    (hpos : ∀ h i i', (pos h i).adrs = (pos h i').adrs → i = i')
    (H : Nat → Nat → Bytes → Bytes → Bytes) (hH : ∀ h i l r, H h i l r = S.T pub (pos h i).adrs (l ++ r))
    (hHl : ∀ h i l r, (H h i l r).length = n) {i i' : Nat} {path : Nat → Bytes} {v v' : Bytes}
    (hv : v.length = n) (hv' : v'.length = n) (hleaf : v = v' → i = i') :
    ∀ t, (∀ h, h < t → (path h).length = n) → i / 2 ^ t = i' / 2 ^ t →
      Apart S pub (climbCalls pos H i path v t) (climbCalls pos H i' path v' t) →
      climb H i path v t = climb H i' path v' t → i = i' ∧ v = v' := by
  intro t
  induction t with
  | zero => intro _ _ _ h; exact ⟨hleaf h, h⟩
  | succ t ih =>
    intro hp hi ha h
    have hl := climb_len hHl (i := i) (path := path) hv t
    have hl' := climb_len hHl (i := i') (path := path) hv' t
    have hpl := hp t (by omega)
    have mem : ∀ j (w : Bytes) s, s < t + 1 → ((pos (s + 1) (j / 2 ^ (s + 1)),
        if j / 2 ^ s % 2 = 0 then climb H j path w s ++ path s else path s ++ climb H j path w s) : HashCall) ∈
          climbCalls pos H j path w (t + 1) := fun j w s hs => List.mem_map.mpr ⟨s, List.mem_range.mpr hs, rfl⟩
    have out : ∀ j (w : Bytes) s, climb H j path w (s + 1) = S.T pub (pos (s + 1) (j / 2 ^ (s + 1))).adrs
        (if j / 2 ^ s % 2 = 0 then climb H j path w s ++ path s else path s ++ climb H j path w s) := by
      intro j w s
      rw [climb]
      split <;> rw [hH]
    have ilen : ∀ j (w : Bytes) s, s < t + 1 → (climb H j path w s).length = n →
        (if j / 2 ^ s % 2 = 0 then climb H j path w s ++ path s else path s ++ climb H j path w s).length = n + n := by
      intro j w s hs e
      split <;> simp [e, hp s hs]
    have hin := (ha.eq (mem i v t (by omega)) (mem i' v' t (by omega))
      (by simp only [ilen i v t (by omega) hl, ilen i' v' t (by omega) hl']) (by
        simp only [← out]; exact h)).2
    simp only at hin
    have hd : ∀ j, j / 2 ^ (t + 1) = j / 2 ^ t / 2 := fun j => by rw [Nat.pow_succ, Nat.div_div_eq_div_mul]
    rw [hd, hd] at hi
    have key : climb H i path v t = climb H i' path v' t ∧ (i / 2 ^ t ≠ i' / 2 ^ t → climb H i path v t = path t) := by
      by_cases h1 : i / 2 ^ t % 2 = 0
      · by_cases h2 : i' / 2 ^ t % 2 = 0
        · rw [if_pos h1, if_pos h2] at hin
          exact ⟨(List.append_inj hin (by omega)).1, fun hne => by omega⟩
        · rw [if_pos h1, if_neg h2] at hin
          have := List.append_inj hin (by omega)
          exact ⟨this.1.trans this.2, fun _ => this.1⟩
      · by_cases h2 : i' / 2 ^ t % 2 = 0
        · rw [if_neg h1, if_pos h2] at hin
          have := List.append_inj hin (by omega)
          exact ⟨this.2.trans this.1, fun _ => this.2⟩
        · rw [if_neg h1, if_neg h2] at hin
          exact ⟨(List.append_inj hin (by omega)).2, fun hne => by omega⟩
    have hi' : i / 2 ^ t = i' / 2 ^ t := by
      cases t with
      | zero => rw [hleaf key.1]
      | succ s =>
        have h1 := climb_len hHl (i := i) (path := path) hv s
        have h2 := climb_len hHl (i := i') (path := path) hv' s
        exact hpos _ _ _ (ha.eq (mem i v s (by omega)) (mem i' v' s (by omega))
          (by simp only [ilen i v s (by omega) h1, ilen i' v' s (by omega) h2]) (by
            simp only [← out]; exact key.1)).1
    refine ih (fun h hh => hp h (by omega)) hi' (ha.mono ?_ ?_) key.1
    · intro c hc
      obtain ⟨s, hs, rfl⟩ := List.mem_map.mp hc
      exact mem i v s (by have := List.mem_range.mp hs; omega)
    · intro c hc
      obtain ⟨s, hs, rfl⟩ := List.mem_map.mp hc
      exact mem i' v' s (by have := List.mem_range.mp hs; omega)

/-- Two chains from one value that end in the same value meet where the later one starts. -/
theorem chain_same {S : Spec.Hash} {pub : Bytes} {n : Nat} (q : Nat → Position) (F : Nat → Bytes → Bytes)
    (hF : ∀ j x, F j x = S.T pub (q j).adrs x) (hFl : ∀ j x, (F j x).length = n) {v : Bytes} (hv : v.length = n)
    {a b : Nat} {cs cs' : List HashCall} (ha : Apart S pub cs cs') :
    ∀ t, (∀ s, s < b - a + t → (q (a + s), chain F v a s) ∈ cs) → (∀ s, s < t → (q (b + s), chain F v b s) ∈ cs') →
      chain F v a (b - a + t) = chain F v b t → chain F v a (b - a) = v := by
  intro t
  induction t with
  | zero => intro _ _ h; exact h
  | succ t ih =>
    intro h1 h2 h
    refine ih (fun s hs => h1 s (by omega)) (fun s hs => h2 s (by omega)) ?_
    refine (ha.eq (h1 (b - a + t) (by omega)) (h2 t (by omega)) ?_ ?_).2
    · show List.length (chain ..) = List.length (chain ..)
      rw [chain_length hFl hv, chain_length hFl hv]
    · show S.T pub _ (chain ..) = S.T pub _ (chain ..)
      rw [← hF, ← hF]
      exact h

section
variable {p : Par} {S : Spec.Hash} (L : HashLen p.n S) {pub : Bytes}

/-- Some chain of the layer comes back to where it started. -/
def Returns (p : Par) (S : Spec.Hash) (pub : Bytes) (layer tree kp : Nat) (sig m m' : Bytes) (i : Nat) : Prop :=
  (lengths p m).getD i 0 < (lengths p m').getD i 0 ∧
    chain (wotsF S pub layer tree kp i) (chunk p.n sig i) ((lengths p m).getD i 0)
      ((lengths p m').getD i 0 - (lengths p m).getD i 0) = chunk p.n sig i

include L in
theorem wots_ends {layer tree kp kp' : Nat} {sig m m' : Bytes} (hs : p.len * p.n ≤ sig.length)
    (ha : Apart S pub (wotsCalls p S pub layer tree kp sig m) (wotsCalls p S pub layer tree kp' sig m'))
    (h : wotsPkFromSig p S pub layer tree kp sig m = wotsPkFromSig p S pub layer tree kp' sig m') :
    kp = kp' ∧ ∀ i, i < p.len →
      chain (wotsF S pub layer tree kp i) (chunk p.n sig i) ((lengths p m).getD i 0)
        (p.w - 1 - (lengths p m).getD i 0) =
      chain (wotsF S pub layer tree kp' i) (chunk p.n sig i) ((lengths p m').getD i 0)
        (p.w - 1 - (lengths p m').getD i 0) := by
  have hchunk : ∀ i, i < p.len → (chunk p.n sig i).length = p.n := fun i hi =>
    chunk_length (Nat.le_trans (Nat.mul_le_mul_right _ hi) hs)
  have hend : ∀ kp m i, i < p.len → (chain (wotsF S pub layer tree kp i) (chunk p.n sig i) ((lengths p m).getD i 0)
      (p.w - 1 - (lengths p m).getD i 0)).length = p.n := fun kp m i hi =>
    chain_length (fun _ _ => L.T ..) (hchunk i hi) _ _
  have e := ha.eq (List.mem_append_right _ (List.mem_singleton.mpr rfl))
    (List.mem_append_right _ (List.mem_singleton.mpr rfl))
    (by show (cat _ _).length = (cat _ _).length
        rw [cat_length (hend kp m), cat_length (hend kp' m')]) h
  refine ⟨?_, cat_inj (hend kp m) (hend kp' m') e.2⟩
  have := congrArg ADRS.w1 e.1
  exact this

include L in
/-- One WOTS+ signature that leads to one public key for two messages. -/
theorem wots_same (hprot : ∀ m m' : Bytes, m.length = p.n → m'.length = p.n → m ≠ m' →
      ∃ i, i < p.len ∧ (lengths p m').getD i 0 < (lengths p m).getD i 0)
    {layer tree kp : Nat} {sig m m' : Bytes} (hs : p.len * p.n ≤ sig.length)
    (hm : m.length = p.n) (hm' : m'.length = p.n)
    (ha : Apart S pub (wotsCalls p S pub layer tree kp sig m) (wotsCalls p S pub layer tree kp sig m'))
    (h : wotsPkFromSig p S pub layer tree kp sig m = wotsPkFromSig p S pub layer tree kp sig m') :
    m = m' ∨ ∃ i, i < p.len ∧ Returns p S pub layer tree kp sig m m' i := by
  by_cases hne : m = m'
  · exact Or.inl hne
  · obtain ⟨i, hi, hlt⟩ := hprot m' m hm' hm (fun h => hne h.symm)
    refine Or.inr ⟨i, hi, hlt, ?_⟩
    have hend := (wots_ends L hs ha h).2 i hi
    have hb := digit_le p m' i
    have mem : ∀ m s, s < p.w - 1 - (lengths p m).getD i 0 →
        ((.wotsHash layer tree kp i ((lengths p m).getD i 0 + s), chain (wotsF S pub layer tree kp i) (chunk p.n sig i)
          ((lengths p m).getD i 0) s) : HashCall) ∈ wotsCalls p S pub layer tree kp sig m := fun m s hs =>
      List.mem_append_left _ (List.mem_flatMap.mpr ⟨i, List.mem_range.mpr hi,
        List.mem_map.mpr ⟨s, List.mem_range.mpr hs, rfl⟩⟩)
    have hw : p.w - 1 - (lengths p m).getD i 0 =
        (lengths p m').getD i 0 - (lengths p m).getD i 0 + (p.w - 1 - (lengths p m').getD i 0) := by omega
    refine chain_same (n := p.n) (fun j => .wotsHash layer tree kp i j) (wotsF S pub layer tree kp i)
      (fun _ _ => rfl) (fun _ _ => L.T ..) (chunk_length (Nat.le_trans (Nat.mul_le_mul_right _ hi) hs)) ha (p.w - 1 - (lengths p m').getD i 0) (fun s hs => mem m s (by omega)) (mem m') ?_
    rw [← hw]
    exact hend

include L in
theorem xmss_same (hprot : ∀ m m' : Bytes, m.length = p.n → m'.length = p.n → m ≠ m' →
      ∃ i, i < p.len ∧ (lengths p m').getD i 0 < (lengths p m).getD i 0)
    {layer tree leaf leaf' : Nat} (hl : leaf < 2 ^ p.h') (hl' : leaf' < 2 ^ p.h') {sig m m' : Bytes}
    (hs : xmssBytes p ≤ sig.length) (hm : m.length = p.n) (hm' : m'.length = p.n)
    (ha : Apart S pub (xmssCalls p S pub layer tree leaf sig m) (xmssCalls p S pub layer tree leaf' sig m'))
    (h : xmssRootFromSig p S pub layer tree leaf sig m = xmssRootFromSig p S pub layer tree leaf' sig m') :
    leaf = leaf' ∧ (m = m' ∨ ∃ i, i < p.len ∧ Returns p S pub layer tree leaf sig m m' i) := by
  unfold xmssBytes at hs
  have hw := ha.mono (fun c hc => List.mem_append_left _ hc) (fun c hc => List.mem_append_left _ hc)
  have hc := ha.mono (fun c hc => List.mem_append_right _ hc) (fun c hc => List.mem_append_right _ hc)
  have hz : ∀ x, x < 2 ^ p.h' → x / 2 ^ p.h' = 0 := fun x hx => Nat.div_eq_of_lt hx
  obtain ⟨e, e2⟩ := climb_same (n := p.n) (.treeNode layer tree)
    (fun h i i' he => by have := congrArg ADRS.w3 he; exact this) (treeH S pub layer tree)
    (fun _ _ _ _ => rfl) (fun _ _ _ _ => L.T ..)
    (show (wotsPkFromSig p S pub layer tree leaf sig m).length = p.n from L.T ..)
    (show (wotsPkFromSig p S pub layer tree leaf' sig m').length = p.n from L.T ..)
    (fun he => (wots_ends L (by omega) hw he).1) p.h'
    (fun k hk => chunk_length (by
      have := Nat.mul_le_mul_right p.n (show k + 1 ≤ p.h' from hk)
      simp only [List.length_drop]; omega))
    (by rw [hz _ hl, hz _ hl']) hc h
  subst e
  exact ⟨rfl, wots_same L hprot (by omega) hm hm' hw e2⟩

include L in
theorem ht_same (hprot : ∀ m m' : Bytes, m.length = p.n → m'.length = p.n → m ≠ m' →
      ∃ i, i < p.len ∧ (lengths p m').getD i 0 < (lengths p m).getD i 0)
    {tree tree' leaf leaf' : Nat} (hl : leaf < 2 ^ p.h') (hl' : leaf' < 2 ^ p.h') {sig m m' : Bytes}
    (hs : p.d * xmssBytes p ≤ sig.length) (hm : m.length = p.n) (hm' : m'.length = p.n)
    (ha : Apart S pub (htCalls p S pub tree leaf sig m) (htCalls p S pub tree' leaf' sig m')) :
    ∀ k, k < p.d → treeAt p tree k = treeAt p tree' k →
      htRoot p S pub tree leaf sig m (k + 1) = htRoot p S pub tree' leaf' sig m' (k + 1) →
      (∃ j i, j ≤ k ∧ i < p.len ∧ (treeAt p tree j, leafAt p tree leaf j) = (treeAt p tree' j, leafAt p tree' leaf' j) ∧
        Returns p S pub j (treeAt p tree j) (leafAt p tree leaf j) (sig.drop (j * xmssBytes p))
          (htRoot p S pub tree leaf sig m j) (htRoot p S pub tree' leaf' sig m' j) i) ∨
      (tree = tree' ∧ leaf = leaf' ∧ m = m') := by
  have hlen : ∀ tree leaf m j, m.length = p.n → (htRoot p S pub tree leaf sig m j).length = p.n := by
    intro tree leaf m j hm
    cases j with
    | zero => exact hm
    | succ j => exact climb_len (fun _ _ _ _ => L.T ..) (L.T ..) _
  have hla : ∀ tree leaf j, leaf < 2 ^ p.h' → leafAt p tree leaf j < 2 ^ p.h' := by
    intro tree leaf j h
    cases j with
    | zero => exact h
    | succ j => exact Nat.mod_lt _ (Nat.two_pow_pos _)
  intro k
  induction k with
  | zero =>
    intro hk ht h
    have hx := xmss_same L hprot (hla tree leaf 0 hl) (hla tree' leaf' 0 hl') (sig := sig.drop (0 * xmssBytes p))
      (tree := treeAt p tree 0) (layer := 0)
      (m := m) (m' := m') (by
        have := Nat.mul_le_mul_right (xmssBytes p) hk
        simp only [List.length_drop]; omega) hm hm'
      (ha.mono (fun c hc => List.mem_flatMap.mpr ⟨0, List.mem_range.mpr hk, hc⟩)
        (fun c hc => List.mem_flatMap.mpr ⟨0, List.mem_range.mpr hk, by rw [← ht]; exact hc⟩))
      (h.trans (by rw [ht]; rfl))
    have htt : tree = tree' := by simpa [treeAt] using ht
    rcases hx with ⟨e, e2 | ⟨i, hi, hr⟩⟩
    · exact Or.inr ⟨htt, e, e2⟩
    · exact Or.inl ⟨0, i, Nat.le_refl _, hi, by rw [ht, e], hr⟩
  | succ k ih =>
    intro hk ht h
    have hle := Nat.mul_le_mul_right (xmssBytes p) (show k + 1 + 1 ≤ p.d from hk)
    rw [Nat.succ_mul (k + 1)] at hle
    have hx := xmss_same L hprot (hla tree leaf (k + 1) hl) (hla tree' leaf' (k + 1) hl')
      (sig := sig.drop ((k + 1) * xmssBytes p)) (tree := treeAt p tree (k + 1)) (layer := k + 1)
      (m := htRoot p S pub tree leaf sig m (k + 1)) (m' := htRoot p S pub tree' leaf' sig m' (k + 1)) (by
        simp only [List.length_drop]; omega) (hlen _ _ _ _ hm) (hlen _ _ _ _ hm')
      (ha.mono (fun c hc => List.mem_flatMap.mpr ⟨k + 1, List.mem_range.mpr hk, hc⟩)
        (fun c hc => List.mem_flatMap.mpr ⟨k + 1, List.mem_range.mpr hk, by rw [← ht]; exact hc⟩))
      (h.trans (by rw [ht]; rfl))
    rcases hx with ⟨e, e2 | ⟨i, hi, hr⟩⟩
    · have hstep : ∀ t, treeAt p t (k + 1) = treeAt p t k / 2 ^ p.h' := by
        intro t
        unfold treeAt
        rw [Nat.div_div_eq_div_mul, ← Nat.pow_add, Nat.mul_succ]
      have htk : treeAt p tree k = treeAt p tree' k := by
        rw [hstep, hstep] at ht
        simp only [leafAt] at e
        rw [← Nat.div_add_mod (treeAt p tree k) (2 ^ p.h'), ← Nat.div_add_mod (treeAt p tree' k) (2 ^ p.h'), ht, e]
      rcases ih (by omega) htk e2 with ⟨j, i, hj, hr⟩ | hr
      · exact Or.inl ⟨j, i, by omega, hr⟩
      · exact Or.inr hr
    · exact Or.inl ⟨k + 1, i, Nat.le_refl _, hi, by rw [ht, e], hr⟩

include L in
theorem fors_same {tree kp : Nat} {sig md md' : Bytes} (hs : forsBytes p ≤ sig.length)
    (ha : Apart S pub (forsCalls p S pub tree kp sig md) (forsCalls p S pub tree kp sig md'))
    (h : forsPkFromSig p S pub tree kp sig md = forsPkFromSig p S pub tree kp sig md') :
    ∀ i, i < p.k → forsIdx p md i = forsIdx p md' i := by
  have hcl : ∀ md i, i < p.k → (climb (forsH S pub tree kp) (i * 2 ^ p.a + forsIdx p md i)
      (chunk p.n ((sig.drop (i * ((p.a + 1) * p.n))).drop p.n))
      (forsLeafOf S pub tree kp (i * 2 ^ p.a + forsIdx p md i) ((sig.drop (i * ((p.a + 1) * p.n))).take p.n))
      p.a).length = p.n :=
    fun md i _ => climb_len (fun _ _ _ _ => L.T ..) (L.T ..) _
  have e := (ha.eq (List.mem_append_right _ (List.mem_singleton.mpr rfl))
    (List.mem_append_right _ (List.mem_singleton.mpr rfl))
    (by show (cat _ _).length = (cat _ _).length
        rw [cat_length (hcl md), cat_length (hcl md')]) h).2
  have hall := cat_inj (hcl md) (hcl md') e
  intro i hi
  have hle := Nat.mul_le_mul_right ((p.a + 1) * p.n) (show i + 1 ≤ p.k from hi)
  rw [Nat.succ_mul] at hle
  have hmem : ∀ md, ∀ c ∈ ((.forsLeaf tree kp (i * 2 ^ p.a + forsIdx p md i),
        (sig.drop (i * ((p.a + 1) * p.n))).take p.n) : HashCall) ::
      climbCalls (.forsNode tree kp) (forsH S pub tree kp) (i * 2 ^ p.a + forsIdx p md i)
        (chunk p.n ((sig.drop (i * ((p.a + 1) * p.n))).drop p.n))
        (forsLeafOf S pub tree kp (i * 2 ^ p.a + forsIdx p md i) ((sig.drop (i * ((p.a + 1) * p.n))).take p.n)) p.a,
      c ∈ forsCalls p S pub tree kp sig md := fun md c hc =>
    List.mem_append_left _ (List.mem_flatMap.mpr ⟨i, List.mem_range.mpr hi, hc⟩)
  have hdiv : ∀ md, (i * 2 ^ p.a + forsIdx p md i) / 2 ^ p.a = i := by
    intro md
    rw [Nat.mul_comm, Nat.mul_add_div (Nat.two_pow_pos _)]
    unfold forsIdx
    rw [Nat.div_eq_of_lt (Nat.mod_lt _ (Nat.two_pow_pos _)), Nat.add_zero]
  have := (climb_same (n := p.n) (.forsNode tree kp)
    (fun h i i' he => by have := congrArg ADRS.w3 he; exact this) (forsH S pub tree kp)
    (fun _ _ _ _ => rfl) (fun _ _ _ _ => L.T ..)
    (show (forsLeafOf S pub tree kp (i * 2 ^ p.a + forsIdx p md i)
      ((sig.drop (i * ((p.a + 1) * p.n))).take p.n)).length = p.n from L.T ..)
    (show (forsLeafOf S pub tree kp (i * 2 ^ p.a + forsIdx p md' i)
      ((sig.drop (i * ((p.a + 1) * p.n))).take p.n)).length = p.n from L.T ..)
    (fun he => by
      have := congrArg ADRS.w3 (ha.eq (hmem md _ List.mem_cons_self) (hmem md' _ List.mem_cons_self) rfl he).1
      exact this) p.a
    (fun k hk => chunk_length (by
      have := Nat.mul_le_mul_right p.n (show k + 1 ≤ p.a from hk)
      unfold forsBytes at hs
      rw [Nat.succ_mul p.a] at hle hs
      simp only [List.length_drop, Nat.succ_mul] at *
      omega))
    (by rw [hdiv, hdiv])
    (ha.mono (fun c hc => hmem md _ (List.mem_cons_of_mem _ hc)) (fun c hc => hmem md' _ (List.mem_cons_of_mem _ hc)))
    (hall i hi)).1
  omega

end

end Spx
