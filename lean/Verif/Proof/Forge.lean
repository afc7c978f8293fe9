import Verif.Spec.Forge
import Verif.Proof.Correct
import Verif.Proof.List
/-! Extraction of second preimages from accepted signatures. -/

namespace Spx
open Spec

/-- Where two evaluations of a chain meet. -/
theorem chain_meet (F : Nat → Bytes → Bytes) (c : Nat → Bytes) (hc : ∀ j, c (j + 1) = F j (c j)) (y : Bytes) (a : Nat) :
    ∀ s, chain F y a s = c (a + s) →
      y = c a ∨ ∃ s', s' < s ∧ chain F y a s' ≠ c (a + s') ∧ F (a + s') (chain F y a s') = F (a + s') (c (a + s')) := by
  intro s
  induction s with
  | zero => intro h; exact Or.inl h
  | succ s ih =>
    intro h
    by_cases he : chain F y a s = c (a + s)
    · rcases ih he with h | ⟨s', h1, h2⟩
      · exact Or.inl h
      · exact Or.inr ⟨s', by omega, h2⟩
    · refine Or.inr ⟨s, by omega, he, ?_⟩
      rw [chain, ← Nat.add_assoc, hc] at h
      exact h

/-- Where two climbs of a tree meet. -/
theorem climb_meet {n : Nat} (T : Nat → Nat → Bytes → Bytes) (H : Nat → Nat → Bytes → Bytes → Bytes)
    (hH : ∀ h i l r, H h i l r = T h i (l ++ r)) (leaf : Nat → Bytes) (hn : ∀ h i, (node H leaf h i).length = n)
    (i : Nat) (path : Nat → Bytes) (v : Bytes) :
    ∀ t, (∀ h, h < t → (path h).length = n) → (∀ h, h < t → (climb H i path v h).length = n) →
      climb H i path v t = node H leaf t (i / 2 ^ t) →
      (v = leaf i ∧ ∀ h, h < t → path h = node H leaf h (sibling (i / 2 ^ h))) ∨
      ∃ h, h < t ∧
        (if i / 2 ^ h % 2 = 0 then climb H i path v h ++ path h else path h ++ climb H i path v h) ≠
          node H leaf h (2 * (i / 2 ^ (h + 1))) ++ node H leaf h (2 * (i / 2 ^ (h + 1)) + 1) ∧
        T (h + 1) (i / 2 ^ (h + 1))
          (if i / 2 ^ h % 2 = 0 then climb H i path v h ++ path h else path h ++ climb H i path v h) =
        T (h + 1) (i / 2 ^ (h + 1))
          (node H leaf h (2 * (i / 2 ^ (h + 1))) ++ node H leaf h (2 * (i / 2 ^ (h + 1)) + 1)) := by
  intro t
  induction t with
  | zero => intro _ _ h; exact Or.inl ⟨by simpa [climb, node] using h, fun _ hh => by omega⟩
  | succ t ih =>
    intro hp hc h
    have hstep : T (t + 1) (i / 2 ^ (t + 1))
          (if i / 2 ^ t % 2 = 0 then climb H i path v t ++ path t else path t ++ climb H i path v t) =
        T (t + 1) (i / 2 ^ (t + 1))
          (node H leaf t (2 * (i / 2 ^ (t + 1))) ++ node H leaf t (2 * (i / 2 ^ (t + 1)) + 1)) := by
      rw [climb, node] at h
      rw [← hH, ← h]
      split
      · exact (hH ..).symm
      · exact (hH ..).symm
    by_cases he : (if i / 2 ^ t % 2 = 0 then climb H i path v t ++ path t else path t ++ climb H i path v t) =
          node H leaf t (2 * (i / 2 ^ (t + 1))) ++ node H leaf t (2 * (i / 2 ^ (t + 1)) + 1)
    · have hd : i / 2 ^ (t + 1) = i / 2 ^ t / 2 := by rw [Nat.pow_succ, Nat.div_div_eq_div_mul]
      have hpl := hp t (by omega)
      have hcl := hc t (by omega)
      have key : climb H i path v t = node H leaf t (i / 2 ^ t) ∧
          path t = node H leaf t (sibling (i / 2 ^ t)) := by
        rw [hd] at he
        generalize i / 2 ^ t = q at *
        unfold sibling
        by_cases hq : q % 2 = 0
        · rw [if_pos hq] at he ⊢
          obtain ⟨h1, h2⟩ := List.append_inj he (by rw [hn, hcl])
          rw [show 2 * (q / 2) = q by omega] at h1 h2
          exact ⟨h1, h2⟩
        · rw [if_neg hq] at he ⊢
          obtain ⟨h1, h2⟩ := List.append_inj he (by rw [hn, hpl])
          rw [show 2 * (q / 2) = q - 1 by omega] at h1 h2
          rw [show q - 1 + 1 = q by omega] at h2
          exact ⟨h2, h1⟩
      rcases ih (fun h hh => hp h (by omega)) (fun h hh => hc h (by omega)) key.1 with ⟨h1, h2⟩ | ⟨h, h1, h2⟩
      · refine Or.inl ⟨h1, fun h hh => ?_⟩
        rcases Nat.lt_succ_iff_lt_or_eq.mp hh with hlt | rfl
        · exact h2 h hlt
        · exact key.2
      · exact Or.inr ⟨h, by omega, h2⟩
    · exact Or.inr ⟨t, by omega, he, hstep⟩

/-- Two equal concatenations of blocks of equal length have equal blocks. -/
theorem cat_inj {α : Type} {n k : Nat} {f g : Nat → List α} (hf : ∀ i, i < k → (f i).length = n)
    (hg : ∀ i, i < k → (g i).length = n) (h : cat k f = cat k g) : ∀ i, i < k → f i = g i := by
  intro i hi
  rw [← chunk_cat hf hi, h, chunk_cat hg hi]

theorem climb_len {n : Nat} {H : Nat → Nat → Bytes → Bytes → Bytes} (hH : ∀ h i l r, (H h i l r).length = n)
    {i : Nat} {path : Nat → Bytes} {v : Bytes} (hv : v.length = n) (t : Nat) : (climb H i path v t).length = n := by
  cases t with
  | zero => exact hv
  | succ t =>
    rw [climb]
    split <;> exact hH ..

section
variable {p : Par} {S : Spec.Hash} (L : HashLen p.n S) {pub sk : Bytes}

include L in
theorem chainValue_length (l t k i j : Nat) : (chainValue S pub sk l t k i j).length = p.n :=
  chain_length (fun _ _ => L.T ..) (L.PRF ..) _ _

include L in
/-- A WOTS+ signature leading to the owner's public key is made of the owner's chain values, or shows
a second preimage. -/
theorem wots_extract (layer tree kp : Nat) {sig m : Bytes} (hs : p.len * p.n ≤ sig.length)
    (h : wotsPkFromSig p S pub layer tree kp sig m = wotsPk p S pub sk layer tree kp) :
    (∃ c ∈ wotsCalls p S pub layer tree kp sig m, SecondPreimage p S pub sk c) ∨
    ∀ i, i < p.len → chunk p.n sig i = chainValue S pub sk layer tree kp i ((lengths p m).getD i 0) := by
  have hchunk : ∀ i, i < p.len → (chunk p.n sig i).length = p.n := fun i hi =>
    chunk_length (Nat.le_trans (Nat.mul_le_mul_right _ hi) hs)
  have hend : ∀ i, i < p.len → (chain (wotsF S pub layer tree kp i) (chunk p.n sig i) ((lengths p m).getD i 0)
      (p.w - 1 - (lengths p m).getD i 0)).length = p.n := fun i hi =>
    chain_length (fun _ _ => L.T ..) (hchunk i hi) _ _
  by_cases he : (cat p.len fun i => chain (wotsF S pub layer tree kp i) (chunk p.n sig i) ((lengths p m).getD i 0)
      (p.w - 1 - (lengths p m).getD i 0)) = cat p.len fun i => chainValue S pub sk layer tree kp i (p.w - 1)
  · have hall := cat_inj hend (fun i _ => chainValue_length L layer tree kp i (p.w - 1)) he
    by_cases hc : ∀ i, i < p.len → chunk p.n sig i = chainValue S pub sk layer tree kp i ((lengths p m).getD i 0)
    · exact Or.inr hc
    · left
      have ⟨i, hi⟩ := Classical.not_forall.mp hc
      have ⟨hi, hne⟩ := Classical.not_imp.mp hi
      have hd := digit_le p m i
      rcases chain_meet (wotsF S pub layer tree kp i) (chainValue S pub sk layer tree kp i)
          (fun j => by unfold chainValue; rw [chain, Nat.zero_add])
          (chunk p.n sig i) ((lengths p m).getD i 0) (p.w - 1 - (lengths p m).getD i 0)
          (by rw [hall i hi, show ∀ a b : Nat, a ≤ b → a + (b - a) = b from fun a b h => by omega]; exact hd)
        with h | ⟨s, h1, h2, h3⟩
      · exact absurd h hne
      · refine ⟨(.wotsHash layer tree kp i ((lengths p m).getD i 0 + s),
          chain (wotsF S pub layer tree kp i) (chunk p.n sig i) ((lengths p m).getD i 0) s), ?_, h2, ?_, h3⟩
        · refine List.mem_append_left _ (List.mem_flatMap.mpr ⟨i, List.mem_range.mpr hi, ?_⟩)
          exact List.mem_map.mpr ⟨s, List.mem_range.mpr h1, rfl⟩
        · show List.length (chain _ _ _ _) = (chainValue S pub sk layer tree kp i _).length
          rw [chainValue_length L]
          exact chain_length (fun _ _ => L.T ..) (hchunk i hi) _ _
  · refine Or.inl ⟨_, List.mem_append_right _ (List.mem_singleton.mpr rfl), he, ?_, h⟩
    show (cat _ _).length = (cat _ _).length
    rw [cat_length hend, cat_length fun i _ => chainValue_length L layer tree kp i (p.w - 1)]

include L in
/-- One layer. -/
theorem xmss_extract (hprot : ∀ m m' : Bytes, m.length = p.n → m'.length = p.n → m ≠ m' →
      ∃ i, i < p.len ∧ (lengths p m').getD i 0 < (lengths p m).getD i 0)
    (layer tree : Nat) {leaf : Nat} (hleaf : leaf < 2 ^ p.h') {sig m own : Bytes} (hs : xmssBytes p ≤ sig.length)
    (hm : m.length = p.n) (hown : own.length = p.n)
    (h : xmssRootFromSig p S pub layer tree leaf sig m = xmssRoot p S pub sk layer tree) :
    (∃ c ∈ xmssCalls p S pub layer tree leaf sig m, SecondPreimage p S pub sk c) ∨
    (∃ i, i < p.len ∧ (lengths p m).getD i 0 < (lengths p own).getD i 0 ∧
      chunk p.n sig i = chainValue S pub sk layer tree leaf i ((lengths p m).getD i 0)) ∨
    (m = own ∧ sig.take (xmssBytes p) = xmssSig p S pub sk layer tree leaf own) := by
  have hs' : p.len * p.n + p.h' * p.n ≤ sig.length := hs
  have hpath : ∀ h, h < p.h' → (chunk p.n (sig.drop (p.len * p.n)) h).length = p.n := fun h hh =>
    chunk_length (by rw [List.length_drop]; have := Nat.mul_le_mul_right p.n (show h + 1 ≤ p.h' from hh); omega)
  have hnode : ∀ h i, (node (treeH S pub layer tree) (wotsPk p S pub sk layer tree) h i).length = p.n := fun h i =>
    node_length' (fun _ _ _ _ => L.T ..) (fun _ => L.T ..) _ _
  have hcl : ∀ h, (climb (treeH S pub layer tree) leaf (chunk p.n (sig.drop (p.len * p.n)))
      (wotsPkFromSig p S pub layer tree leaf sig m) h).length = p.n := fun h =>
    climb_len (fun _ _ _ _ => L.T ..) (L.T ..) h
  rcases climb_meet (fun h i x => S.T pub ⟨layer, tree, TREE, 0, h, i⟩ x) (treeH S pub layer tree) (fun _ _ _ _ => rfl)
      (wotsPk p S pub sk layer tree) hnode leaf (chunk p.n (sig.drop (p.len * p.n)))
      (wotsPkFromSig p S pub layer tree leaf sig m) p.h' hpath (fun h _ => hcl h)
      (by rw [Nat.div_eq_of_lt hleaf]; exact h) with ⟨h1, h2⟩ | ⟨h', h1, h2, h3⟩
  · rcases wots_extract L layer tree leaf (by omega) h1 with ⟨c, hc, hsp⟩ | hw
    · exact Or.inl ⟨c, List.mem_append_left _ hc, hsp⟩
    · by_cases hmo : m = own
      · subst hmo
        refine Or.inr (Or.inr ⟨rfl, ?_⟩)
        unfold xmssSig xmssBytes
        rw [List.take_add]
        congr 1
        · refine eq_cat_of_chunks (n := p.n) (by rw [List.length_take]; omega) fun i hi => ?_
          have hle := Nat.mul_le_mul_right p.n (show i + 1 ≤ p.len from hi)
          rw [Nat.succ_mul] at hle
          refine Eq.trans ?_ (hw i hi)
          unfold chunk
          rw [List.drop_take, List.take_take, Nat.min_eq_left (by omega)]
        · refine eq_cat_of_chunks (n := p.n) (by rw [List.length_take, List.length_drop]; omega) fun i hi => ?_
          have hle := Nat.mul_le_mul_right p.n (show i + 1 ≤ p.h' from hi)
          rw [Nat.succ_mul] at hle
          refine Eq.trans ?_ (h2 i hi)
          unfold chunk
          rw [List.drop_take, List.take_take, Nat.min_eq_left (by omega)]
      · obtain ⟨i, hi, hlt⟩ := hprot own m hown hm (fun h => hmo h.symm)
        exact Or.inr (Or.inl ⟨i, hi, hlt, hw i hi⟩)
  · refine Or.inl ⟨(.treeNode layer tree (h' + 1) (leaf / 2 ^ (h' + 1)), _),
      List.mem_append_right _ (List.mem_map.mpr ⟨h', List.mem_range.mpr h1, rfl⟩), h2, ?_, h3⟩
    show List.length (if _ then _ else _) = (node _ _ _ _ ++ node _ _ _ _ : Bytes).length
    rw [List.length_append, hnode, hnode]
    split <;> rw [List.length_append, hcl, hpath h' h1]

include L in
theorem htMsg_len {tree : Nat} {m : Bytes} (hm : m.length = p.n) (j : Nat) :
    (htMsg p S pub sk tree m j).length = p.n := by
  cases j with
  | zero => exact hm
  | succ j => exact node_length' (fun _ _ _ _ => L.T ..) (fun _ => L.T ..) _ _

include L in
theorem htRoot_len {tree leaf : Nat} {sig m : Bytes} (hm : m.length = p.n) (j : Nat) :
    (htRoot p S pub tree leaf sig m j).length = p.n := by
  cases j with
  | zero => exact hm
  | succ j => exact climb_len (fun _ _ _ _ => L.T ..) (L.T ..) _

include L in
/-- All layers. -/
theorem ht_extract (hprot : ∀ m m' : Bytes, m.length = p.n → m'.length = p.n → m ≠ m' →
      ∃ i, i < p.len ∧ (lengths p m').getD i 0 < (lengths p m).getD i 0)
    {tree leaf : Nat} (hleaf : leaf < 2 ^ p.h') {sig m own : Bytes} (hs : p.d * xmssBytes p ≤ sig.length)
    (hm : m.length = p.n) (hown : own.length = p.n) :
    ∀ j, j ≤ p.d → htRoot p S pub tree leaf sig m j = htMsg p S pub sk tree own j →
    (∃ c ∈ htCalls p S pub tree leaf sig m, SecondPreimage p S pub sk c) ∨
    (∃ j i, j < p.d ∧ i < p.len ∧
      (lengths p (htRoot p S pub tree leaf sig m j)).getD i 0 < (lengths p (htMsg p S pub sk tree own j)).getD i 0 ∧
      chunk p.n (sig.drop (j * xmssBytes p)) i =
        chainValue S pub sk j (treeAt p tree j) (leafAt p tree leaf j) i
          ((lengths p (htRoot p S pub tree leaf sig m j)).getD i 0)) ∨
    (m = own ∧ ∀ i, i < j → chunk (xmssBytes p) sig i =
      xmssSig p S pub sk i (treeAt p tree i) (leafAt p tree leaf i) (htMsg p S pub sk tree own i)) := by
  intro j
  induction j with
  | zero => intro _ h; exact Or.inr (Or.inr ⟨h, fun _ hi => by omega⟩)
  | succ j ih =>
    intro hj h
    have hle := Nat.mul_le_mul_right (xmssBytes p) hj
    rw [Nat.succ_mul] at hle
    rcases xmss_extract L hprot j (treeAt p tree j) (leafAt_lt hleaf j) (sig := sig.drop (j * xmssBytes p))
        (by rw [List.length_drop]; omega) (htRoot_len L (tree := tree) (leaf := leaf) (sig := sig) hm j)
        (htMsg_len L (tree := tree) hown j) h with
      ⟨c, hc, hsp⟩ | ⟨i, hi, hlt, hv⟩ | ⟨h1, h2⟩
    · exact Or.inl ⟨c, List.mem_flatMap.mpr ⟨j, List.mem_range.mpr hj, hc⟩, hsp⟩
    · exact Or.inr (Or.inl ⟨j, i, hj, hi, hlt, hv⟩)
    · rcases ih (by omega) h1 with h | h | ⟨h3, h4⟩
      · exact Or.inl h
      · exact Or.inr (Or.inl h)
      · refine Or.inr (Or.inr ⟨h3, fun i hi => ?_⟩)
        rcases Nat.lt_succ_iff_lt_or_eq.mp hi with hlt | rfl
        · exact h4 i hlt
        · exact h2

include L in
/-- The FORS part. -/
theorem fors_extract {tree kp : Nat} {sig md : Bytes} (hs : forsBytes p ≤ sig.length)
    (h : forsPkFromSig p S pub tree kp sig md = forsPk p S pub sk tree kp) :
    (∃ c ∈ forsCalls p S pub tree kp sig md, SecondPreimage p S pub sk c) ∨
    sig.take (forsBytes p) = forsSig p S pub sk tree kp md := by
  have hsub : ∀ i, i < p.k → (p.a + 1) * p.n ≤ (sig.drop (i * ((p.a + 1) * p.n))).length := by
    intro i hi
    have := Nat.mul_le_mul_right ((p.a + 1) * p.n) (show i + 1 ≤ p.k from hi)
    rw [Nat.succ_mul] at this
    unfold forsBytes at hs
    rw [List.length_drop]
    omega
  have hnode : ∀ h i, (node (forsH S pub tree kp) (forsLeaf S pub sk tree kp) h i).length = p.n := fun h i =>
    node_length' (fun _ _ _ _ => L.T ..) (fun _ => L.T ..) _ _
  have hcl : ∀ i j h, (climb (forsH S pub tree kp) j (chunk p.n ((sig.drop (i * ((p.a + 1) * p.n))).drop p.n))
      (forsLeafOf S pub tree kp j ((sig.drop (i * ((p.a + 1) * p.n))).take p.n)) h).length = p.n := fun i j h =>
    climb_len (fun _ _ _ _ => L.T ..) (L.T ..) h
  by_cases he : (cat p.k fun i => climb (forsH S pub tree kp) (i * 2 ^ p.a + forsIdx p md i)
        (chunk p.n ((sig.drop (i * ((p.a + 1) * p.n))).drop p.n))
        (forsLeafOf S pub tree kp (i * 2 ^ p.a + forsIdx p md i) ((sig.drop (i * ((p.a + 1) * p.n))).take p.n)) p.a) =
      cat p.k fun i => node (forsH S pub tree kp) (forsLeaf S pub sk tree kp) p.a i
  · have hall := cat_inj (fun i _ => hcl i _ _) (fun i _ => hnode _ _) he
    by_cases hc : ∀ i, i < p.k → chunk ((p.a + 1) * p.n) sig i =
        forsSk S pub sk tree kp (i * 2 ^ p.a + forsIdx p md i) ++
          authPath (forsH S pub tree kp) (forsLeaf S pub sk tree kp) p.a (i * 2 ^ p.a + forsIdx p md i)
    · right
      refine eq_cat_of_chunks (n := (p.a + 1) * p.n) (by rw [List.length_take]; exact Nat.min_eq_left hs)
        fun i hi => ?_
      refine Eq.trans ?_ (hc i hi)
      have hle := Nat.mul_le_mul_right ((p.a + 1) * p.n) (show i + 1 ≤ p.k from hi)
      rw [Nat.succ_mul] at hle
      unfold chunk forsBytes
      rw [List.drop_take, List.take_take, Nat.min_eq_left (by omega)]
    · left
      have ⟨i, hi⟩ := Classical.not_forall.mp hc
      have ⟨hi, hne⟩ := Classical.not_imp.mp hi
      have hlt : forsIdx p md i < 2 ^ p.a := Nat.mod_lt _ (Nat.two_pow_pos _)
      have hq : (i * 2 ^ p.a + forsIdx p md i) / 2 ^ p.a = i := by
        rw [Nat.mul_comm, Nat.mul_add_div (Nat.two_pow_pos _), Nat.div_eq_of_lt hlt, Nat.add_zero]
      have hi' := hall i hi
      have hsl := hsub i hi
      -- the call at a position belonging to tree `i`
      have hmem : ∀ c, c ∈ ((.forsLeaf tree kp (i * 2 ^ p.a + forsIdx p md i),
            (sig.drop (i * ((p.a + 1) * p.n))).take p.n) ::
          climbCalls (.forsNode tree kp) (forsH S pub tree kp) (i * 2 ^ p.a + forsIdx p md i)
            (chunk p.n ((sig.drop (i * ((p.a + 1) * p.n))).drop p.n))
            (forsLeafOf S pub tree kp (i * 2 ^ p.a + forsIdx p md i) ((sig.drop (i * ((p.a + 1) * p.n))).take p.n)) p.a) →
          c ∈ forsCalls p S pub tree kp sig md := fun c hc =>
        List.mem_append_left _ (List.mem_flatMap.mpr ⟨i, List.mem_range.mpr hi, hc⟩)
      have hck : chunk ((p.a + 1) * p.n) sig i = (sig.drop (i * ((p.a + 1) * p.n))).take ((p.a + 1) * p.n) := rfl
      rw [hck] at hne
      have hcl' := hcl i (i * 2 ^ p.a + forsIdx p md i)
      generalize sig.drop (i * ((p.a + 1) * p.n)) = s at *
      generalize i * 2 ^ p.a + forsIdx p md i = j at *
      rw [Nat.succ_mul] at hsl
      have hpath : ∀ h, h < p.a → (chunk p.n (s.drop p.n) h).length = p.n := fun h hh =>
        chunk_length (by rw [List.length_drop]; have := Nat.mul_le_mul_right p.n (show h + 1 ≤ p.a from hh); omega)
      rcases climb_meet (fun h i x => S.T pub ⟨0, tree, FORS_TREE, kp, h, i⟩ x) (forsH S pub tree kp)
          (fun _ _ _ _ => rfl) (forsLeaf S pub sk tree kp) hnode j (chunk p.n (s.drop p.n))
          (forsLeafOf S pub tree kp j (s.take p.n)) p.a hpath (fun h _ => hcl' h) (by rw [hi', hq])
        with ⟨h1, h2⟩ | ⟨h', h1, h2, h3⟩
      · refine ⟨_, hmem _ List.mem_cons_self, ?_, ?_, h1⟩
        · show s.take p.n ≠ forsSk S pub sk tree kp j
          intro he
          apply hne
          rw [Nat.succ_mul, Nat.add_comm, List.take_add, he]
          congr 1
          refine eq_cat_of_chunks (n := p.n) (by rw [List.length_take, List.length_drop]; omega) fun h hh => ?_
          have hle := Nat.mul_le_mul_right p.n (show h + 1 ≤ p.a from hh)
          rw [Nat.succ_mul] at hle
          refine Eq.trans ?_ (h2 h hh)
          unfold chunk
          rw [List.drop_take, List.take_take, Nat.min_eq_left (by omega)]
        · show (s.take p.n).length = (forsSk S pub sk tree kp j).length
          rw [show (forsSk S pub sk tree kp j).length = p.n from L.PRF .., List.length_take]
          omega
      · refine ⟨(.forsNode tree kp (h' + 1) (j / 2 ^ (h' + 1)), _),
          hmem _ (List.mem_cons_of_mem _ (List.mem_map.mpr ⟨h', List.mem_range.mpr h1, rfl⟩)), h2, ?_, h3⟩
        show List.length (if _ then _ else _) = (node _ _ _ _ ++ node _ _ _ _ : Bytes).length
        rw [List.length_append, hnode, hnode]
        split <;> rw [List.length_append, hcl', hpath h' h1]
  · refine Or.inl ⟨_, List.mem_append_right _ (List.mem_singleton.mpr rfl), he, ?_, h⟩
    show (cat _ _).length = (cat _ _).length
    rw [cat_length fun i _ => hnode _ _, cat_length fun i _ => hcl i _ _]

include L in
/-- The whole signature. -/
theorem verify_extract (hprot : ∀ m m' : Bytes, m.length = p.n → m'.length = p.n → m ≠ m' →
      ∃ i, i < p.len ∧ (lengths p m').getD i 0 < (lengths p m).getD i 0) (hd : 1 ≤ p.d)
    {seed m sig : Bytes} (hseed : seed.length = 3 * p.n)
    (hsig : sig.length = p.n + (forsBytes p + p.d * xmssBytes p))
    (h : verify p S (pkOf p S seed) m sig = true) :
    let pub := (seed.drop (2 * p.n)).take p.n
    let sk := seed.take p.n
    let sel := selected p S (pkOf p S seed) m sig
    (∃ c ∈ verifyCalls p S (pkOf p S seed) m sig, SecondPreimage p S pub sk c) ∨
    (∃ j i, j < p.d ∧ i < p.len ∧ ShowsHiddenValue p S pub sk sel.2.1 sel.2.2 (sig.drop (p.n + forsBytes p))
        (forsPkFromSig p S pub sel.2.1 sel.2.2 (sig.drop p.n) sel.1) j i) ∨
    sig.drop p.n = honestRest p S pub sk sel.1 sel.2.1 sel.2.2 := by
  intro pub sk sel
  have hps : pub.length = p.n := by simp only [pub, List.length_take, List.length_drop]; omega
  have hroot : (xmssRoot p S pub sk (p.d - 1) 0).length = p.n :=
    node_length' (fun _ _ _ _ => L.T ..) (fun _ => L.T ..) _ _
  have q4 : (pkOf p S seed).take p.n = pub := List.take_left' hps
  have q5 : ((pkOf p S seed).drop p.n).take p.n = xmssRoot p S pub sk (p.d - 1) 0 := by
    unfold pkOf
    rw [List.drop_left' hps, List.take_of_length_le (Nat.le_of_eq hroot)]
  have ht : sel.2.1 < 2 ^ (p.h' * (p.d - 1)) := splitDigest_tree_lt ..
  have hl : sel.2.2 < 2 ^ p.h' := splitDigest_leaf_lt ..
  have hsel : splitDigest p (S.Hmsg (sig.take p.n) ((pkOf p S seed).take p.n) (((pkOf p S seed).drop p.n).take p.n) m
      (digestBytes p)) = sel := rfl
  unfold verify at h
  simp only at h
  rw [hsel, q5, q4, beq_iff_eq, ← htMsg_top hd ht (forsPk p S pub sk sel.2.1 sel.2.2)] at h
  have hsd : selected p S (pkOf p S seed) m sig = sel := rfl
  unfold verifyCalls
  simp only
  rw [hsd, q4]
  rcases ht_extract L hprot hl (by rw [List.length_drop]; omega) (L.T ..) (L.T ..) p.d (Nat.le_refl _) h with
    ⟨c, hc, hsp⟩ | ⟨j, i, hj, hi, h1, h2⟩ | ⟨h1, h2⟩
  · exact Or.inl ⟨c, List.mem_append_right _ hc, hsp⟩
  · exact Or.inr (Or.inl ⟨j, i, hj, hi, h1, h2⟩)
  · rcases fors_extract L (by rw [List.length_drop]; omega) h1 with ⟨c, hc, hsp⟩ | h3
    · exact Or.inl ⟨c, List.mem_append_left _ hc, hsp⟩
    · refine Or.inr (Or.inr ?_)
      unfold honestRest
      rw [← h3]
      conv => lhs; rw [← List.take_append_drop (forsBytes p) (sig.drop p.n)]
      congr 1
      rw [List.drop_drop]
      exact eq_cat_of_chunks (by rw [List.length_drop]; omega) h2

end
end Spx
