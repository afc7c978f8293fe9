import Verif.Spec.Oracle
import Verif.Proof.Resample
import Verif.Proof.ForgeCalls
import Verif.Proof.Game
import Verif.Props.OneTime
/-! # The values of the scheme as values at positions -/

namespace Spx.Rom
open Spec

/-- Where a value of a WOTS+ chain is computed -/
def chainPos (l t k i : Nat) : Nat → Position
  | 0 => .wotsPrf l t k i
  | j + 1 => .wotsHash l t k i j

/-- Where a node of a subtree is computed -/
def treePos (l t : Nat) : Nat → Nat → Position
  | 0, i => .wotsPk l t i
  | h + 1, i => .treeNode l t (h + 1) i

/-- Where a node of a FORS tree is computed -/
def forsPos (t k : Nat) : Nat → Nat → Position
  | 0, i => .forsLeaf t k i
  | h + 1, i => .forsNode t k (h + 1) i

/-- Where the parts of what is hashed at a position come from -/
def children (p : Par) : Position → List Position
  | .wotsPrf .. => []
  | .forsPrf .. => []
  | .wotsHash l t k i j => [chainPos l t k i j]
  | .wotsPk l t k => (List.range p.len).map fun i => chainPos l t k i (p.w - 1)
  | .treeNode l t h i => [treePos l t (h - 1) (2 * i), treePos l t (h - 1) (2 * i + 1)]
  | .forsLeaf t k i => [.forsPrf t k i]
  | .forsNode t k h i => [forsPos t k (h - 1) (2 * i), forsPos t k (h - 1) (2 * i + 1)]
  | .forsRoots t k => (List.range p.k).map fun i => forsPos t k p.a i

/-- An order of computation -/
def rank (p : Par) : Position → Nat
  | .wotsPrf .. => 0
  | .wotsHash _ _ _ _ j => j + 1
  | .wotsPk .. => p.w + 1
  | .treeNode _ _ h _ => p.w + 1 + h
  | .forsPrf .. => 0
  | .forsLeaf .. => 1
  | .forsNode _ _ h _ => 1 + h
  | .forsRoots .. => p.a + 2

theorem rank_chainPos (p : Par) (l t k i j : Nat) : rank p (chainPos l t k i j) = j := by cases j <;> rfl

theorem rank_treePos (p : Par) (l t h i : Nat) : rank p (treePos l t h i) = p.w + 1 + h := by cases h <;> rfl

theorem rank_forsPos (p : Par) (t k h i : Nat) : rank p (forsPos t k h i) = 1 + h := by cases h <;> rfl

theorem rank_children {p : Par} {q c : Position} (hq : q.Valid p) (hc : c ∈ children p q) : rank p c < rank p q := by
  cases q with
  | wotsPrf => cases hc
  | forsPrf => cases hc
  | wotsHash l t k i j =>
    rw [List.mem_singleton.mp hc, rank_chainPos]
    exact Nat.lt_succ_self _
  | wotsPk l t k =>
    obtain ⟨i, -, rfl⟩ := List.mem_map.mp hc
    rw [rank_chainPos]
    show _ < p.w + 1
    omega
  | treeNode l t h i =>
    have h1 : 1 ≤ h := hq.2.2.1
    rcases List.mem_pair.mp hc with rfl | rfl <;> rw [rank_treePos] <;> show _ < p.w + 1 + h <;> omega
  | forsLeaf t k i =>
    rw [List.mem_singleton.mp hc]
    exact Nat.one_pos
  | forsNode t k h i =>
    have h1 : 1 ≤ h := hq.2.2.1
    rcases List.mem_pair.mp hc with rfl | rfl <;> rw [rank_forsPos] <;> show _ < 1 + h <;> omega
  | forsRoots t k =>
    obtain ⟨i, -, rfl⟩ := List.mem_map.mp hc
    rw [rank_forsPos]
    show _ < p.a + 2
    omega

section
variable {p : Par}

open Classical in
/-- The bytes at a position -/
noncomputable def ext (val : Place p → Value p) (q : Position) : Bytes :=
  if h : q.Valid p then randomiserBytes (val ⟨q, h⟩) else List.replicate p.n 0

theorem ext_valid (val : Place p → Value p) (v : Place p) : ext val v.1 = randomiserBytes (val v) := dif_pos v.2

theorem ext_length (val : Place p → Value p) (q : Position) : (ext val q).length = p.n := by
  unfold ext
  split
  · exact Game.length_randomiserBytes _
  · exact List.length_replicate

theorem ext_congr {val val' : Place p → Value p} {q : Position} (h : ∀ hq : q.Valid p, val ⟨q, hq⟩ = val' ⟨q, hq⟩) :
    ext val q = ext val' q := by
  by_cases hq : q.Valid p
  · unfold ext
    rw [dif_pos hq, dif_pos hq, h hq]
  · unfold ext
    rw [dif_neg hq, dif_neg hq]

/-- What is hashed at a position -/
noncomputable def hon (val : Place p → Value p) (q : Position) : Bytes := (children p q).flatMap (ext val)

theorem flatMap_length {val : Place p → Value p} (l : List Position) : (l.flatMap (ext val)).length = l.length * p.n := by
  induction l with
  | nil => simp
  | cons a l ih => rw [List.flatMap_cons, List.length_append, ih, ext_length, List.length_cons, Nat.succ_mul, Nat.add_comm]

theorem hon_length (val : Place p → Value p) (q : Position) : (hon val q).length = q.inLen p := by
  unfold hon
  rw [flatMap_length]
  cases q <;> simp [children, Position.inLen]

theorem hon_congr {val val' : Place p → Value p} {q : Position} (h : ∀ c ∈ children p q, ∀ hc : c.Valid p, val ⟨c, hc⟩ = val' ⟨c, hc⟩) :
    hon val q = hon val' q := by
  unfold hon
  rw [List.flatMap_def, List.flatMap_def]
  congr 1
  exact List.map_congr_left fun c hc => ext_congr (h c hc)

/-- The point at which the function is applied for a position -/
noncomputable def pt (val : Place p → Value p) (v : Place p) : Point p := ⟨(v.1, hon val v.1), v.2, hon_length val v.1⟩

theorem pt_rank (val val' : Place p → Value p) (v : Place p)
    (h : ∀ u : Place p, rank p u.1 < rank p v.1 → val u = val' u) : pt val v = pt val' v := by
  refine Subtype.ext (Prod.ext rfl ?_)
  exact hon_congr fun c hc hv => h ⟨c, hv⟩ (rank_children v.2 hc)

theorem pt_inj (val : Place p → Value p) (v v' : Place p) (h : pt val v = pt val v') : v = v' :=
  Subtype.ext (congrArg (fun z : Point p => z.1.1) h)

/-- Valid positions have different addresses. -/
theorem adrs_inj {q q' : Position} (hq : q.Valid p) (hq' : q'.Valid p) (h : q.adrs = q'.adrs) : q = q' := by
  cases q <;> cases q' <;>
    simp only [Position.adrs, WOTS_HASH, WOTS_PK, TREE, FORS_TREE, FORS_ROOTS, WOTS_PRF, FORS_PRF, Position.Valid,
      ADRS.mk.injEq] at hq hq' h <;>
    first
      | (exfalso; omega)
      | (obtain ⟨h1, h2, h3, h4, h5, h6⟩ := h; subst_vars; rfl)

/-- `S` computes `O`. -/
structure Follows (S : Spec.Hash) (O : Point p → Value p) : Prop where
  T : ∀ pub (z : Point p), z.1.1.isPrf = false → S.T pub z.1.1.adrs z.1.2 = randomiserBytes (O z)
  PRF : ∀ pub sk (z : Point p), z.1.1.isPrf = true → S.PRF pub sk z.1.1.adrs = randomiserBytes (O z)

theorem random_follows (O : Point p → Value p) : Follows (Hash.random O) O := by
  refine ⟨fun pub z hz => ?_, fun pub sk z hz => ?_⟩
  · have h : ∃ z' : Point p, z'.1.1.isPrf = false ∧ z'.1.1.adrs = z.1.1.adrs ∧ z'.1.2 = z.1.2 := ⟨z, hz, rfl, rfl⟩
    have e : h.choose = z := Subtype.ext (Prod.ext (adrs_inj h.choose.2.1 z.2.1 h.choose_spec.2.1) h.choose_spec.2.2)
    unfold Hash.random
    simp only
    rw [dif_pos h, e]
  · have h : ∃ z' : Point p, z'.1.1.isPrf = true ∧ z'.1.1.adrs = z.1.1.adrs := ⟨z, hz, rfl⟩
    have e1 := adrs_inj h.choose.2.1 z.2.1 h.choose_spec.2
    have e : h.choose = z := by
      have h0 : ∀ z : Point p, z.1.1.isPrf = true → z.1.2 = [] := by
        intro z hz
        have := z.2.2
        revert hz this
        generalize z.1.2 = x
        generalize z.1.1 = q
        cases q <;> simp [Position.isPrf, Position.inLen]
      exact Subtype.ext (Prod.ext e1 ((h0 _ h.choose_spec.1).trans (h0 _ hz).symm))
    unfold Hash.random
    simp only
    rw [dif_pos h, e]

/-- The values of the scheme with the hash functions `S` are `val`. -/
structure Has (S : Spec.Hash) (val : Place p → Value p) : Prop where
  T : ∀ pub (q : Position), q.Valid p → q.isPrf = false → S.T pub q.adrs (hon val q) = ext val q
  PRF : ∀ pub sk (q : Position), q.Valid p → q.isPrf = true → S.PRF pub sk q.adrs = ext val q

theorem Follows.has {S : Spec.Hash} {val : Place p → Value p} {g : Point p → Value p} (F : Follows S (patch pt val g)) :
    Has S val := by
  refine ⟨fun pub q hq hp => ?_, fun pub sk q hq hp => ?_⟩
  · have := F.T pub (pt val ⟨q, hq⟩) hp
    rw [patch_pt pt_inj] at this
    exact this.trans (ext_valid val ⟨q, hq⟩).symm
  · have := F.PRF pub sk (pt val ⟨q, hq⟩) hp
    rw [patch_pt pt_inj] at this
    exact this.trans (ext_valid val ⟨q, hq⟩).symm

theorem cat_flatMap (k : Nat) (f : Nat → Position) (val : Place p → Value p) :
    ((List.range k).map f).flatMap (ext val) = cat k fun i => ext val (f i) := by
  induction k with
  | zero => rfl
  | succ k ih => rw [List.range_succ, List.map_append, List.flatMap_append, ih, cat]; simp

theorem hon_wotsPk (val : Place p → Value p) (l t k : Nat) :
    hon val (.wotsPk l t k) = cat p.len fun i => ext val (chainPos l t k i (p.w - 1)) := cat_flatMap _ _ _

theorem hon_forsRoots (val : Place p → Value p) (t k : Nat) :
    hon val (.forsRoots t k) = cat p.k fun i => ext val (forsPos t k p.a i) := cat_flatMap _ _ _

theorem hon_pair (val : Place p → Value p) {q a b : Position} (h : children p q = [a, b]) :
    hon val q = ext val a ++ ext val b := by
  unfold hon
  rw [h]
  simp

theorem hon_single (val : Place p → Value p) {q a : Position} (h : children p q = [a]) : hon val q = ext val a := by
  unfold hon
  rw [h]
  simp

section
variable {S : Spec.Hash} {val : Place p → Value p} (A : Has S val) {pub sk : Bytes}
include A

theorem chainValue_eq {l t k i : Nat} (hl : l < p.d) (ht : t < 2 ^ (p.h - (l + 1) * p.h')) (hk : k < 2 ^ p.h')
    (hi : i < p.len) : ∀ {j : Nat}, j ≤ p.w - 1 → chainValue S pub sk l t k i j = ext val (chainPos l t k i j) := by
  intro j
  induction j with
  | zero =>
    intro _
    exact A.PRF pub sk (.wotsPrf l t k i) ⟨hl, ht, hk, hi⟩ rfl
  | succ j ih =>
    intro hj
    have e : chainValue S pub sk l t k i (j + 1) =
        S.T pub (Position.wotsHash l t k i (0 + j)).adrs (chainValue S pub sk l t k i j) := rfl
    rw [e, ih (by omega), Nat.zero_add, ← hon_single val (q := .wotsHash l t k i j) rfl]
    exact A.T pub (.wotsHash l t k i j) ⟨hl, ht, hk, hi, by omega⟩ rfl

theorem wotsPk_eq {l t k : Nat} (hl : l < p.d) (ht : t < 2 ^ (p.h - (l + 1) * p.h')) (hk : k < 2 ^ p.h') :
    wotsPk p S pub sk l t k = ext val (.wotsPk l t k) := by
  have e : wotsPk p S pub sk l t k = S.T pub (Position.wotsPk l t k).adrs
      (cat p.len fun i => chainValue S pub sk l t k i (p.w - 1)) := rfl
  rw [e, cat_congr fun i hi => chainValue_eq A (pub := pub) (sk := sk) hl ht hk hi (Nat.le_refl _), ← hon_wotsPk]
  exact A.T pub (.wotsPk l t k) ⟨hl, ht, hk⟩ rfl

theorem treeNode_eq {l t : Nat} (hl : l < p.d) (ht : t < 2 ^ (p.h - (l + 1) * p.h')) : ∀ {h i : Nat}, h ≤ p.h' →
    i < 2 ^ (p.h' - h) → node (treeH S pub l t) (wotsPk p S pub sk l t) h i = ext val (treePos l t h i) := by
  intro h
  induction h with
  | zero => exact fun _ hi => wotsPk_eq A hl ht hi
  | succ h ih =>
    intro i hh hi
    have e2 : 2 ^ (p.h' - h) = 2 * 2 ^ (p.h' - (h + 1)) := by
      rw [← Nat.pow_succ']; congr 1; omega
    have e : node (treeH S pub l t) (wotsPk p S pub sk l t) (h + 1) i = S.T pub (Position.treeNode l t (h + 1) i).adrs
        (node (treeH S pub l t) (wotsPk p S pub sk l t) h (2 * i) ++
          node (treeH S pub l t) (wotsPk p S pub sk l t) h (2 * i + 1)) := rfl
    rw [e, ih (by omega) (by omega), ih (by omega) (by omega),
      ← hon_pair val (q := .treeNode l t (h + 1) i) (a := treePos l t h (2 * i)) (b := treePos l t h (2 * i + 1)) rfl]
    exact A.T pub (.treeNode l t (h + 1) i) ⟨hl, ht, by omega, hh, hi⟩ rfl

theorem forsSk_eq {t k i : Nat} (ht : t < 2 ^ (p.h - p.h')) (hk : k < 2 ^ p.h') (hi : i < p.k * 2 ^ p.a) :
    forsSk S pub sk t k i = ext val (.forsPrf t k i) := A.PRF pub sk (.forsPrf t k i) ⟨ht, hk, hi⟩ rfl

theorem forsLeaf_eq {t k i : Nat} (ht : t < 2 ^ (p.h - p.h')) (hk : k < 2 ^ p.h') (hi : i < p.k * 2 ^ p.a) :
    forsLeaf S pub sk t k i = ext val (.forsLeaf t k i) := by
  have e : forsLeaf S pub sk t k i = S.T pub (Position.forsLeaf t k i).adrs (forsSk S pub sk t k i) := rfl
  rw [e, forsSk_eq A ht hk hi, ← hon_single val (q := .forsLeaf t k i) rfl]
  exact A.T pub (.forsLeaf t k i) ⟨ht, hk, hi⟩ rfl

theorem forsNode_eq {t k : Nat} (ht : t < 2 ^ (p.h - p.h')) (hk : k < 2 ^ p.h') : ∀ {h i : Nat}, h ≤ p.a →
    i < p.k * 2 ^ (p.a - h) → node (forsH S pub t k) (forsLeaf S pub sk t k) h i = ext val (forsPos t k h i) := by
  intro h
  induction h with
  | zero => exact fun _ hi => forsLeaf_eq A ht hk hi
  | succ h ih =>
    intro i hh hi
    have e2 : p.k * 2 ^ (p.a - h) = 2 * (p.k * 2 ^ (p.a - (h + 1))) := by
      rw [Nat.mul_left_comm, ← Nat.pow_succ']; congr 2; omega
    have e : node (forsH S pub t k) (forsLeaf S pub sk t k) (h + 1) i = S.T pub (Position.forsNode t k (h + 1) i).adrs
        (node (forsH S pub t k) (forsLeaf S pub sk t k) h (2 * i) ++
          node (forsH S pub t k) (forsLeaf S pub sk t k) h (2 * i + 1)) := rfl
    rw [e, ih (by omega) (by omega), ih (by omega) (by omega),
      ← hon_pair val (q := .forsNode t k (h + 1) i) (a := forsPos t k h (2 * i)) (b := forsPos t k h (2 * i + 1)) rfl]
    exact A.T pub (.forsNode t k (h + 1) i) ⟨ht, hk, by omega, hh, hi⟩ rfl

theorem forsPk_eq {t k : Nat} (ht : t < 2 ^ (p.h - p.h')) (hk : k < 2 ^ p.h') :
    forsPk p S pub sk t k = ext val (.forsRoots t k) := by
  have e : forsPk p S pub sk t k = S.T pub (Position.forsRoots t k).adrs
      (cat p.k fun i => node (forsH S pub t k) (forsLeaf S pub sk t k) p.a i) := rfl
  rw [e, cat_congr fun i hi => forsNode_eq A (pub := pub) (sk := sk) ht hk (Nat.le_refl _) (by simpa using hi),
    ← hon_forsRoots]
  exact A.T pub (.forsRoots t k) ⟨ht, hk⟩ rfl

/-- What the owner hashes at a position -/
theorem honestInput_eq {q : Position} (hq : q.Valid p) (hp : q.isPrf = false) : honestInput p S pub sk q = hon val q := by
  cases q with
  | wotsPrf => cases hp
  | forsPrf => cases hp
  | wotsHash l t k i j =>
    obtain ⟨h1, h2, h3, h4, h5⟩ := hq
    exact (chainValue_eq A h1 h2 h3 h4 (by omega)).trans (hon_single val (q := .wotsHash l t k i j) rfl).symm
  | wotsPk l t k =>
    obtain ⟨h1, h2, h3⟩ := hq
    rw [hon_wotsPk]
    exact cat_congr fun i hi => chainValue_eq A h1 h2 h3 hi (Nat.le_refl _)
  | treeNode l t h i =>
    obtain ⟨h1, h2, h3, h4, h5⟩ := hq
    have e2 : 2 ^ (p.h' - (h - 1)) = 2 * 2 ^ (p.h' - h) := by
      rw [← Nat.pow_succ']; congr 1; omega
    rw [hon_pair val (q := .treeNode l t h i) rfl, ← treeNode_eq A (pub := pub) (sk := sk) h1 h2 (by omega) (by omega),
      ← treeNode_eq A (pub := pub) (sk := sk) h1 h2 (by omega) (by omega)]
    rfl
  | forsLeaf t k i =>
    obtain ⟨h1, h2, h3⟩ := hq
    exact (forsSk_eq A h1 h2 h3).trans (hon_single val (q := .forsLeaf t k i) rfl).symm
  | forsNode t k h i =>
    obtain ⟨h1, h2, h3, h4, h5⟩ := hq
    have e2 : p.k * 2 ^ (p.a - (h - 1)) = 2 * (p.k * 2 ^ (p.a - h)) := by
      rw [Nat.mul_left_comm, ← Nat.pow_succ']; congr 2; omega
    rw [hon_pair val (q := .forsNode t k h i) rfl, ← forsNode_eq A (pub := pub) (sk := sk) h1 h2 (by omega) (by omega),
      ← forsNode_eq A (pub := pub) (sk := sk) h1 h2 (by omega) (by omega)]
    rfl
  | forsRoots t k =>
    obtain ⟨h1, h2⟩ := hq
    rw [hon_forsRoots]
    exact cat_congr fun i hi => forsNode_eq A h1 h2 (Nat.le_refl _) (by simpa using hi)

end
end

end Spx.Rom
