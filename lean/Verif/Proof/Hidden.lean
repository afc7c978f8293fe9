import Verif.Proof.Values
/-! # What signatures contain, and what they never contain -/

namespace Spx.Rom
open Spec

section
variable {p : Par}

/-- What is used of the parameters -/
structure Fine (p : Par) : Prop where
  h : p.h' * p.d = p.h
  d : 1 ≤ p.d
  digit : ∀ m i, (lengths p m).getD i 0 ≤ p.w - 1

/-- The value that a WOTS+ key signs -/
noncomputable def own (val : Place p → Value p) : (layer tree leaf : Nat) → Bytes
  | 0, t, l => ext val (.forsRoots t l)
  | j + 1, t, l => ext val (treePos j (t * 2 ^ p.h' + l) p.h' 0)

/-- The steps of the chains that signatures show -/
noncomputable def digit (val : Place p → Value p) (l t k i : Nat) : Nat := (lengths p (own val l t k)).getD i 0

/-- The FORS part of a signature -/
noncomputable def forsVal (val : Place p → Value p) (md : Bytes) (t k : Nat) : Bytes :=
  cat p.k fun i =>
    ext val (.forsPrf t k (i * 2 ^ p.a + forsIdx p md i)) ++
      cat p.a fun h => ext val (forsPos t k h (sibling ((i * 2 ^ p.a + forsIdx p md i) / 2 ^ h)))

/-- The signature of one layer -/
noncomputable def xmssVal (val : Place p → Value p) (j t l : Nat) : Bytes :=
  (cat p.len fun i => ext val (chainPos j t l i (digit val j t l i))) ++
    cat p.h' fun h => ext val (treePos j t h (sibling (l / 2 ^ h)))

/-- A signature after the randomiser -/
noncomputable def sigVal (val : Place p → Value p) (md : Bytes) (tree leaf : Nat) : Bytes :=
  forsVal val md tree leaf ++ cat p.d fun j => xmssVal val j (treeAt p tree j) (leafAt p tree leaf j)

/-- The positions whose values signatures never contain nor allow to compute, apart from the secret FORS values at the
positions `R`. -/
def Hidden (val : Place p → Value p) (R : Set Position) : Position → Prop
  | .wotsPrf l t k i => 0 < digit val l t k i
  | .wotsHash l t k i j => j + 1 < digit val l t k i
  | .forsPrf t k i => .forsPrf t k i ∉ R
  | _ => False

theorem hidden_chainPos {val : Place p → Value p} {R : Set Position} {l t k i j : Nat} :
    Hidden val R (chainPos l t k i j) ↔ j < digit val l t k i := by cases j <;> exact Iff.rfl

theorem hidden_treePos {val : Place p → Value p} {R : Set Position} {l t h i : Nat} : ¬Hidden val R (treePos l t h i) := by
  cases h <;> exact id

theorem hidden_forsPos {val : Place p → Value p} {R : Set Position} {t k h i : Nat} : ¬Hidden val R (forsPos t k h i) := by
  cases h <;> exact id

theorem sibling_even {x b : Nat} (h : x < 2 * b) : sibling x < 2 * b := by
  unfold sibling
  split <;> omega

theorem path_lt {x c a h : Nat} (hx : x < c * 2 ^ a) (hh : h < a) : sibling (x / 2 ^ h) < c * 2 ^ (a - h) := by
  have e : c * 2 ^ (a - h) = 2 * (c * 2 ^ (a - h - 1)) := by
    rw [Nat.mul_left_comm, ← Nat.pow_succ']; congr 2; omega
  rw [e]
  refine sibling_even ?_
  rw [← e]
  refine Nat.div_lt_of_lt_mul ?_
  rw [Nat.mul_left_comm, ← Nat.pow_add, show h + (a - h) = a by omega]
  exact hx

theorem pick_lt {md : Bytes} {i : Nat} (hi : i < p.k) : i * 2 ^ p.a + forsIdx p md i < p.k * 2 ^ p.a := by
  have hlt : forsIdx p md i < 2 ^ p.a := Nat.mod_lt _ (Nat.two_pow_pos _)
  have := Nat.mul_le_mul_right (2 ^ p.a) (show i + 1 ≤ p.k from hi)
  rw [Nat.succ_mul] at this
  omega

theorem below_lt (F : Fine p) {j t l : Nat} (hj : j + 1 < p.d) (ht : t < 2 ^ (p.h - (j + 1 + 1) * p.h'))
    (hl : l < 2 ^ p.h') : t * 2 ^ p.h' + l < 2 ^ (p.h - (j + 1) * p.h') := by
  have h1 : (j + 2) * p.h' ≤ p.h := by
    rw [← F.h, Nat.mul_comm p.h']
    exact Nat.mul_le_mul_right _ hj
  have h2 : (j + 1 + 1) * p.h' = (j + 1) * p.h' + p.h' := Nat.succ_mul _ _
  have e : 2 ^ (p.h - (j + 1) * p.h') = 2 ^ (p.h - (j + 1 + 1) * p.h') * 2 ^ p.h' := by
    rw [← Nat.pow_add]; congr 1
    have : (j + 2) * p.h' = (j + 1 + 1) * p.h' := rfl
    omega
  have := Nat.mul_le_mul_right (2 ^ p.h') (show t + 1 ≤ _ from ht)
  rw [Nat.succ_mul] at this
  omega

section
variable {S : Spec.Hash} {val : Place p → Value p} (A : Has S val) (F : Fine p) {pub sk : Bytes}
include A F

theorem valueAt_eq {j t l : Nat} (hj : j < p.d) (ht : t < 2 ^ (p.h - (j + 1) * p.h')) (hl : l < 2 ^ p.h') :
    valueAt p S pub sk j t l = own val j t l := by
  cases j with
  | zero => exact forsPk_eq A (by simpa using ht) hl
  | succ j => exact treeNode_eq A (by omega) (below_lt F hj ht hl) (Nat.le_refl _) (Nat.two_pow_pos _)

theorem xmssSig_eq {j t l : Nat} (hj : j < p.d) (ht : t < 2 ^ (p.h - (j + 1) * p.h')) (hl : l < 2 ^ p.h') :
    xmssSig p S pub sk j t l (valueAt p S pub sk j t l) = xmssVal val j t l := by
  unfold xmssSig wotsSig authPath xmssVal
  rw [valueAt_eq A F hj ht hl]
  congr 1
  · exact cat_congr fun i hi => chainValue_eq A hj ht hl hi (F.digit _ _)
  · exact cat_congr fun h hh => treeNode_eq A hj ht (by omega) (by
      have := path_lt (x := l) (c := 1) (a := p.h') (h := h) (by omega) hh
      omega)

theorem honestRest_eq {md : Bytes} {tree leaf : Nat} (ht : tree < 2 ^ (p.h' * (p.d - 1))) (hl : leaf < 2 ^ p.h') :
    honestRest p S pub sk md tree leaf = sigVal val md tree leaf := by
  have ht' : tree < 2 ^ (p.h - p.h') := by rwa [Nat.mul_sub, F.h, Nat.mul_one] at ht
  unfold honestRest sigVal
  congr 1
  · refine cat_congr fun i hi => ?_
    simp only
    rw [forsSk_eq A ht' hl (pick_lt hi)]
    congr 1
    exact cat_congr fun h hh => forsNode_eq A ht' hl (by omega) (path_lt (pick_lt hi) hh)
  · refine cat_congr fun j hj => ?_
    rw [htMsg_valueAt]
    exact xmssSig_eq A F hj (treeAt_bound F.h ht hj) (leafAt_lt hl j)

end

/-- Where a signature shows secret FORS values -/
def selectedPlaces (p : Par) (md : Bytes) (tree leaf : Nat) : Set Position :=
  {q | ∃ i, i < p.k ∧ q = .forsPrf tree leaf (i * 2 ^ p.a + forsIdx p md i)}

theorem own_congr {val val' : Place p → Value p} {R : Set Position}
    (h : ∀ v : Place p, ¬Hidden val R v.1 → val v = val' v) (j t l : Nat) : own val j t l = own val' j t l := by
  cases j with
  | zero => exact ext_congr fun hq => h ⟨_, hq⟩ id
  | succ j => exact ext_congr fun hq => h ⟨_, hq⟩ hidden_treePos

/-- A signature depends only on the values that are not hidden. -/
theorem sigVal_congr {val val' : Place p → Value p} {R : Set Position} {md : Bytes} {tree leaf : Nat}
    (hR : selectedPlaces p md tree leaf ⊆ R) (h : ∀ v : Place p, ¬Hidden val R v.1 → val v = val' v) :
    sigVal val md tree leaf = sigVal val' md tree leaf := by
  unfold sigVal
  congr 1
  · refine cat_congr fun i hi => ?_
    congr 1
    · exact ext_congr fun hq => h ⟨_, hq⟩ fun hh => hh (hR ⟨i, hi, rfl⟩)
    · exact cat_congr fun j _ => ext_congr fun hq => h ⟨_, hq⟩ hidden_forsPos
  · refine cat_congr fun j hj => ?_
    unfold xmssVal
    congr 1
    · refine cat_congr fun i hi => ?_
      have e : digit val' j (treeAt p tree j) (leafAt p tree leaf j) i = digit val j (treeAt p tree j) (leafAt p tree leaf j) i := by
        unfold digit
        rw [own_congr h]
      rw [e]
      exact ext_congr fun hq => h ⟨_, hq⟩ fun hh => Nat.lt_irrefl _ (hidden_chainPos.mp hh)
    · exact cat_congr fun i _ => ext_congr fun hq => h ⟨_, hq⟩ hidden_treePos

/-- A position with a hidden value below has only that below. -/
theorem children_hidden (F : Fine p) {val : Place p → Value p} {R : Set Position} {q c : Position} (hc : c ∈ children p q)
    (hh : Hidden val R c) : children p q = [c] := by
  cases q with
  | wotsPrf => cases hc
  | forsPrf => cases hc
  | wotsHash l t k i j => rw [List.mem_singleton.mp hc]; rfl
  | wotsPk l t k =>
    obtain ⟨i, -, rfl⟩ := List.mem_map.mp hc
    exact absurd (hidden_chainPos.mp hh) (Nat.not_lt.mpr (F.digit _ _))
  | treeNode l t h i =>
    rcases List.mem_pair.mp hc with rfl | rfl <;> exact absurd hh hidden_treePos
  | forsLeaf t k i => rw [List.mem_singleton.mp hc]; rfl
  | forsNode t k h i =>
    rcases List.mem_pair.mp hc with rfl | rfl <;> exact absurd hh hidden_forsPos
  | forsRoots t k =>
    obtain ⟨i, -, rfl⟩ := List.mem_map.mp hc
    exact absurd hh hidden_forsPos

theorem hidden_mono {val : Place p → Value p} {R R' : Set Position} (h : R ⊆ R') {q : Position} (hh : Hidden val R' q) :
    Hidden val R q := by
  cases q <;> first | exact hh | exact fun hq => hh (h hq)

end

end Spx.Rom
