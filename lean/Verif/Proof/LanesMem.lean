import Verif.Model.LanesMem
import Verif.Proof.ThashMem
import Verif.Proof.Lanes
/-! The parallel tweakable hashes over memory read all inputs before they write an output. -/

namespace Spx
open Spec

/-! ### Successful computations -/

theorem bind_inv {α β : Type} {x : C α} {f : α → C β} {r : β} (h : (x >>= f) = .ok r) :
    ∃ a, x = .ok a ∧ f a = .ok r := by
  cases x with
  | ok a => exact ⟨a, rfl, h⟩
  | error e => cases h

theorem rd1_inv {α : Type} {b : List α} {i : Nat} {x : α} (h : rd1 b i = .ok x) : b[i]? = some x := by
  unfold rd1 at h
  split at h
  · cases h; assumption
  · cases h

theorem wr1_inv {α : Type} {b b' : List α} {i : Nat} {x : α} (h : wr1 b i x = .ok b') :
    i < b.length ∧ b' = b.set i x := by
  unfold wr1 at h
  split at h
  · cases h; exact ⟨by assumption, rfl⟩
  · cases h

theorem wr_inv {α : Type} {b b' d : List α} {o : Nat} (h : wr b o d = .ok b') :
    o + d.length ≤ b.length ∧ b' = b.take o ++ d ++ b.drop (o + d.length) := by
  unfold wr at h
  split at h
  · cases h; exact ⟨by assumption, rfl⟩
  · cases h

theorem rd_inv {α : Type} {b d : List α} {o k : Nat} (h : rd b o k = .ok d) :
    o + k ≤ b.length ∧ d = (b.drop o).take k := by
  unfold rd at h
  split at h
  · cases h; exact ⟨by assumption, rfl⟩
  · cases h

theorem sub_inv {α : Type} {b d : List α} {o : Nat} (h : sub b o = .ok d) : o ≤ b.length ∧ d = b.drop o := by
  unfold sub at h
  split at h
  · cases h; exact ⟨by assumption, rfl⟩
  · cases h

theorem tabulate_inv {α : Type} [Inhabited α] {k : Nat} {f : Nat → C α} {rs : List α} (h : tabulate k f = .ok rs) :
    ∃ r : Nat → α, rs = (List.range k).map r ∧ ∀ j, j < k → f j = .ok (r j) := by
  unfold tabulate at h
  induction k generalizing rs with
  | zero => cases h; exact ⟨fun _ => default, rfl, by simp⟩
  | succ k ih =>
    rw [forRange] at h
    obtain ⟨acc, h1, h2⟩ := bind_inv h
    obtain ⟨x, h3, h4⟩ := bind_inv h2
    obtain ⟨r, rfl, hr⟩ := ih h1
    cases h4
    refine ⟨fun j => if j = k then x else r j, ?_, fun j hj => ?_⟩
    · rw [List.range_succ, List.map_append]
      congr 1
      · exact List.map_congr_left fun j hj => (if_neg (by have := List.mem_range.mp hj; omega)).symm
      · simp
    · by_cases e : j = k
      · subst e; simpa using h3
      · show f j = .ok (if j = k then x else r j)
        rw [if_neg e]; exact hr j (by omega)

theorem copy_inv {o k : Nat} {t b r : Bytes}
    (h : forRange k (fun i out => do wr1 out (o + i) (← rd1 t i)) b = .ok r) :
    r.length = b.length ∧ ∀ i, i < k → i < t.length ∧ o + i < r.length ∧ r[o + i]? = t[i]? := by
  induction k generalizing r with
  | zero => cases h; exact ⟨rfl, by simp⟩
  | succ k ih =>
    rw [forRange] at h
    obtain ⟨r', h1, h2⟩ := bind_inv h
    obtain ⟨x, h3, h4⟩ := bind_inv h2
    obtain ⟨hl, hr⟩ := ih h1
    obtain ⟨h5, rfl⟩ := wr1_inv h4
    have h3 := rd1_inv h3
    refine ⟨by rw [List.length_set, hl], fun i hi => ?_⟩
    rw [List.length_set, List.getElem?_set]
    by_cases e : i = k
    · subst e
      have := (List.getElem?_eq_some_iff.mp h3).1
      refine ⟨this, h5, ?_⟩
      rw [if_pos rfl, if_pos h5, h3]
    · rw [if_neg (by omega)]
      exact hr i (by omega)

/-- The eight bytes of a word. -/
def le64 (u : BitVec 64) : Bytes := (List.range 8).map fun c => (u >>> (8 * c)).truncate 8

theorem le64_length (u : BitVec 64) : (le64 u).length = 8 := by simp [le64]

theorem store64_inv' {k : Nat} {x y : Bytes} {u : BitVec 64}
    (h : forRange k (fun i x => wr1 x i ((u >>> (8 * i)).truncate 8)) x = .ok y) :
    y.length = x.length ∧ (k ≤ x.length) ∧ (∀ i, i < k → y[i]? = some ((u >>> (8 * i)).truncate 8)) ∧
      ∀ i, k ≤ i → y[i]? = x[i]? := by
  induction k generalizing y with
  | zero => cases h; exact ⟨rfl, Nat.zero_le _, by simp, fun _ _ => rfl⟩
  | succ k ih =>
    rw [forRange] at h
    obtain ⟨y', h1, h2⟩ := bind_inv h
    obtain ⟨hl, hk, ha, hb⟩ := ih h1
    obtain ⟨h5, rfl⟩ := wr1_inv h2
    refine ⟨by rw [List.length_set, hl], by omega, fun i hi => ?_, fun i hi => ?_⟩
    · rw [List.getElem?_set]
      by_cases e : k = i
      · subst e; rw [if_pos rfl, if_pos h5]
      · rw [if_neg e]; exact ha i (by omega)
    · rw [List.getElem?_set, if_neg (by omega)]
      exact hb i (by omega)

/-- What a successful `storeLane` stored. -/
theorem storeLane_inv {L : Nat} {s : List (BitVec 64)} {j k : Nat} {h r : Bytes} (e : storeLane L s j k h = .ok r) :
    r.length = h.length ∧ ∀ i, i < k → ∃ v, getw L s i = .ok v ∧ 8 * i + 8 ≤ r.length ∧
      (r.drop (8 * i)).take 8 = le64 (v j) := by
  unfold storeLane at e
  induction k generalizing r with
  | zero => cases e; exact ⟨rfl, by simp⟩
  | succ k ih =>
    rw [forRange] at e
    obtain ⟨r', h1, h2⟩ := bind_inv e
    obtain ⟨v, h3, h4⟩ := bind_inv h2
    obtain ⟨⟨hh, _⟩, h5, h6⟩ := bind_inv h4
    cases h6
    obtain ⟨hl, ih⟩ := ih h1
    unfold withSub at h5
    by_cases h13 : 8 * k ≤ r'.length
    case neg => rw [if_neg h13] at h5; cases h5
    rw [if_pos h13] at h5
    obtain ⟨⟨z', _⟩, h9, h10⟩ := bind_inv h5
    obtain ⟨y, h11, h12⟩ := bind_inv h9
    cases h12
    cases h10
    obtain ⟨e1, e2, e3, e4⟩ := store64_inv' h11
    have e5 : z'.length + 8 * k = r'.length := by rw [e1, List.length_drop]; omega
    rw [List.length_drop] at e2
    have hlen : (r'.take (8 * k) ++ z').length = h.length := by
      rw [List.length_append, List.length_take]; omega
    refine ⟨hlen, fun i hi => ?_⟩
    show ∃ v, _ ∧ _ ≤ (r'.take (8 * k) ++ z').length ∧ ((r'.take (8 * k) ++ z').drop _).take 8 = _
    by_cases c : i = k
    · subst c
      refine ⟨v, h3, by omega, ?_⟩
      rw [List.drop_left' (by rw [List.length_take]; omega)]
      apply List.ext_getElem?
      intro c
      rw [List.getElem?_take]
      by_cases hc : c < 8
      · rw [if_pos hc, e3 c hc]
        simp [le64, hc]
      · rw [if_neg hc, List.getElem?_eq_none (by rw [le64_length]; omega)]
    · obtain ⟨w, g1, g2, g3⟩ := ih i (by omega)
      refine ⟨w, g1, by omega, ?_⟩
      rw [← g3]
      apply List.ext_getElem?
      intro c
      rw [List.getElem?_take, List.getElem?_take]
      by_cases hc : c < 8
      · rw [if_pos hc, if_pos hc, List.getElem?_drop, List.getElem?_drop,
          List.getElem?_append_left (by rw [List.length_take]; omega), List.getElem?_take_of_lt (by omega)]
      · rw [if_neg hc, if_neg hc]

/-! ### Writing the lanes -/

/-- `M'` is `M` after the first `D j` bytes of each `r j` were written to `out j`. -/
structure Wr (L n : Nat) (out : Nat → Nat) (r : Nat → Bytes) (M : Mem) (D : Nat → Nat) (M' : Mem) : Prop where
  frame : ∀ a, (∀ j, j < L → ¬ (out j ≤ a ∧ a < out j + n)) → M' a = M a
  alloc : ∀ j, j < L → M'.Alloc (out j) n
  val : ∀ j, j < L → Wins L n out j → ∀ i, i < D j → i < n → M' (out j + i) = (r j)[i]?

section
variable {L n : Nat} {out : Nat → Nat} {r : Nat → Bytes} {M : Mem}

theorem Wr.init (h : ∀ j, j < L → M.Alloc (out j) n) : Wr L n out r M (fun _ => 0) M :=
  ⟨fun _ _ => rfl, h, fun _ _ _ i hi _ => absurd hi (Nat.not_lt_zero i)⟩

theorem Wr.step {D D' : Nat → Nat} {M' : Mem} (h : Wr L n out r M D M') {j w : Nat} (hj : j < L)
    (hw : D j + w ≤ n) (hD : ∀ j', j < j' → j' < L → D j' ≤ D j) {d : Bytes} (hl : d.length = w)
    (hd : ∀ c, c < w → d[c]? = (r j)[D j + c]?)
    (h1 : ∀ j', j' < L → j' ≠ j → D' j' ≤ D j') (h2 : D' j ≤ D j + w) {p : Nat} (hp : p = out j + D j) :
    ∃ M'', M'.wr p d = .ok M'' ∧ Wr L n out r M D' M'' := by
  subst hp
  obtain ⟨M'', e, e1, e2⟩ := Mem.wr_of_alloc (M := M') (p := out j + D j) (d := d) (fun i hi => by
    rw [Nat.add_assoc]; exact h.alloc j hj _ (by omega))
  refine ⟨M'', e, ⟨fun a ha => ?_, fun j' hj' => ?_, fun j' hj' hwin i hi hin => ?_⟩⟩
  · rw [e2 a (by have := ha j hj; omega)]
    exact h.frame a ha
  · exact e2.alloc e1 (h.alloc j' hj')
  · have hv := h.val j' hj' hwin
    by_cases c : j' = j
    · subst c
      by_cases ci : i < D j'
      · rw [e2 _ (by omega)]
        exact hv i ci hin
      · have := (Mem.rd_eq_iff.mp e1).2 (i - D j') (by omega)
        rw [show out j' + D j' + (i - D j') = out j' + i by omega] at this
        rw [this, hd _ (by omega), show D j' + (i - D j') = i by omega]
    · have hi' : i < D j' := Nat.lt_of_lt_of_le hi (h1 j' hj' c)
      rw [e2 _ (by
        rcases hwin j hj (Ne.symm c) with hdis | ⟨heq, hlt⟩
        · omega
        · have := hD j' hlt hj'
          omega)]
      exact hv i hi' hin

/-- Rounds of writes, the lanes in turn: round `i` writes bytes `w*i … w*i + w - 1` of each lane. -/
theorem Wr.rounds {w k : Nat} {body : Nat → Nat → Mem → C Mem}
    (h : ∀ i j M', i < k → j < L → Wr L n out r M (fun j' => w * i + if j' < j then w else 0) M' →
      ∃ M'', body i j M' = .ok M'' ∧ Wr L n out r M (fun j' => w * i + if j' < j + 1 then w else 0) M'')
    {M₀ : Mem} (h0 : Wr L n out r M (fun _ => 0) M₀) :
    ∃ M', forRange k (fun i M => forRange L (body i) M) M₀ = .ok M' ∧ Wr L n out r M (fun _ => w * k) M' := by
  obtain ⟨M', e, h'⟩ := forRange_inv (n := k) (s := M₀) (body := fun i M => forRange L (body i) M)
    (fun i M' => Wr L n out r M (fun _ => w * i) M') h0 (by
      intro i M1 hi h1
      obtain ⟨M2, e2, h2⟩ := forRange_inv (n := L) (s := M1) (body := body i)
        (fun j M' => Wr L n out r M (fun j' => w * i + if j' < j then w else 0) M')
        ⟨h1.frame, h1.alloc, by simpa using h1.val⟩ (fun j M' hj h' => h i j M' hi hj h')
      refine ⟨M2, e2, h2.frame, h2.alloc, fun j hj hwin c hc hn => h2.val j hj hwin c ?_ hn⟩
      simp only [if_pos hj]
      rwa [Nat.mul_succ] at hc)
  exact ⟨M', e, h'⟩

theorem Wr.wr64 {D D' : Nat → Nat} {M' : Mem} (h : Wr L n out r M D M') {j : Nat} (hj : j < L)
    (hw : D j + 8 ≤ n) (hD : ∀ j', j < j' → j' < L → D j' ≤ D j) {u : BitVec 64}
    (hd : ((r j).drop (D j)).take 8 = le64 u)
    (h1 : ∀ j', j' < L → j' ≠ j → D' j' ≤ D j') (h2 : D' j ≤ D j + 8) {p : Nat} (hp : p = out j + D j) :
    ∃ M'', M'.wr64 p u = .ok M'' ∧ Wr L n out r M D' M'' := by
  subst hp
  have hb : ∀ c, c < 8 → (r j)[D j + c]? = some ((u >>> (8 * c)).truncate 8) := by
    intro c hc
    have e : (((r j).drop (D j)).take 8)[c]? = (le64 u)[c]? := by rw [hd]
    rw [List.getElem?_take_of_lt hc, List.getElem?_drop] at e
    rw [e]
    simp [le64, hc]
  obtain ⟨M'', e, h'⟩ := forRange_inv (n := 8) (s := M')
    (body := fun i M => M.wr (out j + D j + i) [(u >>> (8 * i)).truncate 8])
    (fun t M' => Wr L n out r M (fun j' => if j' = j then D j + t else D j') M')
    ⟨h.frame, h.alloc, fun j' hj' hwin i hi hn => h.val j' hj' hwin i (by
      split at hi
      · rename_i c; subst c; exact hi
      · exact hi) hn⟩ (by
      intro t M1 ht hM1
      refine hM1.step (j := j) (w := 1) hj (by simp only [if_true]; omega) (fun j' hlt hL => ?_) rfl (fun c hc => ?_)
        (fun j' _ hne => ?_) (by simp only [if_true]; omega) (by simp only [if_true]; omega)
      · have := hD j' hlt hL
        simp only [if_true]
        rw [if_neg (by omega)]
        omega
      · have : c = 0 := by omega
        subst this
        simp only [if_true, Nat.add_zero]
        rw [hb t ht]
        rfl
      · simp only [if_neg hne]
        omega)
  refine ⟨M'', e, h'.frame, h'.alloc, fun j' hj' hwin i hi hn => h'.val j' hj' hwin i ?_ hn⟩
  by_cases c : j' = j
  · subst c; rw [if_pos rfl]; omega
  · have := h1 j' hj' c
    rw [if_neg c]; omega

/-- All words of all lanes. -/
theorem Wr.storeLanes {s : List (BitVec 64)} (h8 : n % 8 = 0) {h0 : Nat → Bytes}
    (hr : ∀ j, j < L → storeLane L s j (n / 8) (h0 j) = .ok (r j)) (hl : 0 < L)
    (hM : ∀ j, j < L → M.Alloc (out j) n) :
    ∃ M', storeLanesM L out 0 s (n / 8) M = .ok M' ∧ Wr L n out r M (fun _ => n) M' := by
  have hv : ∀ i, i < n / 8 → ∃ v, getw L s i = .ok v ∧ ∀ j, j < L → ((r j).drop (8 * i)).take 8 = le64 (v j) := by
    intro i hi
    obtain ⟨v, e, _⟩ := (storeLane_inv (hr 0 hl)).2 i hi
    refine ⟨v, e, fun j hj => ?_⟩
    obtain ⟨v', e', _, h'⟩ := (storeLane_inv (hr j hj)).2 i hi
    rw [e] at e'
    cases e'
    exact h'
  unfold storeLanesM
  rw [forRange_congr (g := fun i M => forRange L (fun j M => do
    let v ← getw L s i
    M.wr64 (out j + 0 + 8 * i) (v j)) M) (fun i M' hi => by
      obtain ⟨v, e, _⟩ := hv i hi
      rw [e]
      simp only [ok_bind])]
  obtain ⟨M', e, h'⟩ := Wr.rounds (L := L) (n := n) (out := out) (r := r) (M := M) (w := 8) (k := n / 8)
    (body := fun i j M => do
      let v ← getw L s i
      M.wr64 (out j + 0 + 8 * i) (v j)) (fun i j M1 hi hj h1 => by
      obtain ⟨v, e, hv⟩ := hv i hi
      simp only [e, ok_bind]
      refine h1.wr64 hj (by simp only [Nat.lt_irrefl, if_false]; omega) (fun j' hlt _ => ?_)
        (by simp only [Nat.lt_irrefl, if_false, Nat.add_zero]; exact hv j hj) (fun j' _ hne => ?_) ?_
        (by simp only [Nat.lt_irrefl, if_false]; omega)
      · simp only [Nat.lt_irrefl, if_false]
        rw [if_neg (by omega)]
      · by_cases c : j' < j
        · rw [if_pos c, if_pos (by omega)]
        · rw [if_neg c, if_neg (by omega)]
      · rw [if_pos (by omega), if_neg (by omega)]) (Wr.init hM)
  refine ⟨M', e, ?_⟩
  rw [show 8 * (n / 8) = n by omega] at h'
  exact h'

/-- Copying local arrays to all lanes byte by byte. -/
theorem Wr.copyLanes {ts : List Bytes} {b : Nat → Bytes}
    (hr : ∀ j, j < L → (do
      let t ← rd1 ts j
      forRange n (fun i out => do wr1 out (0 + i) (← rd1 t i)) (b j)) = .ok (r j))
    (hM : ∀ j, j < L → M.Alloc (out j) n) :
    ∃ M', copyLanesM L out 0 ts n M = .ok M' ∧ Wr L n out r M (fun _ => n) M' := by
  unfold copyLanesM
  obtain ⟨M', e, h'⟩ := Wr.rounds (L := L) (n := n) (out := out) (r := r) (M := M) (w := 1) (k := n)
    (body := fun i j M => do M.wr (out j + 0 + i) [← rd1 (← rd1 ts j) i]) (fun i j M1 hi hj h1 => by
      obtain ⟨t, e1, e2⟩ := bind_inv (hr j hj)
      obtain ⟨_, hc⟩ := copy_inv e2
      obtain ⟨c1, c2, c3⟩ := hc i hi
      simp only [e1, ok_bind, rd1_ok c1]
      refine h1.step (w := 1) hj (by simp only [Nat.lt_irrefl, if_false]; omega) (fun j' hlt _ => ?_) rfl
        (fun c hc => ?_) (fun j' _ hne => ?_) ?_ (by simp only [Nat.lt_irrefl, if_false]; omega)
      · simp only [Nat.lt_irrefl, if_false]
        rw [if_neg (by omega)]
      · have : c = 0 := by omega
        subst this
        simp only [Nat.lt_irrefl, if_false]
        rw [show 1 * i + 0 + 0 = 0 + i by omega, c3, List.getElem?_eq_getElem c1]
        rfl
      · by_cases c : j' < j
        · rw [if_pos c, if_pos (by omega)]
        · rw [if_neg c, if_neg (by omega)]
      · rw [if_pos (by omega), if_neg (by omega)]) (Wr.init hM)
  refine ⟨M', e, ?_⟩
  rw [Nat.one_mul] at h'
  exact h'

/-- Whole outputs in lane order, lanes `l0 … l0 + k - 1`. -/
theorem Wr.outs {l0 k : Nat} {f : Nat → C Bytes} (hk : l0 + k ≤ L)
    (hr : ∀ j, j < k → f j = .ok (r (l0 + j)) ∧ (r (l0 + j)).length = n) {M₀ : Mem}
    (h0 : Wr L n out r M (fun j => if j < l0 then n else 0) M₀) :
    ∃ M', forRange k (fun j M => do M.wr (out (l0 + j)) (← f j)) M₀ = .ok M' ∧
      Wr L n out r M (fun j => if j < l0 + k then n else 0) M' := by
  refine forRange_inv (n := k) (s := M₀) (body := fun j M => do M.wr (out (l0 + j)) (← f j))
    (fun j M' => Wr L n out r M (fun j' => if j' < l0 + j then n else 0) M') h0 (fun j M1 hj h1 => ?_)
  obtain ⟨e, hl⟩ := hr j hj
  rw [e, ok_bind]
  refine h1.step (j := l0 + j) (w := n) (by omega) (by simp only [Nat.lt_irrefl, if_false]; omega)
    (fun j' hlt _ => ?_) hl (fun c hc => ?_) (fun j' _ hne => ?_) ?_ (by simp only [Nat.lt_irrefl, if_false]; omega)
  · rw [if_neg (by omega)]; omega
  · simp only [Nat.lt_irrefl, if_false, Nat.zero_add]
  · by_cases c : j' < l0 + j
    · rw [if_pos c, if_pos (by omega)]
    · rw [if_neg c, if_neg (by omega)]
  · rw [if_pos (by omega)]; omega

/-- The outcome: every winning lane holds its output, nothing else has changed. -/
theorem Wr.final {M' : Mem} (h : Wr L n out r M (fun _ => n) M') (hl : ∀ j, j < L → (r j).length = n) {j : Nat}
    (hj : j < L) (hw : Wins L n out j) : M'.rd (out j) n = .ok (r j) :=
  Mem.rd_eq_iff.mpr ⟨hl j hj, fun i hi => h.val j hj hw i hi hi⟩

/-- The last lane writing to a place. -/
theorem last_lane {j : Nat} (hj : j < L) :
    ∃ j', j' < L ∧ out j' = out j ∧ ∀ k, k < L → out k = out j → k ≤ j' := by
  induction L with
  | zero => omega
  | succ L ih =>
    by_cases c : out L = out j
    · exact ⟨L, by omega, c, fun k hk _ => by omega⟩
    · have : j ≠ L := fun e => c (by rw [e])
      obtain ⟨j', h1, h2, h3⟩ := ih (by omega)
      refine ⟨j', by omega, h2, fun k hk e => h3 k ?_ e⟩
      have : k ≠ L := fun e' => c (by rw [← e']; exact e)
      omega

/-- With outputs pairwise equal or disjoint, the memory is determined. -/
theorem Wr.unique {M₁ M₂ : Mem} (hd : ∀ j j', j < L → j' < L → out j = out j' ∨ Mem.Disj (out j) n (out j') n)
    (h1 : Wr L n out r M (fun _ => n) M₁) (h2 : Wr L n out r M (fun _ => n) M₂) : M₁ = M₂ := by
  have key : ∀ a, M₁ a = M₂ a := by
    intro a
    by_cases c : ∃ j, j < L ∧ out j ≤ a ∧ a < out j + n
    · obtain ⟨j, hj, ha1, ha2⟩ := c
      obtain ⟨j', hj', e, hmax⟩ := last_lane (out := out) hj
      have hw : Wins L n out j' := by
        intro k hk hne
        rcases hd k j' hk hj' with e' | e'
        · have := hmax k hk (by rw [e', e])
          exact Or.inr ⟨e', by omega⟩
        · exact Or.inl e'
      have v1 := h1.val j' hj' hw (a - out j') (by omega) (by omega)
      have v2 := h2.val j' hj' hw (a - out j') (by omega) (by omega)
      rw [show out j' + (a - out j') = a by omega] at v1 v2
      rw [v1, v2]
    · have hn : ∀ j, j < L → ¬ (out j ≤ a ∧ a < out j + n) := fun j hj h => c ⟨j, hj, h⟩
      rw [h1.frame a hn, h2.frame a hn]
  cases M₁; cases M₂
  congr
  exact funext key

end
end Spx
