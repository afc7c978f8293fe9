import Verif.Model.Api
import Verif.Proof.Base
/-! Lemmas about flat memory. -/

namespace Spx
namespace Mem

/-- The `len` bytes at `p` are allocated. -/
def Alloc (M : Mem) (p len : Nat) : Prop := ∀ i, i < len → (M (p + i)).isSome

/-- Two address ranges do not meet. -/
def Disj (p k q l : Nat) : Prop := p + k ≤ q ∨ q + l ≤ p

/-- `M'` agrees with `M` outside `len` bytes at `p`. -/
def SameOutside (M M' : Mem) (p len : Nat) : Prop := ∀ a, ¬ (p ≤ a ∧ a < p + len) → M' a = M a

theorem rd_eq_iff {M : Mem} {p len : Nat} {d : Bytes} :
    M.rd p len = .ok d ↔ d.length = len ∧ ∀ i, i < len → M (p + i) = d[i]? := by
  unfold rd
  constructor
  · intro h
    split at h
    · rename_i ha
      cases h
      refine ⟨by simp, fun i hi => ?_⟩
      have := ha i hi
      obtain ⟨x, hx⟩ := Option.isSome_iff_exists.mp this
      simp [hi, hx]
    · cases h
  · rintro ⟨hl, hd⟩
    have ha : ∀ i, i < len → (M (p + i)).isSome := by
      intro i hi
      rw [hd i hi, List.getElem?_eq_getElem (by omega)]
      rfl
    rw [if_pos ha]
    congr 1
    apply List.ext_getElem?
    intro i
    by_cases hi : i < len
    · simp [hi, hd i hi, List.getElem?_eq_getElem (show i < d.length by omega)]
    · rw [List.getElem?_eq_none (by simp; omega), List.getElem?_eq_none (by omega)]

theorem alloc_of_rd {M : Mem} {p len : Nat} {d : Bytes} (h : M.rd p len = .ok d) : M.Alloc p len := by
  unfold rd at h
  split at h
  · assumption
  · cases h

theorem rd_of_alloc {M : Mem} {p len : Nat} (h : M.Alloc p len) : ∃ d, M.rd p len = .ok d ∧ d.length = len := by
  refine ⟨(List.range len).map fun i => (M (p + i)).getD 0, ?_, ?_⟩
  · exact if_pos h
  · simp

theorem rd_length {M : Mem} {p len : Nat} {d : Bytes} (h : M.rd p len = .ok d) : d.length = len :=
  (rd_eq_iff.mp h).1

/-- A successful write, its effect and its frame. -/
theorem wr_of_alloc {M : Mem} {p : Nat} {d : Bytes} (h : M.Alloc p d.length) :
    ∃ M', M.wr p d = .ok M' ∧ M'.rd p d.length = .ok d ∧ SameOutside M M' p d.length := by
  refine ⟨⟨fun a => if p ≤ a ∧ a < p + d.length then d[a - p]? else M a⟩, ?_, ?_, ?_⟩
  · exact if_pos h
  · rw [rd_eq_iff]
    refine ⟨rfl, fun i hi => ?_⟩
    show (if p ≤ p + i ∧ p + i < p + d.length then d[p + i - p]? else M (p + i)) = _
    rw [if_pos (by omega), Nat.add_sub_cancel_left]
  · intro a ha
    exact if_neg ha

theorem rd_frame {M M' : Mem} {p len q k : Nat} (h : SameOutside M M' p len) (hd : Disj p len q k) :
    M'.rd q k = M.rd q k := by
  have he : ∀ i, i < k → M' (q + i) = M (q + i) := by
    intro i hi
    apply h
    rcases hd with hd | hd <;> omega
  unfold rd
  have e1 : (∀ i, i < k → (M' (q + i)).isSome = true) ↔ (∀ i, i < k → (M (q + i)).isSome = true) :=
    ⟨fun h i hi => by rw [← he i hi]; exact h i hi, fun h i hi => by rw [he i hi]; exact h i hi⟩
  have e2 : (List.range k).map (fun i => (M' (q + i)).getD 0) = (List.range k).map fun i => (M (q + i)).getD 0 := by
    apply List.map_congr_left
    intro i hi
    rw [he i (List.mem_range.mp hi)]
  simp only [e1, e2]

theorem rd_append {M : Mem} {p a b : Nat} {x y : Bytes} (hx : M.rd p a = .ok x) (hy : M.rd (p + a) b = .ok y) :
    M.rd p (a + b) = .ok (x ++ y) := by
  rw [rd_eq_iff] at *
  obtain ⟨hx1, hx2⟩ := hx
  obtain ⟨hy1, hy2⟩ := hy
  refine ⟨by simp [hx1, hy1], fun i hi => ?_⟩
  by_cases h : i < a
  · rw [hx2 i h, List.getElem?_append_left (by omega)]
  · rw [List.getElem?_append_right (by omega), hx1, ← hy2 (i - a) (by omega)]
    congr 1
    omega

theorem rd_take {M : Mem} {p len k : Nat} {d : Bytes} (h : M.rd p len = .ok d) (hk : k ≤ len) :
    M.rd p k = .ok (d.take k) := by
  rw [rd_eq_iff] at *
  refine ⟨by simp; omega, fun i hi => ?_⟩
  rw [h.2 i (by omega), List.getElem?_take_of_lt hi]

theorem rd_drop {M : Mem} {p len k : Nat} {d : Bytes} (h : M.rd p len = .ok d) (hk : k ≤ len) :
    M.rd (p + k) (len - k) = .ok (d.drop k) := by
  rw [rd_eq_iff] at *
  refine ⟨by simp; omega, fun i hi => ?_⟩
  rw [Nat.add_assoc, h.2 (k + i) (by omega), List.getElem?_drop]

theorem SameOutside.alloc {M M' : Mem} {p len q k : Nat} (h : SameOutside M M' p len) {d : Bytes}
    (hr : M'.rd p len = .ok d) (ha : M.Alloc q k) : M'.Alloc q k := by
  intro i hi
  by_cases hc : p ≤ q + i ∧ q + i < p + len
  · have := alloc_of_rd hr (q + i - p) (by omega)
    rwa [show p + (q + i - p) = q + i by omega] at this
  · rw [h _ hc]; exact ha i hi

theorem SameOutside.trans {M M' M'' : Mem} {p k q l r s : Nat} (h1 : SameOutside M M' p k)
    (h2 : SameOutside M' M'' q l) (hp : r ≤ p ∧ p + k ≤ r + s) (hq : r ≤ q ∧ q + l ≤ r + s) :
    SameOutside M M'' r s := by
  intro a ha
  rw [h2 a (by omega), h1 a (by omega)]

theorem alloc_sub {M : Mem} {p len q k : Nat} (h : M.Alloc p len) (hq : p ≤ q) (hk : q + k ≤ p + len) :
    M.Alloc q k := by
  intro i hi
  have := h (q + i - p) (by omega)
  rwa [show p + (q + i - p) = q + i by omega] at this

/-- A memory in which every address holds a byte. -/
def filled (f : Nat → Byte) : Mem := ⟨fun a => some (f a)⟩

theorem filled_rd (f : Nat → Byte) (p len : Nat) :
    (filled f).rd p len = .ok ((List.range len).map fun i => f (p + i)) :=
  if_pos (fun _ _ => rfl)

theorem filled_alloc (f : Nat → Byte) (p len : Nat) : (filled f).Alloc p len := fun _ _ => rfl

theorem filled_const (b : Byte) (p len : Nat) : (filled fun _ => b).rd p len = .ok (List.replicate len b) := by
  rw [filled_rd, List.map_const', List.length_range]

/-- A memory is determined by one range and everything outside it. -/
theorem SameOutside.unique {M M1 M2 : Mem} {p len : Nat} {d : Bytes} (h1 : SameOutside M M1 p len)
    (h2 : SameOutside M M2 p len) (r1 : M1.rd p len = .ok d) (r2 : M2.rd p len = .ok d) : M1 = M2 := by
  obtain ⟨f1⟩ := M1
  obtain ⟨f2⟩ := M2
  congr 1
  funext a
  by_cases ha : p ≤ a ∧ a < p + len
  · have e1 := (rd_eq_iff.mp r1).2 (a - p) (by omega)
    have e2 := (rd_eq_iff.mp r2).2 (a - p) (by omega)
    rw [show p + (a - p) = a by omega] at e1 e2
    exact e1.trans e2.symm
  · exact (h1 a ha).trans (h2 a ha).symm

/-- The same addresses are allocated. -/
def SameAlloc (M M' : Mem) : Prop := ∀ p len, M.Alloc p len → M'.Alloc p len

theorem SameOutside.sameAlloc {M M' : Mem} {p len : Nat} (h : SameOutside M M' p len) {d : Bytes}
    (hr : M'.rd p len = .ok d) : SameAlloc M M' := fun _ _ ha => h.alloc hr ha

end Mem
end Spx
