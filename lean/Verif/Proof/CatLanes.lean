import Verif.Proof.Base
import Verif.Proof.List
/-! Reading and writing one lane of a buffer that is a concatenation of equally long lanes. -/

namespace Spx

/-- `F` with lane `j` replaced by `x`. -/
def put {α : Type} (F : Nat → α) (j : Nat) (x : α) : Nat → α := fun i => if i = j then x else F i

@[simp] theorem put_same {α : Type} (F : Nat → α) (j : Nat) (x : α) : put F j x j = x := if_pos rfl

theorem put_other {α : Type} (F : Nat → α) {j i : Nat} (x : α) (h : i ≠ j) : put F j x i = F i := if_neg h

@[simp] theorem put_put {α : Type} (F : Nat → α) (j : Nat) (x y : α) : put (put F j x) j y = put F j y := by
  funext i
  unfold put
  by_cases h : i = j
  · rw [if_pos h, if_pos h]
  · rw [if_neg h, if_neg h, if_neg h]

theorem put_self {α : Type} (F : Nat → α) (j : Nat) : put F j (F j) = F := by
  funext i
  unfold put
  by_cases h : i = j
  · rw [if_pos h, h]
  · rw [if_neg h]

theorem put_length {α : Type} {F : Nat → List α} {L n j : Nat} {x : List α} (hF : ∀ i, i < L → (F i).length = n)
    (hx : x.length = n) : ∀ i, i < L → (put F j x i).length = n := by
  intro i hi
  unfold put
  split
  · exact hx
  · exact hF i hi

theorem cat_put {α : Type} {L j : Nat} (hj : j < L) (F : Nat → List α) (x : List α) :
    cat L (put F j x) = cat j F ++ (x ++ cat (L - j - 1) fun i => F (j + 1 + i)) := by
  obtain ⟨m, rfl⟩ : ∃ m, L = j + (1 + m) := ⟨L - j - 1, by omega⟩
  rw [cat_split, cat_split, show j + (1 + m) - j - 1 = m by omega]
  congr 1
  · exact cat_congr fun i hi => put_other _ _ (by omega)
  · congr 1
    · simp [cat]
    · apply cat_congr
      intro i _
      rw [put_other _ _ (by omega), Nat.add_assoc]

theorem cat_at {α : Type} {L j : Nat} (hj : j < L) (F : Nat → List α) :
    cat L F = cat j F ++ (F j ++ cat (L - j - 1) fun i => F (j + 1 + i)) := by
  rw [← cat_put hj F (F j), put_self]

section
variable {α : Type} {L n j o : Nat} {F : Nat → List α} (hF : ∀ i, i < L → (F i).length = n) (hj : j < L)
include hF hj

theorem rd_cat_part {k off : Nat} (ho : off = n * j + o) (hk : o + k ≤ n) :
    rd (cat L F) off k = .ok (((F j).drop o).take k) := by
  have h1 : (cat j F).length = n * j := by rw [cat_length fun i hi => hF i (by omega), Nat.mul_comm]
  have h2 := hF j hj
  rw [cat_at hj F, ho, rd_ok (by simp only [List.length_append]; omega)]
  congr 1
  rw [← List.drop_drop, List.drop_left' h1, List.drop_append_of_le_length (by omega), List.take_append_of_le_length
    (by simp; omega)]

theorem wr_cat_part {x : List α} {off : Nat} (ho : off = n * j + o) (hk : o + x.length ≤ n) :
    wr (cat L F) off x = .ok (cat L (put F j ((F j).take o ++ x ++ (F j).drop (o + x.length)))) := by
  have h1 : (cat j F).length = n * j := by rw [cat_length fun i hi => hF i (by omega), Nat.mul_comm]
  have h2 := hF j hj
  rw [cat_put hj, cat_at hj F, ho, wr_ok (by simp only [List.length_append]; omega)]
  congr 1
  rw [List.take_append, h1, List.take_of_length_le (by omega), show n * j + o - n * j = o by omega,
    List.take_append_of_le_length (by omega), Nat.add_assoc, ← List.drop_drop, List.drop_left' h1,
    List.drop_append_of_le_length (by omega)]
  simp only [List.append_assoc]

/-- Writing a whole lane. -/
theorem wr_cat_lane {x : List α} {off : Nat} (ho : off = n * j) (hx : x.length = n) :
    wr (cat L F) off x = .ok (cat L (put F j x)) := by
  have h := wr_cat_part hF hj (o := 0) (x := x) (off := off) (by omega) (by omega)
  have h2 := hF j hj
  rw [h, List.take_zero, List.nil_append, List.drop_of_length_le (by omega), List.append_nil]

theorem rd_cat_lane {off : Nat} (ho : off = n * j) : rd (cat L F) off n = .ok (F j) := by
  have h2 := hF j hj
  rw [rd_cat_part hF hj (o := 0) (by omega) (by omega), List.drop_zero, List.take_of_length_le (by omega)]

theorem rd1_cat {off : Nat} (ho : off = n * j + o) (hk : o < n) (d : α) :
    rd1 (cat L F) off = .ok ((F j).getD o d) := by
  have h1 : (cat j F).length = n * j := by rw [cat_length fun i hi => hF i (by omega), Nat.mul_comm]
  have h2 := hF j hj
  have hb : off < (cat L F).length := by rw [cat_at hj F]; simp only [List.length_append]; omega
  rw [rd1_ok hb, getD_lt (by omega)]
  congr 1
  simp only [cat_at hj F]
  rw [List.getElem_append_right (by omega), List.getElem_append_left (by omega)]
  congr 1
  omega

theorem wr1_cat {off : Nat} (ho : off = n * j + o) (hk : o < n) (v : α) :
    wr1 (cat L F) off v = .ok (cat L (put F j ((F j).set o v))) := by
  have h1 : (cat j F).length = n * j := by rw [cat_length fun i hi => hF i (by omega), Nat.mul_comm]
  have h2 := hF j hj
  rw [cat_put hj, cat_at hj F, wr1_ok (by simp only [List.length_append]; omega), List.set_append,
    if_neg (by omega), h1, show off - n * j = o by omega, List.set_append, if_pos (by omega)]

end

/-- Filling the lanes one after the other. -/
theorem cat_fill_step {α : Type} {L i : Nat} {F G : Nat → List α} {x : List α} (hx : x = G i) :
    cat L (put (fun j => if j < i then G j else F j) i x) = cat L (fun j => if j < i + 1 then G j else F j) := by
  apply cat_congr
  intro t _
  unfold put
  by_cases h1 : t = i
  · subst h1; rw [if_pos rfl, if_pos (by omega), hx]
  · by_cases h2 : t < i
    · rw [if_neg h1]; simp only [if_pos h2]; rw [if_pos (by omega)]
    · rw [if_neg h1]; simp only [if_neg h2]; rw [if_neg (by omega)]

end Spx
