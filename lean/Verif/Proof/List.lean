import Verif.Proof.Base
/-! More facts on lists. -/

namespace Spx

theorem getD_app_left {α : Type} {a b : List α} {i : Nat} {d : α} (h : i < a.length) :
    (a ++ b).getD i d = a.getD i d := by
  simp [List.getD, List.getElem?_append_left h]

theorem getD_app_right {α : Type} {a b : List α} {i : Nat} {d : α} (h : a.length ≤ i) :
    (a ++ b).getD i d = b.getD (i - a.length) d := by
  simp [List.getD, List.getElem?_append_right h]

theorem chunk_cat {α : Type} {k n : Nat} {f : Nat → List α} (h : ∀ i, i < k → (f i).length = n)
    {i : Nat} (hi : i < k) : chunk n (cat k f) i = f i := by
  have := cat_chunk h hi []
  rwa [List.append_nil] at this

theorem eq_cat_of_chunks {α : Type} {n k : Nat} {b : List α} {f : Nat → List α} (hb : b.length = k * n)
    (h : ∀ i, i < k → chunk n b i = f i) : b = cat k f := by
  rw [eq_of_chunks (b := b) (by omega) h, List.drop_of_length_le (by omega), List.append_nil]

end Spx

namespace Spx

/-- Comparison of an outcome with a byte string, for evaluation by the kernel. -/
def okIs (x : C Bytes) (e : Bytes) : Bool :=
  match x with
  | .ok r => decide (r = e)
  | .error _ => false

theorem eq_of_okIs {x : C Bytes} {e y : Bytes} (h : okIs x e = true) (hy : x = .ok y) : y = e := by
  subst hy
  simpa [okIs] using h

theorem wr_whole {b d : Bytes} (h : d.length = b.length) : wr b 0 d = .ok d := by
  rw [wr_ok (by omega)]
  simp [h]

end Spx
