import Mathlib.Data.Fintype.Card
import Verif.Proof.Bytes
/-! A map from longer to shorter byte strings is not injective. -/

namespace Spx
open Spec

theorem bytes_pigeon {a b : Nat} (hab : a < b) (f : Bytes → Bytes) (hf : ∀ x, x.length = b → (f x).length = a) :
    ∃ x y, x.length = b ∧ y.length = b ∧ x ≠ y ∧ f x = f y := by
  by_contra hc
  have hinj : ∀ x y : Bytes, x.length = b → y.length = b → f x = f y → x = y := by
    intro x y hx hy hxy
    by_contra hne
    exact hc ⟨x, y, hx, hy, hne, hxy⟩
  let F : Fin (256 ^ b) → Fin (256 ^ a) := fun i =>
    ⟨beNat (f (toBE b i.1)), by
      have := beNat_lt (f (toBE b i.1))
      rwa [hf _ (toBE_length ..)] at this⟩
  have hF : Function.Injective F := by
    intro i j hij
    have h1 : beNat (f (toBE b i.1)) = beNat (f (toBE b j.1)) := congrArg Fin.val hij
    have h2 := beNat_inj (by rw [hf _ (toBE_length ..), hf _ (toBE_length ..)]) h1
    have h3 := hinj _ _ (toBE_length ..) (toBE_length ..) h2
    have h4 := congrArg beNat h3
    rw [beNat_toBE, beNat_toBE, Nat.mod_eq_of_lt i.2, Nat.mod_eq_of_lt j.2] at h4
    exact Fin.ext h4
  have hcard := Fintype.card_le_of_injective F hF
  rw [Fintype.card_fin, Fintype.card_fin] at hcard
  have := Nat.pow_lt_pow_right (a := 256) (by omega) hab
  omega

end Spx
