import Verif.Model.Init
import Verif.Proof.Shipped
/-! Initialised contexts satisfy the invariant of the hash code. -/

namespace Spx
open Spec

variable {P : Params} (hP : P ∈ shipped) (G g : Nat → Nat → Byte)

theorem Ctx.Sized.init {ctx0 : Ctx} (h : ctx0.Sized P) :
    ∃ ctx, (implOf P g).initialize_hash_function ctx0 = .ok ctx ∧ (buildRefines hP G g).CtxOK ctx ∧
      ctx.pub_seed = ctx0.pub_seed ∧ ctx.sk_seed = ctx0.sk_seed :=
  (buildRefines hP G g).init ctx0 h.pub_seed h.sk_seed h.state_seeded h.state_seeded_512 h.tweaked512_rc64
    h.tweaked256_rc32 h.rc

variable {g} in
theorem Ctx.Ready.ctxOK {ctx : Ctx} (h : ctx.Ready P g) : (buildRefines hP G g).CtxOK ctx := by
  obtain ⟨c0, hs, hi, -, -⟩ := h
  obtain ⟨c, hc, hok, -, -⟩ := hs.init hP G g
  rw [hi] at hc
  cases hc
  exact hok

include hP in
/-- Initialisation succeeds and makes a ready context. -/
theorem Ctx.Sized.ready {ctx0 : Ctx} (h : ctx0.Sized P) :
    ∃ ctx, (implOf P g).initialize_hash_function ctx0 = .ok ctx ∧ ctx.Ready P g ∧
      ctx.pub_seed = ctx0.pub_seed ∧ ctx.sk_seed = ctx0.sk_seed := by
  obtain ⟨c, hc, -, h1, h2⟩ := h.init hP (fun _ _ => 0) g
  exact ⟨c, hc, ⟨ctx0, h, hc, h1, h2⟩, h1, h2⟩

variable {g} in
theorem Ctx.Ready.pub_len {ctx : Ctx} (h : ctx.Ready P g) : ctx.pub_seed.length = P.n := by
  obtain ⟨c0, hs, -, h1, -⟩ := h
  rw [h1, hs.pub_seed]

variable {g} in
theorem Ctx.Ready.sk_len {ctx : Ctx} (h : ctx.Ready P g) : ctx.sk_seed.length = P.n := by
  obtain ⟨c0, hs, -, -, h1⟩ := h
  rw [h1, hs.sk_seed]

include hP in
theorem two_n_small : 2 * P.n < 2 ^ 31 := by
  have := shipped_n hP
  omega

end Spx
