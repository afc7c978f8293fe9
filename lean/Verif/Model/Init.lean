import Verif.Model.ParamSets
/-! # Contexts as the library makes them -/

namespace Spx

/-- The arrays of `spx_ctx` have the declared sizes (ref/context.h:8-26, haraka-aesni/context.h:9-14); nothing is said about
their contents. -/
structure Ctx.Sized (P : Params) (c : Ctx) : Prop where
  pub_seed : c.pub_seed.length = P.n
  sk_seed : c.sk_seed.length = P.n
  state_seeded : c.state_seeded.length = 40
  state_seeded_512 : c.state_seeded_512.length = 72
  tweaked512_rc64 : c.tweaked512_rc64.length = 80
  tweaked256_rc32 : c.tweaked256_rc32.length = 80
  rc : c.rc.length = 640

/-- `ctx` is what `initialize_hash_function` makes of some `spx_ctx` object, as at ref/sign.c:68,
115 and 187. -/
def Ctx.Ready (P : Params) (g : Nat → Nat → Byte) (ctx : Ctx) : Prop :=
  ∃ ctx0 : Ctx, ctx0.Sized P ∧ (implOf P g).initialize_hash_function ctx0 = .ok ctx ∧
    ctx.pub_seed = ctx0.pub_seed ∧ ctx.sk_seed = ctx0.sk_seed

/-- An `spx_ctx` object with chosen seeds and zeros elsewhere. -/
def Ctx.zeroed (pub sk : Bytes) : Ctx where
  pub_seed := pub
  sk_seed := sk
  state_seeded := List.replicate 40 0
  state_seeded_512 := List.replicate 72 0
  tweaked512_rc64 := List.replicate 80 0
  tweaked256_rc32 := List.replicate 80 0
  rc := List.replicate 640 0

theorem Ctx.zeroed_sized {P : Params} {pub sk : Bytes} (h1 : pub.length = P.n) (h2 : sk.length = P.n) :
    (Ctx.zeroed pub sk).Sized P :=
  ⟨h1, h2, List.length_replicate, List.length_replicate, List.length_replicate, List.length_replicate,
    List.length_replicate⟩

end Spx
