import Verif.Proof.Address
import Verif.Model.Env
/-! What the linked hash code has to satisfy for the scheme-level theorems. -/

namespace Spx
open Spec

/-- The hash code `H`, compiled with parameters `P`, computes the functions `S`. -/
structure Refines (P : Params) (H : HashImpl) (S : Spec.Hash) where
  /-- contexts produced by `initialize_hash_function` -/
  CtxOK : Ctx → Prop
  T_len : ∀ pub a x, (S.T pub a x).length = P.n
  PRF_len : ∀ pub sk a, (S.PRF pub sk a).length = P.n
  PRFmsg_len : ∀ pub k o m, (S.PRFmsg pub k o m).length = P.n
  Hmsg_len : ∀ R pub root m k, (S.Hmsg R pub root m k).length = k
  init : ∀ ctx : Ctx, ctx.pub_seed.length = P.n → ctx.sk_seed.length = P.n →
    ctx.state_seeded.length = 40 → ctx.state_seeded_512.length = 72 →
    ctx.tweaked512_rc64.length = 80 → ctx.tweaked256_rc32.length = 80 → ctx.rc.length = 640 →
    ∃ ctx', H.initialize_hash_function ctx = .ok ctx' ∧ CtxOK ctx' ∧
      ctx'.pub_seed = ctx.pub_seed ∧ ctx'.sk_seed = ctx.sk_seed
  thash : ∀ ctx a inp blocks, CtxOK ctx → a.OK → 1 ≤ blocks → blocks * P.n ≤ inp.length →
    blocks * P.n < 2 ^ 31 →
    H.thash inp blocks ctx (enc P.fam a) = .ok (S.T ctx.pub_seed a (inp.take (blocks * P.n)))
  prf : ∀ ctx a, CtxOK ctx → a.OK →
    H.prf_addr ctx (enc P.fam a) = .ok (S.PRF ctx.pub_seed ctx.sk_seed a)
  genR : ∀ ctx skPrf optrand m, CtxOK ctx → P.n ≤ skPrf.length → P.n ≤ optrand.length →
    m.length < 2 ^ 60 →
    H.gen_message_random skPrf optrand m ctx =
      .ok (S.PRFmsg ctx.pub_seed (skPrf.take P.n) (optrand.take P.n) m)
  hmsg : ∀ ctx R pk m, CtxOK ctx → P.n ≤ R.length → 2 * P.n ≤ pk.length →
    pk.take P.n = ctx.pub_seed → m.length < 2 ^ 60 →
    H.hash_message R pk m ctx = .ok (splitDigest P.toSpec
      (S.Hmsg (R.take P.n) ctx.pub_seed ((pk.drop P.n).take P.n) m (digestBytes P.toSpec)))

end Spx
