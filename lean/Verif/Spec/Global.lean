import Verif.Spec.Shared
/-! # Forgers when all keys use the same hash functions

There is one tweakable hash, one pseudorandom function, one function for the randomisers and one message hash, all of
them random, for all owners of keys.  The owners' seeds are random.  The forger computes all functions with public seeds
and secret keys of its choice. -/

namespace Spx.Spec

/-- The random functions.  For a public seed: tweakable hash and message hash.  For a public and a secret seed: the
secret values.  For the key of `PRFmsg`: the randomisers, which depend on optional randomness and message. -/
abbrev World (p : Par) (M : Type) : Type :=
  (Value p → (Point p → Value p) × ((Fin p.n → Fin (2 ^ 8)) × M → Digest p)) ×
  (Value p × Value p → Point p → Value p) × (Value p → Value p × M → Value p)

noncomputable instance (p : Par) (M : Type) [Fintype M] [DecidableEq M] : Fintype (World p M) :=
  let : Fintype ((Value p × Value p → Point p → Value p) × (Value p → Value p × M → Value p)) := instFintypeProd _ _
  instFintypeProd _ _

/-- The first bytes of a string -/
def toValue (p : Par) (x : Bytes) : Value p := fun i => (x.getD i 0).toFin

/-- The hash functions of the scheme, for all keys.  In `Hmsg` the root has no influence. -/
noncomputable def Hash.global {p : Par} {M : Type} (text : M → Bytes) (W : World p M) : Hash where
  T := fun pub a x => (Hash.random (W.1 (toValue p pub)).1).T pub a x
  PRF := fun pub sk a => (Hash.random (W.2.1 (toValue p pub, toValue p sk))).PRF pub sk a
  PRFmsg := fun pub k o m =>
    ((Hash.random (W.1 (toValue p pub)).1).withRandomisers text (W.1 (toValue p pub)).2 (W.2.2 (toValue p k))).PRFmsg pub k o m
  Hmsg := fun R pub root m l =>
    ((Hash.random (W.1 (toValue p pub)).1).withOracle text (W.1 (toValue p pub)).2).Hmsg R pub root m l

/-- What a forger does.  Keys and public seeds are from `κ`. -/
inductive GlobalForger (ι κ β ρ M D : Type) : Type
  | output (i : ι) (m : M) (sig : Bytes)
  | hash (pub : κ) (r : ρ) (m : M) (next : D → GlobalForger ι κ β ρ M D)
  | tweak (pub : κ) (a : ADRS) (x : Bytes) (next : Bytes → GlobalForger ι κ β ρ M D)
  | prf (pub sk : κ) (a : ADRS) (next : Bytes → GlobalForger ι κ β ρ M D)
  | prfmsg (k : κ) (optrand : β) (m : M) (next : Bytes → GlobalForger ι κ β ρ M D)
  | sign (i : ι) (optrand : β) (m : M) (next : Bytes → GlobalForger ι κ β ρ M D)

section
variable {ι κ β ρ M D : Type}

/-- At most `q i` signatures of owner `i` are asked for, and for a public seed `pub` at most `t pub` digests are computed,
counting one for a verification.  The tweakable hash is computed at most `u` times, the pseudorandom function at most `g`
times, and randomisers are computed at most `g'` times. -/
def GlobalForger.Within [DecidableEq ι] [DecidableEq κ] :
    GlobalForger ι κ β ρ M D → (ι → Nat) → (κ → Nat) → Nat → Nat → Nat → Prop
  | .output _ _ _, _, t, _, _, _ => ∀ pub, 0 < t pub
  | .hash pub _ _ next, q, t, u, g, g' => 0 < t pub ∧ ∀ d, (next d).Within q (Function.update t pub (t pub - 1)) u g g'
  | .tweak _ _ _ next, q, t, u, g, g' => 0 < u ∧ ∀ y, (next y).Within q t (u - 1) g g'
  | .prf _ _ _ next, q, t, u, g, g' => 0 < g ∧ ∀ y, (next y).Within q t u (g - 1) g'
  | .prfmsg _ _ _ next, q, t, u, g, g' => 0 < g' ∧ ∀ y, (next y).Within q t u g (g' - 1)
  | .sign i _ _ next, q, t, u, g, g' => 0 < q i ∧ ∀ sig, (next sig).Within (Function.update q i (q i - 1)) t u g g'

/-- What happens: the owners, messages and signatures, in front of `Q`, and what the forger ends with. -/
def GlobalForger.run (H : κ → ρ × M → D) (T : κ → ADRS → Bytes → Bytes) (prf : κ → κ → ADRS → Bytes)
    (prfmsg : κ → β → M → Bytes) (signature : ι → β → M → Bytes) :
    GlobalForger ι κ β ρ M D → List (ι × M × Bytes) → List (ι × M × Bytes) × ι × M × Bytes
  | .output i m sig, Q => (Q, i, m, sig)
  | .hash pub r m next, Q => (next (H pub (r, m))).run H T prf prfmsg signature Q
  | .tweak pub a x next, Q => (next (T pub a x)).run H T prf prfmsg signature Q
  | .prf pub sk a next, Q => (next (prf pub sk a)).run H T prf prfmsg signature Q
  | .prfmsg k o m next, Q => (next (prfmsg k o m)).run H T prf prfmsg signature Q
  | .sign i o m next, Q => (next (signature i o m)).run H T prf prfmsg signature ((i, m, signature i o m) :: Q)

end

/-- The seeds of all owners: those for the secret values, the keys of `PRFmsg`, and the public seeds -/
abbrev Seeds (p : Par) (ι : Type) : Type := (ι → Value p) × (ι → Value p) × (ι → Value p)

/-- The seed from which an owner generates the key -/
def Seeds.bytes {p : Par} {ι : Type} (s : Seeds p ι) (i : ι) : Bytes :=
  randomiserBytes (s.1 i) ++ randomiserBytes (s.2.1 i) ++ randomiserBytes (s.2.2 i)

/-- The forger, who is given all public keys, ends with an owner and a signature that is accepted for its key, and that it
was not given for this owner and message. -/
def SucceedsGlobal (p : Par) {ι : Type} {M : Type} (text : M → Bytes)
    (F : (ι → Bytes) → GlobalForger ι (Value p) (Value p) (Fin p.n → Fin (2 ^ 8)) M (Digest p)) (W : World p M)
    (s : Seeds p ι) : Prop :=
  let S := Hash.global text W
  let pk i := pkOf p S (s.bytes i)
  let (Q, i, m, sig) := (F pk).run (fun pub => (W.1 pub).2) (fun pub => S.T (randomiserBytes pub))
    (fun pub sk => S.PRF (randomiserBytes pub) (randomiserBytes sk))
    (fun k o m => S.PRFmsg [] (randomiserBytes k) (randomiserBytes o) (text m))
    (fun i o m => sign p S (skOf p S (s.bytes i)) (randomiserBytes o) (text m)) []
  (i, m, sig) ∉ Q ∧ sig.length = p.n + (forsBytes p + p.d * xmssBytes p) ∧ verify p S (pk i) (text m) sig = true

end Spx.Spec
