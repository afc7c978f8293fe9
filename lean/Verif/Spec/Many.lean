import Verif.Spec.Chosen
/-! # Forgers who attack many keys at once

As in `Verif.Spec.Chosen`, but there are many owners `i : ι` of keys, and the forger succeeds with a forgery for any of
them.  Each owner has random functions of its own: all hash functions of the scheme take the public seed or the secret
seed as an input, and these differ. -/

namespace Spx.Spec

/-- What a forger does: as `Chooser`, for the key of an owner each time. -/
inductive ManyForger (ι β ρ M D : Type) : Type
  | output (i : ι) (m : M) (sig : Bytes)
  | hash (i : ι) (r : ρ) (m : M) (next : D → ManyForger ι β ρ M D)
  | tweak (i : ι) (a : ADRS) (x : Bytes) (next : Bytes → ManyForger ι β ρ M D)
  | sign (i : ι) (optrand : β) (m : M) (next : Bytes → ManyForger ι β ρ M D)

section
variable {ι β ρ M D : Type}

/-- For each owner `i`, at most `q i` signatures are asked for, at most `t i` digests are computed, counting one for a
verification, and the tweakable hash is computed at most `u i` times. -/
def ManyForger.Within [DecidableEq ι] : ManyForger ι β ρ M D → (ι → Nat) → (ι → Nat) → (ι → Nat) → Prop
  | .output _ _ _, _, t, _ => ∀ i, 0 < t i
  | .hash i _ _ next, q, t, u => 0 < t i ∧ ∀ d, (next d).Within q (Function.update t i (t i - 1)) u
  | .tweak i _ _ next, q, t, u => 0 < u i ∧ ∀ y, (next y).Within q t (Function.update u i (u i - 1))
  | .sign i _ _ next, q, t, u => 0 < q i ∧ ∀ sig, (next sig).Within (Function.update q i (q i - 1)) t u

/-- What happens: the owners, messages and signatures, in front of `Q`, and what the forger ends with. -/
def ManyForger.run (H : ι → ρ × M → D) (T : ι → ADRS → Bytes → Bytes) (signature : ι → β → M → Bytes) :
    ManyForger ι β ρ M D → List (ι × M × Bytes) → List (ι × M × Bytes) × ι × M × Bytes
  | .output i m sig, Q => (Q, i, m, sig)
  | .hash i r m next, Q => (next (H i (r, m))).run H T signature Q
  | .tweak i a x next, Q => (next (T i a x)).run H T signature Q
  | .sign i o m next, Q => (next (signature i o m)).run H T signature ((i, m, signature i o m) :: Q)

end

/-- The random functions of an owner -/
abbrev Functions (p : Par) (M : Type) : Type :=
  (Point p → Value p) × ((Fin p.n → Fin (2 ^ 8)) × M → Digest p) × (Value p × M → Value p)

noncomputable instance (p : Par) (M : Type) [Fintype M] [DecidableEq M] : Fintype (Functions p M) := instFintypeProd _ _

/-- The forger, who is given all public keys, ends with an owner and a signature that is accepted for its key, and that it
was not given for this owner and message. -/
def SucceedsMany (p : Par) {ι : Type} (seed : ι → Bytes) {M : Type} (text : M → Bytes)
    (F : (ι → Bytes) → ManyForger ι (Value p) (Fin p.n → Fin (2 ^ 8)) M (Digest p)) (w : ι → Functions p M) : Prop :=
  let S i := (Hash.random (w i).1).withRandomisers text (w i).2.1 (w i).2.2
  let pk i := pkOf p (S i) (seed i)
  let (Q, i, m, sig) := (F pk).run (fun i => (w i).2.1) (fun i => (S i).T ((pk i).take p.n))
    (fun i o m => sign p (S i) (skOf p (S i) (seed i)) (randomiserBytes o) (text m)) []
  (i, m, sig) ∉ Q ∧ sig.length = p.n + (forsBytes p + p.d * xmssBytes p) ∧ verify p (S i) (pk i) (text m) sig = true

end Spx.Spec
