import Verif.Spec.Oracle
/-! # Forgers who choose the optional randomness of the signatures

As in `Verif.Spec.Oracle`, but the randomiser of a signature is a random function of the optional randomness and of the
message, and the forger chooses both. -/

namespace Spx.Spec

open Classical in
/-- The hash functions of `withOracle`, with the randomiser given by a function of optional randomness and message. -/
noncomputable def Hash.withRandomisers (S : Hash) {p : Par} {M : Type} (text : M → Bytes)
    (H : (Fin p.n → Fin (2 ^ 8)) × M → Digest p) (G : Value p × M → Value p) : Hash :=
  { S.withOracle text H with
    PRFmsg := fun _ _ optrand m =>
      if h : ∃ z : Value p × M, (randomiserBytes z.1, text z.2) = (optrand, m) then randomiserBytes (G h.choose)
      else List.replicate p.n 0 }

/-- What a forger does: as `Adversary`, but it chooses the optional randomness of the signatures, from `β`. -/
inductive Chooser (β ρ M D : Type) : Type
  | output (m : M) (sig : Bytes)
  | hash (r : ρ) (m : M) (next : D → Chooser β ρ M D)
  | tweak (a : ADRS) (x : Bytes) (next : Bytes → Chooser β ρ M D)
  | sign (optrand : β) (m : M) (next : Bytes → Chooser β ρ M D)

section
variable {β ρ M D : Type}

/-- At most `q` signatures are asked for, at most `t` digests are computed, with that of the verification, and the
tweakable hash is computed at most `u` times. -/
def Chooser.Within : Chooser β ρ M D → Nat → Nat → Nat → Prop
  | .output _ _, _, t, _ => 0 < t
  | .hash _ _ next, q, t, u => 0 < t ∧ ∀ d, (next d).Within q (t - 1) u
  | .tweak _ _ next, q, t, u => 0 < u ∧ ∀ y, (next y).Within q t (u - 1)
  | .sign _ _ next, q, t, u => 0 < q ∧ ∀ sig, (next sig).Within (q - 1) t u

/-- What happens if `signature o m` is the signature of `m` with optional randomness `o`: the messages and signatures
made, in front of `Q`, and what the forger ends with. -/
def Chooser.run (H : ρ × M → D) (T : ADRS → Bytes → Bytes) (signature : β → M → Bytes) :
    Chooser β ρ M D → List (M × Bytes) → List (M × Bytes) × M × Bytes
  | .output m sig, Q => (Q, m, sig)
  | .hash r m next, Q => (next (H (r, m))).run H T signature Q
  | .tweak a x next, Q => (next (T a x)).run H T signature Q
  | .sign o m next, Q => (next (signature o m)).run H T signature ((m, signature o m) :: Q)

end

/-- The forger, who is given the public key, ends with a signature that is accepted and that it was not given for this
message. -/
def SucceedsChosen (p : Par) (seed : Bytes) {M : Type} (text : M → Bytes)
    (F : Bytes → Chooser (Value p) (Fin p.n → Fin (2 ^ 8)) M (Digest p))
    (O : Point p → Value p) (H : (Fin p.n → Fin (2 ^ 8)) × M → Digest p) (G : Value p × M → Value p) : Prop :=
  let S := (Hash.random O).withRandomisers text H G
  let pk := pkOf p S seed
  let (Q, m, sig) := (F pk).run H (S.T (pk.take p.n))
    (fun o m => sign p S (skOf p S seed) (randomiserBytes o) (text m)) []
  (m, sig) ∉ Q ∧ sig.length = p.n + (forsBytes p + p.d * xmssBytes p) ∧ verify p S pk (text m) sig = true

end Spx.Spec
