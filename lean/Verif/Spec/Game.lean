import Verif.Spec.Interactive
import Verif.Spec.Forgery
/-! # Forging signatures of a scheme whose message hash is a random function

The other hash functions are arbitrary and fixed.  The randomiser of a signature is the random value given to
signing. -/

namespace Spx.Spec

/-- What a forger does: it ends with a message and a signature, or hashes, or asks for a signature. -/
inductive Forger (ρ M D : Type) : Type
  | output (m : M) (sig : Bytes)
  | hash (r : ρ) (m : M) (next : D → Forger ρ M D)
  | sign (m : M) (next : Bytes → Forger ρ M D)

section
variable {ρ M D : Type}

/-- At most `q` signatures are asked for, and at most `t` digests computed, with that of the verification. -/
def Forger.Within : Forger ρ M D → Nat → Nat → Prop
  | .output _ _, _, t => 0 < t
  | .hash _ _ next, q, t => 0 < t ∧ ∀ d, (next d).Within q (t - 1)
  | .sign _ next, q, t => 0 < q ∧ ∀ sig, (next sig).Within (q - 1) t

/-- What happens if `H` is the message hash, `signature r m` the signature of `m` with randomiser `r`, and `s` are the
randomisers: the messages and signatures made, in front of `Q`, and what the forger ends with. -/
def Forger.run (H : ρ × M → D) (signature : ρ → M → Bytes) :
    Forger ρ M D → List ρ → List (M × Bytes) → Option (List (M × Bytes) × M × Bytes)
  | .output m sig, _, Q => some (Q, m, sig)
  | .hash r m next, s, Q => (next (H (r, m))).run H signature s Q
  | .sign m next, r :: s, Q => (next (signature r m)).run H signature s ((m, signature r m) :: Q)
  | .sign _ _, [], _ => none

end

/-- The bytes of a randomiser -/
def randomiserBytes {n : Nat} (r : Fin n → Fin (2 ^ 8)) : Bytes := List.ofFn fun i => BitVec.ofFin (r i)

/-- A string brought to length `k` -/
def fit (k : Nat) (x : Bytes) : Bytes := (x ++ List.replicate k 0).take k

open Classical in
/-- The hash functions `S`, except that `H` is the message hash and that the randomiser is what is given as optional
randomness.  `text` are the bytes of a message. -/
noncomputable def Hash.withOracle (S : Hash) {p : Par} {M : Type} (text : M → Bytes)
    (H : (Fin p.n → Fin (2 ^ 8)) × M → Digest p) : Hash :=
  { S with
    PRFmsg := fun _ _ optrand _ => fit p.n optrand
    Hmsg := fun R _ _ m k =>
      if h : ∃ z : (Fin p.n → Fin (2 ^ 8)) × M, (randomiserBytes z.1, text z.2) = (R, m) then fit k (H h.choose).bytes
      else fit k [] }

section
variable (p : Par) (S : Hash) (seed : Bytes)

/-- The signatures `Q` and the message `m` with `sig` show what breaks one of the other hash functions: a second
preimage, or a secret value that the signatures do not contain. -/
def Breaks (Q : List (Bytes × Bytes)) (m sig : Bytes) : Prop :=
  (∃ c ∈ verifyCalls p S (pkOf p S seed) m sig, SecondPreimage p S ((pkOf p S seed).take p.n) (seed.take p.n) c) ∨
  (∃ j i, j < p.d ∧ i < p.len ∧ WotsPreimage p S (pkOf p S seed) (seed.take p.n) Q m sig j i) ∨
  (∃ i, i < p.k ∧ ForsPreimage p S (pkOf p S seed) (seed.take p.n) Q m sig i)

variable {M : Type} (text : M → Bytes)

/-- The forger ends with a signature that is accepted and that it was not given for this message; and `X` holds of the
signatures it was given, the message and the signature. -/
def Forges (F : Forger (Fin p.n → Fin (2 ^ 8)) M (Digest p)) (H : (Fin p.n → Fin (2 ^ 8)) × M → Digest p)
    (s : List (Fin p.n → Fin (2 ^ 8))) (X : List (Bytes × Bytes) → Bytes → Bytes → Prop) : Prop :=
  ∃ Q m sig,
    F.run H (fun r m => sign p (S.withOracle text H) (skOf p (S.withOracle text H) seed) (randomiserBytes r) (text m)) s [] =
      some (Q, m, sig) ∧
    (m, sig) ∉ Q ∧ sig.length = p.n + (forsBytes p + p.d * xmssBytes p) ∧
    verify p (S.withOracle text H) (pkOf p (S.withOracle text H) seed) (text m) sig = true ∧
    X (Q.map fun c => (text c.1, c.2)) (text m) sig

end

end Spx.Spec
