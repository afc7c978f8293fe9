import Mathlib.Data.Set.Finite.List
import Mathlib.Data.Finite.Prod
import Mathlib.Data.Fintype.EquivFin
import Verif.Spec.Game
import Verif.Spec.Calls
/-! # Forging signatures of a scheme all of whose hash functions are random functions

The tweakable hash and the pseudorandom function for secret values are random functions of address and input, as far
as the scheme uses them; the message hash is a random function of randomiser and message; the randomisers of the
signatures are random. -/

namespace Spx.Spec

/-- Everything there is to hash: a position that occurs, with an input of the length hashed there.  The positions of
secret values have no input. -/
abbrev Point (p : Par) : Type := {c : HashCall // c.1.Valid p ∧ c.2.length = c.1.inLen p}

/-- A value of `n` bytes -/
abbrev Value (p : Par) : Type := Fin p.n → Fin (2 ^ 8)

namespace Position

/-- Kind and numbers of a position -/
def fields : Position → Nat × Nat × Nat × Nat × Nat × Nat
  | wotsPrf l t k c => (0, l, t, k, c, 0)
  | wotsHash l t k c s => (1, l, t, k, c, s)
  | wotsPk l t k => (2, l, t, k, 0, 0)
  | treeNode l t h i => (3, l, t, h, i, 0)
  | forsPrf t k i => (4, t, k, i, 0, 0)
  | forsLeaf t k i => (5, t, k, i, 0, 0)
  | forsNode t k h i => (6, t, k, h, i, 0)
  | forsRoots t k => (7, t, k, 0, 0, 0)

theorem fields_inj {q q' : Position} (h : q.fields = q'.fields) : q = q' := by
  cases q <;> cases q' <;> simp only [fields, Prod.mk.injEq] at h <;> first | omega | skip
  all_goals
    obtain ⟨-, h1, h2, h3, h4, h5⟩ := h
    subst_vars
    rfl

/-- Larger than all numbers in positions that occur -/
def bound (p : Par) : Nat := 8 + p.d + 2 ^ p.h + 2 ^ p.h' + p.len + p.w + p.k * 2 ^ p.a + p.h' + p.a

theorem fields_lt {p : Par} {q : Position} (h : q.Valid p) : q.fields.1 < bound p ∧ q.fields.2.1 < bound p ∧
    q.fields.2.2.1 < bound p ∧ q.fields.2.2.2.1 < bound p ∧ q.fields.2.2.2.2.1 < bound p ∧
    q.fields.2.2.2.2.2 < bound p := by
  have e1 : ∀ x, 2 ^ (p.h - x) ≤ 2 ^ p.h := fun x => Nat.pow_le_pow_right (by decide) (Nat.sub_le _ _)
  have e2 : ∀ x, 2 ^ (p.h' - x) ≤ 2 ^ p.h' := fun x => Nat.pow_le_pow_right (by decide) (Nat.sub_le _ _)
  have e3 : ∀ x, p.k * 2 ^ (p.a - x) ≤ p.k * 2 ^ p.a := fun x =>
    Nat.mul_le_mul_left _ (Nat.pow_le_pow_right (by decide) (Nat.sub_le _ _))
  unfold bound
  cases q with
  | wotsPrf l t k c =>
    have := e1 ((l + 1) * p.h')
    simp only [Valid] at h
    simp only [fields]
    omega
  | wotsHash l t k c s =>
    have := e1 ((l + 1) * p.h')
    simp only [Valid] at h
    simp only [fields]
    omega
  | wotsPk l t k =>
    have := e1 ((l + 1) * p.h')
    simp only [Valid] at h
    simp only [fields]
    omega
  | treeNode l t j i =>
    have := e1 ((l + 1) * p.h')
    have := e2 j
    simp only [Valid] at h
    simp only [fields]
    omega
  | forsPrf t k i =>
    have := e1 p.h'
    simp only [Valid] at h
    simp only [fields]
    omega
  | forsLeaf t k i =>
    have := e1 p.h'
    simp only [Valid] at h
    simp only [fields]
    omega
  | forsNode t k j i =>
    have := e1 p.h'
    have := e3 j
    simp only [Valid] at h
    simp only [fields]
    omega
  | forsRoots t k =>
    have := e1 p.h'
    simp only [Valid] at h
    simp only [fields]
    omega

end Position

/-- The positions that occur -/
abbrev Place (p : Par) : Type := {q : Position // q.Valid p}

instance (p : Par) : Finite (Place p) := by
  let B := Position.bound p
  refine Finite.of_injective (β := Fin B × Fin B × Fin B × Fin B × Fin B × Fin B) (fun q =>
    (⟨_, (Position.fields_lt q.2).1⟩, ⟨_, (Position.fields_lt q.2).2.1⟩, ⟨_, (Position.fields_lt q.2).2.2.1⟩,
      ⟨_, (Position.fields_lt q.2).2.2.2.1⟩, ⟨_, (Position.fields_lt q.2).2.2.2.2.1⟩,
      ⟨_, (Position.fields_lt q.2).2.2.2.2.2⟩)) fun q q' h => Subtype.ext (Position.fields_inj ?_)
  simp only [Prod.mk.injEq, Fin.mk.injEq] at h
  obtain ⟨h1, h2, h3, h4, h5, h6⟩ := h
  exact Prod.ext h1 (Prod.ext h2 (Prod.ext h3 (Prod.ext h4 (Prod.ext h5 h6))))

instance (p : Par) : Finite (Point p) := by
  have : Finite Byte := Finite.of_injective BitVec.toFin fun a b h => BitVec.eq_of_toFin_eq h
  let B := 2 * p.n + p.len * p.n + p.k * p.n
  have hB : ∀ z : Point p, z.1.2.length ≤ B := by
    intro z
    rw [z.2.2]
    cases z.1.1 <;> simp only [Position.inLen, B] <;> omega
  have : Finite {l : Bytes // l.length ≤ B} := (List.finite_length_le Byte B).to_subtype
  refine Finite.of_injective (β := Place p × {l : Bytes // l.length ≤ B})
    (fun z => (⟨z.1.1, z.2.1⟩, ⟨z.1.2, hB z⟩)) fun z z' h => Subtype.ext ?_
  simp only [Prod.mk.injEq, Subtype.mk.injEq] at h
  exact Prod.ext h.1 h.2

noncomputable instance (p : Par) : Fintype (Place p) := Fintype.ofFinite _
noncomputable instance (p : Par) : Fintype (Point p) := Fintype.ofFinite _

open Classical in
/-- Tweakable hash and secret values given by a function of the points; the seeds have no influence.  The functions for
messages are constant here. -/
noncomputable def Hash.random {p : Par} (O : Point p → Value p) : Hash where
  T := fun _ a x =>
    if h : ∃ z : Point p, z.1.1.isPrf = false ∧ z.1.1.adrs = a ∧ z.1.2 = x then randomiserBytes (O h.choose)
    else List.replicate p.n 0
  PRF := fun _ _ a =>
    if h : ∃ z : Point p, z.1.1.isPrf = true ∧ z.1.1.adrs = a then randomiserBytes (O h.choose)
    else List.replicate p.n 0
  PRFmsg := fun _ _ _ _ => List.replicate p.n 0
  Hmsg := fun _ _ _ _ k => List.replicate k 0

/-- What a forger does: it ends with a message and a signature, or computes a digest, or computes the tweakable hash,
or asks for a signature. -/
inductive Adversary (ρ M D : Type) : Type
  | output (m : M) (sig : Bytes)
  | hash (r : ρ) (m : M) (next : D → Adversary ρ M D)
  | tweak (a : ADRS) (x : Bytes) (next : Bytes → Adversary ρ M D)
  | sign (m : M) (next : Bytes → Adversary ρ M D)

section
variable {ρ M D : Type}

/-- At most `q` signatures are asked for, at most `t` digests are computed, with that of the verification, and the
tweakable hash is computed at most `u` times. -/
def Adversary.Within : Adversary ρ M D → Nat → Nat → Nat → Prop
  | .output _ _, _, t, _ => 0 < t
  | .hash _ _ next, q, t, u => 0 < t ∧ ∀ d, (next d).Within q (t - 1) u
  | .tweak _ _ next, q, t, u => 0 < u ∧ ∀ y, (next y).Within q t (u - 1)
  | .sign _ next, q, t, u => 0 < q ∧ ∀ sig, (next sig).Within (q - 1) t u

/-- What happens if `H` is the message hash, `T` the tweakable hash, `signature r m` the signature of `m` with randomiser
`r`, and `s` are the randomisers: the messages and signatures made, in front of `Q`, and what the forger ends with. -/
def Adversary.run (H : ρ × M → D) (T : ADRS → Bytes → Bytes) (signature : ρ → M → Bytes) :
    Adversary ρ M D → List ρ → List (M × Bytes) → Option (List (M × Bytes) × M × Bytes)
  | .output m sig, _, Q => some (Q, m, sig)
  | .hash r m next, s, Q => (next (H (r, m))).run H T signature s Q
  | .tweak a x next, s, Q => (next (T a x)).run H T signature s Q
  | .sign m next, r :: s, Q => (next (signature r m)).run H T signature s ((m, signature r m) :: Q)
  | .sign _ _, [], _ => none

end

/-- The forger, who is given the public key, ends with a signature that is accepted and that it was not given for this
message. -/
def Succeeds (p : Par) (seed : Bytes) {M : Type} (text : M → Bytes)
    (F : Bytes → Adversary (Fin p.n → Fin (2 ^ 8)) M (Digest p))
    (O : Point p → Value p) (H : (Fin p.n → Fin (2 ^ 8)) × M → Digest p) (s : List (Fin p.n → Fin (2 ^ 8))) : Prop :=
  let S := (Hash.random O).withOracle text H
  ∃ Q m sig,
    (F (pkOf p S seed)).run H (S.T ((pkOf p S seed).take p.n))
      (fun r m => sign p S (skOf p S seed) (randomiserBytes r) (text m)) s [] = some (Q, m, sig) ∧
    (m, sig) ∉ Q ∧ sig.length = p.n + (forsBytes p + p.d * xmssBytes p) ∧
    verify p S (pkOf p S seed) (text m) sig = true

/-- The largest number of calls of the tweakable hash in a verification. -/
def maxCalls (p : Par) : Nat := p.k * (p.a + 1) + 1 + p.d * (p.len * (p.w - 1) + 1 + p.h')

end Spx.Spec
