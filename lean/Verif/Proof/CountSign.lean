import Verif.Proof.CountTree
import Verif.Spec.Cost
import Verif.Proof.Sign
/-! # Calls made by key generation and signing -/

namespace Spx.Leak

variable {f : Fn} {E : Env} {κ : Fn → Nat} {ml : Nat}

/-- Tree code with known costs. -/
structure TreeCost (f : Fn) (T : TreeCode) (cm cf : Nat) : Prop where
  merkle_sign : ∀ sig root c wa ta i, Wp f (T.merkle_sign sig root c wa ta i) fun _ k => k = cm
  merkle_gen_root : ∀ root c, Wp f (T.merkle_gen_root root c) fun _ k => k = cm
  fors_sign : ∀ sig m c a, Wp f (T.fors_sign sig m c a) fun _ k => k = cf

theorem refCode_cost (hκ : HashCost f E.H κ ml) : TreeCost f (refCode E) (subtreeCost κ E.P) (forsSignCost κ E.P) :=
  ⟨fun _ _ _ _ _ _ => count_merkle_sign hκ, fun _ _ => count_merkle_gen_root hκ, fun _ _ _ _ => count_fors_sign hκ⟩

variable {T : TreeCode} {cm cf : Nat}

theorem count_keypair (hκ : HashCost f E.H κ ml) (hT : TreeCost f T cm cf) {pk0 sk0 seed : Bytes} :
    Wp f (crypto_sign_seed_keypairT E T pk0 sk0 seed) fun _ k => k = κ .init + cm := by
  unfold crypto_sign_seed_keypairT
  skipb
  skipb
  skipb
  skipb
  skipb
  skipb
  skipb
  skipb
  refine Wp.bind (Wp.init hκ fun c _ => ?_)
  skipb
  refine Wp.bind ((hT.merkle_gen_root _ _).mono fun a k _ hk => ?_)
  subst hk
  skipb
  skipb
  skipb
  refine Wp.ok ?_
  omega

theorem count_sign (hκ : HashCost f E.H κ ml) (hT : TreeCost f T cm cf) {sig0 m sk optrand : Bytes} (hm : m.length = ml) :
    Wp f (crypto_sign_signatureT E T sig0 m sk optrand) fun _ k =>
      k = κ .init + κ .rand + κ .msg + cf + E.P.d * cm := by
  unfold crypto_sign_signatureT
  skipb
  skipb
  skipb
  skipb
  skipb
  skipb
  refine Wp.bind (Wp.init hκ fun c _ => ?_)
  refine Wp.bind (Wp.rand hκ hm fun r _ => ?_)
  skipb
  refine Wp.bind (Wp.msg hκ hm fun r _ => ?_)
  obtain ⟨md, tree, leaf⟩ := r
  dsimp only
  refine Wp.bind ?_
  unfold sign_restT
  skipb
  skipb
  skipb
  skipb
  refine Wp.bind (Wp.withSub fun p => (hT.fors_sign _ _ _ _).mono fun a k _ hk => ?_)
  subst hk
  obtain ⟨s, root⟩ := a
  dsimp only
  refine Wp.bind (Wp.forConst cm (fun i t _ => ?_) fun t => ?_)
  · obtain ⟨sg, off, root, wa, ta, tr, lf⟩ := t
    unfold sign_layerT
    dsimp only
    skipb
    skipb
    skipb
    skipb
    refine Wp.bind (Wp.withSub fun p => (hT.merkle_sign _ _ _ _ _ _).mono fun a k _ hk => ?_)
    subst hk
    obtain ⟨s, r, t⟩ := a
    dsimp only
    skipb
    refine Wp.ok ?_
    omega
  · obtain ⟨sg, off, root, wa, ta, tr, lf⟩ := t
    dsimp only
    refine Wp.ok (Wp.ok ?_)
    simp only [Nat.zero_add, Nat.add_zero, Nat.add_assoc]

/-- The number of calls of a run which ends normally. -/
theorem Wp.calls_eq {α : Type} {x : L α} {n : Nat} {a : α} (h : Wp f x fun _ k => k = n) (hx : x.res = .ok a) :
    calls f x.tr = n := h a hx

/-! ## In the notation of the specification -/

open Spec

theorem total_eq (l : List (Nat × Fn)) : total l f = weigh (one f) l := by
  unfold total weigh one
  congr 2
  funext e
  split <;> simp

theorem weigh_nil : weigh κ [] = 0 := rfl

theorem weigh_cons (n : Nat) (g : Fn) (l : List (Nat × Fn)) : weigh κ ((n, g) :: l) = n * κ g + weigh κ l := by
  unfold weigh
  rw [List.map_cons, List.sum_cons]

theorem weigh_append (l l' : List (Nat × Fn)) : weigh κ (l ++ l') = weigh κ l + weigh κ l' := by
  unfold weigh
  rw [List.map_append, List.sum_append]

theorem weigh_times (m : Nat) (l : List (Nat × Fn)) : weigh κ (times m l) = m * weigh κ l := by
  induction l with
  | nil => rfl
  | cons e l ih =>
    obtain ⟨n, g⟩ := e
    show weigh κ ((m * n, g) :: times m l) = _
    rw [weigh_cons, weigh_cons, ih, Nat.mul_add, Nat.mul_assoc]

theorem weigh_xmss {P : Params} (hP : P.Valid) : weigh κ (xmssCost P.toSpec) = subtreeCost κ P := by
  unfold xmssCost leafCost subtreeCost
  rw [weigh_append, weigh_times, weigh_cons, weigh_cons, weigh_cons, weigh_cons, weigh_nil,
    toSpec_len hP.wots, toSpec_w hP.w, show P.toSpec.h' = P.treeHeight from rfl, Nat.mul_add P.wotsLen, Nat.mul_assoc,
    Nat.one_mul]
  simp only [Nat.add_zero, Nat.add_assoc]

theorem weigh_fors (P : Params) : weigh κ (forsCost P.toSpec) = forsSignCost κ P := by
  unfold forsCost forsSignCost
  rw [weigh_cons, weigh_cons, weigh_cons, weigh_cons, weigh_cons, weigh_nil, show P.toSpec.k = P.forsTrees from rfl,
    show P.toSpec.a = P.forsHeight from rfl, Nat.mul_add P.forsTrees, Nat.mul_add P.forsTrees, Nat.mul_add (2 ^ P.forsHeight),
    Nat.mul_add P.forsTrees, Nat.mul_assoc, Nat.mul_assoc, Nat.mul_assoc]
  omega

theorem weigh_keygen {P : Params} (hP : P.Valid) : weigh κ (keygenCost P.toSpec) = κ .init + subtreeCost κ P := by
  unfold keygenCost
  rw [weigh_cons, weigh_xmss hP, Nat.one_mul]

theorem weigh_sign {P : Params} (hP : P.Valid) : weigh κ (signCost P.toSpec) =
    κ .init + κ .rand + κ .msg + forsSignCost κ P + P.d * subtreeCost κ P := by
  unfold signCost
  rw [weigh_append, weigh_append, weigh_cons, weigh_cons, weigh_cons, weigh_nil, weigh_fors, weigh_times, weigh_xmss hP]
  show 1 * κ .init + (1 * κ .rand + (1 * κ .msg + 0)) + forsSignCost κ P + P.d * subtreeCost κ P = _
  omega

end Spx.Leak
