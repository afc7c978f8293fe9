import Verif.Proof.Selection
import Verif.Props.Fors
import Verif.Props.Bound
/-! # C80 and C81: what uniform digests select

C80: no FORS key and no leaf is preferred.  C81: the column "bit security" of README.md is a bound for the
probability of the last outcome of C62 after 2^64 signatures. -/

namespace Spx
open Spec

/-- C80: the leaf indices and the FORS key are uniform and independent if the digest is uniform: every
selection comes from the same number of digests. -/
theorem C80_uniform (p : Par) {tree leaf : Nat} (ht : tree < 2 ^ (p.h' * (p.d - 1))) (hl : leaf < 2 ^ p.h')
    {c : Nat → Nat} (hc : ∀ i, i < p.k → c i < 2 ^ p.a) :
    howMany (fun d : Digest p => d.key = (tree, leaf) ∧ ∀ i, i < p.k → d.pick i = c i) *
      2 ^ (p.a * p.k + (p.h' * (p.d - 1) + p.h')) = 2 ^ (8 * digestBytes p) := by
  have e : howMany (fun d : Digest p => d.key = (tree, leaf) ∧ ∀ i, i < p.k → d.pick i = c i) =
      Digest.perSelection p := by
    rw [← Digest.card_selection (⟨tree, ht⟩, ⟨leaf, hl⟩) (fun i => ⟨c i, hc i i.2⟩)]
    unfold howMany
    congr 1
    ext d
    simp only [Finset.mem_filter, Finset.mem_univ, true_and]
    refine and_congr ?_ ?_
    · rw [Digest.key_eq, Prod.ext_iff, Prod.ext_iff, Fin.ext_iff, Fin.ext_iff]
    · rw [funext_iff]
      exact ⟨fun h i => Fin.ext (h i.1 i.2), fun h i hi => Fin.ext_iff.mp (h ⟨i, hi⟩)⟩
  rw [e, ← Digest.perSelection_mul]
  rw [Nat.pow_add, Nat.pow_add, Nat.pow_mul 2 p.a]
  ac_rfl

/-- C80, the code: `hash_message` and `message_to_indices` compute the selection of the digest. -/
theorem C80_code {P : Params} (hP : P ∈ shipped) (g : Nat → Nat → Byte) {ctx : Ctx} (hctx : ctx.Ready P g)
    {R pk m : Bytes} {ind : List Nat} (hR : P.n ≤ R.length) (hpk : pk.length = P.pkBytes)
    (hseed : pk.take P.n = ctx.pub_seed) (hm : m.length < 2 ^ 60) (hi : ind.length = P.forsTrees) :
    ∃ d : Digest P.toSpec,
      d.bytes = (specHash P).Hmsg (R.take P.n) (pk.take P.n) ((pk.drop P.n).take P.n) m (digestBytes P.toSpec) ∧
      ∃ md, (implOf P g).hash_message R pk m ctx = .ok (md, d.key) ∧
        message_to_indices P ind md = .ok ((List.range P.forsTrees).map d.pick) := by
  have e := (shippedRefines hP g).hmsg ctx R pk m (hctx.ctxOK hP (fun _ _ => 0)) hR
    (by rw [hpk]; unfold Params.pkBytes; omega) hseed hm
  have hl := (shippedRefines hP g).Hmsg_len (R.take P.n) (pk.take P.n) ((pk.drop P.n).take P.n) m
    (digestBytes P.toSpec)
  obtain ⟨d, hd⟩ := Digest.exists_bytes hl
  rw [← hseed, ← hd] at e
  refine ⟨d, hd, d.part1, e, ?_⟩
  have hv := shipped_valid hP
  rw [message_to_indices_spec (Nat.le_trans hv.fh_le (by decide)) hi]
  · rfl
  · rw [Digest.length_part1, toSpec_mdBytes, Nat.mul_comm P.forsTrees]
    unfold Params.forsMsgBytes
    omega

/-- C81 for any parameters: the number of lists of `q` digests together with a digest covered by them.  The
sum is over the ways in which the `k` leaves can be covered. -/
theorem C81_any_parameters (p : Par) (q : Nat) :
    howMany (fun x : (Fin q → Digest p) × Digest p => Covered x.1 x.2) *
      (2 ^ ((p.h' * (p.d - 1) + p.h') * p.k) * 2 ^ (p.a * p.k)) ≤
    (2 ^ (8 * digestBytes p)) ^ (q + 1) *
      ∑ f : Fin p.k → Fin q, 2 ^ ((p.h' * (p.d - 1) + p.h') * (p.k - (Finset.univ.image f).card)) := by
  have h := Cov.card_covered (Digest.card_selection (p := p)) q
  rw [Digest.card_digest, Digest.card_key, Fintype.card_fin, ← Nat.pow_add] at h
  simp only [← Nat.pow_mul 2] at h
  rw [Nat.pow_mul 2 (8 * digestBytes p)] at h
  refine Nat.le_trans (Nat.le_of_eq ?_) h
  congr 1
  unfold howMany
  congr 1
  ext x
  simp only [Finset.mem_filter, Finset.mem_univ, true_and]
  exact Digest.covered_iff

theorem shipped_bits {P : Params} (hP : P ∈ shipped) :
    ((Cov.row (2 ^ 64) 0)^[P.toSpec.k] ((List.range' 0 (P.toSpec.k + 1)).map fun j =>
      2 ^ ((P.toSpec.h' * (P.toSpec.d - 1) + P.toSpec.h') * (P.toSpec.k - j)))).headD 0 * 2 ^ bitSecurity P.toSpec ≤
    2 ^ ((P.toSpec.h' * (P.toSpec.d - 1) + P.toSpec.h') * P.toSpec.k) * 2 ^ (P.toSpec.a * P.toSpec.k) := by
  revert P
  decide +kernel

/-- C81: for `q ≤ 2 ^ 64` signatures and `t` attempts with independent uniform digests, the probability that one of the
attempts selects only leaves which the signatures have opened is at most `t / 2 ^ b`, where `b` is the bit security
stated in README.md. -/
theorem C81_bit_security {P : Params} (hP : P ∈ shipped) {q : Nat} (hq : q ≤ 2 ^ 64) (t : Nat) :
    howMany (fun x : (Fin q → Digest P.toSpec) × (Fin t → Digest P.toSpec) => ∃ a, Covered x.1 (x.2 a)) *
      2 ^ bitSecurity P.toSpec ≤
    t * 2 ^ (8 * digestBytes P.toSpec * (q + t)) := by
  have hb := shipped_bits hP
  have hg := C81_any_parameters P.toSpec q
  generalize P.toSpec = p at hb hg ⊢
  classical
  have h1 := Cov.card_one_of (t := t) (fun (x : Fin q → Digest p) d => Covered x d)
  rw [Digest.card_digest] at h1
  have e1 : howMany (fun x : (Fin q → Digest p) × (Fin t → Digest p) => ∃ a, Covered x.1 (x.2 a)) =
      (Finset.univ.filter fun x : (Fin q → Digest p) × (Fin t → Digest p) => ∃ a, Covered x.1 (x.2 a)).card := by
    unfold howMany; congr
  have e2 : howMany (fun x : (Fin q → Digest p) × Digest p => Covered x.1 x.2) =
      (Finset.univ.filter fun x : (Fin q → Digest p) × Digest p => Covered x.1 x.2).card := by
    unfold howMany; congr
  rw [← e1, ← e2] at h1
  have hs := Cov.sum_image q p.k fun j => 2 ^ ((p.h' * (p.d - 1) + p.h') * (p.k - j))
  have hle := Cov.Φ_iter_mono hq p.k (g := fun j => 2 ^ ((p.h' * (p.d - 1) + p.h') * (p.k - j))) (fun j => Nat.le_refl _) 0
  rw [← hs] at hle
  have hr := Cov.row_iter (2 ^ 64) p.k fun j => 2 ^ ((p.h' * (p.d - 1) + p.h') * (p.k - j))
  rw [hr, List.headD_cons] at hb
  generalize (∑ f : Fin p.k → Fin q, 2 ^ ((p.h' * (p.d - 1) + p.h') * (p.k - (Finset.univ.image f).card))) = s at hg hle
  generalize (Cov.Φ (2 ^ 64))^[p.k] (fun j => 2 ^ ((p.h' * (p.d - 1) + p.h') * (p.k - j))) 0 = s' at hb hle
  generalize hX : 2 ^ ((p.h' * (p.d - 1) + p.h') * p.k) * 2 ^ (p.a * p.k) = X at hb hg
  have hXpos : 0 < X := by rw [← hX]; exact Nat.mul_pos (Nat.two_pow_pos _) (Nat.two_pow_pos _)
  rw [Nat.pow_mul]
  generalize hD : 2 ^ (8 * digestBytes p) = D at h1 hg ⊢
  have hDpos : 0 < D := by rw [← hD]; exact Nat.two_pow_pos _
  generalize howMany (fun x : (Fin q → Digest p) × (Fin t → Digest p) => ∃ a, Covered x.1 (x.2 a)) = M at h1 ⊢
  generalize howMany (fun x : (Fin q → Digest p) × Digest p => Covered x.1 x.2) = N at h1 hg
  refine Nat.le_of_mul_le_mul_right (c := D * X) ?_ (Nat.mul_pos hDpos hXpos)
  calc M * 2 ^ bitSecurity p * (D * X) = M * D * (2 ^ bitSecurity p * X) := by ac_rfl
    _ ≤ t * (N * D ^ t) * (2 ^ bitSecurity p * X) := Nat.mul_le_mul_right _ h1
    _ = N * X * (t * D ^ t * 2 ^ bitSecurity p) := by ac_rfl
    _ ≤ D ^ (q + 1) * s * (t * D ^ t * 2 ^ bitSecurity p) := Nat.mul_le_mul_right _ hg
    _ ≤ D ^ (q + 1) * s' * (t * D ^ t * 2 ^ bitSecurity p) := Nat.mul_le_mul_right _ (Nat.mul_le_mul_left _ hle)
    _ = D ^ (q + 1) * (t * D ^ t) * (s' * 2 ^ bitSecurity p) := by ac_rfl
    _ ≤ D ^ (q + 1) * (t * D ^ t) * X := Nat.mul_le_mul_left _ hb
    _ = t * D ^ (q + t) * (D * X) := by rw [pow_succ, pow_add]; ac_rfl

/-- C81, exactly: as long as no FORS key has been used twice, `q` signatures cover `q` of the `2 ^ (a * k + h)` selections. -/
theorem C81_fresh_keys {p : Par} (hk : 0 < p.k) {q : Nat} (x : Fin q → Digest p) (hx : ∀ i j, (x i).key = (x j).key → i = j) :
    howMany (fun d : Digest p => Covered x d) * 2 ^ (p.a * p.k + (p.h' * (p.d - 1) + p.h')) =
      q * 2 ^ (8 * digestBytes p) := by
  classical
  have e : howMany (fun d : Digest p => Covered x d) = q * Digest.perSelection p := by
    have e1 : howMany (fun d : Digest p => Covered x d) = (Finset.univ.biUnion fun j : Fin q =>
        Finset.univ.filter fun d : Digest p => d.keyF = (x j).keyF ∧ d.pickF = (x j).pickF).card := by
      unfold howMany
      congr 1
      ext d
      simp only [Finset.mem_filter, Finset.mem_univ, true_and, Finset.mem_biUnion]
      rw [Digest.covered_iff]
      constructor
      · intro h
        obtain ⟨j, hj, -⟩ := h ⟨0, hk⟩
        refine ⟨j, hj.symm, funext fun i => ?_⟩
        obtain ⟨j', h1, h2⟩ := h i
        rw [hx j j' (Digest.key_iff.mpr (hj.trans h1.symm))]
        exact h2.symm
      · rintro ⟨j, h1, h2⟩ i
        exact ⟨j, h1.symm, by rw [h2]⟩
    rw [e1, Finset.card_biUnion]
    · rw [Finset.sum_congr rfl fun j _ => Digest.card_selection (x j).keyF (x j).pickF, Finset.sum_const, Finset.card_univ,
        Fintype.card_fin, Nat.nsmul_eq_mul]
    · intro i _ j _ hij
      refine Finset.disjoint_left.mpr ?_
      intro d h1 h2
      simp only [Finset.mem_filter, Finset.mem_univ, true_and] at h1 h2
      exact hij (hx i j (Digest.key_iff.mpr (h1.1.symm.trans h2.1)))
  rw [e, ← Digest.perSelection_mul, Nat.pow_add, Nat.pow_add, Nat.pow_mul 2 p.a]
  ac_rfl

/-- C81, the connection with C62: if the last outcome of C62 applies to `m` and `sig`, the digest of `m` is covered by
those of the signatures in `Q`. -/
theorem C81_forgery {p : Par} {S : Spec.Hash} (L : HashLen p.n S) {pk m sig : Bytes} {Q : List (Bytes × Bytes)}
    (h : CoveredDigest p S pk Q m sig) :
    ∃ (x : Fin Q.length → Digest p) (d : Digest p),
      (∀ j, (x j).bytes = S.Hmsg (Q[j].2.take p.n) (pk.take p.n) ((pk.drop p.n).take p.n) Q[j].1 (digestBytes p)) ∧
      d.bytes = S.Hmsg (sig.take p.n) (pk.take p.n) ((pk.drop p.n).take p.n) m (digestBytes p) ∧ Covered x d := by
  obtain ⟨x, hx⟩ := Classical.axiomOfChoice fun j : Fin Q.length => Digest.exists_bytes (p := p)
    (L.Hmsg (Q[j].2.take p.n) (pk.take p.n) ((pk.drop p.n).take p.n) Q[j].1 (digestBytes p))
  obtain ⟨d, hd⟩ := Digest.exists_bytes (p := p) (L.Hmsg (sig.take p.n) (pk.take p.n) ((pk.drop p.n).take p.n) m
    (digestBytes p))
  refine ⟨x, d, hx, hd, fun i hi => ?_⟩
  obtain ⟨z, hz, h1, h2⟩ := h.2 i hi
  obtain ⟨j, hj, rfl⟩ := List.mem_iff_getElem.mp hz
  refine ⟨⟨j, hj⟩, ?_, ?_⟩
  · unfold Digest.key
    rw [hx, hd]
    exact h1
  · unfold Digest.pick
    rw [hx, hd]
    exact h2

/-! ## Concrete cases -/

/-- SPHINCS+-128f: the first leaf of every FORS tree of the last key, with 2 + 1 + 5 bits left over. -/
example : howMany (fun d : Digest (sha2_128f false).toSpec => d.key = (2 ^ 63 - 1, 7) ∧ ∀ i, i < 33 → d.pick i = 0) =
    2 ^ (2 + 1 + 5) := by
  have h := C80_uniform (sha2_128f false).toSpec (tree := 2 ^ 63 - 1) (leaf := 7) (by decide) (by decide) (c := fun _ => 0)
    (fun i _ => Nat.two_pow_pos _)
  have e : 2 ^ (8 * digestBytes (sha2_128f false).toSpec) = 2 ^ 8 * 2 ^ ((sha2_128f false).toSpec.a *
      (sha2_128f false).toSpec.k + ((sha2_128f false).toSpec.h' * ((sha2_128f false).toSpec.d - 1) +
        (sha2_128f false).toSpec.h')) := by decide +kernel
  rw [e] at h
  generalize (sha2_128f false).toSpec.a * (sha2_128f false).toSpec.k + ((sha2_128f false).toSpec.h' *
    ((sha2_128f false).toSpec.d - 1) + (sha2_128f false).toSpec.h') = E at h
  exact Nat.mul_right_cancel (Nat.two_pow_pos E) h

/-- The hypotheses of `C80_code` hold. -/
example : ∃ (ctx : Ctx) (d : Digest (shake_256f false).toSpec) (md : Bytes),
    (implOf (shake_256f false) (fun _ _ => 3)).hash_message (List.replicate 32 1) (List.replicate 64 2) [1, 2, 3] ctx =
      .ok (md, d.key) ∧
    message_to_indices (shake_256f false) (List.replicate 35 0) md = .ok ((List.range 35).map d.pick) := by
  obtain ⟨ctx, -, hr, hp, -⟩ := (Ctx.zeroed_sized (P := shake_256f false) (pub := List.replicate 32 2)
    (sk := List.replicate 32 0) List.length_replicate List.length_replicate).ready (by decide) (fun _ _ => 3)
  obtain ⟨d, -, md, h⟩ := C80_code (P := shake_256f false) (by decide) (fun _ _ => 3) hr
    (R := List.replicate 32 1) (pk := List.replicate 64 2) (m := [1, 2, 3]) (ind := List.replicate 35 0) (by decide)
    (by decide) (by rw [hp]; decide) (by decide) (by decide)
  exact ⟨ctx, d, md, h⟩

/-- SPHINCS+-128s: after 2^64 signatures, 2^64 attempts succeed with probability at most 2^64 / 2^133. -/
example : bitSecurity (shake_128s true).toSpec = 133 ∧
    howMany (fun x : (Fin (2 ^ 64) → Digest (shake_128s true).toSpec) × (Fin (2 ^ 64) → Digest (shake_128s true).toSpec) =>
      ∃ a, Covered x.1 (x.2 a)) * 2 ^ 133 ≤ 2 ^ 64 * 2 ^ (8 * digestBytes (shake_128s true).toSpec * (2 ^ 64 + 2 ^ 64)) := by
  have hb : bitSecurity (shake_128s true).toSpec = 133 := by decide
  have h := C81_bit_security (P := shake_128s true) (by decide) (Nat.le_refl _) (2 ^ 64)
  rw [hb] at h
  exact ⟨hb, h⟩

/-- The event is possible: a digest covers itself. -/
example (p : Par) : 0 < howMany (fun x : (Fin 1 → Digest p) × (Fin 1 → Digest p) => ∃ a, Covered x.1 (x.2 a)) := by
  unfold howMany
  rw [Finset.card_pos]
  refine ⟨(fun _ _ => 0, fun _ _ => 0), ?_⟩
  simp only [Finset.mem_filter, Finset.mem_univ, true_and]
  refine ⟨0, ?_⟩
  exact fun i _ => ⟨0, rfl, rfl⟩

/-- Two keys used once each. -/
example : ∃ x : Fin 2 → Digest (sha2_128f false).toSpec, ∀ i j, (x i).key = (x j).key → i = j :=
  ⟨fun i _ => ⟨i.1, by omega⟩, by decide +kernel⟩

/-- `CoveredDigest` can occur: a message with the same digest as one that was signed. -/
example : CoveredDigest toyP.toSpec toyM [9, 0] [([0, 1], List.replicate 13 5)] [0, 2] (List.replicate 13 5) ∧
    HashLen toyP.toSpec.n toyM :=
  ⟨⟨by decide, fun i _ => ⟨_, List.mem_singleton.mpr rfl, rfl, rfl⟩⟩,
    ⟨fun _ _ _ => rfl, fun _ _ _ => rfl, fun _ _ _ _ => rfl, fun _ _ _ _ _ => List.length_replicate⟩⟩

end Spx
