import Verif.Proof.Breach
/-! # The bound for forgers of a scheme with random hash functions -/

namespace Spx
open Spec

namespace Rom

section
variable {ρ M D : Type}

/-- The forger with its computations of the tweakable hash carried out -/
def resolve (T : ADRS → Bytes → Bytes) : Adversary ρ M D → Forger ρ M D
  | .output m sig => .output m sig
  | .hash r m next => .hash r m fun d => resolve T (next d)
  | .tweak a x next => resolve T (next (T a x))
  | .sign m next => .sign m fun sig => resolve T (next sig)

theorem resolve_within {T : ADRS → Bytes → Bytes} (F : Adversary ρ M D) : ∀ {q t u : Nat}, F.Within q t u →
    (resolve T F).Within q t := by
  induction F with
  | output m sig => exact fun h => h
  | hash r m next ih => exact fun h => ⟨h.1, fun d => ih d (h.2 d)⟩
  | tweak a x next ih => exact fun h => ih _ (h.2 _)
  | sign m next ih => exact fun h => ⟨h.1, fun y => ih y (h.2 y)⟩

theorem resolve_run {T : ADRS → Bytes → Bytes} {H : ρ × M → D} {signature : ρ → M → Bytes} (F : Adversary ρ M D) :
    ∀ {s : List ρ} {Q : List (M × Bytes)}, (resolve T F).run H signature s Q = F.run H T signature s Q := by
  induction F with
  | output m sig => exact rfl
  | hash r m next ih => exact ih _
  | tweak a x next ih => exact ih _
  | sign m next ih =>
    intro s Q
    cases s with
    | nil => rfl
    | cons r s => exact ih _

end

theorem fine {P : Params} (hP : P ∈ shipped) : Fine P.toSpec := ⟨(shipped_valid hP).dvd, shipped_d hP, digit_le _⟩

theorem pkOf_withOracle {p : Par} {S : Spec.Hash} {M : Type} {text : M → Bytes}
    {H : (Fin p.n → Fin (2 ^ 8)) × M → Digest p} (seed : Bytes) : pkOf p (S.withOracle text H) seed = pkOf p S seed := rfl

/-- What a forgery shows -/
theorem forgery_shows {P : Params} (hP : P ∈ shipped) {S : Spec.Hash} (L : HashLen P.n S) {seed : Bytes}
    (hseed : seed.length = 3 * P.n) {Q : List (Bytes × Bytes)} {m sig : Bytes}
    (hQ : ∀ c ∈ Q, ∃ optrand, c.2 = Spec.sign P.toSpec S (skOf P.toSpec S seed) optrand c.1)
    (hl : sig.length = P.toSpec.n + (forsBytes P.toSpec + P.toSpec.d * xmssBytes P.toSpec)) (hn : (m, sig) ∉ Q)
    (hv : verify P.toSpec S (pkOf P.toSpec S seed) m sig = true) :
    Shows P.toSpec S seed Q m sig ∨ CoveredDigest P.toSpec S (pkOf P.toSpec S seed) Q m sig := by
  have hs : seed.length = 3 * P.toSpec.n := hseed
  have hpub : (pkOf P.toSpec S seed).take P.toSpec.n = (seed.drop (2 * P.n)).take P.n := pkOf_take hs
  have h := C36_scheme (shipped_valid hP).wots (shipped_d hP) L hseed hl hv
  simp only at h
  rw [← hpub] at h
  rcases h with h | h | h
  · exact Or.inl (Or.inl h)
  · exact Or.inl (Or.inr (Or.inl h))
  · rcases forgery_honest L hs hQ hn h with h | h
    · exact Or.inl (Or.inr (Or.inr h))
    · exact Or.inr h

section
variable {P : Params} (hP : P ∈ shipped) {seed : Bytes} (hseed : seed.length = 3 * P.n) {M : Type} [Fintype M] [DecidableEq M]
    {text : M → Bytes} (inj : ∀ x y, text x = text y → x = y)
    (F : Bytes → Adversary (Fin P.toSpec.n → Fin (2 ^ 8)) M (Digest P.toSpec)) {q t u : Nat}
    (hF : ∀ pk, (F pk).Within q t u)
include hP hseed inj hF

/-- For fixed tweakable hash and pseudorandom function -/
theorem oracle_split (O : Point P.toSpec → Value P.toSpec) :
    ∃ A : Attacker (Fin P.toSpec.n → Fin (2 ^ 8)) M (Digest P.toSpec), A.Within q t ∧
    chance (fun w : ((Fin P.toSpec.n → Fin (2 ^ 8)) × M → Digest P.toSpec) × (Fin q → Fin P.toSpec.n → Fin (2 ^ 8)) =>
      Succeeds P.toSpec seed text F O w.1 (List.ofFn w.2)) ≤
    chance (fun w : ((Fin P.toSpec.n → Fin (2 ^ 8)) × M → Digest P.toSpec) × (Fin q → Fin P.toSpec.n → Fin (2 ^ 8)) =>
      Broken P.toSpec seed text F O w.1 (List.ofFn w.2)) +
    chance (fun w : ((Fin P.toSpec.n → Fin (2 ^ 8)) × M → Digest P.toSpec) × (Fin q → Fin P.toSpec.n → Fin (2 ^ 8)) =>
      Won w.1 (A.run w.1 (List.ofFn w.2) [])) := by
  let S := Hash.random O
  obtain ⟨A, hA, h⟩ := forger_covered (S := S) (seed := seed) inj
    (resolve (S.T ((pkOf P.toSpec S seed).take P.toSpec.n)) (F (pkOf P.toSpec S seed))) (resolve_within _ (hF _))
    (X := fun H => Shows P.toSpec (S.withOracle text H) seed)
    fun H Q m sig hQ hl hn hv => forgery_shows hP (Game.hashLen (p := P.toSpec) H (random_len O)) hseed hQ hl hn hv
  refine ⟨A, hA, ?_⟩
  have e : ∀ X : ((Fin P.toSpec.n → Fin (2 ^ 8)) × M → Digest P.toSpec) → (List (Bytes × Bytes)) → Bytes → Bytes → Prop,
      ∀ w : ((Fin P.toSpec.n → Fin (2 ^ 8)) × M → Digest P.toSpec) × (Fin q → Fin P.toSpec.n → Fin (2 ^ 8)),
      Forges P.toSpec S seed text (resolve (S.T ((pkOf P.toSpec S seed).take P.toSpec.n)) (F (pkOf P.toSpec S seed))) w.1
        (List.ofFn w.2) (X w.1) ↔ ∃ Q m sig,
      (F (pkOf P.toSpec (S.withOracle text w.1) seed)).run w.1
        ((S.withOracle text w.1).T ((pkOf P.toSpec (S.withOracle text w.1) seed).take P.toSpec.n))
        (fun r m => sign P.toSpec (S.withOracle text w.1) (skOf P.toSpec (S.withOracle text w.1) seed) (randomiserBytes r)
          (text m)) (List.ofFn w.2) [] = some (Q, m, sig) ∧
      (m, sig) ∉ Q ∧ sig.length = P.toSpec.n + (forsBytes P.toSpec + P.toSpec.d * xmssBytes P.toSpec) ∧
      verify P.toSpec (S.withOracle text w.1) (pkOf P.toSpec (S.withOracle text w.1) seed) (text m) sig = true ∧
      X w.1 (Q.map fun c => (text c.1, c.2)) (text m) sig := by
    intro X w
    unfold Forges
    simp only [resolve_run]
    exact Iff.rfl
  refine le_trans (le_trans ?_ h) (add_le_add_left ?_ _)
  · rw [← avg_ind, ← avg_ind]
    refine avg_mono fun w => ind_mono fun hw => (e (fun _ _ _ _ => True) w).mpr ?_
    obtain ⟨Q, m, sig, h1, h2, h3, h4⟩ := hw
    exact ⟨Q, m, sig, h1, h2, h3, h4, trivial⟩
  · rw [← avg_ind, ← avg_ind]
    refine avg_mono fun w => ind_mono fun hw => ?_
    obtain ⟨Q, m, sig, h1, h2, h3, h4, h5⟩ := (e (fun H => Shows P.toSpec (S.withOracle text H) seed) w).mp hw
    exact ⟨Q, m, sig, h1, h5⟩

/-- The two parts together; `c` bounds the first for a fixed tweakable hash. -/
theorem oracle_bound {c : ℚ} (hc : ∀ A : Attacker (Fin P.toSpec.n → Fin (2 ^ 8)) M (Digest P.toSpec), A.Within q t →
      chance (fun w : ((Fin P.toSpec.n → Fin (2 ^ 8)) × M → Digest P.toSpec) × (Fin q → Fin P.toSpec.n → Fin (2 ^ 8)) =>
        Won w.1 (A.run w.1 (List.ofFn w.2) [])) ≤ c) :
    chance (fun w : (Point P.toSpec → Value P.toSpec) × ((Fin P.toSpec.n → Fin (2 ^ 8)) × M → Digest P.toSpec) ×
        (Fin q → Fin P.toSpec.n → Fin (2 ^ 8)) => Succeeds P.toSpec seed text F w.1 w.2.1 (List.ofFn w.2.2)) ≤
    c + 2 * (u + maxCalls P.toSpec) / 2 ^ (8 * P.n) := by
  have : Nonempty (Value P.toSpec) := ⟨fun _ => 0⟩
  have : Nonempty (Point P.toSpec → Value P.toSpec) := inferInstance
  have : Nonempty (Digest P.toSpec) := ⟨Classical.choice inferInstance⟩
  rw [← avg_ind, avg_prod]
  have h1 : ∀ O : Point P.toSpec → Value P.toSpec,
      avg (fun w : ((Fin P.toSpec.n → Fin (2 ^ 8)) × M → Digest P.toSpec) × (Fin q → Fin P.toSpec.n → Fin (2 ^ 8)) =>
        ind (Succeeds P.toSpec seed text F O w.1 (List.ofFn w.2))) ≤
      c + avg (fun w : ((Fin P.toSpec.n → Fin (2 ^ 8)) × M → Digest P.toSpec) × (Fin q → Fin P.toSpec.n → Fin (2 ^ 8)) =>
        ind (Broken P.toSpec seed text F O w.1 (List.ofFn w.2))) := by
    intro O
    obtain ⟨A, hA, h⟩ := oracle_split hP hseed inj F hF O
    rw [avg_ind, avg_ind, add_comm]
    exact h.trans (add_le_add_right (hc A hA) _)
  refine (avg_mono h1).trans ?_
  rw [avg_add, avg_const, avg_comm]
  refine add_le_add_right ?_ _
  have h2 : ∀ w : ((Fin P.toSpec.n → Fin (2 ^ 8)) × M → Digest P.toSpec) × (Fin q → Fin P.toSpec.n → Fin (2 ^ 8)),
      avg (fun O : Point P.toSpec → Value P.toSpec => ind (Broken P.toSpec seed text F O w.1 (List.ofFn w.2))) ≤
      2 * (u + maxCalls P.toSpec) / 2 ^ (8 * P.n) := fun w => broken_bound (fine hP) inj hseed hF _
  refine (avg_mono h2).trans (le_of_eq (avg_const _))

end

end Rom

end Spx
