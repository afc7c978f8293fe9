import Verif.Spec.Game
import Verif.Proof.Correct
/-! # From a forger to an attacker of the message hash -/

namespace Spx.Game
open Spec

section
variable {ρ M D : Type}

/-- The forger as an attacker of the message hash who makes the signatures itself from randomiser and digest;
`rnd sig` is the randomiser of a signature. -/
def toAttacker (make : ρ → D → M → Bytes) (rnd : Bytes → ρ) : Forger ρ M D → Attacker ρ M D
  | .output m sig => .forge (rnd sig) m
  | .hash r m next => .hash r m fun d => toAttacker make rnd (next d)
  | .sign m next => .sign m fun r d => toAttacker make rnd (next (make r d m))

theorem within {make : ρ → D → M → Bytes} {rnd : Bytes → ρ} (F : Forger ρ M D) : ∀ {q t : Nat}, F.Within q t →
    (toAttacker make rnd F).Within q t := by
  induction F with
  | output m sig => exact fun h => h
  | hash r m next ih => exact fun h => ⟨h.1, fun d => ih d (h.2 d)⟩
  | sign m next ih => exact fun h => ⟨h.1, fun r d => ih _ (h.2 _)⟩

theorem run_sim {β : Type} {make : ρ → D → M → Bytes} {rnd : Bytes → ρ} {H : ρ × M → D} {signature : ρ → M → Bytes}
    (hm : ∀ r m, make r (H (r, m)) m = signature r m) {f : M × Bytes → β} {g : ρ × M → β}
    (hfg : ∀ r m, g (r, m) = f (m, signature r m)) {Q' : List (M × Bytes)} {m' : M} {sig' : Bytes} (F : Forger ρ M D) :
    ∀ {s : List ρ} {Q : List (M × Bytes)} {Y : List (ρ × M)}, Y.map g = Q.map f →
      F.run H signature s Q = some (Q', m', sig') →
      ∃ Y', (toAttacker make rnd F).run H s Y = some (Y', rnd sig', m') ∧ Y'.map g = Q'.map f := by
  induction F with
  | output m sig =>
    intro s Q Y hY h
    simp only [Forger.run, Option.some.injEq, Prod.mk.injEq] at h
    obtain ⟨rfl, rfl, rfl⟩ := h
    exact ⟨Y, rfl, hY⟩
  | hash r m next ih =>
    intro s Q Y hY h
    exact ih _ hY h
  | sign m next ih =>
    intro s Q Y hY h
    cases s with
    | nil => cases h
    | cons r s =>
      simp only [Forger.run] at h
      simp only [toAttacker, Attacker.run, hm]
      refine ih _ ?_ h
      rw [List.map_cons, List.map_cons, hY, hfg]

theorem run_signed {H : ρ × M → D} {signature : ρ → M → Bytes} {Q' : List (M × Bytes)} {m' : M} {sig' : Bytes}
    (F : Forger ρ M D) : ∀ {s : List ρ} {Q : List (M × Bytes)}, (∀ c ∈ Q, ∃ r, c.2 = signature r c.1) →
      F.run H signature s Q = some (Q', m', sig') → ∀ c ∈ Q', ∃ r, c.2 = signature r c.1 := by
  induction F with
  | output m sig =>
    intro s Q hQ h
    simp only [Forger.run, Option.some.injEq, Prod.mk.injEq] at h
    rw [← h.1]
    exact hQ
  | hash r m next ih =>
    intro s Q hQ h
    exact ih _ hQ h
  | sign m next ih =>
    intro s Q hQ h
    cases s with
    | nil => cases h
    | cons r s =>
      refine ih _ (fun c hc => ?_) h
      rcases List.mem_cons.mp hc with rfl | hc
      · exact ⟨r, rfl⟩
      · exact hQ c hc

end

theorem length_fit (k : Nat) (x : Bytes) : (fit k x).length = k := by
  unfold fit
  rw [List.length_take, List.length_append, List.length_replicate]
  omega

theorem fit_of_length {k : Nat} {x : Bytes} (h : x.length = k) : fit k x = x := by
  unfold fit
  rw [List.take_left' h]

theorem length_randomiserBytes {n : Nat} (r : Fin n → Fin (2 ^ 8)) : (randomiserBytes r).length = n := List.length_ofFn

theorem randomiserBytes_injective {n : Nat} {r r' : Fin n → Fin (2 ^ 8)} (h : randomiserBytes r = randomiserBytes r') :
    r = r' := by
  have := List.ofFn_injective h
  funext i
  exact congrArg BitVec.toFin (congrFun this i)

/-- The first bytes of a signature as randomiser -/
def rnd (n : Nat) (sig : Bytes) : Fin n → Fin (2 ^ 8) := fun i => (sig.getD i 0).toFin

theorem randomiserBytes_rnd {n : Nat} {sig : Bytes} (h : n ≤ sig.length) : randomiserBytes (rnd n sig) = sig.take n := by
  refine List.ext_getElem ?_ fun i h1 h2 => ?_
  · rw [length_randomiserBytes, List.length_take]
    omega
  · rw [length_randomiserBytes] at h1
    have e : (randomiserBytes (rnd n sig))[i]'(by rw [length_randomiserBytes]; exact h1) = sig.getD i 0 :=
      (List.getElem_ofFn _).trans rfl
    rw [e, List.getElem_take, List.getD_eq_getElem?_getD, List.getElem?_eq_getElem (by omega), Option.getD_some]

section
variable {p : Par} {M : Type} {text : M → Bytes} (S : Hash) (H : (Fin p.n → Fin (2 ^ 8)) × M → Digest p)

theorem hashLen {S : Hash} (L : HashLen p.n S) : HashLen p.n (S.withOracle text H) := by
  refine ⟨L.T, L.PRF, fun _ _ _ _ => length_fit _ _, fun R pub root m k => ?_⟩
  unfold Hash.withOracle
  simp only
  split <;> exact length_fit _ _

theorem hmsg (inj : ∀ x y, text x = text y → x = y) (r : Fin p.n → Fin (2 ^ 8)) (μ : M) (pub root : Bytes) :
    (S.withOracle text H).Hmsg (randomiserBytes r) pub root (text μ) (digestBytes p) = (H (r, μ)).bytes := by
  have h : ∃ z : (Fin p.n → Fin (2 ^ 8)) × M, (randomiserBytes z.1, text z.2) = (randomiserBytes r, text μ) := ⟨(r, μ), rfl⟩
  have e : h.choose = (r, μ) := by
    have := h.choose_spec
    exact Prod.ext (randomiserBytes_injective (Prod.ext_iff.mp this).1) (inj _ _ (Prod.ext_iff.mp this).2)
  unfold Hash.withOracle
  simp only
  rw [dif_pos h, e]
  exact fit_of_length List.length_ofFn

theorem sign_same {X Y : Hash} (hT : X.T = Y.T) (hP : X.PRF = Y.PRF) {sk o m R : Bytes}
    (hx : ∀ pub k, X.PRFmsg pub k o m = R) (hy : ∀ pub k, Y.PRFmsg pub k o m = R)
    (h : ∀ pub root, X.Hmsg R pub root m (digestBytes p) = Y.Hmsg R pub root m (digestBytes p)) :
    sign p X sk o m = sign p Y sk o m := by
  obtain ⟨T, F, a, b⟩ := X
  obtain ⟨T', F', a', b'⟩ := Y
  simp only at hT hP hx hy h
  subst hT hP
  unfold sign
  simp only [hx, hy, h]
  rfl

/-- The signature depends on the message hash only through the digest of the message. -/
theorem sign_eq {S : Hash} (inj : ∀ x y, text x = text y → x = y) (sk : Bytes) (r : Fin p.n → Fin (2 ^ 8)) (μ : M) :
    sign p (S.withOracle text fun _ => H (r, μ)) sk (randomiserBytes r) (text μ) =
      sign p (S.withOracle text H) sk (randomiserBytes r) (text μ) := by
  have e : ∀ (H : (Fin p.n → Fin (2 ^ 8)) × M → Digest p) pub k m,
      (S.withOracle text H).PRFmsg pub k (randomiserBytes r) m = randomiserBytes r :=
    fun _ _ _ _ => fit_of_length (length_randomiserBytes r)
  refine sign_same (X := S.withOracle text fun _ => H (r, μ)) (Y := S.withOracle text H) rfl rfl (fun _ _ => e _ _ _ _)
    (fun _ _ => e _ _ _ _) fun pub root => ?_
  rw [hmsg S _ inj, hmsg S _ inj]

theorem take_sign (sk : Bytes) (r : Fin p.n → Fin (2 ^ 8)) (m : Bytes) :
    (sign p (S.withOracle text H) sk (randomiserBytes r) m).take p.n = randomiserBytes r := by
  have e : ∀ pub k, (S.withOracle text H).PRFmsg pub k (randomiserBytes r) m = randomiserBytes r :=
    fun _ _ => fit_of_length (length_randomiserBytes r)
  unfold sign
  simp only [e]
  rw [List.append_assoc, List.take_left' (length_randomiserBytes r)]

end

end Spx.Game
