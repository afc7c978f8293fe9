import Verif.Spec.Chosen
import Verif.Proof.Game
import Verif.Proof.Interactive
import Verif.Proof.ForgeCalls
/-! # Forgers who choose the optional randomness

Such a forger is turned into one of `Verif.Spec.Oracle`, which remembers the signatures it was given. -/

namespace Spx
open Spec

namespace Chosen

section
variable {β ρ M D : Type} [DecidableEq β] [DecidableEq M]

/-- The forger that asks once for each signature.  `K` are the signatures it knows. -/
def plain : Chooser β ρ M D → (β × M → Option Bytes) → Adversary ρ M D
  | .output m sig, _ => .output m sig
  | .hash r m next, K => .hash r m fun d => plain (next d) K
  | .tweak a x next, K => .tweak a x fun y => plain (next y) K
  | .sign o m next, K =>
    match K (o, m) with
    | some sig => plain (next sig) K
    | none => .sign m fun sig => plain (next sig) (Function.update K (o, m) (some sig))

omit [DecidableEq β] [DecidableEq M] in
theorem within_mono (F : Adversary ρ M D) : ∀ {q t u : Nat}, F.Within (q - 1) t u → F.Within q t u := by
  induction F with
  | output m sig => exact fun h => h
  | hash r m next ih => exact fun h => ⟨h.1, fun d => ih d (h.2 d)⟩
  | tweak a x next ih => exact fun h => ⟨h.1, fun d => ih d (h.2 d)⟩
  | sign m next ih => exact fun h => ⟨by have := h.1; omega, fun y => ih y (h.2 y)⟩

omit [DecidableEq β] [DecidableEq M] in
theorem within_mono' (F : Chooser β ρ M D) : ∀ {q t u : Nat}, F.Within (q - 1) t u → F.Within q t u := by
  induction F with
  | output m sig => exact fun h => h
  | hash r m next ih => exact fun h => ⟨h.1, fun d => ih d (h.2 d)⟩
  | tweak a x next ih => exact fun h => ⟨h.1, fun d => ih d (h.2 d)⟩
  | sign o m next ih => exact fun h => ⟨by have := h.1; omega, fun y => ih y (h.2 y)⟩

theorem plain_within (F : Chooser β ρ M D) : ∀ {K : β × M → Option Bytes} {q t u : Nat}, F.Within q t u →
    (plain F K).Within q t u := by
  induction F with
  | output m sig => exact fun h => h
  | hash r m next ih => exact fun h => ⟨h.1, fun d => ih d (h.2 d)⟩
  | tweak a x next ih => exact fun h => ⟨h.1, fun d => ih d (h.2 d)⟩
  | sign o m next ih =>
    intro K q t u h
    unfold plain
    split
    · exact within_mono _ (ih _ (h.2 _))
    · exact ⟨h.1, fun y => ih y (h.2 y)⟩

variable [Fintype β] [Fintype ρ] [Nonempty ρ] [Fintype M]

/-- Both forgers do the same, if the randomisers are random. -/
theorem avg_plain {H : ρ × M → D} {T : ADRS → Bytes → Bytes} {signature : ρ → M → Bytes}
    {W : List (M × Bytes) × M × Bytes → Prop}
    (hW : ∀ {Q Q' m sig}, (∀ x, x ∈ Q ↔ x ∈ Q') → (W (Q, m, sig) ↔ W (Q', m, sig))) (F : Chooser β ρ M D) :
    ∀ {q t u : Nat} {K : β × M → Option ρ} {Q Q' : List (M × Bytes)}, F.Within q t u → (∀ x, x ∈ Q ↔ x ∈ Q') →
    (∀ z r, K z = some r → (z.2, signature r z.2) ∈ Q) →
    Rom.avg (fun G : β × M → ρ => Rom.ind (W (F.run H T (fun o m => signature (Rom.over K G (o, m)) m) Q))) =
      Rom.avg fun s : Fin q → ρ => Rom.ind (∃ y,
        (plain F fun z => (K z).map fun r => signature r z.2).run H T signature (List.ofFn s) Q' = some y ∧ W y) := by
  induction F with
  | output m sig =>
    intro q t u K Q Q' _ hQ _
    simp only [plain, Chooser.run, Adversary.run, Option.some.injEq, exists_eq_left', Rom.avg_const]
    rw [hW hQ]
  | hash r m next ih => exact fun h hQ hK => ih _ (h.2 _) hQ hK
  | tweak a x next ih => exact fun h hQ hK => ih _ (h.2 _) hQ hK
  | sign o m next ih =>
    intro q t u K Q Q' h hQ hK
    simp only [Chooser.run, plain]
    cases e : K (o, m) with
    | some r =>
      have e' : ∀ G : β × M → ρ, Rom.over K G (o, m) = r := fun G => by simp [Rom.over, e]
      have hm := hK _ _ e
      simp only [e', Option.map_some]
      refine ih _ (q := q) (t := t) (u := u) (K := K) ?_ (fun x => ?_) fun z r h => List.mem_cons_of_mem _ (hK z r h)
      · exact within_mono' _ (h.2 _)
      · rw [← hQ, List.mem_cons]
        exact ⟨fun h => h.elim (fun h => h ▸ hm) id, Or.inr⟩
    | none =>
      obtain ⟨q, rfl⟩ : ∃ k, q = k + 1 := ⟨q - 1, by have := h.1; omega⟩
      simp only [Option.map_none]
      rw [Rom.avg_update (o, m), Rom.avg_succ]
      refine congrArg _ (funext fun r => ?_)
      simp only [Rom.over_update e, List.ofFn_succ, Fin.cons_zero, Fin.cons_succ, Adversary.run]
      have e1 : ∀ G : β × M → ρ, Rom.over (Function.update K (o, m) (some r)) G (o, m) = r := fun G => by
        simp [Rom.over]
      have e2 : (Function.update (fun z => (K z).map fun r => signature r z.2) (o, m) (some (signature r m))) =
          fun z => (Function.update K (o, m) (some r) z).map fun r => signature r z.2 := by
        funext z
        by_cases hz : z = (o, m)
        · subst hz; simp
        · simp [hz]
      rw [e2]
      simp only [e1]
      refine ih _ (t := t) (u := u) (h.2 _) (fun x => ?_) fun z r' hz => ?_
      · simp only [List.mem_cons, hQ]
      · by_cases hzz : z = (o, m)
        · subst hzz
          rw [Function.update_self, Option.some.injEq] at hz
          subst hz
          exact List.mem_cons_self
        · rw [Function.update_of_ne hzz] at hz
          exact List.mem_cons_of_mem _ (hK z r' hz)

end

section
variable {p : Par} {M : Type} {text : M → Bytes} (S : Hash) (H : (Fin p.n → Fin (2 ^ 8)) × M → Digest p)
    (G : Value p × M → Value p)

theorem prfmsg (inj : ∀ x y, text x = text y → x = y) (o : Value p) (μ : M) (pub k : Bytes) :
    (S.withRandomisers text H G).PRFmsg pub k (randomiserBytes o) (text μ) = randomiserBytes (G (o, μ)) := by
  have h : ∃ z : Value p × M, (randomiserBytes z.1, text z.2) = (randomiserBytes o, text μ) := ⟨(o, μ), rfl⟩
  have e : h.choose = (o, μ) := by
    have := h.choose_spec
    exact Prod.ext (Game.randomiserBytes_injective (Prod.ext_iff.mp this).1) (inj _ _ (Prod.ext_iff.mp this).2)
  unfold Hash.withRandomisers
  simp only
  rw [dif_pos h, e]

theorem hashLen {S : Hash} (L : HashLen p.n S) : HashLen p.n (S.withRandomisers text H G) := by
  have L' := Game.hashLen (text := text) H L
  refine ⟨L'.T, L'.PRF, fun _ _ _ _ => ?_, L'.Hmsg⟩
  unfold Hash.withRandomisers
  simp only
  split
  · exact Game.length_randomiserBytes _
  · exact List.length_replicate

theorem sign_same {X Y : Hash} (hT : X.T = Y.T) (hP : X.PRF = Y.PRF) (hH : X.Hmsg = Y.Hmsg) {sk o o' m R : Bytes}
    (hx : ∀ pub k, X.PRFmsg pub k o m = R) (hy : ∀ pub k, Y.PRFmsg pub k o' m = R) :
    sign p X sk o m = sign p Y sk o' m := by
  obtain ⟨T, F, a, b⟩ := X
  obtain ⟨T', F', a', b'⟩ := Y
  simp only at hT hP hx hy hH
  subst hT hP hH
  unfold sign
  simp only [hx, hy]
  rfl

theorem verify_same {X Y : Hash} (hT : X.T = Y.T) (hH : X.Hmsg = Y.Hmsg) (pk m sig : Bytes) :
    verify p X pk m sig = verify p Y pk m sig :=
  verify_agree hH fun _ _ => by rw [hT]

/-- The signature is that with the value of the random function as randomiser. -/
theorem sign_eq (inj : ∀ x y, text x = text y → x = y) (sk : Bytes) (o : Value p) (μ : M) :
    sign p (S.withRandomisers text H G) sk (randomiserBytes o) (text μ) =
      sign p (S.withOracle text H) sk (randomiserBytes (G (o, μ))) (text μ) :=
  sign_same (X := S.withRandomisers text H G) (Y := S.withOracle text H) rfl rfl rfl
    (fun _ _ => prfmsg S H G inj o μ _ _) fun _ _ => Game.fit_of_length (Game.length_randomiserBytes _)

end

section
variable {p : Par} {M : Type} [Fintype M] [DecidableEq M] {text : M → Bytes} (inj : ∀ x y, text x = text y → x = y)
include inj

theorem chance_plain (seed : Bytes) (F : Bytes → Chooser (Value p) (Fin p.n → Fin (2 ^ 8)) M (Digest p)) {q t u : Nat}
    (hF : ∀ pk, (F pk).Within q t u) (O : Point p → Value p) (H : (Fin p.n → Fin (2 ^ 8)) × M → Digest p) :
    Rom.avg (fun G => Rom.ind (SucceedsChosen p seed text F O H G)) =
      Rom.avg fun s : Fin q → Fin p.n → Fin (2 ^ 8) =>
        Rom.ind (Succeeds p seed text (fun pk => plain (F pk) fun _ => none) O H (List.ofFn s)) := by
  let S := (Hash.random O).withOracle text H
  let pk := pkOf p S seed
  have h := avg_plain (H := H) (T := S.T (pk.take p.n))
    (signature := fun (r : Fin p.n → Fin (2 ^ 8)) m => sign p S (skOf p S seed) (randomiserBytes r) (text m))
    (W := fun y => (y.2.1, y.2.2) ∉ y.1 ∧ y.2.2.length = p.n + (forsBytes p + p.d * xmssBytes p) ∧
      verify p S pk (text y.2.1) y.2.2 = true) (fun hQ => by simp only [hQ]) (F pk) (K := fun _ => none) (Q := [])
      (Q' := []) (hF pk) (fun _ => Iff.rfl) (fun _ _ h => by cases h)
  refine Eq.trans (congrArg _ (funext fun G => congrArg _ ?_)) (h.trans (congrArg _ (funext fun s => congrArg _ ?_)))
  · unfold SucceedsChosen
    simp only [sign_eq (Hash.random O) H G inj, show pkOf p ((Hash.random O).withRandomisers text H G) seed = pk from rfl,
      show skOf p ((Hash.random O).withRandomisers text H G) seed = skOf p S seed from rfl,
      show ((Hash.random O).withRandomisers text H G).T = S.T from rfl,
      verify_same (X := (Hash.random O).withRandomisers text H G) (Y := S) rfl rfl,
      show Rom.over (fun _ => none) G = G from rfl]
    rfl
  · unfold Succeeds
    refine propext ⟨fun ⟨y, h, h'⟩ => ⟨y.1, y.2.1, y.2.2, h, h'⟩, fun ⟨Q, m, sig, h, h'⟩ => ⟨(Q, m, sig), h, h'⟩⟩

end

end Chosen

end Spx
