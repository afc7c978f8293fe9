import Verif.Proof.SeekMany
import Verif.Proof.Chosen
import Verif.Proof.Many
import Verif.Proof.OracleBound
/-! # The bound for forgers with a common limit for many keys -/

namespace Spx.Rom
open Spec

section
variable {ι β ρ M D : Type}

/-- Make the calls of a list for owner `i`, and go on with `e`.  `T0` has the answers so far. -/
def askAllFor (i : ι) (C : (ADRS → Bytes → Bytes) → List HashCall) (e : ManyForger ι β ρ M D) :
    Nat → (ADRS → Bytes → Bytes) → Nat → ManyForger ι β ρ M D
  | 0, _, _ => e
  | n + 1, T0, k =>
    match (C T0)[k]? with
    | none => e
    | some c => .tweak i c.1.adrs c.2 fun y =>
      askAllFor i C e n (fun a x => if a = c.1.adrs ∧ x = c.2 then y else T0 a x) (k + 1)

/-- The forger who makes the calls `C i m sig` before it ends with `i`, `m` and `sig`. -/
def checkedAll (C : ι → M → Bytes → (ADRS → Bytes → Bytes) → List HashCall) (n : Nat) :
    ManyForger ι β ρ M D → ManyForger ι β ρ M D
  | .output i m sig => askAllFor i (C i m sig) (.output i m sig) n (fun _ _ => []) 0
  | .hash i r m next => .hash i r m fun d => checkedAll C n (next d)
  | .tweak i a x next => .tweak i a x fun y => checkedAll C n (next y)
  | .sign i o m next => .sign i o m fun sig => checkedAll C n (next sig)

variable [DecidableEq ι]

theorem upShared {F : ManyForger ι β ρ M D} : ∀ {q t : ι → Nat} {u u' : Nat}, F.WithinShared q t u → u ≤ u' →
    F.WithinShared q t u' := by
  induction F with
  | output i m sig => exact fun h _ => h
  | hash i r m next ih => exact fun h hu => ⟨h.1, fun d => ih d (h.2 d) hu⟩
  | tweak i a x next ih => exact fun h hu => ⟨by have := h.1; omega, fun y => ih y (h.2 y) (by omega)⟩
  | sign i o m next ih => exact fun h hu => ⟨h.1, fun y => ih y (h.2 y) hu⟩

theorem askAllFor_within {i : ι} {C : (ADRS → Bytes → Bytes) → List HashCall} {e : ManyForger ι β ρ M D} {q t : ι → Nat}
    {u : Nat} (h : e.WithinShared q t u) : ∀ n T0 k, (askAllFor i C e n T0 k).WithinShared q t (u + n) := by
  intro n
  induction n with
  | zero => exact fun _ _ => h
  | succ n ih =>
    intro T0 k
    rw [askAllFor]
    split
    · exact upShared h (Nat.le_add_right _ _)
    · exact ⟨by omega, fun y => ih _ _⟩

theorem checkedAll_within {C : ι → M → Bytes → (ADRS → Bytes → Bytes) → List HashCall} {n : Nat} (F : ManyForger ι β ρ M D) :
    ∀ {q t : ι → Nat} {u : Nat}, F.WithinShared q t u → (checkedAll C n F).WithinShared q t (u + n) := by
  induction F with
  | output i m sig => exact fun h => askAllFor_within h _ _ _
  | hash i r m next ih => exact fun h => ⟨h.1, fun d => ih d (h.2 d)⟩
  | tweak i a x next ih =>
    intro q t u h
    refine ⟨by have := h.1; omega, fun y => ?_⟩
    have := ih y (h.2 y)
    rwa [show u - 1 + n = u + n - 1 by have := h.1; omega] at this
  | sign i o m next ih => exact fun h => ⟨h.1, fun y => ih y (h.2 y)⟩

end

section
variable {p : Par} {ι : Type} [DecidableEq ι] {M : Type} {H : ι → (Fin p.n → Fin (2 ^ 8)) × M → Digest p}
    {G : ι → Value p × M → Value p} {T : ι → ADRS → Bytes → Bytes} {signature : ι → Value p → M → Bytes}

theorem askAllFor_opened {i : ι} {C : (ADRS → Bytes → Bytes) → List HashCall}
    {e : ManyForger ι (Value p) (Fin p.n → Fin (2 ^ 8)) M (Digest p)} {R : ι → Set Position} :
    ∀ n T0 k, openedByAll H G T signature (askAllFor i C e n T0 k) R = openedByAll H G T signature e R := by
  intro n
  induction n with
  | zero => exact fun _ _ => rfl
  | succ n ih =>
    intro T0 k
    rw [askAllFor]
    split
    · rfl
    · exact ih _ _

theorem checkedAll_opened {C : ι → M → Bytes → (ADRS → Bytes → Bytes) → List HashCall} {n : Nat}
    (F : ManyForger ι (Value p) (Fin p.n → Fin (2 ^ 8)) M (Digest p)) : ∀ {R : ι → Set Position},
    openedByAll H G T signature (checkedAll C n F) R = openedByAll H G T signature F R := by
  induction F with
  | output i m sig => exact askAllFor_opened _ _ _
  | hash i r m next ih => exact ih _
  | tweak i a x next ih => exact ih _
  | sign i o m next ih => exact ih _

omit [DecidableEq ι] in
/-- All calls are made. -/
theorem askAllFor_asked {i : ι} {C : (ADRS → Bytes → Bytes) → List HashCall}
    {e : ManyForger ι (Value p) (Fin p.n → Fin (2 ^ 8)) M (Digest p)}
    (hC : ∀ T0 k, (∀ c ∈ (C (T i)).take k, T0 c.1.adrs c.2 = T i c.1.adrs c.2) →
      (C T0).take (k + 1) = (C (T i)).take (k + 1)) :
    ∀ n T0 k, (∀ c ∈ (C (T i)).take k, T0 c.1.adrs c.2 = T i c.1.adrs c.2) → (C (T i)).length ≤ k + n →
      ∀ c ∈ (C (T i)).drop k, (i, c.1.adrs, c.2) ∈ askedAll H T signature (askAllFor i C e n T0 k) := by
  intro n
  induction n with
  | zero =>
    intro T0 k _ hl c hc
    rw [List.drop_of_length_le (by omega)] at hc
    cases hc
  | succ n ih =>
    intro T0 k hT hl c hc
    have e1 := hC T0 k hT
    have hi : k < (C (T i)).length := by
      have := List.length_pos_of_mem hc
      rw [List.length_drop] at this
      omega
    have e2 : (C T0)[k]? = some (C (T i))[k] := by
      have := congrArg (fun l => l[k]?) e1
      simp only [List.getElem?_take, Nat.lt_succ_self, if_true] at this
      rw [this, List.getElem?_eq_getElem hi]
    rw [askAllFor, e2]
    simp only [askedAll]
    rw [List.drop_eq_getElem_cons hi] at hc
    rcases List.mem_cons.mp hc with rfl | hc
    · exact List.mem_cons_self
    · refine List.mem_cons_of_mem _ (ih _ _ ?_ (by omega) c hc)
      intro c' hc'
      split
      · next h => rw [h.1, h.2]
      · next h =>
        rw [List.take_succ_eq_append_getElem hi, List.mem_append] at hc'
        rcases hc' with hc' | hc'
        · exact hT c' hc'
        · rw [List.mem_singleton.mp hc'] at h
          exact absurd ⟨rfl, rfl⟩ h

omit [DecidableEq ι] in
theorem checkedAll_asked {C : ι → M → Bytes → (ADRS → Bytes → Bytes) → List HashCall} {n : Nat}
    (hC : ∀ i m sig T0 k, (∀ c ∈ (C i m sig (T i)).take k, T0 c.1.adrs c.2 = T i c.1.adrs c.2) →
      (C i m sig T0).take (k + 1) = (C i m sig (T i)).take (k + 1)) (hn : ∀ i m sig, (C i m sig (T i)).length ≤ n)
    {Q' : List (ι × M × Bytes)} {i' : ι} {m' : M} {sig' : Bytes}
    (F : ManyForger ι (Value p) (Fin p.n → Fin (2 ^ 8)) M (Digest p)) : ∀ {Q : List (ι × M × Bytes)},
    F.run H T signature Q = (Q', i', m', sig') →
      ∀ c ∈ C i' m' sig' (T i'), (i', c.1.adrs, c.2) ∈ askedAll H T signature (checkedAll C n F) := by
  induction F with
  | output i m sig =>
    intro Q h c hc
    simp only [ManyForger.run, Prod.mk.injEq] at h
    obtain ⟨-, rfl, rfl, rfl⟩ := h
    exact askAllFor_asked (hC i m sig) n _ 0 (by simp) (by simpa using hn i m sig) c hc
  | hash i r m next ih => exact fun h => ih _ h
  | tweak i a x next ih => exact fun h c hc => List.mem_cons_of_mem _ (ih _ h c hc)
  | sign i o m next ih => exact fun h => ih _ h

/-- What is opened is opened by a signature. -/
theorem openedByAll_mem {Q' : List (ι × M × Bytes)} {y : ι × M × Bytes}
    (F : ManyForger ι (Value p) (Fin p.n → Fin (2 ^ 8)) M (Digest p)) :
    ∀ {R : ι → Set Position} {Q : List (ι × M × Bytes)},
      (∀ i, ∀ x ∈ R i, ∃ o m, (i, m, signature i o m) ∈ Q ∧ x ∈ opened (H i (G i (o, m), m))) →
      F.run H T signature Q = (Q', y) →
      ∀ i, ∀ x ∈ openedByAll H G T signature F R i,
        ∃ o m, (i, m, signature i o m) ∈ Q' ∧ x ∈ opened (H i (G i (o, m), m)) := by
  induction F with
  | output i m sig =>
    intro R Q hR h
    simp only [ManyForger.run, Prod.mk.injEq] at h
    obtain ⟨rfl, -⟩ := h
    exact hR
  | hash i r m next ih => exact fun hR h => ih _ hR h
  | tweak i a x next ih => exact fun hR h => ih _ hR h
  | sign i o m next ih =>
    intro R Q hR h
    refine ih _ (fun j x hx => ?_) h
    by_cases hj : j = i
    · subst hj
      rw [Function.update_self] at hx
      rcases hx with hx | hx
      · obtain ⟨r', m', h1, h2⟩ := hR j x hx
        exact ⟨r', m', List.mem_cons_of_mem _ h1, h2⟩
      · exact ⟨o, m, List.mem_cons_self, hx⟩
    · rw [Function.update_of_ne hj] at hx
      obtain ⟨r', m', h1, h2⟩ := hR j x hx
      exact ⟨r', m', List.mem_cons_of_mem _ h1, h2⟩

end

/-! ## Probabilities -/

section
variable {p : Par} {ι : Type} {M : Type} {text : M → Bytes}

/-- The functions of the scheme of an owner, if the randomiser is given -/
noncomputable abbrev plainScheme (text : M → Bytes) (O : Point p → Value p) (H : (Fin p.n → Fin (2 ^ 8)) × M → Digest p) :
    Spec.Hash := (Hash.random O).withOracle text H

/-- What the forger does -/
noncomputable def runMany (p : Par) (seed : ι → Bytes) (text : M → Bytes)
    (F : (ι → Bytes) → ManyForger ι (Value p) (Fin p.n → Fin (2 ^ 8)) M (Digest p)) (O : ι → Point p → Value p)
    (H : ι → (Fin p.n → Fin (2 ^ 8)) × M → Digest p) (G : ι → Value p × M → Value p) :
    List (ι × M × Bytes) × ι × M × Bytes :=
  let S i := plainScheme text (O i) (H i)
  let pk i := pkOf p (S i) (seed i)
  (F pk).run H (fun i => (S i).T ((pk i).take p.n))
    (fun i o m => sign p (S i) (skOf p (S i) (seed i)) (randomiserBytes (G i (o, m))) (text m)) []

variable [DecidableEq ι]

/-- The forger shows what breaks the functions of an owner. -/
def BrokenMany (p : Par) (seed : ι → Bytes) (text : M → Bytes)
    (F : (ι → Bytes) → ManyForger ι (Value p) (Fin p.n → Fin (2 ^ 8)) M (Digest p)) (O : ι → Point p → Value p)
    (H : ι → (Fin p.n → Fin (2 ^ 8)) × M → Digest p) (G : ι → Value p × M → Value p) : Prop :=
  let y := runMany p seed text F O H G
  Shows p (plainScheme text (O y.2.1) (H y.2.1)) (seed y.2.1) ((Many.ofOwner y.2.1 y.1).map fun c => (text c.1, c.2))
    (text y.2.2.1) y.2.2.2

variable [Finite ι]

theorem finds_of_brokenMany (Fp : Fine p) (inj : ∀ x y, text x = text y → x = y) {seed : ι → Bytes}
    (hs : ∀ i, (seed i).length = 3 * p.n)
    {F : (ι → Bytes) → ManyForger ι (Value p) (Fin p.n → Fin (2 ^ 8)) M (Digest p)}
    {H : ι → (Fin p.n → Fin (2 ^ 8)) × M → Digest p} {G : ι → Value p × M → Value p}
    {val : ι × Place p → Value p} {g : ι × Point p → Value p}
    (h : BrokenMany p seed text F (ownedBy (patch ptAll val g)) H G) :
    (startAll H G (fun i => ((seed i).drop (2 * p.n)).take p.n)
      (fun pk => checkedAll (fun i => callsOf text (H i) (pk i)) (maxCalls p) (F pk))).Finds val g ∅ ∅ := by
  unfold BrokenMany at h
  simp only at h
  generalize hrun : runMany p seed text F (ownedBy (patch ptAll val g)) H G = y at h
  obtain ⟨Q, j, m, sig⟩ := y
  unfold runMany at hrun
  simp only [patch_owned] at h hrun
  generalize hO : (fun i => patch pt (ownedBy val i) (ownedBy g i)) = O at *
  have hO' : ∀ i, O i = patch pt (ownedBy val i) (ownedBy g i) := fun i => by rw [← hO]
  simp only [← hO'] at h hrun
  have A : ∀ i, Follows (plainScheme text (O i) (H i)) (patch pt (ownedBy val i) (ownedBy g i)) := fun i => by
    rw [← hO']
    exact withOracle_follows (random_follows (O i))
  have hT0 : ∀ i pub a x, (¬∃ z : Point p, z.1.1.isPrf = false ∧ z.1.1.adrs = a ∧ z.1.2 = x) →
      (plainScheme text (O i) (H i)).T pub a x = List.replicate p.n 0 := fun i pub a x hz => dif_neg hz
  have hsg := fun i => sign_val (text := text) (H := H i) Fp inj (random_len (O i)) (A i).has (hs i)
  have hpk := fun i => pk_eq (A i).has Fp.d (seed i)
  have hcalls := fun i pk m sig => callsOf_eq (text := text) (H := H i) (Hash.random (O i)) pk m sig
  change ∀ i pk m sig, callsOf text (H i) pk m sig ((plainScheme text (O i) (H i)).T (pk.take p.n)) = _ at hcalls
  have hsel := fun i pk sig r m => selected_eq (S := Hash.random (O i)) (H := H i) inj (pk := pk) (sig := sig) (r := r)
    (m := m)
  have htk : ∀ i r m, (sigFor (ownedBy val i) r (H i (r, m))).take p.n = randomiserBytes r := fun i r m =>
    List.take_left' (Game.length_randomiserBytes r)
  change ∀ i r m, sign p (plainScheme text (O i) (H i)) _ _ _ = _ at hsg
  change ∀ i pk sig r m, _ → selected p (plainScheme text (O i) (H i)) _ _ _ = _ at hsel
  change ∀ i pk m sig, _ = verifyCalls p (plainScheme text (O i) (H i)) _ _ _ at hcalls
  obtain ⟨S, hS⟩ : ∃ S : ι → Spec.Hash, ∀ i, plainScheme text (O i) (H i) = S i := ⟨_, fun _ => rfl⟩
  simp only [hS] at h hrun A hT0 hsg hpk hcalls hsel
  simp only [hsg] at hrun
  refine startAll_finds (seekAll_finds Fp (T := fun i => (S i).T ((pkOf p (S i) (seed i)).take p.n))
    (fun i z hz => (A i).T _ z hz) (fun i => hT0 i _)
    (signature := fun i o m => sigFor (ownedBy val i) (G i (o, m)) (H i (G i (o, m), m))) (fun _ _ _ => rfl) _
    (fun _ h => h.elim) ?_)
  simp only [← hpk]
  rw [checkedAll_opened]
  have hasked := checkedAll_asked (C := fun i => callsOf text (H i) (pkOf p (S i) (seed i))) (n := maxCalls p) (H := H)
    (T := fun i => (S i).T ((pkOf p (S i) (seed i)).take p.n))
    (fun i m sig T0 k hT => pre_verify (pub := (pkOf p (S i) (seed i)).take p.n) p _ _ _ _ (hashOf _) (hashOf T0) k
      fun c hc => hT c hc) (fun i m sig => verifyCallsOf_length ..) _ hrun
  rw [hcalls] at hasked
  suffices hz : ∃ z : Point p, z.1 ∈ verifyCalls p (S j) (pkOf p (S j) (seed j)) (text m) sig ∧
      Breach (ownedBy val j) (patch pt (ownedBy val j) (ownedBy g j))
      (openedByAll H G (fun i => (S i).T ((pkOf p (S i) (seed i)).take p.n))
        (fun i o m => sigFor (ownedBy val i) (G i (o, m)) (H i (G i (o, m), m)))
        (F fun i => pkOf p (S i) (seed i)) (fun _ => ∅) j) z by
    obtain ⟨z, h1, h2⟩ := hz
    exact ⟨j, z, verifyCalls_notPrf h1, hasked z.1 h1, h2⟩
  rcases h with ⟨c, hc, h⟩ | ⟨j', i, hj, hi, h⟩ | ⟨i, hi, h1, h2⟩
  · obtain ⟨z, rfl, hz⟩ := breach_second Fp (A j) hc h
    exact ⟨z, hc, hz⟩
  · exact breach_hidden Fp (A j) hj hi h
  · refine breach_fors Fp (A j) hi h1 fun hmem => ?_
    obtain ⟨o, m', hq, hop⟩ := openedByAll_mem _ (fun _ _ h => h.elim) hrun j _ hmem
    obtain ⟨i', hi', e⟩ := hop
    have es := hsel j (pkOf p (S j) (seed j)) _ _ m' (htk j (G j (o, m')) m')
    have key := h2 (text m', sigFor (ownedBy val j) (G j (o, m')) (H j (G j (o, m'), m')))
      (List.mem_map.mpr ⟨_, Many.mem_ofOwner.mpr hq, rfl⟩)
    simp only [forsKey, forsPick, es] at key e
    injection e with e1 e2 e3
    refine key (Prod.ext e1.symm e2.symm) ?_
    have l1 : forsIdx p (selected p (S j) (pkOf p (S j) (seed j)) (text m) sig).1 i < 2 ^ p.a :=
      Nat.mod_lt _ (Nat.two_pow_pos _)
    have l2 : forsIdx p (splitDigest p (H j (G j (o, m'), m')).bytes).1 i' < 2 ^ p.a := Nat.mod_lt _ (Nat.two_pow_pos _)
    have ei : i = i' := by
      have := congrArg (· / 2 ^ p.a) e3
      rwa [Nat.mul_comm, Nat.mul_add_div (Nat.two_pow_pos _), Nat.div_eq_of_lt l1, Nat.mul_comm i',
        Nat.mul_add_div (Nat.two_pow_pos _), Nat.div_eq_of_lt l2] at this
    subst ei
    omega

end

section
variable {p : Par} {ι : Type} [Fintype ι] [DecidableEq ι] {M : Type} {text : M → Bytes}

/-- The average does not depend on the names of the elements. -/
theorem avg_equiv {α β : Type} [Fintype α] [Fintype β] (e : α ≃ β) (f : β → ℚ) : avg (fun a => f (e a)) = avg f := by
  unfold avg
  rw [e.sum_comp, Fintype.card_congr e]

/-- The probability that the forger shows this, for fixed message hashes and randomisers -/
theorem brokenMany_bound (Fp : Fine p) (inj : ∀ x y, text x = text y → x = y) {seed : ι → Bytes}
    (hs : ∀ i, (seed i).length = 3 * p.n)
    {F : (ι → Bytes) → ManyForger ι (Value p) (Fin p.n → Fin (2 ^ 8)) M (Digest p)} {q t : ι → Nat} {u : Nat}
    (hF : ∀ pk, (F pk).WithinShared q t u)
    (H : ι → (Fin p.n → Fin (2 ^ 8)) × M → Digest p) (G : ι → Value p × M → Value p) :
    avg (fun O : ι → Point p → Value p => ind (BrokenMany p seed text F O H G)) ≤ 2 * (u + maxCalls p) / 2 ^ (8 * p.n) := by
  classical
  rw [← avg_equiv (Equiv.curry ι (Point p) (Value p)), resample (fun v : ι × Place p => rank p v.2.1) ptAll_rank ptAll_inj]
  have h := find_bound (startAll H G (fun i => ((seed i).drop (2 * p.n)).take p.n)
    (fun pk => checkedAll (fun i => callsOf text (H i) (pk i)) (maxCalls p) (F pk)))
    (startAll_within H G _ _ (fun pk => checkedAll_within _ (hF pk))) (fun _ => none) (fun _ => none)
  have hc : (Fintype.card (Value p) : ℚ) = 2 ^ (8 * p.n) := by
    rw [Fintype.card_fun, Fintype.card_fin, Fintype.card_fin, ← pow_mul]
    push_cast
    rfl
  rw [hc, Nat.cast_add] at h
  refine le_trans (avg_mono fun val => avg_mono fun g => ind_mono fun hb => ?_) h
  have e0 : ∀ {A B : Type}, dom (fun _ : A => (none : Option B)) = ∅ := by
    intro A B
    ext v; simp [dom]
  rw [e0, e0]
  exact finds_of_brokenMany Fp inj hs hb

end

/-! ## Covered digests -/

section
variable {p : Par} {M : Type} {text : M → Bytes}

/-- A forger who ends with a covered digest is an attacker of C82. -/
theorem covered_won (inj : ∀ x y, text x = text y → x = y) {seed : Bytes} {O : Point p → Value p}
    {T : ADRS → Bytes → Bytes} (F : Adversary (Fin p.n → Fin (2 ^ 8)) M (Digest p)) {q t u : Nat} (hF : F.Within q t u) :
    ∃ A : Attacker (Fin p.n → Fin (2 ^ 8)) M (Digest p), A.Within q t ∧
      ∀ (H : (Fin p.n → Fin (2 ^ 8)) × M → Digest p) s Q m sig,
        F.run H T (fun r m => sign p (plainScheme text O H) (skOf p (plainScheme text O H) seed) (randomiserBytes r) (text m))
          s [] = some (Q, m, sig) →
        sig.length = p.n + (forsBytes p + p.d * xmssBytes p) →
        CoveredDigest p (plainScheme text O H) (pkOf p (plainScheme text O H) seed) (Q.map fun c => (text c.1, c.2))
          (text m) sig →
        Won H (A.run H s []) := by
  let make : (Fin p.n → Fin (2 ^ 8)) → Digest p → M → Bytes := fun r d m =>
    Spec.sign p ((Hash.random O).withOracle text fun _ => d) (skOf p ((Hash.random O).withOracle text fun _ => d) seed)
      (randomiserBytes r) (text m)
  refine ⟨Game.toAttacker make (Game.rnd p.n) (resolve T F), Game.within _ (resolve_within F hF), ?_⟩
  intro H s Q m sig hrun hlen h
  rw [← resolve_run] at hrun
  obtain ⟨Y, hY, e⟩ := Game.run_sim (make := make) (rnd := Game.rnd p.n)
    (fun r m => Game.sign_eq H inj (skOf p (plainScheme text O H) seed) r m)
    (f := fun c => (c.2.take p.n, text c.1)) (g := fun y => (randomiserBytes y.1, text y.2))
    (fun r m => by rw [Game.take_sign]) (resolve T F) (Y := []) (by rfl) hrun
  refine (congrArg (Won H) hY).mpr ?_
  exact won_of_covered (fun r μ => (Game.hmsg (Hash.random O) H inj r μ _ _).symm) (by rw [e, List.map_map]; rfl)
    (by rw [Game.randomiserBytes_rnd (by rw [hlen]; exact Nat.le_add_right _ _)]) h

variable [Fintype M] [DecidableEq M]

/-- The same for a forger who chooses the optional randomness -/
theorem covered_chosen (inj : ∀ x y, text x = text y → x = y) {seed : Bytes} {O : Point p → Value p}
    {T : ADRS → Bytes → Bytes} (F : Chooser (Value p) (Fin p.n → Fin (2 ^ 8)) M (Digest p)) {q t u : Nat}
    (hF : F.Within q t u) {c : ℚ} (hc : ∀ A : Attacker (Fin p.n → Fin (2 ^ 8)) M (Digest p), A.Within q t →
      chance (fun w : ((Fin p.n → Fin (2 ^ 8)) × M → Digest p) × (Fin q → Fin p.n → Fin (2 ^ 8)) =>
        Won w.1 (A.run w.1 (List.ofFn w.2) [])) ≤ c) :
    avg (fun H : (Fin p.n → Fin (2 ^ 8)) × M → Digest p => avg fun G : Value p × M → Value p => ind (
      let y := F.run H T (fun o m => sign p (plainScheme text O H) (skOf p (plainScheme text O H) seed)
        (randomiserBytes (G (o, m))) (text m)) []
      y.2.2.length = p.n + (forsBytes p + p.d * xmssBytes p) ∧
      CoveredDigest p (plainScheme text O H) (pkOf p (plainScheme text O H) seed) (y.1.map fun c => (text c.1, c.2))
        (text y.2.1) y.2.2)) ≤ c := by
  obtain ⟨A, hA, h⟩ := covered_won inj (seed := seed) (O := O) (T := T) (Chosen.plain F fun _ => none)
    (Chosen.plain_within F hF)
  refine le_trans (le_trans (avg_mono fun H => ?_) (le_of_eq (avg_prod fun w : ((Fin p.n → Fin (2 ^ 8)) × M → Digest p) ×
    (Fin q → Fin p.n → Fin (2 ^ 8)) => ind (Won w.1 (A.run w.1 (List.ofFn w.2) []))).symm)) ?_
  · have e := Chosen.avg_plain (H := H) (T := T)
      (signature := fun (r : Fin p.n → Fin (2 ^ 8)) m => sign p (plainScheme text O H) (skOf p (plainScheme text O H) seed)
        (randomiserBytes r) (text m))
      (W := fun y => y.2.2.length = p.n + (forsBytes p + p.d * xmssBytes p) ∧
        CoveredDigest p (plainScheme text O H) (pkOf p (plainScheme text O H) seed) (y.1.map fun c => (text c.1, c.2))
          (text y.2.1) y.2.2) (fun {Q Q' m sig} hQ => by
        have hm : ∀ x, x ∈ Q.map (fun c : M × Bytes => (text c.1, c.2)) ↔ x ∈ Q'.map (fun c : M × Bytes => (text c.1, c.2)) :=
          fun x => by simp only [List.mem_map, hQ]
        simp only [CoveredDigest, hm]) F (K := fun _ => none) (Q := []) (Q' := []) hF (fun _ => Iff.rfl)
      (fun _ _ h => by cases h)
    refine le_trans (le_of_eq e) (avg_mono fun s => ind_mono ?_)
    rintro ⟨⟨Q, m, sig⟩, h1, h2, h3⟩
    exact h H _ Q m sig h1 h2 h3
  · rw [avg_ind]
    exact hc A hA

end

section
variable {p : Par} {ι : Type} [DecidableEq ι] {M : Type} {text : M → Bytes}

/-- The forger ends with a covered digest of owner `j`. -/
def CoveredMany (p : Par) (seed : ι → Bytes) (text : M → Bytes)
    (F : (ι → Bytes) → ManyForger ι (Value p) (Fin p.n → Fin (2 ^ 8)) M (Digest p)) (j : ι) (w : ι → Functions p M) : Prop :=
  let y := runMany p seed text F (fun i => (w i).1) (fun i => (w i).2.1) fun i => (w i).2.2
  y.2.1 = j ∧ y.2.2.2.length = p.n + (forsBytes p + p.d * xmssBytes p) ∧
    CoveredDigest p (plainScheme text (w j).1 (w j).2.1) (pkOf p (plainScheme text (w j).1 (w j).2.1) (seed j))
      ((Many.ofOwner j y.1).map fun c => (text c.1, c.2)) (text y.2.2.1) y.2.2.2

theorem only_withinShared (j : ι) {β ρ D : Type} (H : ι → ρ × M → D) (T : ι → ADRS → Bytes → Bytes)
    (signature : ι → β → M → Bytes)
    (A : ManyForger ι β ρ M D) : ∀ {q t : ι → Nat} {u : Nat}, A.WithinShared q t u →
    (Many.only j H T signature A).Within (q j) (t j) u := by
  have up : ∀ {F : Chooser β ρ M D} {q t u u' : Nat}, F.Within q t u → u ≤ u' → F.Within q t u' := by
    intro F
    induction F with
    | output m sig => exact fun h _ => h
    | hash r m next ih => exact fun h hu => ⟨h.1, fun d => ih d (h.2 d) hu⟩
    | tweak a x next ih => exact fun h hu => ⟨by have := h.1; omega, fun y => ih y (h.2 y) (by omega)⟩
    | sign o m next ih => exact fun h hu => ⟨h.1, fun y => ih y (h.2 y) hu⟩
  induction A with
  | output i m sig => exact fun h => h j
  | hash i r m next ih =>
    intro q t u h
    unfold Many.only
    split
    · next e =>
      subst e
      refine ⟨h.1, fun d => ?_⟩
      have := ih d (h.2 d)
      rwa [Function.update_self] at this
    · next e =>
      have := ih _ (h.2 (H i (r, m)))
      rwa [Function.update_of_ne (Ne.symm e)] at this
  | tweak i a x next ih =>
    intro q t u h
    unfold Many.only
    split
    · exact ⟨h.1, fun d => ih d (h.2 d)⟩
    · exact up (ih _ (h.2 (T i a x))) (Nat.sub_le _ _)
  | sign i o m next ih =>
    intro q t u h
    unfold Many.only
    split
    · next e =>
      subst e
      refine ⟨h.1, fun d => ?_⟩
      have := ih d (h.2 d)
      rwa [Function.update_self] at this
    · next e =>
      have := ih _ (h.2 (signature i o m))
      rwa [Function.update_of_ne (Ne.symm e)] at this

variable [Fintype ι] [Fintype M] [DecidableEq M]

theorem coveredMany_bound (inj : ∀ x y, text x = text y → x = y) (seed : ι → Bytes)
    {F : (ι → Bytes) → ManyForger ι (Value p) (Fin p.n → Fin (2 ^ 8)) M (Digest p)} {q t : ι → Nat} {u : Nat}
    (hF : ∀ pk, (F pk).WithinShared q t u) (j : ι) {c : ℚ}
    (hc : ∀ A : Attacker (Fin p.n → Fin (2 ^ 8)) M (Digest p), A.Within (q j) (t j) →
      chance (fun w : ((Fin p.n → Fin (2 ^ 8)) × M → Digest p) × (Fin (q j) → Fin p.n → Fin (2 ^ 8)) =>
        Won w.1 (A.run w.1 (List.ofFn w.2) [])) ≤ c) :
    chance (CoveredMany p seed text F j) ≤ c := by
  have : Nonempty (Value p) := ⟨fun _ => 0⟩
  have : Nonempty (Point p → Value p) := inferInstance
  have : Nonempty (Functions p M) := ⟨fun _ => Classical.choice inferInstance, fun _ => Classical.choice inferInstance,
    fun _ => Classical.choice inferInstance⟩
  refine Many.chance_component j fun w => ?_
  rw [← avg_ind, avg_prod, ← avg_const (α := Point p → Value p) c]
  refine avg_mono fun O => ?_
  rw [avg_prod]
  let T : ι → ADRS → Bytes → Bytes := fun i =>
    (plainScheme text (w i).1 (w i).2.1).T ((pkOf p (plainScheme text (w i).1 (w i).2.1) (seed i)).take p.n)
  let sg : ι → Value p → M → Bytes := fun i o m => sign p (plainScheme text (w i).1 (w i).2.1)
    (skOf p (plainScheme text (w i).1 (w i).2.1) (seed i)) (randomiserBytes ((w i).2.2 (o, m))) (text m)
  let pk : ι → Bytes := Function.update (fun i => pkOf p (plainScheme text (w i).1 (w i).2.1) (seed i)) j
    (pkOf p (Hash.random O) (seed j))
  refine le_trans (avg_mono fun H => avg_mono fun G => ind_mono fun h => ?_)
    (covered_chosen inj (seed := seed j) (O := O) (T := (Hash.random O).T ((pkOf p (Hash.random O) (seed j)).take p.n))
      (Many.only j (fun i => (w i).2.1) T sg (F pk)) (only_withinShared j _ _ _ _ (hF _)) hc)
  have hu : ∀ i, i ≠ j → Function.update w j (O, H, G) i = w i := fun i hi => Function.update_of_ne hi _ _
  have hpk : pk = fun i => pkOf p (plainScheme text (Function.update w j (O, H, G) i).1
      (Function.update w j (O, H, G) i).2.1) (seed i) := by
    funext i
    by_cases hi : i = j
    · subst hi; simp only [pk, Function.update_self]; rfl
    · simp only [pk, Function.update_of_ne hi]
  have key := Many.only_run (j := j)
    (H := fun i => (Function.update w j (O, H, G) i).2.1) (H' := fun i => (w i).2.1)
    (T := fun i => (plainScheme text (Function.update w j (O, H, G) i).1 (Function.update w j (O, H, G) i).2.1).T
      ((pkOf p (plainScheme text (Function.update w j (O, H, G) i).1 (Function.update w j (O, H, G) i).2.1) (seed i)).take p.n))
    (T' := T)
    (signature := fun i o m => sign p (plainScheme text (Function.update w j (O, H, G) i).1
        (Function.update w j (O, H, G) i).2.1)
      (skOf p (plainScheme text (Function.update w j (O, H, G) i).1 (Function.update w j (O, H, G) i).2.1) (seed i))
      (randomiserBytes ((Function.update w j (O, H, G) i).2.2 (o, m))) (text m))
    (signature' := sg)
    (fun i hi => by simp only [hu i hi]) (fun i hi => by simp only [hu i hi, T]) (fun i hi => by simp only [hu i hi, sg])
    (F pk) []
  unfold CoveredMany runMany at h
  simp only [← hpk] at h
  simp only [Function.update_self] at key h
  generalize (F pk).run _ _ _ _ = y at h key
  obtain ⟨hj, h⟩ := h
  have e0 : Many.ofOwner j ([] : List (ι × M × Bytes)) = [] := rfl
  rw [e0] at key
  simp only
  refine (congrArg (fun y : List (M × Bytes) × M × Bytes => y.2.2.length = p.n + (forsBytes p + p.d * xmssBytes p) ∧
      CoveredDigest p (plainScheme text O H) (pkOf p (plainScheme text O H) (seed j)) (y.1.map fun c => (text c.1, c.2))
        (text y.2.1) y.2.2) key).mpr ?_
  exact h

end

/-! ## Both together -/

section
variable {ι β ρ M D : Type}

theorem runMany_signed {H : ι → ρ × M → D} {T : ι → ADRS → Bytes → Bytes} {signature : ι → β → M → Bytes}
    (F : ManyForger ι β ρ M D) : ∀ {Q : List (ι × M × Bytes)}, (∀ c ∈ Q, ∃ o, c.2.2 = signature c.1 o c.2.1) →
      ∀ c ∈ (F.run H T signature Q).1, ∃ o, c.2.2 = signature c.1 o c.2.1 := by
  induction F with
  | output i m sig => exact fun hQ => hQ
  | hash i r m next ih => exact fun hQ => ih _ hQ
  | tweak i a x next ih => exact fun hQ => ih _ hQ
  | sign i o m next ih =>
    refine fun hQ => ih _ fun c hc => ?_
    rcases List.mem_cons.mp hc with rfl | hc
    · exact ⟨o, rfl⟩
    · exact hQ c hc

end

section
variable {P : Params} (hP : P ∈ shipped) {ι : Type} [Fintype ι] [DecidableEq ι] {seed : ι → Bytes}
    (hseed : ∀ i, (seed i).length = 3 * P.n) {M : Type} [Fintype M] [DecidableEq M] {text : M → Bytes}
    (inj : ∀ x y, text x = text y → x = y)
    {F : (ι → Bytes) → ManyForger ι (Value P.toSpec) (Fin P.toSpec.n → Fin (2 ^ 8)) M (Digest P.toSpec)}

omit [Fintype ι] [DecidableEq ι] [Fintype M] [DecidableEq M] in
include inj in
theorem succeedsMany_run {w : ι → Functions P.toSpec M} (h : SucceedsMany P.toSpec seed text F w) :
    let y := runMany P.toSpec seed text F (fun i => (w i).1) (fun i => (w i).2.1) fun i => (w i).2.2
    (y.2.1, y.2.2.1, y.2.2.2) ∉ y.1 ∧
      y.2.2.2.length = P.toSpec.n + (forsBytes P.toSpec + P.toSpec.d * xmssBytes P.toSpec) ∧
      verify P.toSpec (plainScheme text (w y.2.1).1 (w y.2.1).2.1)
        (pkOf P.toSpec (plainScheme text (w y.2.1).1 (w y.2.1).2.1) (seed y.2.1)) (text y.2.2.1) y.2.2.2 = true := by
  unfold SucceedsMany at h
  have hv : ∀ i pk m sig, verify P.toSpec ((Hash.random (w i).1).withRandomisers text (w i).2.1 (w i).2.2) pk m sig =
      verify P.toSpec (plainScheme text (w i).1 (w i).2.1) pk m sig := fun i pk m sig =>
    Chosen.verify_same (X := (Hash.random (w i).1).withRandomisers text (w i).2.1 (w i).2.2)
      (Y := plainScheme text (w i).1 (w i).2.1) rfl rfl _ _ _
  simp only [Chosen.sign_eq _ _ _ inj, hv] at h
  exact h

include hP hseed inj

omit [Fintype ι] [Fintype M] [DecidableEq M] in
theorem succeedsMany_split {w : ι → Functions P.toSpec M} (h : SucceedsMany P.toSpec seed text F w) :
    BrokenMany P.toSpec seed text F (fun i => (w i).1) (fun i => (w i).2.1) (fun i => (w i).2.2) ∨
      ∃ j, CoveredMany P.toSpec seed text F j w := by
  obtain ⟨h1, h2, h3⟩ := succeedsMany_run inj h
  have hsg : ∀ c ∈ (runMany P.toSpec seed text F (fun i => (w i).1) (fun i => (w i).2.1) fun i => (w i).2.2).1, ∃ o,
      c.2.2 = sign P.toSpec (plainScheme text (w c.1).1 (w c.1).2.1)
        (skOf P.toSpec (plainScheme text (w c.1).1 (w c.1).2.1) (seed c.1)) (randomiserBytes ((w c.1).2.2 (o, c.2.1)))
        (text c.2.1) := runMany_signed _ (by simp)
  unfold BrokenMany CoveredMany
  simp only
  generalize runMany P.toSpec seed text F (fun i => (w i).1) (fun i => (w i).2.1) (fun i => (w i).2.2) = y at *
  obtain ⟨Q, j, m, sig⟩ := y
  simp only at h1 h2 h3 hsg ⊢
  have L : HashLen P.toSpec.n (plainScheme text (w j).1 (w j).2.1) := Game.hashLen (text := text) (w j).2.1 (random_len (w j).1)
  rcases forgery_shows hP L (hseed j) (Q := (Many.ofOwner j Q).map fun c => (text c.1, c.2)) (m := text m) (sig := sig)
      (fun c hc => by
        obtain ⟨c', hc', rfl⟩ := List.mem_map.mp hc
        obtain ⟨o, ho⟩ := hsg _ (Many.mem_ofOwner.mp hc')
        exact ⟨_, ho⟩) h2
      (fun hc => by
        obtain ⟨c', hc', e⟩ := List.mem_map.mp hc
        obtain ⟨e1, e2⟩ := Prod.ext_iff.mp e
        refine h1 ?_
        rw [← inj _ _ e1, ← show c'.2 = sig from e2]
        exact Many.mem_ofOwner.mp hc') h3 with h | h
  · exact Or.inl h
  · exact Or.inr ⟨j, rfl, h2, h⟩

/-- `c j` bounds the chance of a covered digest of owner `j`. -/
theorem shared_bound {q t : ι → Nat} {u : Nat} (hF : ∀ pk, (F pk).WithinShared q t u) {c : ι → ℚ}
    (hc : ∀ j, ∀ A : Attacker (Fin P.toSpec.n → Fin (2 ^ 8)) M (Digest P.toSpec), A.Within (q j) (t j) →
      chance (fun w : ((Fin P.toSpec.n → Fin (2 ^ 8)) × M → Digest P.toSpec) × (Fin (q j) → Fin P.toSpec.n → Fin (2 ^ 8)) =>
        Won w.1 (A.run w.1 (List.ofFn w.2) [])) ≤ c j) :
    chance (SucceedsMany P.toSpec seed text F) ≤ ∑ j, c j + 2 * (u + maxCalls P.toSpec) / 2 ^ (8 * P.n) := by
  rw [add_comm]
  refine le_trans (chance_or fun w hw => succeedsMany_split hP hseed inj hw) (add_le_add ?_ ?_)
  · have : Nonempty (Value P.toSpec) := ⟨fun _ => 0⟩
    have : Nonempty (ι → ((Fin P.toSpec.n → Fin (2 ^ 8)) × M → Digest P.toSpec) × (Value P.toSpec × M → Value P.toSpec)) :=
      ⟨fun _ => (fun _ => Classical.choice inferInstance, fun _ => Classical.choice inferInstance)⟩
    let : Fintype (((Fin P.toSpec.n → Fin (2 ^ 8)) × M → Digest P.toSpec) × (Value P.toSpec × M → Value P.toSpec)) :=
      instFintypeProd _ _
    let : Fintype ((ι → Point P.toSpec → Value P.toSpec) ×
        (ι → ((Fin P.toSpec.n → Fin (2 ^ 8)) × M → Digest P.toSpec) × (Value P.toSpec × M → Value P.toSpec))) :=
      instFintypeProd _ _
    let e : (ι → Point P.toSpec → Value P.toSpec) ×
        (ι → ((Fin P.toSpec.n → Fin (2 ^ 8)) × M → Digest P.toSpec) × (Value P.toSpec × M → Value P.toSpec)) ≃
        (ι → Functions P.toSpec M) :=
      { toFun := fun x i => (x.1 i, x.2 i)
        invFun := fun w => (fun i => (w i).1, fun i => (w i).2)
        left_inv := fun _ => rfl
        right_inv := fun _ => rfl }
    rw [← avg_ind, ← avg_equiv e, avg_prod, avg_comm]
    refine le_trans (avg_mono fun w => brokenMany_bound (fine hP) inj hseed hF (fun i => (w i).1) fun i => (w i).2)
      (le_of_eq (avg_const _))
  · exact le_trans (Many.chance_any fun _ h => h) (Finset.sum_le_sum fun j _ => coveredMany_bound inj seed hF j (hc j))

end

end Spx.Rom
