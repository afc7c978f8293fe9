import Verif.Proof.Checked
import Verif.Props.Game
/-! # Forgers of a scheme with random hash functions -/

namespace Spx.Rom
open Spec

section
variable {p : Par} {S : Spec.Hash} {pub : Bytes}

theorem climbCalls_notPrf {pos : Nat → Nat → Position} (h : ∀ a b, (pos a b).isPrf = false)
    {H : Nat → Nat → Bytes → Bytes → Bytes} {i : Nat} {path : Nat → Bytes} {v : Bytes} {t : Nat} {c : HashCall}
    (hc : c ∈ climbCalls pos H i path v t) : c.1.isPrf = false := by
  obtain ⟨j, -, rfl⟩ := List.mem_map.mp hc
  exact h _ _

theorem verifyCalls_notPrf {pk m sig : Bytes} {c : HashCall} (hc : c ∈ verifyCalls p S pk m sig) : c.1.isPrf = false := by
  unfold verifyCalls at hc
  generalize selected p S pk m sig = sel at *
  obtain ⟨md, tree, leaf⟩ := sel
  rcases List.mem_append.mp hc with hc | hc
  · rcases List.mem_append.mp hc with hc | hc
    · obtain ⟨i, -, hc⟩ := List.mem_flatMap.mp hc
      rcases List.mem_cons.mp hc with rfl | hc
      · rfl
      · exact climbCalls_notPrf (fun _ _ => rfl) hc
    · rw [List.mem_singleton.mp hc]; rfl
  · obtain ⟨j, -, hc⟩ := List.mem_flatMap.mp hc
    rcases List.mem_append.mp hc with hc | hc
    · rcases List.mem_append.mp hc with hc | hc
      · obtain ⟨i, -, hc⟩ := List.mem_flatMap.mp hc
        obtain ⟨s, -, rfl⟩ := List.mem_map.mp hc
        rfl
      · rw [List.mem_singleton.mp hc]; rfl
    · exact climbCalls_notPrf (fun _ _ => rfl) hc

variable {val : Place p → Value p} {g : Point p → Value p}

theorem breach_second (Fp : Fine p) (A : Follows S (patch pt val g)) {pk m sig pub sk : Bytes} {R : Set Position}
    {c : HashCall} (hc : c ∈ verifyCalls p S pk m sig) (h : SecondPreimage p S pub sk c) :
    ∃ z : Point p, z.1 = c ∧ Breach val (patch pt val g) R z := by
  have hv := verifyCalls_valid Fp.h hc
  have hp := verifyCalls_notPrf hc
  obtain ⟨h1, h2, h3⟩ := h
  rw [honestInput_eq A.has hv hp] at h1 h2 h3
  rw [hon_length] at h2
  refine ⟨⟨c, hv, h2⟩, rfl, Or.inl ⟨h1, ?_⟩⟩
  rw [A.has.T pub c.1 hv hp, show S.T pub c.1.adrs c.2 = _ from A.T pub ⟨c, hv, h2⟩ hp, ext_valid val ⟨c.1, hv⟩] at h3
  exact Game.randomiserBytes_injective h3

theorem chainPos_valid {l t k i j : Nat} (h : (Position.wotsHash l t k i j).Valid p) : (chainPos l t k i j).Valid p := by
  obtain ⟨h1, h2, h3, h4, h5⟩ := h
  cases j with
  | zero => exact ⟨h1, h2, h3, h4⟩
  | succ j => exact ⟨h1, h2, h3, h4, by omega⟩

theorem breach_hidden (Fp : Fine p) (A : Follows S (patch pt val g)) {pk m sig sk : Bytes} {R : Set Position}
    {j i : Nat} (hj : j < p.d) (hi : i < p.len)
    (h : ShowsHiddenValue p S (pk.take p.n) sk (selected p S pk m sig).2.1 (selected p S pk m sig).2.2
      (sig.drop (p.n + forsBytes p)) (forsPkFromSig p S (pk.take p.n) (selected p S pk m sig).2.1
        (selected p S pk m sig).2.2 (sig.drop p.n) (selected p S pk m sig).1) j i) :
    ∃ z : Point p, z.1 ∈ verifyCalls p S pk m sig ∧ Breach val (patch pt val g) R z := by
  have ht : (selected p S pk m sig).2.1 < 2 ^ (p.h' * (p.d - 1)) := splitDigest_tree_lt ..
  have hl : (selected p S pk m sig).2.2 < 2 ^ p.h' := splitDigest_leaf_lt ..
  unfold verifyCalls
  generalize selected p S pk m sig = sel at *
  obtain ⟨md, tree, leaf⟩ := sel
  simp only at h ht hl ⊢
  obtain ⟨h1, h2⟩ := h
  have hta := treeAt_bound Fp.h ht hj
  have hle := leafAt_lt (p := p) (tree := tree) hl j
  rw [htMsg_valueAt, valueAt_eq A.has Fp hj hta hle] at h1
  have hw : (lengths p (htRoot p S (pk.take p.n) tree leaf (sig.drop (p.n + forsBytes p))
      (forsPkFromSig p S (pk.take p.n) tree leaf (sig.drop p.n) md) j)).getD i 0 < p.w - 1 :=
    Nat.lt_of_lt_of_le h1 (Fp.digit _ _)
  generalize hs : (lengths p (htRoot p S (pk.take p.n) tree leaf (sig.drop (p.n + forsBytes p))
      (forsPkFromSig p S (pk.take p.n) tree leaf (sig.drop p.n) md) j)).getD i 0 = s at h1 h2 hw
  rw [chainValue_eq A.has hj hta hle hi (Nat.le_of_lt hw)] at h2
  have hv : (Position.wotsHash j (treeAt p tree j) (leafAt p tree leaf j) i s).Valid p := ⟨hj, hta, hle, hi, hw⟩
  have hx : hon val (.wotsHash j (treeAt p tree j) (leafAt p tree leaf j) i s) =
      ext val (chainPos j (treeAt p tree j) (leafAt p tree leaf j) i s) := hon_single val rfl
  refine ⟨⟨(.wotsHash j (treeAt p tree j) (leafAt p tree leaf j) i s,
    chunk p.n ((sig.drop (p.n + forsBytes p)).drop (j * xmssBytes p)) i), hv, by rw [h2, ext_length]; rfl⟩, ?_, Or.inr ?_⟩
  · refine List.mem_append_right _ (List.mem_flatMap.mpr ⟨j, List.mem_range.mpr hj, List.mem_append_left _
      (List.mem_append_left _ (List.mem_flatMap.mpr ⟨i, List.mem_range.mpr hi, List.mem_map.mpr ⟨0, ?_, ?_⟩⟩))⟩)
    · rw [List.mem_range, hs]
      omega
    · rw [hs]
      rfl
  · exact ⟨by rw [hx]; exact h2, _, List.mem_singleton.mpr rfl, chainPos_valid hv, hidden_chainPos.mpr h1⟩

theorem breach_fors (Fp : Fine p) (A : Follows S (patch pt val g)) {pk m sig sk : Bytes} {R : Set Position}
    {i : Nat} (hi : i < p.k)
    (h : shownFors p sig i = forsSk S (pk.take p.n) sk (forsKey p S pk m sig).1 (forsKey p S pk m sig).2
      (i * 2 ^ p.a + forsPick p S pk m sig i))
    (hR : Position.forsPrf (forsKey p S pk m sig).1 (forsKey p S pk m sig).2 (i * 2 ^ p.a + forsPick p S pk m sig i) ∉ R) :
    ∃ z : Point p, z.1 ∈ verifyCalls p S pk m sig ∧ Breach val (patch pt val g) R z := by
  have ht : (selected p S pk m sig).2.1 < 2 ^ (p.h' * (p.d - 1)) := splitDigest_tree_lt ..
  have hl : (selected p S pk m sig).2.2 < 2 ^ p.h' := splitDigest_leaf_lt ..
  unfold forsKey forsPick at h hR
  unfold verifyCalls
  generalize selected p S pk m sig = sel at *
  obtain ⟨md, tree, leaf⟩ := sel
  simp only at h ht hl hR ⊢
  rw [Nat.mul_sub, Fp.h, Nat.mul_one] at ht
  have hlt := pick_lt (p := p) (md := md) hi
  rw [forsSk_eq A.has ht hl hlt] at h
  have hv : (Position.forsLeaf tree leaf (i * 2 ^ p.a + forsIdx p md i)).Valid p := ⟨ht, hl, hlt⟩
  have hx : hon val (.forsLeaf tree leaf (i * 2 ^ p.a + forsIdx p md i)) =
      ext val (.forsPrf tree leaf (i * 2 ^ p.a + forsIdx p md i)) := hon_single val rfl
  refine ⟨⟨(.forsLeaf tree leaf (i * 2 ^ p.a + forsIdx p md i), shownFors p sig i), hv, by rw [h, ext_length]; rfl⟩, ?_,
    Or.inr ⟨by rw [hx]; exact h, _, List.mem_singleton.mpr rfl, ⟨ht, hl, hlt⟩, hR⟩⟩
  refine List.mem_append_left _ (List.mem_append_left _ (List.mem_flatMap.mpr ⟨i, List.mem_range.mpr hi, ?_⟩))
  simp only
  rw [List.drop_drop]
  exact List.mem_cons_self

end

section
variable {p : Par} {M : Type} {H : (Fin p.n → Fin (2 ^ 8)) × M → Digest p} {T : ADRS → Bytes → Bytes}
    {signature : (Fin p.n → Fin (2 ^ 8)) → M → Bytes}

/-- What is opened is opened by a signature. -/
theorem openedBy_mem {Q' : List (M × Bytes)} {m' : M} {sig' : Bytes} (F : Adversary (Fin p.n → Fin (2 ^ 8)) M (Digest p)) :
    ∀ {s : List (Fin p.n → Fin (2 ^ 8))} {R : Set Position} {Q : List (M × Bytes)},
      (∀ x ∈ R, ∃ r m, (m, signature r m) ∈ Q ∧ x ∈ opened (H (r, m))) →
      F.run H T signature s Q = some (Q', m', sig') →
      ∀ x ∈ openedBy H T signature F s R, ∃ r m, (m, signature r m) ∈ Q' ∧ x ∈ opened (H (r, m)) := by
  induction F with
  | output m sig =>
    intro s R Q hR h
    simp only [Adversary.run, Option.some.injEq, Prod.mk.injEq] at h
    obtain ⟨rfl, -, -⟩ := h
    exact hR
  | hash r m next ih => exact fun hR h => ih _ hR h
  | tweak a x next ih => exact fun hR h => ih _ hR h
  | sign m next ih =>
    intro s R Q hR h
    cases s with
    | nil => cases h
    | cons r s =>
      refine ih _ (fun x hx => ?_) h
      rcases hx with hx | hx
      · obtain ⟨r', m', h1, h2⟩ := hR x hx
        exact ⟨r', m', List.mem_cons_of_mem _ h1, h2⟩
      · exact ⟨r, m, List.mem_cons_self, hx⟩

end

section
variable {p : Par} {S : Spec.Hash} {M : Type} {text : M → Bytes} {H : (Fin p.n → Fin (2 ^ 8)) × M → Digest p}
    {val : Place p → Value p}

theorem withOracle_follows {O : Point p → Value p} (A : Follows S O) : Follows (S.withOracle text H) O := ⟨A.T, A.PRF⟩

theorem selected_eq (inj : ∀ x y, text x = text y → x = y) {pk sig : Bytes} {r : Fin p.n → Fin (2 ^ 8)} {m : M}
    (h : sig.take p.n = randomiserBytes r) :
    selected p (S.withOracle text H) pk (text m) sig = splitDigest p (H (r, m)).bytes := by
  unfold selected
  rw [h, Game.hmsg S H inj]

theorem pk_eq (A : Has S val) (hd : 1 ≤ p.d) (seed : Bytes) :
    pkOf p S seed = pkVal val ((seed.drop (2 * p.n)).take p.n) := by
  unfold pkOf pkVal
  congr 1
  exact treeNode_eq A (by omega) (Nat.two_pow_pos _) (Nat.le_refl _) (Nat.two_pow_pos _)

theorem sign_val (Fp : Fine p) (inj : ∀ x y, text x = text y → x = y) (L : HashLen p.n S) (A : Has (S.withOracle text H) val)
    {seed : Bytes} (hs : seed.length = 3 * p.n) (r : Fin p.n → Fin (2 ^ 8)) (m : M) :
    sign p (S.withOracle text H) (skOf p (S.withOracle text H) seed) (randomiserBytes r) (text m) =
      sigFor val r (H (r, m)) := by
  have e1 := Game.take_sign (S := S) (text := text) (H := H) (skOf p (S.withOracle text H) seed) r (text m)
  have e2 := sign_honestRest (Game.hashLen (text := text) H L) (optrand := randomiserBytes r) (m := text m) hs
  simp only at e2
  rw [selected_eq inj e1, honestRest_eq A Fp (splitDigest_tree_lt ..) (splitDigest_leaf_lt ..)] at e2
  rw [← List.take_append_drop p.n (sign p _ _ _ _), e1, e2]
  rfl

end

/-! ## Probabilities -/

section
variable {p : Par}

/-- The tweakable hash `T`, whatever the public seed -/
def hashOf (T : ADRS → Bytes → Bytes) : Spec.Hash :=
  ⟨fun _ => T, fun _ _ _ => [], fun _ _ _ _ => [], fun _ _ _ _ _ => []⟩

variable {M : Type} (text : M → Bytes) (H : (Fin p.n → Fin (2 ^ 8)) × M → Digest p)

/-- The calls of a verification with the tweakable hash `T` -/
noncomputable def callsOf (pk : Bytes) (m : M) (sig : Bytes) (T : ADRS → Bytes → Bytes) : List HashCall :=
  let sel := selected p ((hashOf fun _ _ => []).withOracle text H) pk (text m) sig
  verifyCallsOf (pub := pk.take p.n) p sel.1 sel.2.1 sel.2.2 sig (hashOf T)

variable {text H}

theorem callsOf_eq (S : Spec.Hash) (pk : Bytes) (m : M) (sig : Bytes) :
    callsOf text H pk m sig (S.T (pk.take p.n)) = verifyCalls p (S.withOracle text H) pk (text m) sig :=
  Pre.full (S := S.withOracle text H) (S' := hashOf (S.T (pk.take p.n))) (pre_verify p _ _ _ _) fun _ _ => rfl

/-- What a forgery shows that does not show a covered digest -/
def Shows (p : Par) (S : Spec.Hash) (seed : Bytes) (Q : List (Bytes × Bytes)) (m sig : Bytes) : Prop :=
  (∃ c ∈ verifyCalls p S (pkOf p S seed) m sig, SecondPreimage p S ((pkOf p S seed).take p.n) (seed.take p.n) c) ∨
  (∃ j i, j < p.d ∧ i < p.len ∧
    ShowsHiddenValue p S ((pkOf p S seed).take p.n) (seed.take p.n) (selected p S (pkOf p S seed) m sig).2.1
      (selected p S (pkOf p S seed) m sig).2.2 (sig.drop (p.n + forsBytes p))
      (forsPkFromSig p S ((pkOf p S seed).take p.n) (selected p S (pkOf p S seed) m sig).2.1
        (selected p S (pkOf p S seed) m sig).2.2 (sig.drop p.n) (selected p S (pkOf p S seed) m sig).1) j i) ∨
  ∃ i, i < p.k ∧ ForsPreimage p S (pkOf p S seed) (seed.take p.n) Q m sig i

/-- The forger shows this. -/
def Broken (p : Par) (seed : Bytes) {M : Type} (text : M → Bytes)
    (F : Bytes → Adversary (Fin p.n → Fin (2 ^ 8)) M (Digest p))
    (O : Point p → Value p) (H : (Fin p.n → Fin (2 ^ 8)) × M → Digest p) (s : List (Fin p.n → Fin (2 ^ 8))) : Prop :=
  let S := (Hash.random O).withOracle text H
  ∃ Q m sig,
    (F (pkOf p S seed)).run H (S.T ((pkOf p S seed).take p.n))
      (fun r m => sign p S (skOf p S seed) (randomiserBytes r) (text m)) s [] = some (Q, m, sig) ∧
    Shows p S seed (Q.map fun c => (text c.1, c.2)) (text m) sig

theorem random_len (O : Point p → Value p) : HashLen p.n (Hash.random O) := by
  refine ⟨fun _ _ _ => ?_, fun _ _ _ => ?_, fun _ _ _ _ => List.length_replicate, fun _ _ _ _ _ => List.length_replicate⟩
  · unfold Hash.random
    simp only
    split
    · exact Game.length_randomiserBytes _
    · exact List.length_replicate
  · unfold Hash.random
    simp only
    split
    · exact Game.length_randomiserBytes _
    · exact List.length_replicate

theorem finds_of_broken (Fp : Fine p) (inj : ∀ x y, text x = text y → x = y) {seed : Bytes} (hs : seed.length = 3 * p.n)
    {F : Bytes → Adversary (Fin p.n → Fin (2 ^ 8)) M (Digest p)} {s : List (Fin p.n → Fin (2 ^ 8))}
    {val : Place p → Value p} {g : Point p → Value p} (h : Broken p seed text F (patch pt val g) H s) :
    (start H ((seed.drop (2 * p.n)).take p.n) (fun pk => checked (callsOf text H pk) (maxCalls p) (F pk)) s).Finds
      val g ∅ ∅ := by
  obtain ⟨Q, m, sig, hrun, hsh⟩ := h
  have L := random_len (patch pt val g)
  have A0 := random_follows (patch pt val g)
  have A : Follows ((Hash.random (patch pt val g)).withOracle text H) (patch pt val g) := withOracle_follows A0
  have hT0 : ∀ pub a x, (¬∃ z : Point p, z.1.1.isPrf = false ∧ z.1.1.adrs = a ∧ z.1.2 = x) →
      ((Hash.random (patch pt val g)).withOracle text H).T pub a x = List.replicate p.n 0 := fun pub a x hz => dif_neg hz
  have hsg := sign_val Fp inj L A.has hs
  have hpk := pk_eq A.has Fp.d seed
  have hcalls := fun pk m sig => callsOf_eq (text := text) (H := H) (Hash.random (patch pt val g)) pk m sig
  change ∀ pk m sig, callsOf text H pk m sig
    (((Hash.random (patch pt val g)).withOracle text H).T (pk.take p.n)) = _ at hcalls
  have hsel := fun pk sig r m => selected_eq (S := Hash.random (patch pt val g)) (H := H) inj (pk := pk) (sig := sig) (r := r)
    (m := m)
  have htk : ∀ r m, (sigFor val r (H (r, m))).take p.n = randomiserBytes r := fun r m =>
    List.take_left' (Game.length_randomiserBytes r)
  have hpub := pkOf_take (p := p) (S := (Hash.random (patch pt val g)).withOracle text H) hs
  generalize (Hash.random (patch pt val g)).withOracle text H = S at *
  simp only [hsg] at hrun
  refine start_finds (seek_finds Fp (T := S.T ((pkOf p S seed).take p.n)) (fun z hz => A.T _ z hz) (hT0 _)
    (signature := fun r m => sigFor val r (H (r, m))) (fun _ _ => rfl) _ (fun _ h => h.elim) ?_)
  simp only [← hpk]
  rw [checked_opened]
  have hasked := checked_asked (C := callsOf text H (pkOf p S seed)) (n := maxCalls p) (H := H)
    (T := S.T ((pkOf p S seed).take p.n))
    (fun m sig T0 i hT => pre_verify (pub := (pkOf p S seed).take p.n) p _ _ _ _ (hashOf _) (hashOf T0) i
      fun c hc => hT c hc) (fun m sig => verifyCallsOf_length ..) _ hrun
  rw [hcalls] at hasked
  suffices hz : ∃ z : Point p, z.1 ∈ verifyCalls p S (pkOf p S seed) (text m) sig ∧ Breach val (patch pt val g)
      (openedBy H (S.T ((pkOf p S seed).take p.n)) (fun r m => sigFor val r (H (r, m))) (F (pkOf p S seed)) s ∅) z by
    obtain ⟨z, h1, h2⟩ := hz
    exact ⟨z, verifyCalls_notPrf h1, hasked z.1 h1, h2⟩
  rcases hsh with ⟨c, hc, h⟩ | ⟨j, i, hj, hi, h⟩ | ⟨i, hi, h1, h2⟩
  · obtain ⟨z, rfl, hz⟩ := breach_second Fp A hc h
    exact ⟨z, hc, hz⟩
  · exact breach_hidden Fp A hj hi h
  · refine breach_fors Fp A hi h1 fun hmem => ?_
    obtain ⟨r, m', hq, hop⟩ := openedBy_mem _ (fun _ h => h.elim) hrun _ hmem
    obtain ⟨i', hi', e⟩ := hop
    have es := hsel (pkOf p S seed) _ r m' (htk r m')
    have key := h2 (text m', sigFor val r (H (r, m'))) (List.mem_map.mpr ⟨_, hq, rfl⟩)
    simp only [forsKey, forsPick, es] at key e
    injection e with e1 e2 e3
    refine key (Prod.ext e1.symm e2.symm) ?_
    have l1 : forsIdx p (selected p S (pkOf p S seed) (text m) sig).1 i < 2 ^ p.a := Nat.mod_lt _ (Nat.two_pow_pos _)
    have l2 : forsIdx p (splitDigest p (H (r, m')).bytes).1 i' < 2 ^ p.a := Nat.mod_lt _ (Nat.two_pow_pos _)
    have ei : i = i' := by
      have := congrArg (· / 2 ^ p.a) e3
      rwa [Nat.mul_comm, Nat.mul_add_div (Nat.two_pow_pos _), Nat.div_eq_of_lt l1, Nat.mul_comm i',
        Nat.mul_add_div (Nat.two_pow_pos _), Nat.div_eq_of_lt l2] at this
    subst ei
    omega

/-- The probability that the forger shows this, for fixed message hash and randomisers -/
theorem broken_bound (Fp : Fine p) (inj : ∀ x y, text x = text y → x = y) {seed : Bytes} (hs : seed.length = 3 * p.n)
    {F : Bytes → Adversary (Fin p.n → Fin (2 ^ 8)) M (Digest p)} {q t u : Nat} (hF : ∀ pk, (F pk).Within q t u)
    (s : List (Fin p.n → Fin (2 ^ 8))) :
    avg (fun O : Point p → Value p => ind (Broken p seed text F O H s)) ≤ 2 * (u + maxCalls p) / 2 ^ (8 * p.n) := by
  classical
  rw [resample (fun v : Place p => rank p v.1) pt_rank pt_inj]
  have h := find_bound (start H ((seed.drop (2 * p.n)).take p.n)
    (fun pk => checked (callsOf text H pk) (maxCalls p) (F pk)) s)
    (start_within H _ _ (fun pk => checked_within _ (hF pk)) s) (fun _ => none) (fun _ => none)
  have hc : (Fintype.card (Value p) : ℚ) = 2 ^ (8 * p.n) := by
    rw [Fintype.card_fun, Fintype.card_fin, Fintype.card_fin, ← pow_mul]
    push_cast
    rfl
  rw [hc, Nat.cast_add] at h
  refine le_trans (avg_mono fun val => avg_mono fun g => ind_mono fun hb => ?_) h
  have e0 : ∀ {A B : Type}, dom (fun _ : A => (none : Option B)) = ∅ := by
    intro A B
    ext v; simp [dom]
  rw [e0, e0]
  exact finds_of_broken Fp inj hs hb

end

end Spx.Rom
