import Verif.Spec.Forgery
import Verif.Props.Forge
import Verif.Props.OneTime
/-! # C62: what a forgery after any number of signatures shows

A signature that is accepted under an honest key and is not one of those the owner made for that
message contains one of: a second preimage of the tweakable hash, an unreleased WOTS+ chain value, an
unreleased FORS secret value, or a digest whose FORS leaves are covered by those of the owner's
signatures.  The four outcomes are defined in `Spec/Forgery.lean`. -/

namespace Spx
open Spec Mem

/-- The secret key ends with the public key. -/
theorem skOf_drop {p : Par} {S : Spec.Hash} {seed : Bytes} (hs : seed.length = 3 * p.n) :
    (skOf p S seed).drop (2 * p.n) = pkOf p S seed := by
  unfold skOf pkOf
  rw [List.drop_append_of_le_length (by omega), List.take_of_length_le (by simp; omega)]

theorem skOf_take {p : Par} {S : Spec.Hash} {seed : Bytes} (hs : seed.length = 3 * p.n) :
    (skOf p S seed).take p.n = seed.take p.n := by
  unfold skOf
  rw [List.take_append_of_le_length (by omega)]

theorem pkOf_take {p : Par} {S : Spec.Hash} {seed : Bytes} (hs : seed.length = 3 * p.n) :
    (pkOf p S seed).take p.n = (seed.drop (2 * p.n)).take p.n := by
  unfold pkOf
  exact List.take_left' (by simp; omega)

theorem shownChain_eq (p : Par) (sig : Bytes) (j i : Nat) :
    shownChain p sig j i = chunk p.n ((sig.drop (p.n + forsBytes p)).drop (j * xmssBytes p)) i := by
  unfold shownChain chunk
  rw [List.drop_drop, List.drop_drop, Nat.add_assoc]

theorem shownChain_layerPart {p : Par} {i : Nat} (hi : i < p.len) (sig : Bytes) (j : Nat) :
    shownChain p sig j i = chunk p.n (layerPart p sig j) i := by
  have hle := Nat.mul_le_mul_right p.n (show i + 1 ≤ p.len from hi)
  rw [Nat.succ_mul] at hle
  unfold shownChain layerPart chunk
  rw [List.drop_take, List.take_take, List.drop_drop, Nat.min_eq_left (by unfold xmssBytes; omega)]

/-- What an owner's signature shows of its WOTS+ keys. -/
theorem sign_shown {p : Par} {S : Spec.Hash} (L : HashLen p.n S) {seed optrand m : Bytes}
    (hs : seed.length = 3 * p.n) {j i : Nat} (hj : j < p.d) (hi : i < p.len) :
    let sig := Spec.sign p S (skOf p S seed) optrand m
    let pk := pkOf p S seed
    let k := wotsKey p S pk m sig j
    shownStep p S pk m sig j i =
      (lengths p (valueAt p S (pk.take p.n) (seed.take p.n) j k.1 k.2)).getD i 0 ∧
    shownChain p sig j i =
      chainValue S (pk.take p.n) (seed.take p.n) j k.1 k.2 i (shownStep p S pk m sig j i) := by
  intro sig pk k
  have h := sign_layerPart L (sk := skOf p S seed) (optrand := optrand) (m := m) hj
  simp only [skOf_drop hs, skOf_take hs] at h
  obtain ⟨h1, h2⟩ := h
  have e : shownStep p S pk m sig j i =
      (lengths p (valueAt p S (pk.take p.n) (seed.take p.n) j k.1 k.2)).getD i 0 :=
    congrArg (fun v => (lengths p v).getD i 0) h2
  refine ⟨e, ?_⟩
  rw [shownChain_layerPart hi, e]
  change layerPart p sig j = _ at h1
  rw [h1]
  exact cat_chunk (f := fun i => chain (wotsF S (pk.take p.n) j k.1 k.2 i)
    (wotsSk S (pk.take p.n) (seed.take p.n) j k.1 k.2 i) 0
    ((lengths p (valueAt p S (pk.take p.n) (seed.take p.n) j k.1 k.2)).getD i 0))
    (fun i _ => chain_length (fun _ _ => L.T ..) (L.PRF ..) _ _) hi _

/-- The secret values in a FORS signature. -/
theorem forsSig_shown {p : Par} {S : Spec.Hash} (L : HashLen p.n S) {pub sk md : Bytes} {tree kp i : Nat}
    (hi : i < p.k) (rest : Bytes) :
    ((forsSig p S pub sk tree kp md ++ rest).drop (i * ((p.a + 1) * p.n))).take p.n =
      forsSk S pub sk tree kp (i * 2 ^ p.a + forsIdx p md i) := by
  have hl : ∀ i, (forsSk S pub sk tree kp (i * 2 ^ p.a + forsIdx p md i) ++
      authPath (forsH S pub tree kp) (forsLeaf S pub sk tree kp) p.a (i * 2 ^ p.a + forsIdx p md i)).length =
        (p.a + 1) * p.n := by
    intro i
    rw [List.length_append, authPath_length (H := forsH S pub tree kp) (leaf := forsLeaf S pub sk tree kp) (n := p.n)
        (fun _ _ _ _ => L.T ..) (fun _ => L.T ..),
      show (forsSk S pub sk tree kp (i * 2 ^ p.a + forsIdx p md i)).length = p.n from L.PRF ..,
      Nat.succ_mul, Nat.add_comm]
  have e := cat_chunk (f := fun i => forsSk S pub sk tree kp (i * 2 ^ p.a + forsIdx p md i) ++
      authPath (forsH S pub tree kp) (forsLeaf S pub sk tree kp) p.a (i * 2 ^ p.a + forsIdx p md i))
    (fun i _ => hl i) hi rest
  have e' := congrArg (List.take p.n) e
  rw [List.take_take, Nat.min_eq_left (by rw [Nat.succ_mul]; omega), List.take_left' (show (forsSk S pub sk tree kp (i * 2 ^ p.a + forsIdx p md i)).length = p.n from L.PRF ..)] at e'
  exact e'

/-- A forgery whose values are all the owner's shows an unreleased secret value or a covered digest. -/
theorem forgery_honest {p : Par} {S : Spec.Hash} (L : HashLen p.n S)
    {seed m sig : Bytes} {Q : List (Bytes × Bytes)} (hs : seed.length = 3 * p.n)
    (hQ : ∀ q ∈ Q, ∃ optrand, q.2 = Spec.sign p S (skOf p S seed) optrand q.1)
    (hnew : (m, sig) ∉ Q)
    (h : sig.drop p.n = honestRest p S ((pkOf p S seed).take p.n) (seed.take p.n)
      (selected p S (pkOf p S seed) m sig).1 (selected p S (pkOf p S seed) m sig).2.1
      (selected p S (pkOf p S seed) m sig).2.2) :
    (∃ i, i < p.k ∧ ForsPreimage p S (pkOf p S seed) (seed.take p.n) Q m sig i) ∨
    CoveredDigest p S (pkOf p S seed) Q m sig := by
  let pk := pkOf p S seed
  let sk := seed.take p.n
  have hf : ∀ i, i < p.k → shownFors p sig i = forsSk S (pk.take p.n) sk (forsKey p S pk m sig).1
      (forsKey p S pk m sig).2 (i * 2 ^ p.a + forsPick p S pk m sig i) := by
    intro i hi
    unfold shownFors
    rw [← List.drop_drop, h]
    exact forsSig_shown L hi _
  by_cases hcov : ∀ i, i < p.k → ∃ q ∈ Q, forsKey p S pk q.1 q.2 = forsKey p S pk m sig ∧
      forsPick p S pk q.1 q.2 i = forsPick p S pk m sig i
  · refine Or.inr ⟨fun q hq he => ?_, hcov⟩
    obtain ⟨o, ho⟩ := hQ q hq
    have e := sign_honestRest L (p := p) (seed := seed) (optrand := o) (m := q.1) hs
    simp only at e
    rw [← ho] at e
    have he1 : q.2.take p.n = sig.take p.n := congrArg Prod.fst he
    have he2 : q.1 = m := congrArg Prod.snd he
    have hsel : selected p S pk q.1 q.2 = selected p S pk m sig := by
      unfold selected
      rw [he1, he2]
    apply hnew
    have : q = (m, sig) := by
      refine Prod.ext he2 ?_
      show q.2 = sig
      rw [← List.take_append_drop p.n sig, ← List.take_append_drop p.n q.2, he1]
      congr 1
      rw [e]
      refine Eq.trans ?_ h.symm
      rw [show pkOf p S seed = pk from rfl, hsel]
      rw [← pkOf_take (S := S) hs]
    rw [← this]; exact hq
  · simp only [Classical.not_forall] at hcov
    obtain ⟨i, hi, hno⟩ := hcov
    exact Or.inl ⟨i, hi, hf i hi, fun q hq hk he => hno ⟨q, hq, hk, he⟩⟩

/-- C62 for the scheme over any hash functions with `n`-byte outputs. -/
theorem C62_scheme {P : Params} (hP : P.WotsValid) (hd : 1 ≤ P.d) {S : Spec.Hash} (L : HashLen P.n S)
    {seed m sig : Bytes} {Q : List (Bytes × Bytes)} (hseed : seed.length = 3 * P.n)
    (hQ : ∀ q ∈ Q, ∃ optrand, q.2 = Spec.sign P.toSpec S (skOf P.toSpec S seed) optrand q.1)
    (hsig : sig.length = P.n + (forsBytes P.toSpec + P.d * xmssBytes P.toSpec))
    (hnew : (m, sig) ∉ Q) (h : verify P.toSpec S (pkOf P.toSpec S seed) m sig = true) :
    let p := P.toSpec
    let pk := pkOf p S seed
    let sk := seed.take P.n
    (∃ c ∈ verifyCalls p S pk m sig, SecondPreimage p S (pk.take P.n) sk c) ∨
    (∃ j i, j < P.d ∧ i < p.len ∧ WotsPreimage p S pk sk Q m sig j i) ∨
    (∃ i, i < P.forsTrees ∧ ForsPreimage p S pk sk Q m sig i) ∨
    CoveredDigest p S pk Q m sig := by
  intro p pk sk
  have hs : seed.length = 3 * p.n := hseed
  have hpub : pk.take p.n = (seed.drop (2 * P.n)).take P.n := pkOf_take hs
  have h3 := C36_scheme hP hd L hseed hsig h
  simp only at h3
  rw [← hpub] at h3
  rcases h3 with h | ⟨j, i, hj, hi, h⟩ | h
  · exact Or.inl h
  · refine Or.inr (Or.inl ⟨j, i, hj, hi, ?_⟩)
    obtain ⟨hlt, hc⟩ := h
    rw [htMsg_valueAt] at hlt
    change shownStep p S pk m sig j i < _ at hlt
    refine ⟨?_, ?_, fun q hq hk => ?_⟩
    · rw [shownChain_eq]; exact hc
    · refine Nat.lt_of_lt_of_le hlt (Nat.le_sub_one_of_lt ?_)
      rw [show p.w = P.w from toSpec_w hP.w]
      exact lengths_getD_lt hP ..
    · obtain ⟨o, ho⟩ := hQ q hq
      have e := sign_shown L (optrand := o) (m := q.1) hs hj hi
      simp only at e
      rw [← ho] at e
      change (shownStep p S pk q.1 q.2 j i = _) ∧ _ at e
      rw [show pkOf p S seed = pk from rfl, hk] at e
      exact ⟨by rw [e.1]; exact hlt, e.2⟩
  · exact Or.inr (Or.inr (forgery_honest L hs hQ hnew h))

/-- `sig` came out of `crypto_sign_signature` for message `m`, on some build of the program, with some
randomness. -/
def SignedBy (P : Params) (sk m sig : Bytes) : Prop :=
  ∃ (G g : Nat → Nat → Byte) (sig0 optrand : Bytes), m.length < 2 ^ 60 ∧ optrand.length = P.n ∧
    sig0.length = P.spxBytes ∧ crypto_sign_signature (build P G g) sig0 m sk optrand = .ok (sig, P.spxBytes)

/-- C62: a signature accepted by `crypto_sign_verify` under a key pair from `crypto_sign_seed_keypair`
that is not one of the signatures made with the secret key for this message.  `Q` lists any number of
messages and signatures made for them. -/
theorem C62_forgery {P : Params} (hP : P ∈ shipped) (G g G' g' : Nat → Nat → Byte)
    {seed pk0 sk0 pk sk m sig : Bytes} {Q : List (Bytes × Bytes)}
    (hseed : seed.length = P.seedBytes) (hpk0 : pk0.length = P.pkBytes) (hsk0 : sk0.length = P.skBytes)
    (hkp : crypto_sign_seed_keypair (build P G g) pk0 sk0 seed = .ok (pk, sk))
    (hQ : ∀ q ∈ Q, SignedBy P sk q.1 q.2) (hm : m.length < 2 ^ 60) (hsig : sig.length = P.spxBytes)
    (hnew : (m, sig) ∉ Q) (hv : crypto_sign_verify (build P G' g') sig P.spxBytes m pk = .ok 0) :
    let p := P.toSpec
    let S := specHash P
    let skSeed := seed.take P.n
    (∃ c ∈ verifyCalls p S pk m sig, SecondPreimage p S (pk.take P.n) skSeed c) ∨
    (∃ j i, j < P.d ∧ i < p.len ∧ WotsPreimage p S pk skSeed Q m sig j i) ∨
    (∃ i, i < P.forsTrees ∧ ForsPreimage p S pk skSeed Q m sig i) ∨
    CoveredDigest p S pk Q m sig := by
  rw [ship_keypair hP G g (by omega) (by omega) hseed, List.drop_of_length_le (by omega),
    List.drop_of_length_le (by omega), List.append_nil, List.append_nil] at hkp
  cases hkp
  rw [ship_verify hP G' g' (ship_pkOf_len hP hseed) hm hsig] at hv
  have hv' : verify P.toSpec (specHash P) (pkOf P.toSpec (specHash P) seed) m sig = true := by
    by_cases h : verify P.toSpec (specHash P) (pkOf P.toSpec (specHash P) seed) m sig = true
    · exact h
    · rw [if_neg h] at hv
      exact absurd (Except.ok.inj hv) (by decide)
  refine C62_scheme (shipped_valid hP).wots (shipped_d hP) (shipped_len hP) hseed ?_
    (hsig.trans (ship_sig_parts hP)) hnew hv'
  intro q hq
  obtain ⟨G1, g1, sig0, o, h1, h2, h3, h4⟩ := hQ q hq
  rw [ship_sign hP G1 g1 (ship_skOf_len hP hseed) h1 h2 (by omega), List.drop_of_length_le (by omega),
    List.append_nil] at h4
  exact ⟨o, (congrArg Prod.fst (Except.ok.inj h4)).symm⟩

/-- C62 without signing queries: whoever signs from the public key alone finds a second preimage, a
WOTS+ chain value before the last or a FORS secret value. -/
theorem C62_no_queries {P : Params} (hP : P ∈ shipped) (G g G' g' : Nat → Nat → Byte)
    {seed pk0 sk0 pk sk m sig : Bytes}
    (hseed : seed.length = P.seedBytes) (hpk0 : pk0.length = P.pkBytes) (hsk0 : sk0.length = P.skBytes)
    (hkp : crypto_sign_seed_keypair (build P G g) pk0 sk0 seed = .ok (pk, sk))
    (hm : m.length < 2 ^ 60) (hsig : sig.length = P.spxBytes)
    (hv : crypto_sign_verify (build P G' g') sig P.spxBytes m pk = .ok 0) :
    let p := P.toSpec
    let S := specHash P
    let skSeed := seed.take P.n
    (∃ c ∈ verifyCalls p S pk m sig, SecondPreimage p S (pk.take P.n) skSeed c) ∨
    (∃ j i, j < P.d ∧ i < p.len ∧ WotsPreimage p S pk skSeed [] m sig j i) ∨
    (∃ i, i < P.forsTrees ∧ ForsPreimage p S pk skSeed [] m sig i) := by
  have h := C62_forgery hP G g G' g' (Q := []) hseed hpk0 hsk0 hkp (fun _ h => nomatch h) hm hsig
    (List.not_mem_nil) hv
  rcases h with h | h | h | h
  · exact Or.inl h
  · exact Or.inr (Or.inl h)
  · exact Or.inr (Or.inr h)
  · obtain ⟨q, hq, _⟩ := h.2 0 ((shipped_valid hP).ft_pos)
    cases hq

/-! ### Concrete cases -/

/-- The hypotheses of `C62_forgery` with haraka-128f-simple: the owner's signature of the message 1 is
known and one of the empty message is presented. -/
example : ∃ pk sk q sig,
    crypto_sign_seed_keypair (build (haraka_128f false) (fun _ _ => 1) (fun _ _ => 2))
      (List.replicate 32 0) (List.replicate 64 0) (List.replicate 48 7) = .ok (pk, sk) ∧
    SignedBy (haraka_128f false) sk [1] q ∧ sig.length = (haraka_128f false).spxBytes ∧
    (([] : Bytes), sig) ∉ [(([1] : Bytes), q)] ∧
    crypto_sign_verify (build (haraka_128f false) (fun _ _ => 5) (fun _ _ => 6)) sig (haraka_128f false).spxBytes []
      pk = .ok 0 := by
  have hP : haraka_128f false ∈ shipped := by decide
  have hl := ship_sign_len hP (skOf (haraka_128f false).toSpec (specHash (haraka_128f false)) (List.replicate 48 7))
    (List.replicate 16 9) []
  refine ⟨_, _, Spec.sign (haraka_128f false).toSpec (specHash (haraka_128f false))
      (skOf (haraka_128f false).toSpec (specHash (haraka_128f false)) (List.replicate 48 7)) (List.replicate 16 3) [1],
    _, ship_keypair hP _ _ (by decide) (by decide) (by decide),
    ⟨fun _ _ => 0, fun _ _ => 0, List.replicate (haraka_128f false).spxBytes 0, List.replicate 16 3, by decide,
      by decide, List.length_replicate, ?_⟩, hl, ?_, ?_⟩
  · rw [List.drop_of_length_le (l := List.replicate 64 0) (by decide), List.append_nil,
      ship_sign hP _ _ (ship_skOf_len hP (by decide)) (by decide) (by decide)
        (by rw [List.length_replicate]),
      List.drop_of_length_le (by rw [List.length_replicate]), List.append_nil]
  · intro h
    simp at h
  · rw [List.drop_of_length_le (by decide), List.append_nil,
      ship_verify hP _ _ (ship_pkOf_len hP (by decide)) (by decide) hl, if_pos (ship_correct hP (by decide) _ _)]

/-- With the constant hash of Props/Forge.lean the owner's signature of the empty message is accepted for
the message 1 too: here the outcome is the covered digest. -/
example :
    let q := Spec.sign toyP.toSpec toyS (skOf toyP.toSpec toyS [1, 2, 3]) [] []
    verify toyP.toSpec toyS (pkOf toyP.toSpec toyS [1, 2, 3]) [1] q = true ∧
    CoveredDigest toyP.toSpec toyS (pkOf toyP.toSpec toyS [1, 2, 3]) [([], q)] [1] q := by
  refine ⟨by decide, ?_, ?_⟩
  · intro q hq
    rw [List.mem_singleton] at hq
    subst hq
    decide
  · intro i _
    exact ⟨_, List.mem_singleton.mpr rfl, rfl, rfl⟩

end Spx
