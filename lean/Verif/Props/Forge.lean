import Verif.Proof.ForgeCalls
import Verif.Proof.ShippedSign
import Verif.Props.Wots
/-! # C36: what an accepted signature shows

Under an honestly generated key every accepted signature either consists, after `R`, of exactly the
bytes the owner would have produced for the same digest, or one of the hash calls that verification
makes on it is a second preimage of a value the owner computed at the same address, or it shows a
WOTS+ chain value from before the one the owner releases at that position (for which by C37 there is
only one).  `verifyCalls`, `SecondPreimage` and `ShowsHiddenValue` are in `Spec/Forge.lean`. -/

namespace Spx
open Spec Mem

/-- The checksum property in terms of the specification. -/
theorem lengths_protect {P : Params} (hP : P.WotsValid) (m m' : Bytes) (hm : m.length = P.n) (hm' : m'.length = P.n)
    (hne : m ≠ m') :
    ∃ i, i < P.toSpec.len ∧ (lengths P.toSpec m').getD i 0 < (lengths P.toSpec m).getD i 0 := by
  let E : Env := build P (fun _ _ => 0) (fun _ _ => 0)
  have hE : E.P.WotsValid := hP
  have e := chain_lengths_spec (E := E) hE (out := List.replicate E.P.wotsLen 0) List.length_replicate hm
  have e' := chain_lengths_spec (E := E) hE (out := List.replicate E.P.wotsLen 0) List.length_replicate hm'
  obtain ⟨_, _, i, hi, h⟩ := C18_checksum_protects (E := E) hE.w hE.n_pos hE.n_le List.length_replicate
    List.length_replicate hm hm' hne e e'
  exact ⟨i, by rw [toSpec_len hP]; exact hi, h⟩

/-- C36 for the scheme over any hash functions with `n`-byte outputs. -/
theorem C36_scheme {P : Params} (hP : P.WotsValid) (hd : 1 ≤ P.d) {S : Spec.Hash} (L : HashLen P.n S)
    {seed m sig : Bytes} (hseed : seed.length = 3 * P.n)
    (hsig : sig.length = P.n + (forsBytes P.toSpec + P.d * xmssBytes P.toSpec))
    (h : verify P.toSpec S (pkOf P.toSpec S seed) m sig = true) :
    let pub := (seed.drop (2 * P.n)).take P.n
    let sk := seed.take P.n
    let sel := selected P.toSpec S (pkOf P.toSpec S seed) m sig
    (∃ c ∈ verifyCalls P.toSpec S (pkOf P.toSpec S seed) m sig, SecondPreimage P.toSpec S pub sk c) ∨
    (∃ j i, j < P.d ∧ i < P.toSpec.len ∧
      ShowsHiddenValue P.toSpec S pub sk sel.2.1 sel.2.2 (sig.drop (P.n + forsBytes P.toSpec))
        (forsPkFromSig P.toSpec S pub sel.2.1 sel.2.2 (sig.drop P.n) sel.1) j i) ∨
    sig.drop P.n = honestRest P.toSpec S pub sk sel.1 sel.2.1 sel.2.2 :=
  verify_extract (p := P.toSpec) L (lengths_protect hP) hd hseed hsig h

section
variable {P : Params} (hP : P ∈ shipped)
include hP

theorem ship_sig_parts : P.spxBytes = P.n + (forsBytes P.toSpec + P.d * xmssBytes P.toSpec) := by
  have hl := ship_sign_len hP [] [] []
  unfold Spec.sign at hl
  simp only [List.length_append] at hl
  rw [(shipped_len hP).PRFmsg, forsSig_len (shipped_len hP), htSig_len (shipped_len hP)] at hl
  change P.n + forsBytes P.toSpec + P.d * xmssBytes P.toSpec = _ at hl
  omega

/-- C36: any signature that `crypto_sign_verify` accepts under a public key from
`crypto_sign_seed_keypair`, for any message. -/
theorem C36_accepted_signature (G g G' g' : Nat → Nat → Byte) {seed pk0 sk0 pk sk m sig : Bytes}
    (hseed : seed.length = P.seedBytes) (hpk0 : pk0.length = P.pkBytes) (hsk0 : sk0.length = P.skBytes)
    (hkp : crypto_sign_seed_keypair (build P G g) pk0 sk0 seed = .ok (pk, sk)) (hm : m.length < 2 ^ 60)
    (hsig : sig.length = P.spxBytes) (hv : crypto_sign_verify (build P G' g') sig P.spxBytes m pk = .ok 0) :
    let pubSeed := (seed.drop (2 * P.n)).take P.n
    let skSeed := seed.take P.n
    let sel := selected P.toSpec (specHash P) pk m sig
    (∃ c ∈ verifyCalls P.toSpec (specHash P) pk m sig, SecondPreimage P.toSpec (specHash P) pubSeed skSeed c) ∨
    (∃ j i, j < P.d ∧ i < P.toSpec.len ∧
      ShowsHiddenValue P.toSpec (specHash P) pubSeed skSeed sel.2.1 sel.2.2 (sig.drop (P.n + forsBytes P.toSpec))
        (forsPkFromSig P.toSpec (specHash P) pubSeed sel.2.1 sel.2.2 (sig.drop P.n) sel.1) j i) ∨
    sig.drop P.n = honestRest P.toSpec (specHash P) pubSeed skSeed sel.1 sel.2.1 sel.2.2 := by
  rw [ship_keypair hP G g (by omega) (by omega) hseed, List.drop_of_length_le (by omega),
    List.drop_of_length_le (by omega), List.append_nil, List.append_nil] at hkp
  cases hkp
  rw [ship_verify hP G' g' (ship_pkOf_len hP hseed) hm hsig] at hv
  have hv' : verify P.toSpec (specHash P) (pkOf P.toSpec (specHash P) seed) m sig = true := by
    by_cases h : verify P.toSpec (specHash P) (pkOf P.toSpec (specHash P) seed) m sig = true
    · exact h
    · rw [if_neg h] at hv
      exact absurd (Except.ok.inj hv) (by decide)
  exact C36_scheme (shipped_valid hP).wots (shipped_d hP) (shipped_len hP) hseed
    (hsig.trans (ship_sig_parts hP)) hv'

omit hP in
/-- The owner's signature is `R` followed by `honestRest` of the digest it leads to. -/
theorem sign_honestRest {p : Par} {S : Spec.Hash} (L : HashLen p.n S) {seed optrand m : Bytes}
    (hs : seed.length = 3 * p.n) :
    let sig := Spec.sign p S (skOf p S seed) optrand m
    let sel := selected p S (pkOf p S seed) m sig
    sig.drop p.n = honestRest p S ((seed.drop (2 * p.n)).take p.n) (seed.take p.n) sel.1 sel.2.1 sel.2.2 := by
  have hn1 : (seed.take p.n).length = p.n := by simp; omega
  have hps : ((seed.drop (2 * p.n)).take p.n).length = p.n := by simp; omega
  have hrl : (xmssRoot p S ((seed.drop (2 * p.n)).take p.n) (seed.take p.n) (p.d - 1) 0).length = p.n :=
    node_length' (fun _ _ _ _ => L.T ..) (fun _ => L.T ..) _ _
  unfold selected pkOf skOf Spec.sign
  simp only
  generalize hpub : (seed.drop (2 * p.n)).take p.n = pub at *
  generalize hskd : seed.take p.n = sk at *
  generalize hroot : xmssRoot p S pub sk (p.d - 1) 0 = root at *
  have q1 : (seed ++ root).take p.n = sk := by
    rw [List.take_append_of_le_length (by omega), hskd]
  have q2 : ((seed ++ root).drop (2 * p.n)).take p.n = pub := by
    rw [List.drop_append_of_le_length (by omega), List.take_append_of_le_length (by simp; omega), hpub]
  have q3 : ((seed ++ root).drop (3 * p.n)).take p.n = root := by
    rw [List.drop_left' hs, List.take_of_length_le (by omega)]
  have q4 : (pub ++ root).take p.n = pub := List.take_left' hps
  have q5 : ((pub ++ root).drop p.n).take p.n = root := by
    rw [List.drop_left' hps, List.take_of_length_le (by omega)]
  rw [q1, q2, q3, q4, q5]
  have hRl : (S.PRFmsg pub (((seed ++ root).drop p.n).take p.n) optrand m).length = p.n := L.PRFmsg ..
  generalize S.PRFmsg pub (((seed ++ root).drop p.n).take p.n) optrand m = R at *
  have q6 : ∀ x : Bytes, (R ++ x).take p.n = R := fun x => List.take_left' hRl
  simp only [List.append_assoc, q6]
  rw [List.drop_left' hRl]
  rfl

/-- C36: a signature of the owner cannot be changed after its first `n` bytes and still be accepted
for the message, unless the change shows a second preimage or a hidden chain value. -/
theorem C36_modified_signature (G g G' g' G'' g'' : Nat → Nat → Byte)
    {seed pk0 sk0 pk sk m optrand sig0 sig sig' : Bytes}
    (hseed : seed.length = P.seedBytes) (hpk0 : pk0.length = P.pkBytes) (hsk0 : sk0.length = P.skBytes)
    (hkp : crypto_sign_seed_keypair (build P G g) pk0 sk0 seed = .ok (pk, sk)) (hm : m.length < 2 ^ 60)
    (hopt : optrand.length = P.n) (hsig0 : sig0.length = P.spxBytes)
    (hs : crypto_sign_signature (build P G' g') sig0 m sk optrand = .ok (sig, P.spxBytes))
    (hsig' : sig'.length = P.spxBytes) (hR : sig'.take P.n = sig.take P.n) (hne : sig' ≠ sig)
    (hv : crypto_sign_verify (build P G'' g'') sig' P.spxBytes m pk = .ok 0) :
    let pubSeed := (seed.drop (2 * P.n)).take P.n
    let skSeed := seed.take P.n
    let sel := selected P.toSpec (specHash P) pk m sig
    (∃ c ∈ verifyCalls P.toSpec (specHash P) pk m sig', SecondPreimage P.toSpec (specHash P) pubSeed skSeed c) ∨
    (∃ j i, j < P.d ∧ i < P.toSpec.len ∧
      ShowsHiddenValue P.toSpec (specHash P) pubSeed skSeed sel.2.1 sel.2.2 (sig'.drop (P.n + forsBytes P.toSpec))
        (forsPkFromSig P.toSpec (specHash P) pubSeed sel.2.1 sel.2.2 (sig'.drop P.n) sel.1) j i) := by
  intro pubSeed skSeed sel
  have h3 := C36_accepted_signature hP G g G'' g'' hseed hpk0 hsk0 hkp hm hsig' hv
  have hsel : selected P.toSpec (specHash P) pk m sig' = sel := by
    show splitDigest _ _ = splitDigest _ _
    rw [toSpec_n, hR]
  simp only at h3
  rw [hsel] at h3
  rcases h3 with h | h | h
  · exact Or.inl h
  · exact Or.inr h
  · exfalso
    rw [ship_keypair hP G g (by omega) (by omega) hseed, List.drop_of_length_le (by omega),
      List.drop_of_length_le (by omega), List.append_nil, List.append_nil] at hkp
    cases hkp
    rw [ship_sign hP G' g' (ship_skOf_len hP hseed) hm hopt (by omega), List.drop_of_length_le (by omega),
      List.append_nil] at hs
    have hs' := congrArg Prod.fst (Except.ok.inj hs)
    simp only at hs'
    have e := sign_honestRest (shipped_len hP) (p := P.toSpec) (seed := seed) (optrand := optrand) (m := m) hseed
    simp only at e
    rw [hs'] at e
    apply hne
    rw [← List.take_append_drop P.n sig', ← List.take_append_drop P.n sig, hR, h]
    exact congrArg _ e.symm

/-- C36: verification looks at the tweakable hash only through the calls listed, each at a position of
the scheme, so that by C21 no two of them share an address unless they share the position. -/
theorem C36_calls (S' : Spec.Hash) (pk m sig : Bytes) :
    (S'.Hmsg = (specHash P).Hmsg → (∀ c ∈ verifyCalls P.toSpec (specHash P) pk m sig,
        S'.T (pk.take P.n) c.1.adrs c.2 = (specHash P).T (pk.take P.n) c.1.adrs c.2) →
      verify P.toSpec S' pk m sig = verify P.toSpec (specHash P) pk m sig) ∧
    ∀ c ∈ verifyCalls P.toSpec (specHash P) pk m sig, c.1.Valid P.toSpec :=
  ⟨fun h1 h2 => verify_agree h1 h2, fun _ hc => verifyCalls_valid (p := P.toSpec) (shipped_valid hP).dvd hc⟩

end

/-! ### The top layer -/

theorem htRoot_take (p : Par) (S : Spec.Hash) (pub : Bytes) {tree leaf : Nat} {sig sig' m : Bytes} {k : Nat}
    (h : sig.take (k * xmssBytes p) = sig'.take (k * xmssBytes p)) :
    ∀ j, j ≤ k → htRoot p S pub tree leaf sig m j = htRoot p S pub tree leaf sig' m j := by
  intro j
  induction j with
  | zero => intro _; rfl
  | succ j ih =>
    intro hj
    have hle := Nat.mul_le_mul_right (xmssBytes p) hj
    rw [Nat.succ_mul] at hle
    have hblk : (sig.drop (j * xmssBytes p)).take (xmssBytes p) = (sig'.drop (j * xmssBytes p)).take (xmssBytes p) := by
      have := congrArg (fun x => (x.drop (j * xmssBytes p)).take (xmssBytes p)) h
      simp only [List.drop_take, List.take_take] at this
      rwa [Nat.min_eq_left (by omega)] at this
    rw [htRoot, htRoot, ih (by omega)]
    generalize sig.drop (j * xmssBytes p) = a at *
    generalize sig'.drop (j * xmssBytes p) = b at *
    have hc : ∀ i, i < p.len → chunk p.n a i = chunk p.n b i := by
      intro i hi
      have hle2 := Nat.mul_le_mul_right p.n (show i + 1 ≤ p.len from hi)
      rw [Nat.succ_mul] at hle2
      have := congrArg (fun x => (x.drop (i * p.n)).take p.n) hblk
      simp only [List.drop_take, List.take_take] at this
      rwa [Nat.min_eq_left (by unfold xmssBytes; omega)] at this
    have hc2 : ∀ i, i < p.h' → chunk p.n (a.drop (p.len * p.n)) i = chunk p.n (b.drop (p.len * p.n)) i := by
      intro i hi
      have hle2 := Nat.mul_le_mul_right p.n (show i + 1 ≤ p.h' from hi)
      rw [Nat.succ_mul] at hle2
      have := congrArg (fun x => (x.drop (p.len * p.n + i * p.n)).take p.n) hblk
      simp only [List.drop_take, List.take_take] at this
      rw [Nat.min_eq_left (by unfold xmssBytes; omega)] at this
      unfold chunk
      rwa [List.drop_drop, List.drop_drop]
    unfold xmssRootFromSig
    have hw : ∀ m, wotsPkFromSig p S pub j (treeAt p tree j) (leafAt p tree leaf j) a m =
        wotsPkFromSig p S pub j (treeAt p tree j) (leafAt p tree leaf j) b m := by
      intro m
      unfold wotsPkFromSig
      congr 1
      exact cat_congr fun i hi => by rw [hc i hi]
    rw [hw]
    have hcl : ∀ (H : Nat → Nat → Bytes → Bytes → Bytes) (i : Nat) (v : Bytes) (f f' : Nat → Bytes) (t : Nat),
        (∀ k, k < t → f k = f' k) → climb H i f v t = climb H i f' v t := by
      intro H i v f f' t
      induction t with
      | zero => intro _; rfl
      | succ t ih => intro h; rw [climb, climb, ih fun k hk => h k (by omega), h t (by omega)]
    exact hcl _ _ _ _ _ _ hc2

section
variable {P : Params} (hP : P ∈ shipped)
include hP

/-- C36: if only the last layer of the owner's signature is changed, acceptance always shows a second
preimage. -/
theorem C36_modified_top_layer (G g G' g' G'' g'' : Nat → Nat → Byte)
    {seed pk0 sk0 pk sk m optrand sig0 sig sig' : Bytes}
    (hseed : seed.length = P.seedBytes) (hpk0 : pk0.length = P.pkBytes) (hsk0 : sk0.length = P.skBytes)
    (hkp : crypto_sign_seed_keypair (build P G g) pk0 sk0 seed = .ok (pk, sk)) (hm : m.length < 2 ^ 60)
    (hopt : optrand.length = P.n) (hsig0 : sig0.length = P.spxBytes)
    (hs : crypto_sign_signature (build P G' g') sig0 m sk optrand = .ok (sig, P.spxBytes))
    (hsig' : sig'.length = P.spxBytes)
    (hpre : sig'.take (P.spxBytes - xmssBytes P.toSpec) = sig.take (P.spxBytes - xmssBytes P.toSpec))
    (hne : sig' ≠ sig) (hv : crypto_sign_verify (build P G'' g'') sig' P.spxBytes m pk = .ok 0) :
    ∃ c ∈ verifyCalls P.toSpec (specHash P) pk m sig',
      SecondPreimage P.toSpec (specHash P) ((seed.drop (2 * P.n)).take P.n) (seed.take P.n) c := by
  have hparts := ship_sig_parts hP
  have hd := shipped_d hP
  change 1 ≤ P.d at hd
  obtain ⟨k, hk⟩ : ∃ k, P.d = k + 1 := ⟨P.d - 1, by omega⟩
  rw [hk, Nat.succ_mul] at hparts
  have hcut : P.spxBytes - xmssBytes P.toSpec = P.n + forsBytes P.toSpec + k * xmssBytes P.toSpec := by omega
  rw [hcut] at hpre
  have hpn : ∀ a b, a + b ≤ P.n + forsBytes P.toSpec + k * xmssBytes P.toSpec →
      (sig'.drop a).take b = (sig.drop a).take b := by
    intro a b hab
    have := congrArg (fun x => (x.drop a).take b) hpre
    simp only [List.drop_take, List.take_take] at this
    rwa [Nat.min_eq_left (by omega)] at this
  have hR : sig'.take P.n = sig.take P.n := by
    have := hpn 0 P.n (by omega)
    rwa [List.drop_zero, List.drop_zero] at this
  rcases C36_modified_signature hP G g G' g' G'' g'' hseed hpk0 hsk0 hkp hm hopt hsig0 hs hsig' hR hne hv with
    h | ⟨j, i, hj, _, hlt, _⟩
  · exact h
  exfalso
  rw [ship_keypair hP G g (by omega) (by omega) hseed, List.drop_of_length_le (by omega),
    List.drop_of_length_le (by omega), List.append_nil, List.append_nil] at hkp
  cases hkp
  rw [ship_sign hP G' g' (ship_skOf_len hP hseed) hm hopt (by omega), List.drop_of_length_le (by omega),
    List.append_nil] at hs
  have hs' := congrArg Prod.fst (Except.ok.inj hs)
  simp only at hs'
  have e := sign_honestRest (shipped_len hP) (p := P.toSpec) (seed := seed) (optrand := optrand) (m := m) hseed
  simp only at e
  rw [hs'] at e
  have hleaf : (selected P.toSpec (specHash P) (pkOf P.toSpec (specHash P) seed) m sig).2.2 < 2 ^ P.toSpec.h' :=
    splitDigest_leaf_lt ..
  generalize hsel : selected P.toSpec (specHash P) (pkOf P.toSpec (specHash P) seed) m sig = sel at *
  generalize hpub : (seed.drop (2 * P.n)).take P.n = pub at *
  have hpub' : (seed.drop (2 * P.toSpec.n)).take P.toSpec.n = pub := hpub
  rw [hpub'] at e
  generalize hskd : seed.take P.n = sk at *
  have hskd' : seed.take P.toSpec.n = sk := hskd
  rw [hskd'] at e
  unfold honestRest at e
  change sig.drop P.n = _ at e
  -- the FORS part is the owner's
  have hf : forsPkFromSig P.toSpec (specHash P) pub sel.2.1 sel.2.2 (sig'.drop P.n) sel.1 =
      forsPk P.toSpec (specHash P) pub sk sel.2.1 sel.2.2 := by
    have hl := forsSig_len (shipped_len hP) (p := P.toSpec) (pub := pub) (sk := sk) (tree := sel.2.1) (kp := sel.2.2)
      (md := sel.1)
    have h1 : (sig'.drop P.n).take (forsBytes P.toSpec) =
        forsSig P.toSpec (specHash P) pub sk sel.2.1 sel.2.2 sel.1 := by
      rw [hpn P.n (forsBytes P.toSpec) (by omega), e, List.take_left' hl]
    rw [← List.take_append_drop (forsBytes P.toSpec) (sig'.drop P.n), h1]
    exact fors_correct (shipped_len hP) _ _ _ _
  have hht : sig.drop (P.n + forsBytes P.toSpec) =
      htSig P.toSpec (specHash P) pub sk sel.2.1 sel.2.2 (forsPk P.toSpec (specHash P) pub sk sel.2.1 sel.2.2) := by
    rw [← List.drop_drop, e, List.drop_left' (forsSig_len (shipped_len hP))]
  have hroot : htRoot P.toSpec (specHash P) pub sel.2.1 sel.2.2 (sig'.drop (P.n + forsBytes P.toSpec))
      (forsPkFromSig P.toSpec (specHash P) pub sel.2.1 sel.2.2 (sig'.drop P.n) sel.1) j =
      htMsg P.toSpec (specHash P) pub sk sel.2.1 (forsPk P.toSpec (specHash P) pub sk sel.2.1 sel.2.2) j := by
    rw [hf, htRoot_take P.toSpec (specHash P) pub (sig' := sig.drop (P.n + forsBytes P.toSpec)) (k := k)
      (hpn _ _ (by omega)) j (by omega), hht]
    have := ht_correct (shipped_len hP) (p := P.toSpec) (pub := pub) (sk := sk) hleaf
      (tree := sel.2.1) (forsPk P.toSpec (specHash P) pub sk sel.2.1 sel.2.2) [] j (by show j ≤ P.d; omega)
    rwa [List.append_nil] at this
  rw [hroot] at hlt
  exact Nat.lt_irrefl _ hlt

end

/-! ### Concrete cases -/

/-- The hypotheses of `C36_accepted_signature` hold for the owner's signature of the empty message
with SPHINCS+-SHAKE-128s-robust. -/
example : ∃ pk sk sig,
    crypto_sign_seed_keypair (build (shake_128s true) (fun _ _ => 1) (fun _ _ => 2))
      (List.replicate 32 0) (List.replicate 64 0) (List.replicate 48 7) = .ok (pk, sk) ∧
    sig.length = (shake_128s true).spxBytes ∧
    crypto_sign_verify (build (shake_128s true) (fun _ _ => 5) (fun _ _ => 6)) sig (shake_128s true).spxBytes [] pk =
      .ok 0 := by
  have hP : shake_128s true ∈ shipped := by decide
  have hl := ship_sign_len hP (skOf (shake_128s true).toSpec (specHash (shake_128s true)) (List.replicate 48 7))
    (List.replicate 16 9) []
  refine ⟨_, _, _, ship_keypair hP _ _ (by decide) (by decide) (by decide), hl, ?_⟩
  rw [List.drop_of_length_le (by decide), List.append_nil,
    ship_verify hP _ _ (ship_pkOf_len hP (by decide)) (by decide) hl, if_pos (ship_correct hP (by decide) _ _)]

/-- Parameters small enough to look at: `n = 1`, two layers of height 1, one FORS tree of height 1. -/
def toyP : Params := ⟨1, 2, 2, 1, 1, 16, .shake, false, false⟩

/-- A hash with constant outputs, under which every signature is accepted. -/
def toyS : Spec.Hash := ⟨fun _ _ _ => [0], fun _ _ _ => [7], fun _ _ _ _ => [0], fun _ _ _ _ k => List.replicate k 0⟩

/-- A signature that is not the owner's, 13 bytes 5, meets the hypotheses. -/
example : toyP.WotsValid ∧ HashLen toyP.n toyS ∧
    (List.replicate 13 (5 : Byte)).length = toyP.n + (forsBytes toyP.toSpec + toyP.d * xmssBytes toyP.toSpec) ∧
    verify toyP.toSpec toyS (pkOf toyP.toSpec toyS [1, 2, 3]) [] (List.replicate 13 5) = true :=
  ⟨⟨Or.inl rfl, by decide, by decide⟩,
    ⟨fun _ _ _ => rfl, fun _ _ _ => rfl, fun _ _ _ _ => rfl, fun _ _ _ _ _ => List.length_replicate⟩, by decide,
    by decide⟩

/-- And there is a second preimage among its calls: the FORS leaf. -/
example : SecondPreimage toyP.toSpec toyS [3] [1] (.forsLeaf 0 0 0, [5]) ∧
    (.forsLeaf 0 0 0, [5]) ∈ verifyCalls toyP.toSpec toyS (pkOf toyP.toSpec toyS [1, 2, 3]) [] (List.replicate 13 5) :=
  ⟨⟨by decide, by decide, by decide⟩, by decide⟩

end Spx
