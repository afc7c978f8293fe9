import Verif.Proof.Game
import Verif.Props.Forgery
import Verif.Props.Interactive
/-! # C83: forging signatures when the message hash is a random function

C62 and C82 together, for a forger who asks for signatures of messages of its choice: whoever forges more often than
the bit security of README.md admits breaks the tweakable hash or the pseudorandom function. -/

namespace Spx
open Spec

/-- A forger either does something that `X` describes or is an attacker of C82, if a forgery always is an instance of `X`
or shows a covered digest. -/
theorem forger_covered {p : Par} {S : Spec.Hash} {seed : Bytes} {M : Type} [Fintype M] [DecidableEq M] {text : M → Bytes}
    (inj : ∀ x y, text x = text y → x = y) (F : Forger (Fin p.n → Fin (2 ^ 8)) M (Digest p)) {q t : Nat}
    (hF : F.Within q t)
    {X : ((Fin p.n → Fin (2 ^ 8)) × M → Digest p) → List (Bytes × Bytes) → Bytes → Bytes → Prop}
    (hX : ∀ H Q m sig, (∀ c ∈ Q, ∃ optrand, c.2 =
        Spec.sign p (S.withOracle text H) (skOf p (S.withOracle text H) seed) optrand c.1) →
      sig.length = p.n + (forsBytes p + p.d * xmssBytes p) → (m, sig) ∉ Q →
      verify p (S.withOracle text H) (pkOf p (S.withOracle text H) seed) m sig = true →
      X H Q m sig ∨ CoveredDigest p (S.withOracle text H) (pkOf p (S.withOracle text H) seed) Q m sig) :
    ∃ A : Attacker (Fin p.n → Fin (2 ^ 8)) M (Digest p), A.Within q t ∧
    chance (fun w : ((Fin p.n → Fin (2 ^ 8)) × M → Digest p) × (Fin q → Fin p.n → Fin (2 ^ 8)) =>
      Forges p S seed text F w.1 (List.ofFn w.2) fun _ _ _ => True) ≤
    chance (fun w : ((Fin p.n → Fin (2 ^ 8)) × M → Digest p) × (Fin q → Fin p.n → Fin (2 ^ 8)) =>
      Forges p S seed text F w.1 (List.ofFn w.2) (X w.1)) +
    chance (fun w : ((Fin p.n → Fin (2 ^ 8)) × M → Digest p) × (Fin q → Fin p.n → Fin (2 ^ 8)) =>
      Won w.1 (A.run w.1 (List.ofFn w.2) [])) := by
  let make : (Fin p.n → Fin (2 ^ 8)) → Digest p → M → Bytes := fun r d m =>
    Spec.sign p (S.withOracle text fun _ => d) (skOf p (S.withOracle text fun _ => d) seed)
      (randomiserBytes r) (text m)
  let A := Game.toAttacker make (Game.rnd p.n) F
  refine ⟨A, Game.within F hF, ?_⟩
  refine Rom.chance_or fun w hw => ?_
  obtain ⟨Q, m, sig, hrun, hnew, hlen, hver, -⟩ := hw
  have hQ : ∀ c ∈ Q, ∃ r, c.2 = Spec.sign p (S.withOracle text w.1) (skOf p (S.withOracle text w.1) seed)
      (randomiserBytes r) (text c.1) := Game.run_signed F (by simp) hrun
  have h := hX w.1 (Q.map fun c => (text c.1, c.2)) (text m) sig (by
      intro c hc
      obtain ⟨c', hc', rfl⟩ := List.mem_map.mp hc
      obtain ⟨r, hr⟩ := hQ c' hc'
      exact ⟨_, hr⟩) hlen (by
      intro hc
      obtain ⟨c', hc', e⟩ := List.mem_map.mp hc
      obtain ⟨e1, e2⟩ := Prod.ext_iff.mp e
      exact hnew (by rw [← inj _ _ e1, ← show c'.2 = sig from e2]; exact hc')) hver
  rcases h with h | h
  · exact Or.inl ⟨Q, m, sig, hrun, hnew, hlen, hver, h⟩
  · refine Or.inr ?_
    obtain ⟨Y, hY, e⟩ := Game.run_sim (make := make) (rnd := Game.rnd p.n)
      (fun r m => Game.sign_eq w.1 inj (skOf p (S.withOracle text w.1) seed) r m)
      (f := fun c => (c.2.take p.n, text c.1)) (g := fun y => (randomiserBytes y.1, text y.2))
      (fun r m => by rw [Game.take_sign]) F (Y := []) (by rfl) hrun
    refine (congrArg (Won w.1) hY).mpr ?_
    exact won_of_covered (fun r μ => (Game.hmsg S w.1 inj r μ _ _).symm) (by rw [e, List.map_map]; rfl)
      (by rw [Game.randomiserBytes_rnd (by rw [hlen]; exact Nat.le_add_right _ _)]) h

/-- A forger either breaks one of the other hash functions or is an attacker of C82. -/
theorem forger_split {P : Params} (hP : P ∈ shipped) {S : Spec.Hash} (L : HashLen P.n S) {seed : Bytes}
    (hseed : seed.length = 3 * P.n) {M : Type} [Fintype M] [DecidableEq M] {text : M → Bytes}
    (inj : ∀ x y, text x = text y → x = y) (F : Forger (Fin P.toSpec.n → Fin (2 ^ 8)) M (Digest P.toSpec)) {q t : Nat}
    (hF : F.Within q t) :
    ∃ A : Attacker (Fin P.toSpec.n → Fin (2 ^ 8)) M (Digest P.toSpec), A.Within q t ∧
    chance (fun w : ((Fin P.toSpec.n → Fin (2 ^ 8)) × M → Digest P.toSpec) × (Fin q → Fin P.toSpec.n → Fin (2 ^ 8)) =>
      Forges P.toSpec S seed text F w.1 (List.ofFn w.2) fun _ _ _ => True) ≤
    chance (fun w : ((Fin P.toSpec.n → Fin (2 ^ 8)) × M → Digest P.toSpec) × (Fin q → Fin P.toSpec.n → Fin (2 ^ 8)) =>
      Forges P.toSpec S seed text F w.1 (List.ofFn w.2) (Breaks P.toSpec (S.withOracle text w.1) seed)) +
    chance (fun w : ((Fin P.toSpec.n → Fin (2 ^ 8)) × M → Digest P.toSpec) × (Fin q → Fin P.toSpec.n → Fin (2 ^ 8)) =>
      Won w.1 (A.run w.1 (List.ofFn w.2) [])) := by
  refine forger_covered inj F hF (X := fun H => Breaks P.toSpec (S.withOracle text H) seed) fun H Q m sig hQ hl hn hv => ?_
  have LH : HashLen P.n (S.withOracle text H) := Game.hashLen (p := P.toSpec) H L
  rcases C62_scheme (shipped_valid hP).wots (shipped_d hP) LH hseed hQ hl hn hv with h | h | h | h
  · exact Or.inl (Or.inl h)
  · exact Or.inl (Or.inr (Or.inl h))
  · exact Or.inl (Or.inr (Or.inr h))
  · exact Or.inr h

/-- C83: for arbitrary other hash functions and an arbitrary key, the probability to forge after at most `2 ^ 64`
signatures and `t ≤ 2 ^ (8 * n - 6)` digests is at most the probability to forge and show what breaks one of the other
hash functions, plus `t / 2 ^ b`, where `b` is the bit security stated in README.md. -/
theorem C83_forger {P : Params} (hP : P ∈ shipped) {S : Spec.Hash} (L : HashLen P.n S) {seed : Bytes}
    (hseed : seed.length = 3 * P.n) {M : Type} [Fintype M] [DecidableEq M] {text : M → Bytes}
    (inj : ∀ x y, text x = text y → x = y) (F : Forger (Fin P.toSpec.n → Fin (2 ^ 8)) M (Digest P.toSpec)) {q t : Nat}
    (hF : F.Within q t) (hq : q ≤ 2 ^ 64)
    (ht : t * 2 ^ 6 ≤ 2 ^ (8 * P.n)) :
    chance (fun w : ((Fin P.toSpec.n → Fin (2 ^ 8)) × M → Digest P.toSpec) × (Fin q → Fin P.toSpec.n → Fin (2 ^ 8)) =>
      Forges P.toSpec S seed text F w.1 (List.ofFn w.2) fun _ _ _ => True) ≤
    chance (fun w : ((Fin P.toSpec.n → Fin (2 ^ 8)) × M → Digest P.toSpec) × (Fin q → Fin P.toSpec.n → Fin (2 ^ 8)) =>
      Forges P.toSpec S seed text F w.1 (List.ofFn w.2) (Breaks P.toSpec (S.withOracle text w.1) seed)) +
    t / 2 ^ bitSecurity P.toSpec := by
  obtain ⟨A, hA, h⟩ := forger_split hP L hseed inj F hF
  exact h.trans (add_le_add_right (C82_bit_security hP A hA hq ht) _)

/-- C83 without a bound for `t`. -/
theorem C83_any_forger {P : Params} (hP : P ∈ shipped) {S : Spec.Hash} (L : HashLen P.n S) {seed : Bytes}
    (hseed : seed.length = 3 * P.n) {M : Type} [Fintype M] [DecidableEq M] {text : M → Bytes}
    (inj : ∀ x y, text x = text y → x = y) (F : Forger (Fin P.toSpec.n → Fin (2 ^ 8)) M (Digest P.toSpec)) {q t : Nat}
    (hF : F.Within q t) (hq : q ≤ 2 ^ 64) :
    chance (fun w : ((Fin P.toSpec.n → Fin (2 ^ 8)) × M → Digest P.toSpec) × (Fin q → Fin P.toSpec.n → Fin (2 ^ 8)) =>
      Forges P.toSpec S seed text F w.1 (List.ofFn w.2) fun _ _ _ => True) ≤
    chance (fun w : ((Fin P.toSpec.n → Fin (2 ^ 8)) × M → Digest P.toSpec) × (Fin q → Fin P.toSpec.n → Fin (2 ^ 8)) =>
      Forges P.toSpec S seed text F w.1 (List.ofFn w.2) (Breaks P.toSpec (S.withOracle text w.1) seed)) +
    t / 2 ^ bitSecurity P.toSpec * (1 + t / 2 ^ (8 * P.n)) ^ P.toSpec.k := by
  obtain ⟨A, hA, h⟩ := forger_split hP L hseed inj F hF
  exact h.trans (add_le_add_right (C82_interactive hP A hA hq) _)

/-- The library with two of its hash functions replaced: `gen_message_random` returns `optrand`, and `hash_message` uses
the random function `O`. -/
noncomputable def idealised (P : Params) (G g : Nat → Nat → Byte) {M : Type} (text : M → Bytes)
    (O : (Fin P.toSpec.n → Fin (2 ^ 8)) × M → Digest P.toSpec) : Env :=
  { build P G g with
    H := { (build P G g).H with
      gen_message_random := fun _ optrand _ _ => .ok (fit P.n (optrand.take P.n))
      hash_message := fun R _ m _ => .ok (splitDigest P.toSpec
        (((specHash P).withOracle text O).Hmsg (R.take P.n) [] [] m (digestBytes P.toSpec))) } }

/-- These functions are those of the game. -/
noncomputable def idealisedRefines {P : Params} (hP : P ∈ shipped) (G g : Nat → Nat → Byte) {M : Type} (text : M → Bytes)
    (O : (Fin P.toSpec.n → Fin (2 ^ 8)) × M → Digest P.toSpec) :
    Refines (idealised P G g text O).P (idealised P G g text O).H ((specHash P).withOracle text O) :=
  let B := buildRefines hP G g
  { CtxOK := B.CtxOK
    T_len := B.T_len
    PRF_len := B.PRF_len
    PRFmsg_len := (Game.hashLen (p := P.toSpec) O (shipped_len hP)).PRFmsg
    Hmsg_len := (Game.hashLen (p := P.toSpec) O (shipped_len hP)).Hmsg
    init := B.init
    thash := B.thash
    prf := B.prf
    genR := fun _ _ _ _ _ _ _ _ => rfl
    hmsg := fun _ _ _ _ _ _ _ _ _ => rfl }

/-- Key generation, signing and verification of a library whose hash functions are `S`. -/
theorem game_code {E : Env} {S : Spec.Hash} (R : Refines E.P E.H S) (hP : E.P ∈ shipped) {pk0 sk0 seed sig0 sig m : Bytes}
    (hpk0 : pk0.length = E.P.pkBytes) (hsk0 : sk0.length = E.P.skBytes) (hseed : seed.length = E.P.seedBytes)
    (hsig0 : sig0.length = E.P.spxBytes) (hsig : sig.length = E.P.spxBytes) (hm : m.length < 2 ^ 60)
    (r : Fin E.P.toSpec.n → Fin (2 ^ 8)) :
    ∃ pk sk, crypto_sign_seed_keypair E pk0 sk0 seed = .ok (pk, sk) ∧ pk = pkOf E.P.toSpec S seed ∧
      sk = skOf E.P.toSpec S seed ∧
      crypto_sign_signature E sig0 m sk (randomiserBytes r) =
        .ok (Spec.sign E.P.toSpec S sk (randomiserBytes r) m, E.P.spxBytes) ∧
      (crypto_sign_verify E sig E.P.spxBytes m pk = .ok 0 ↔ verify E.P.toSpec S pk m sig = true) ∧
      E.P.spxBytes = E.P.toSpec.n + (forsBytes E.P.toSpec + E.P.toSpec.d * xmssBytes E.P.toSpec) := by
  have L : HashLen E.P.toSpec.n S := R.hashLen
  have hroot : ∀ pub sk, (xmssRoot E.P.toSpec S pub sk (E.P.toSpec.d - 1) 0).length = E.P.n := fun pub sk =>
    node_length' (fun _ _ _ _ => L.T ..) (fun _ => L.T ..) _ _
  have h3 : seed.length = 3 * E.P.n := hseed
  have hpkl : (pkOf E.P.toSpec S seed).length = E.P.pkBytes := by
    unfold pkOf
    rw [List.length_append, hroot, toSpec_n]
    show _ = 2 * E.P.n
    simp; omega
  have hskl : (skOf E.P.toSpec S seed).length = E.P.skBytes := by
    unfold skOf
    rw [List.length_append, hroot, h3]
    show _ = 2 * E.P.n + 2 * E.P.n
    omega
  refine ⟨pkOf E.P.toSpec S seed, skOf E.P.toSpec S seed, ?_, rfl, rfl, ?_, ?_, ship_sig_parts hP⟩
  · have e := crypto_sign_seed_keypair_spec R (shipped_valid hP) (pk0 := pk0) (sk0 := sk0) (Nat.le_of_eq hpk0.symm)
      (Nat.le_of_eq hsk0.symm) (Nat.le_of_eq hseed.symm)
    rw [show seed.take E.P.seedBytes = seed from List.take_of_length_le (Nat.le_of_eq hseed),
      show pk0.drop E.P.pkBytes = [] from List.drop_of_length_le (Nat.le_of_eq hpk0),
      show sk0.drop E.P.skBytes = [] from List.drop_of_length_le (Nat.le_of_eq hsk0), List.append_nil, List.append_nil] at e
    exact e
  · have hr : (randomiserBytes r).length = E.P.n := Game.length_randomiserBytes r
    have e := crypto_sign_signature_spec R (shipped_valid hP) (sig0 := sig0) (Nat.le_of_eq hskl.symm) hm
      (Nat.le_of_eq hr.symm) (Nat.le_of_eq hsig0.symm)
    rw [show (randomiserBytes r).take E.P.n = randomiserBytes r from List.take_of_length_le (Nat.le_of_eq hr),
      show sig0.drop E.P.spxBytes = [] from List.drop_of_length_le (Nat.le_of_eq hsig0), List.append_nil] at e
    exact e
  · have e := crypto_sign_verify_spec R (shipped_valid hP) (Nat.le_of_eq hpkl.symm) hm (Nat.le_of_eq hsig.symm)
    rw [show crypto_sign_verify E sig E.P.spxBytes m (pkOf E.P.toSpec S seed) = _ from e]
    change Except.ok (if verify E.P.toSpec S _ _ _ = true then _ else _) = _ ↔ _
    cases verify E.P.toSpec S (pkOf E.P.toSpec S seed) m sig <;> simp

/-- C83, the code: key generation, signing and verification of the library, with the two functions replaced, are those
of the game. -/
theorem C83_code {P : Params} (hP : P ∈ shipped) (G g : Nat → Nat → Byte) {M : Type} (text : M → Bytes)
    (O : (Fin P.toSpec.n → Fin (2 ^ 8)) × M → Digest P.toSpec) {pk0 sk0 seed sig0 sig : Bytes}
    (hpk0 : pk0.length = P.pkBytes) (hsk0 : sk0.length = P.skBytes) (hseed : seed.length = P.seedBytes)
    (hsig0 : sig0.length = P.spxBytes) (hsig : sig.length = P.spxBytes) (m : M) (hm : (text m).length < 2 ^ 60)
    (r : Fin P.toSpec.n → Fin (2 ^ 8)) :
    let E := idealised P G g text O
    let S := (specHash P).withOracle text O
    ∃ pk sk, crypto_sign_seed_keypair E pk0 sk0 seed = .ok (pk, sk) ∧ pk = pkOf P.toSpec S seed ∧ sk = skOf P.toSpec S seed ∧
      crypto_sign_signature E sig0 (text m) sk (randomiserBytes r) =
        .ok (Spec.sign P.toSpec S sk (randomiserBytes r) (text m), P.spxBytes) ∧
      (crypto_sign_verify E sig P.spxBytes (text m) pk = .ok 0 ↔ verify P.toSpec S pk (text m) sig = true) ∧
      P.spxBytes = P.toSpec.n + (forsBytes P.toSpec + P.toSpec.d * xmssBytes P.toSpec) :=
  game_code (E := idealised P G g text O) (idealisedRefines hP G g text O) hP hpk0 hsk0 hseed hsig0 hsig hm r

/-! ## Concrete cases -/

/-- A forger who asks for a signature of message 0 and gives it back for message 1. -/
def copier (p : Par) : Forger (Fin p.n → Fin (2 ^ 8)) (Fin 2) (Digest p) :=
  .sign 0 fun sig => .output 1 sig

/-- Messages of one byte -/
def oneByte (x : Fin 2) : Bytes := [BitVec.ofNat 8 x.1]

/-- The bound for this forger, SPHINCS+-256f, the other hash functions of the library and the seed of all zeros. -/
example : chance (fun w : ((Fin 32 → Fin (2 ^ 8)) × Fin 2 → Digest (sha2_256f true).toSpec) × (Fin 1 → Fin 32 → Fin (2 ^ 8)) =>
      Forges (sha2_256f true).toSpec (specHash (sha2_256f true)) (List.replicate 96 0) oneByte (copier (sha2_256f true).toSpec)
        w.1 (List.ofFn w.2) fun _ _ _ => True) ≤
    chance (fun w : ((Fin 32 → Fin (2 ^ 8)) × Fin 2 → Digest (sha2_256f true).toSpec) × (Fin 1 → Fin 32 → Fin (2 ^ 8)) =>
      Forges (sha2_256f true).toSpec (specHash (sha2_256f true)) (List.replicate 96 0) oneByte (copier (sha2_256f true).toSpec)
        w.1 (List.ofFn w.2) (Breaks (sha2_256f true).toSpec
          ((specHash (sha2_256f true)).withOracle (p := (sha2_256f true).toSpec) oneByte w.1)
          (List.replicate 96 0))) +
    1 / 2 ^ 255 := by
  have hb : bitSecurity (sha2_256f true).toSpec = 255 := by decide
  have h := C83_forger (P := sha2_256f true) (by decide) (shipped_len (P := sha2_256f true) (by decide))
    (seed := List.replicate 96 0) List.length_replicate (text := oneByte) (by decide)
    (copier (sha2_256f true).toSpec) (q := 1) (t := 1)
    ⟨Nat.one_pos, fun _ => Nat.one_pos⟩ (by decide) (by decide)
  rw [hb, Nat.cast_one] at h
  exact h

/-- The event is possible: if all digests are the same, the forger succeeds. -/
example {p : Par} {S : Spec.Hash} (L : HashLen p.n S) (hd : 1 ≤ p.d) {seed : Bytes} (hs : seed.length = 3 * p.n)
    (d : Digest p) (r : Fin p.n → Fin (2 ^ 8)) :
    Forges p S seed oneByte (copier p) (fun _ => d) [r] fun _ _ _ => True := by
  have LH : HashLen p.n (S.withOracle oneByte fun _ => d) := Game.hashLen _ L
  have inj : ∀ x y, oneByte x = oneByte y → x = y := by decide
  refine ⟨_, _, _, rfl, ?_, ?_, ?_, trivial⟩
  · simp
  · unfold Spec.sign
    simp only [List.length_append]
    rw [forsSig_len LH, htSig_len LH, LH.PRFmsg, Nat.add_assoc]
  · have h := spec_correct LH hd (seed := seed) (optrand := randomiserBytes r) (m := oneByte 0) (rest := []) hs
    rw [List.append_nil] at h
    have e : ∀ pub root, (S.withOracle oneByte fun _ => d).Hmsg (randomiserBytes r) pub root (oneByte 1) (digestBytes p) =
        (S.withOracle oneByte fun _ => d).Hmsg (randomiserBytes r) pub root (oneByte 0) (digestBytes p) := by
      intro pub root
      rw [Game.hmsg S _ inj, Game.hmsg S _ inj]
    rw [← h]
    unfold verify
    simp only [Game.take_sign, e]

/-- The code, with random functions replaced as in the game, for one set and the messages of one byte. -/
example (O : (Fin (sha2_256f true).toSpec.n → Fin (2 ^ 8)) × Fin 2 → Digest (sha2_256f true).toSpec)
    (r : Fin (sha2_256f true).toSpec.n → Fin (2 ^ 8)) :=
  C83_code (P := sha2_256f true) (by decide) (fun _ _ => 0) (fun _ _ => 0) oneByte O
    (pk0 := List.replicate 64 0) (sk0 := List.replicate 128 0) (seed := List.replicate 96 0)
    (sig0 := List.replicate 49856 0) (sig := List.replicate 49856 0) List.length_replicate List.length_replicate
    List.length_replicate List.length_replicate List.length_replicate 0 (by decide) r

end Spx
