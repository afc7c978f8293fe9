import Verif.Props.Oracle
import Verif.Proof.Chosen
/-! # C85: forgers who choose the optional randomness of the signatures

C84 with `PRFmsg` a random function too, in place of random randomisers: the bound holds for whatever optional randomness
is used, also if it is the same for all signatures. -/

namespace Spx
open Spec

section
variable {P : Params} (hP : P ∈ shipped) {seed : Bytes} (hseed : seed.length = 3 * P.n) {M : Type} [Fintype M] [DecidableEq M]
    {text : M → Bytes} (inj : ∀ x y, text x = text y → x = y)
    (F : Bytes → Chooser (Value P.toSpec) (Fin P.toSpec.n → Fin (2 ^ 8)) M (Digest P.toSpec)) {q t u : Nat}
    (hF : ∀ pk, (F pk).Within q t u) (hq : q ≤ 2 ^ 64)

include inj hF in
/-- The forger who chooses the optional randomness has the chances of one who asks once for each signature. -/
theorem chosen_chance {seed : Bytes} :
    chance (fun w : (Point P.toSpec → Value P.toSpec) × ((Fin P.toSpec.n → Fin (2 ^ 8)) × M → Digest P.toSpec) ×
        (Value P.toSpec × M → Value P.toSpec) => SucceedsChosen P.toSpec seed text F w.1 w.2.1 w.2.2) =
    chance (fun w : (Point P.toSpec → Value P.toSpec) × ((Fin P.toSpec.n → Fin (2 ^ 8)) × M → Digest P.toSpec) ×
        (Fin q → Fin P.toSpec.n → Fin (2 ^ 8)) => Succeeds P.toSpec seed text
          (fun pk => Chosen.plain (F pk) fun _ => none) w.1 w.2.1 (List.ofFn w.2.2)) := by
  rw [← Rom.avg_ind, ← Rom.avg_ind, Rom.avg_prod, Rom.avg_prod]
  refine congrArg _ (funext fun O => ?_)
  rw [Rom.avg_prod, Rom.avg_prod]
  exact congrArg _ (funext fun H => Chosen.chance_plain inj seed F hF O H)

include hP hseed inj hF hq

/-- C85: with random hash functions, a forger who is given the public key, asks for at most `2 ^ 64` signatures of
messages and with optional randomness of its choice, computes at most `t ≤ 2 ^ (8 * n - 6)` digests and computes the
tweakable hash at most `u` times forges with probability at most `t / 2 ^ b + 2 * (u + v) / 2 ^ (8 * n)`.  Here `b` is the
bit security stated in README.md, and `v` bounds the calls of the tweakable hash in one verification. -/
theorem C85_chosen_randomness (ht : t * 2 ^ 6 ≤ 2 ^ (8 * P.n)) :
    chance (fun w : (Point P.toSpec → Value P.toSpec) × ((Fin P.toSpec.n → Fin (2 ^ 8)) × M → Digest P.toSpec) ×
        (Value P.toSpec × M → Value P.toSpec) => SucceedsChosen P.toSpec seed text F w.1 w.2.1 w.2.2) ≤
    t / 2 ^ bitSecurity P.toSpec + 2 * (u + maxCalls P.toSpec) / 2 ^ (8 * P.n) := by
  rw [chosen_chance inj F hF]
  exact C84_random_oracle hP hseed inj _ (fun pk => Chosen.plain_within _ (hF pk)) hq ht

/-- C85 without a bound for `t`. -/
theorem C85_any_number :
    chance (fun w : (Point P.toSpec → Value P.toSpec) × ((Fin P.toSpec.n → Fin (2 ^ 8)) × M → Digest P.toSpec) ×
        (Value P.toSpec × M → Value P.toSpec) => SucceedsChosen P.toSpec seed text F w.1 w.2.1 w.2.2) ≤
    t / 2 ^ bitSecurity P.toSpec * (1 + t / 2 ^ (8 * P.n)) ^ P.toSpec.k +
      2 * (u + maxCalls P.toSpec) / 2 ^ (8 * P.n) := by
  rw [chosen_chance inj F hF]
  exact C84_any_number hP hseed inj _ (fun pk => Chosen.plain_within _ (hF pk)) hq

end

/-! ## The code -/

/-- The library with all its hash functions replaced: as in `randomised`, and `gen_message_random` is a random function
of `optrand` and of the message. -/
noncomputable def allRandom (P : Params) (G g : Nat → Nat → Byte) {M : Type} (text : M → Bytes)
    (O : Point P.toSpec → Value P.toSpec) (H : (Fin P.toSpec.n → Fin (2 ^ 8)) × M → Digest P.toSpec)
    (R : Value P.toSpec × M → Value P.toSpec) : Env :=
  { randomised P G g text O H with
    H := { (randomised P G g text O H).H with
      gen_message_random := fun _ optrand m _ =>
        .ok (((Hash.random O).withRandomisers text H R).PRFmsg [] [] (optrand.take P.n) m) } }

/-- These functions are those of the game. -/
noncomputable def allRandomRefines {P : Params} (hP : P ∈ shipped) (G g : Nat → Nat → Byte) {M : Type} (text : M → Bytes)
    (O : Point P.toSpec → Value P.toSpec) (H : (Fin P.toSpec.n → Fin (2 ^ 8)) × M → Digest P.toSpec)
    (R : Value P.toSpec × M → Value P.toSpec) :
    Refines (allRandom P G g text O H R).P (allRandom P G g text O H R).H ((Hash.random O).withRandomisers text H R) :=
  let B := randomisedRefines hP G g text O H
  let L := Chosen.hashLen (p := P.toSpec) (text := text) H R (Rom.random_len O)
  { CtxOK := B.CtxOK
    T_len := L.T
    PRF_len := L.PRF
    PRFmsg_len := L.PRFmsg
    Hmsg_len := L.Hmsg
    init := B.init
    thash := B.thash
    prf := B.prf
    genR := fun _ _ _ _ _ _ _ _ => rfl
    hmsg := B.hmsg }

/-- C85, the code: key generation, signing and verification of the library, with all hash functions replaced, are those
of the game. -/
theorem C85_code {P : Params} (hP : P ∈ shipped) (G g : Nat → Nat → Byte) {M : Type} (text : M → Bytes)
    (O : Point P.toSpec → Value P.toSpec) (H : (Fin P.toSpec.n → Fin (2 ^ 8)) × M → Digest P.toSpec)
    (R : Value P.toSpec × M → Value P.toSpec) {pk0 sk0 seed sig0 sig : Bytes}
    (hpk0 : pk0.length = P.pkBytes) (hsk0 : sk0.length = P.skBytes) (hseed : seed.length = P.seedBytes)
    (hsig0 : sig0.length = P.spxBytes) (hsig : sig.length = P.spxBytes) (m : M) (hm : (text m).length < 2 ^ 60)
    (optrand : Value P.toSpec) :
    let E := allRandom P G g text O H R
    let S := (Hash.random O).withRandomisers text H R
    ∃ pk sk, crypto_sign_seed_keypair E pk0 sk0 seed = .ok (pk, sk) ∧ pk = pkOf P.toSpec S seed ∧ sk = skOf P.toSpec S seed ∧
      crypto_sign_signature E sig0 (text m) sk (randomiserBytes optrand) =
        .ok (Spec.sign P.toSpec S sk (randomiserBytes optrand) (text m), P.spxBytes) ∧
      (crypto_sign_verify E sig P.spxBytes (text m) pk = .ok 0 ↔ verify P.toSpec S pk (text m) sig = true) ∧
      P.spxBytes = P.toSpec.n + (forsBytes P.toSpec + P.toSpec.d * xmssBytes P.toSpec) :=
  game_code (E := allRandom P G g text O H R) (allRandomRefines hP G g text O H R) hP hpk0 hsk0 hseed hsig0 hsig hm optrand

/-! ## Concrete cases -/

/-- A forger who asks twice for a signature of message 0 with the same optional randomness, and gives the second back for
message 1. -/
def repeater (p : Par) (_ : Bytes) : Chooser (Value p) (Fin p.n → Fin (2 ^ 8)) (Fin 2) (Digest p) :=
  .sign (fun _ => 0) 0 fun _ => .sign (fun _ => 0) 0 fun sig => .output 1 sig

/-- The bound for this forger, SPHINCS+-SHAKE-256s and the seed of all zeros. -/
example : chance (fun w : (Point (shake_256s true).toSpec → Value (shake_256s true).toSpec) ×
      ((Fin 32 → Fin (2 ^ 8)) × Fin 2 → Digest (shake_256s true).toSpec) ×
      (Value (shake_256s true).toSpec × Fin 2 → Value (shake_256s true).toSpec) =>
      SucceedsChosen (shake_256s true).toSpec (List.replicate 96 0) oneByte (repeater (shake_256s true).toSpec)
        w.1 w.2.1 w.2.2) ≤
    1 / 2 ^ bitSecurity (shake_256s true).toSpec + 2 * maxCalls (shake_256s true).toSpec / 2 ^ 256 := by
  have h := C85_chosen_randomness (P := shake_256s true) (by decide) (seed := List.replicate 96 0) List.length_replicate
    (text := oneByte) (by decide) (repeater (shake_256s true).toSpec) (q := 2) (t := 1) (u := 0)
    (fun _ => ⟨Nat.two_pos, fun _ => ⟨Nat.one_pos, fun _ => Nat.one_pos⟩⟩) (by decide) (by decide)
  rw [Nat.cast_one, Nat.cast_zero, zero_add, show (8 * (shake_256s true).n) = 256 from rfl] at h
  exact h

/-- The event is possible: if all digests and all randomisers are the same, the forger succeeds. -/
example {p : Par} (hd : 1 ≤ p.d) {seed : Bytes} (hs : seed.length = 3 * p.n) (O : Point p → Value p)
    (d : Digest p) (r : Value p) :
    SucceedsChosen p seed oneByte (repeater p) O (fun _ => d) fun _ => r := by
  have L : HashLen p.n ((Hash.random O).withRandomisers oneByte (fun _ => d) fun _ => r) :=
    Chosen.hashLen _ _ (Rom.random_len O)
  have inj : ∀ x y, oneByte x = oneByte y → x = y := by decide
  refine ⟨?_, ?_, ?_⟩
  · simp
  · unfold Spec.sign
    simp only [List.length_append]
    rw [forsSig_len L, htSig_len L, L.PRFmsg, Nat.add_assoc]
  · have h := spec_correct L hd (seed := seed) (optrand := randomiserBytes (n := p.n) fun _ => 0) (m := oneByte 0)
      (rest := []) hs
    rw [List.append_nil] at h
    rw [Chosen.sign_eq _ _ _ inj] at h
    simp only [Chosen.sign_eq _ _ _ inj]
    rw [← h]
    have e : ∀ pub root, ((Hash.random O).withRandomisers oneByte (fun _ => d) fun _ => r).Hmsg (randomiserBytes r) pub root
          (oneByte 1) (digestBytes p) =
        ((Hash.random O).withRandomisers oneByte (fun _ => d) fun _ => r).Hmsg (randomiserBytes r) pub root (oneByte 0)
          (digestBytes p) := by
      intro pub root
      exact (Game.hmsg (Hash.random O) (fun _ => d) inj r 1 pub root).trans
        (Game.hmsg (Hash.random O) (fun _ => d) inj r 0 pub root).symm
    unfold verify
    simp only [Game.take_sign, e]

/-- The code with random functions, for one set and the messages of one byte. -/
example (O : Point (sha2_256f true).toSpec → Value (sha2_256f true).toSpec)
    (H : (Fin (sha2_256f true).toSpec.n → Fin (2 ^ 8)) × Fin 2 → Digest (sha2_256f true).toSpec)
    (R : Value (sha2_256f true).toSpec × Fin 2 → Value (sha2_256f true).toSpec) :=
  C85_code (P := sha2_256f true) (by decide) (fun _ _ => 0) (fun _ _ => 0) oneByte O H R
    (pk0 := List.replicate 64 0) (sk0 := List.replicate 128 0) (seed := List.replicate 96 0)
    (sig0 := List.replicate 49856 0) (sig := List.replicate 49856 0) List.length_replicate List.length_replicate
    List.length_replicate List.length_replicate List.length_replicate 0 (by decide) fun _ => 0

end Spx
