import Verif.Proof.OracleBound
import Verif.Proof.OnlyPositions
/-! # C84: forging signatures when all hash functions are random functions

C83 with the tweakable hash and the pseudorandom function random as well, so that nothing is left but numbers: of
signatures, of digests and of computations of the tweakable hash. -/

namespace Spx
open Spec

section
variable {P : Params} (hP : P ∈ shipped) {seed : Bytes} (hseed : seed.length = 3 * P.n) {M : Type} [Fintype M] [DecidableEq M]
    {text : M → Bytes} (inj : ∀ x y, text x = text y → x = y)
    (F : Bytes → Adversary (Fin P.toSpec.n → Fin (2 ^ 8)) M (Digest P.toSpec)) {q t u : Nat}
    (hF : ∀ pk, (F pk).Within q t u) (hq : q ≤ 2 ^ 64)
include hP hseed inj hF hq

/-- C84: with random hash functions, a forger who is given the public key, asks for at most `2 ^ 64` signatures, computes
at most `t ≤ 2 ^ (8 * n - 6)` digests and computes the tweakable hash at most `u` times forges with probability at most
`t / 2 ^ b + 2 * (u + v) / 2 ^ (8 * n)`.  Here `b` is the bit security stated in README.md, and `v` bounds the calls of
the tweakable hash in one verification. -/
theorem C84_random_oracle (ht : t * 2 ^ 6 ≤ 2 ^ (8 * P.n)) :
    chance (fun w : (Point P.toSpec → Value P.toSpec) × ((Fin P.toSpec.n → Fin (2 ^ 8)) × M → Digest P.toSpec) ×
        (Fin q → Fin P.toSpec.n → Fin (2 ^ 8)) => Succeeds P.toSpec seed text F w.1 w.2.1 (List.ofFn w.2.2)) ≤
    t / 2 ^ bitSecurity P.toSpec + 2 * (u + maxCalls P.toSpec) / 2 ^ (8 * P.n) :=
  Rom.oracle_bound hP hseed inj F hF fun A hA => C82_bit_security hP A hA hq ht

/-- C84 without a bound for `t`. -/
theorem C84_any_number :
    chance (fun w : (Point P.toSpec → Value P.toSpec) × ((Fin P.toSpec.n → Fin (2 ^ 8)) × M → Digest P.toSpec) ×
        (Fin q → Fin P.toSpec.n → Fin (2 ^ 8)) => Succeeds P.toSpec seed text F w.1 w.2.1 (List.ofFn w.2.2)) ≤
    t / 2 ^ bitSecurity P.toSpec * (1 + t / 2 ^ (8 * P.n)) ^ P.toSpec.k +
      2 * (u + maxCalls P.toSpec) / 2 ^ (8 * P.n) :=
  Rom.oracle_bound hP hseed inj F hF fun A hA => C82_interactive hP A hA hq

end

/-! ## The code -/

open Classical in
/-- The value of a random function at the point with a property -/
noncomputable def valueWith {p : Par} (O : Point p → Value p) (X : Point p → Prop) : Bytes :=
  if h : ∃ z, X z then randomiserBytes (O h.choose) else List.replicate p.n 0

theorem random_T {p : Par} (O : Point p → Value p) (pub : Bytes) (a : ADRS) (x : Bytes) : (Hash.random O).T pub a x =
    valueWith O fun z => z.1.1.isPrf = false ∧ z.1.1.adrs = a ∧ z.1.2 = x := by
  simp only [Hash.random, valueWith]
  congr

theorem random_PRF {p : Par} (O : Point p → Value p) (pub sk : Bytes) (a : ADRS) : (Hash.random O).PRF pub sk a =
    valueWith O fun z => z.1.1.isPrf = true ∧ z.1.1.adrs = a := by
  simp only [Hash.random, valueWith]
  congr

/-- The library with all its hash functions replaced: as in `idealised`, and `thash` and `prf_addr` are random functions
of the bytes of the address and of the input. -/
noncomputable def randomised (P : Params) (G g : Nat → Nat → Byte) {M : Type} (text : M → Bytes)
    (O : Point P.toSpec → Value P.toSpec) (H : (Fin P.toSpec.n → Fin (2 ^ 8)) × M → Digest P.toSpec) : Env :=
  { idealised P G g text H with
    H := { (idealised P G g text H).H with
      thash := fun inp blocks _ addr => .ok (valueWith O fun z =>
        z.1.1.isPrf = false ∧ enc P.fam z.1.1.adrs = addr ∧ z.1.2 = inp.take (blocks * P.n))
      prf_addr := fun _ addr => .ok (valueWith O fun z => z.1.1.isPrf = true ∧ enc P.fam z.1.1.adrs = addr) } }

/-- These functions are those of the game. -/
noncomputable def randomisedRefines {P : Params} (hP : P ∈ shipped) (G g : Nat → Nat → Byte) {M : Type} (text : M → Bytes)
    (O : Point P.toSpec → Value P.toSpec) (H : (Fin P.toSpec.n → Fin (2 ^ 8)) × M → Digest P.toSpec) :
    Refines (randomised P G g text O H).P (randomised P G g text O H).H ((Hash.random O).withOracle text H) :=
  let B := buildRefines hP G g
  let L := Game.hashLen (p := P.toSpec) (text := text) H (Rom.random_len O)
  { CtxOK := B.CtxOK
    T_len := L.T
    PRF_len := L.PRF
    PRFmsg_len := L.PRFmsg
    Hmsg_len := L.Hmsg
    init := B.init
    thash := by
      intro ctx a inp blocks _ ha _ _ _
      have e : (fun z : Point P.toSpec => z.1.1.isPrf = false ∧ enc P.fam z.1.1.adrs = enc P.fam a ∧
          z.1.2 = inp.take (blocks * P.n)) =
          fun z => z.1.1.isPrf = false ∧ z.1.1.adrs = a ∧ z.1.2 = inp.take (blocks * P.n) :=
        funext fun z => by rw [enc_eq_iff (Position.adrs_ok (shipped_valid hP) z.2.1) ha]
      refine Eq.trans (congrArg (fun X => Except.ok (valueWith O X)) e) (congrArg Except.ok ?_)
      exact (random_T O ctx.pub_seed a (inp.take (blocks * P.n))).symm
    prf := by
      intro ctx a _ ha
      have e : (fun z : Point P.toSpec => z.1.1.isPrf = true ∧ enc P.fam z.1.1.adrs = enc P.fam a) =
          fun z => z.1.1.isPrf = true ∧ z.1.1.adrs = a :=
        funext fun z => by rw [enc_eq_iff (Position.adrs_ok (shipped_valid hP) z.2.1) ha]
      refine Eq.trans (congrArg (fun X => Except.ok (valueWith O X)) e) (congrArg Except.ok ?_)
      exact (random_PRF O ctx.pub_seed ctx.sk_seed a).symm
    genR := fun _ _ _ _ _ _ _ _ => rfl
    hmsg := fun _ _ _ _ _ _ _ _ _ => rfl }

/-- C84, the code: key generation, signing and verification of the library, with all hash functions replaced, are those
of the game. -/
theorem C84_code {P : Params} (hP : P ∈ shipped) (G g : Nat → Nat → Byte) {M : Type} (text : M → Bytes)
    (O : Point P.toSpec → Value P.toSpec) (H : (Fin P.toSpec.n → Fin (2 ^ 8)) × M → Digest P.toSpec)
    {pk0 sk0 seed sig0 sig : Bytes}
    (hpk0 : pk0.length = P.pkBytes) (hsk0 : sk0.length = P.skBytes) (hseed : seed.length = P.seedBytes)
    (hsig0 : sig0.length = P.spxBytes) (hsig : sig.length = P.spxBytes) (m : M) (hm : (text m).length < 2 ^ 60)
    (r : Fin P.toSpec.n → Fin (2 ^ 8)) :
    let E := randomised P G g text O H
    let S := (Hash.random O).withOracle text H
    ∃ pk sk, crypto_sign_seed_keypair E pk0 sk0 seed = .ok (pk, sk) ∧ pk = pkOf P.toSpec S seed ∧ sk = skOf P.toSpec S seed ∧
      crypto_sign_signature E sig0 (text m) sk (randomiserBytes r) =
        .ok (Spec.sign P.toSpec S sk (randomiserBytes r) (text m), P.spxBytes) ∧
      (crypto_sign_verify E sig P.spxBytes (text m) pk = .ok 0 ↔ verify P.toSpec S pk (text m) sig = true) ∧
      P.spxBytes = P.toSpec.n + (forsBytes P.toSpec + P.toSpec.d * xmssBytes P.toSpec) :=
  game_code (E := randomised P G g text O H) (randomisedRefines hP G g text O H) hP hpk0 hsk0 hseed hsig0 hsig hm r

/-! ## Concrete cases -/

/-- A forger who hashes its public key at some address and asks for a signature of message 0, which it gives back for
message 1. -/
def hashingCopier (p : Par) (pk : Bytes) : Adversary (Fin p.n → Fin (2 ^ 8)) (Fin 2) (Digest p) :=
  .tweak (Position.forsLeaf 0 0 0).adrs (pk.take p.n) fun _ => .sign 0 fun sig => .output 1 sig

/-- The bound for this forger, SPHINCS+-SHA2-128f and the seed of all zeros. -/
example : chance (fun w : (Point (sha2_128f false).toSpec → Value (sha2_128f false).toSpec) ×
      ((Fin 16 → Fin (2 ^ 8)) × Fin 2 → Digest (sha2_128f false).toSpec) × (Fin 1 → Fin 16 → Fin (2 ^ 8)) =>
      Succeeds (sha2_128f false).toSpec (List.replicate 48 0) oneByte (hashingCopier (sha2_128f false).toSpec)
        w.1 w.2.1 (List.ofFn w.2.2)) ≤
    1 / 2 ^ 128 + 23742 / 2 ^ 128 := by
  have hb : bitSecurity (sha2_128f false).toSpec = 128 := by decide
  have hv : maxCalls (sha2_128f false).toSpec = 11870 := by decide +kernel
  have h := C84_random_oracle (P := sha2_128f false) (by decide) (seed := List.replicate 48 0) List.length_replicate
    (text := oneByte) (by decide) (hashingCopier (sha2_128f false).toSpec) (q := 1) (t := 1) (u := 1)
    (fun _ => ⟨Nat.one_pos, fun _ => ⟨Nat.one_pos, fun _ => Nat.one_pos⟩⟩) (by decide) (by decide)
  rw [hb, hv, Nat.cast_one, show (8 * (sha2_128f false).n) = 128 from rfl] at h
  norm_num at h ⊢
  exact h

/-- The event is possible: if all digests are the same, the forger succeeds. -/
example {p : Par} (hd : 1 ≤ p.d) {seed : Bytes} (hs : seed.length = 3 * p.n) (O : Point p → Value p)
    (d : Digest p) (r : Fin p.n → Fin (2 ^ 8)) :
    Succeeds p seed oneByte (hashingCopier p) O (fun _ => d) [r] := by
  have LH : HashLen p.n ((Hash.random O).withOracle oneByte fun _ => d) := Game.hashLen _ (Rom.random_len O)
  have inj : ∀ x y, oneByte x = oneByte y → x = y := by decide
  refine ⟨_, _, _, rfl, ?_, ?_, ?_⟩
  · simp
  · unfold Spec.sign
    simp only [List.length_append]
    rw [forsSig_len LH, htSig_len LH, LH.PRFmsg, Nat.add_assoc]
  · have h := spec_correct LH hd (seed := seed) (optrand := randomiserBytes r) (m := oneByte 0) (rest := []) hs
    rw [List.append_nil] at h
    have e : ∀ pub root, ((Hash.random O).withOracle oneByte fun _ => d).Hmsg (randomiserBytes r) pub root (oneByte 1)
          (digestBytes p) =
        ((Hash.random O).withOracle oneByte fun _ => d).Hmsg (randomiserBytes r) pub root (oneByte 0) (digestBytes p) := by
      intro pub root
      rw [Game.hmsg _ _ inj, Game.hmsg _ _ inj]
    rw [← h]
    unfold verify
    simp only [Game.take_sign, e]

/-- The code with random functions, for one set and the messages of one byte. -/
example (O : Point (sha2_256f true).toSpec → Value (sha2_256f true).toSpec)
    (H : (Fin (sha2_256f true).toSpec.n → Fin (2 ^ 8)) × Fin 2 → Digest (sha2_256f true).toSpec)
    (r : Fin (sha2_256f true).toSpec.n → Fin (2 ^ 8)) :=
  C84_code (P := sha2_256f true) (by decide) (fun _ _ => 0) (fun _ _ => 0) oneByte O H
    (pk0 := List.replicate 64 0) (sk0 := List.replicate 128 0) (seed := List.replicate 96 0)
    (sig0 := List.replicate 49856 0) (sig := List.replicate 49856 0) List.length_replicate List.length_replicate
    List.length_replicate List.length_replicate List.length_replicate 0 (by decide) r

end Spx
