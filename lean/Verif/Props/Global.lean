import Verif.Props.Shared
import Verif.Proof.GlobalBound
/-! # C90: all keys use the same hash functions, and the forger computes all of them

In C84, C85, C87 and C89 each key has its own random functions, and the secret functions are out of reach of the forger.
Here the functions are the same for all keys and depend on the seeds, as in the library.  The forger computes each of them,
with any seeds.  The seeds of the owners are random. -/

namespace Spx
open Spec

section
variable {P : Params} (hP : P ∈ shipped) {ι : Type} [Fintype ι] [DecidableEq ι] {M : Type} [Fintype M] [DecidableEq M]
    {text : M → Bytes} (inj : ∀ x y, text x = text y → x = y)
    (F : (ι → Bytes) → GlobalForger ι (Value P.toSpec) (Value P.toSpec) (Fin P.toSpec.n → Fin (2 ^ 8)) M (Digest P.toSpec))
    {q : ι → Nat} {t u g g' : Nat} (hF : ∀ pk, (F pk).Within q (fun _ => t) u g g') (hq : ∀ i, q i ≤ 2 ^ 64)
include hP inj hF hq

/-- C90: with random hash functions common to all `N` owners, whose seeds are random, a forger who is given the public keys,
asks each owner `i` for at most `q i ≤ 2 ^ 64` signatures, and computes at most `t ≤ 2 ^ (8 * n - 6)` digests for each
public seed, the tweakable hash at most `u` times, the pseudorandom function at most `g` times and randomisers at most
`g'` times, with seeds of its choice, forges for any of the keys with probability at most
`N * t / 2 ^ b + (2 * (u + v) + g + N * g' + 2 * N ^ 2) / 2 ^ (8 * n)`. -/
theorem C90_common_functions (ht : t * 2 ^ 6 ≤ 2 ^ (8 * P.n)) :
    chance (fun x : World P.toSpec M × Seeds P.toSpec ι => SucceedsGlobal P.toSpec text F x.1 x.2) ≤
      Fintype.card ι * t / 2 ^ bitSecurity P.toSpec +
        (2 * (u + maxCalls P.toSpec) + g + Fintype.card ι * g' + 2 * Fintype.card ι ^ 2) / 2 ^ (8 * P.n) := by
  have h := Rom.global_bound (text := text) hF
    (c := Fintype.card ι * ((t : ℚ) / 2 ^ bitSecurity P.toSpec) + 2 * (u + maxCalls P.toSpec) / 2 ^ (8 * P.n))
    (by positivity) fun seed F' hs hF' => by
      have := C89_shared_limit hP hs inj F' hF' hq fun _ => ht
      rwa [Finset.sum_const, Finset.card_univ, nsmul_eq_mul] at this
  refine le_trans h (le_of_eq ?_)
  change _ + _ / 2 ^ (8 * P.n) = _
  ring

/-- C90 without a bound for `t`. -/
theorem C90_any_number :
    chance (fun x : World P.toSpec M × Seeds P.toSpec ι => SucceedsGlobal P.toSpec text F x.1 x.2) ≤
      Fintype.card ι * t / 2 ^ bitSecurity P.toSpec * (1 + t / 2 ^ (8 * P.n)) ^ P.toSpec.k +
        (2 * (u + maxCalls P.toSpec) + g + Fintype.card ι * g' + 2 * Fintype.card ι ^ 2) / 2 ^ (8 * P.n) := by
  have h := Rom.global_bound (text := text) hF
    (c := Fintype.card ι * ((t : ℚ) / 2 ^ bitSecurity P.toSpec * (1 + t / 2 ^ (8 * P.n)) ^ P.toSpec.k) +
      2 * (u + maxCalls P.toSpec) / 2 ^ (8 * P.n))
    (by positivity) fun seed F' hs hF' => by
      have := C89_any_number hP hs inj F' hF' hq
      rwa [Finset.sum_const, Finset.card_univ, nsmul_eq_mul] at this
  refine le_trans h (le_of_eq ?_)
  change _ + _ / 2 ^ (8 * P.n) = _
  ring

end

/-! ## The code -/

/-- The library with all its hash functions replaced: as in `randomised`, but the functions depend on the seeds in the
context, and `gen_message_random` is a random function of its key, of `optrand` and of the message. -/
noncomputable def commonRandom (P : Params) (G g : Nat → Nat → Byte) {M : Type} (text : M → Bytes) (W : World P.toSpec M) : Env :=
  let R (ctx : Ctx) := randomised P G g text (W.1 (toValue P.toSpec ctx.pub_seed)).1 (W.1 (toValue P.toSpec ctx.pub_seed)).2
  { idealised P G g text (W.1 fun _ => 0).2 with
    H := { (idealised P G g text (W.1 fun _ => 0).2).H with
      thash := fun inp blocks ctx addr => (R ctx).H.thash inp blocks ctx addr
      prf_addr := fun ctx addr =>
        (randomised P G g text (W.2.1 (toValue P.toSpec ctx.pub_seed, toValue P.toSpec ctx.sk_seed))
          (W.1 fun _ => 0).2).H.prf_addr ctx addr
      gen_message_random := fun skPrf optrand m _ =>
        .ok (((Hash.random (W.1 fun _ => 0).1).withRandomisers text (W.1 fun _ => 0).2
          (W.2.2 (toValue P.toSpec (skPrf.take P.n)))).PRFmsg [] [] (optrand.take P.n) m)
      hash_message := fun r pk m ctx => (R ctx).H.hash_message r pk m ctx } }

/-- These functions are those of the game. -/
noncomputable def commonRandomRefines {P : Params} (hP : P ∈ shipped) (G g : Nat → Nat → Byte) {M : Type} (text : M → Bytes)
    (W : World P.toSpec M) :
    Refines (commonRandom P G g text W).P (commonRandom P G g text W).H (Hash.global text W) :=
  let R (v : Value P.toSpec) := randomisedRefines hP G g text (W.1 v).1 (W.1 v).2
  let R' (v v' : Value P.toSpec) := randomisedRefines hP G g text (W.2.1 (v, v')) (W.1 fun _ => 0).2
  { CtxOK := (buildRefines hP G g).CtxOK
    T_len := fun pub a x => (R (toValue P.toSpec pub)).T_len pub a x
    PRF_len := fun pub sk a => (R' (toValue P.toSpec pub) (toValue P.toSpec sk)).PRF_len pub sk a
    PRFmsg_len := fun pub k o m =>
      (Chosen.hashLen (p := P.toSpec) (text := text) (W.1 (toValue P.toSpec pub)).2 (W.2.2 (toValue P.toSpec k))
        (Rom.random_len (W.1 (toValue P.toSpec pub)).1)).PRFmsg pub k o m
    Hmsg_len := fun r pub root m k => (R (toValue P.toSpec pub)).Hmsg_len r pub root m k
    init := (buildRefines hP G g).init
    thash := fun ctx a inp blocks h1 h2 h3 h4 h5 => (R (toValue P.toSpec ctx.pub_seed)).thash ctx a inp blocks h1 h2 h3 h4 h5
    prf := fun ctx a h1 h2 => (R' (toValue P.toSpec ctx.pub_seed) (toValue P.toSpec ctx.sk_seed)).prf ctx a h1 h2
    genR := fun _ _ _ _ _ _ _ _ => rfl
    hmsg := fun ctx r pk m h1 h2 h3 h4 h5 => (R (toValue P.toSpec ctx.pub_seed)).hmsg ctx r pk m h1 h2 h3 h4 h5 }

/-- C90, the code: key generation, signing and verification of the library, with all hash functions replaced, are those
of the game for any seed. -/
theorem C90_code {P : Params} (hP : P ∈ shipped) (G g : Nat → Nat → Byte) {M : Type} (text : M → Bytes)
    (W : World P.toSpec M) {pk0 sk0 seed sig0 sig : Bytes}
    (hpk0 : pk0.length = P.pkBytes) (hsk0 : sk0.length = P.skBytes) (hseed : seed.length = P.seedBytes)
    (hsig0 : sig0.length = P.spxBytes) (hsig : sig.length = P.spxBytes) (m : M) (hm : (text m).length < 2 ^ 60)
    (optrand : Value P.toSpec) :
    let E := commonRandom P G g text W
    let S := Hash.global text W
    ∃ pk sk, crypto_sign_seed_keypair E pk0 sk0 seed = .ok (pk, sk) ∧ pk = pkOf P.toSpec S seed ∧ sk = skOf P.toSpec S seed ∧
      crypto_sign_signature E sig0 (text m) sk (randomiserBytes optrand) =
        .ok (Spec.sign P.toSpec S sk (randomiserBytes optrand) (text m), P.spxBytes) ∧
      (crypto_sign_verify E sig P.spxBytes (text m) pk = .ok 0 ↔ verify P.toSpec S pk (text m) sig = true) ∧
      P.spxBytes = P.toSpec.n + (forsBytes P.toSpec + P.toSpec.d * xmssBytes P.toSpec) :=
  game_code (E := commonRandom P G g text W) (commonRandomRefines hP G g text W) hP hpk0 hsk0 hseed hsig0 hsig hm optrand

/-! ## Concrete cases -/

/-- A forger who tries the secret seed of all zeros for the public seed of owner 0, and the same as key of a randomiser,
hashes what it finds, has owner 0 sign a message and gives the signature back for owner 1. -/
def guesser (p : Par) (pk : Fin 2 → Bytes) :
    GlobalForger (Fin 2) (Value p) (Value p) (Fin p.n → Fin (2 ^ 8)) (Fin 2) (Digest p) :=
  .prf (toValue p (pk 0)) (fun _ => 0) (Position.forsPrf 0 0 0).adrs fun y =>
    .prfmsg (fun _ => 0) (fun _ => 0) 0 fun _ =>
      .tweak (toValue p (pk 0)) (Position.forsLeaf 0 0 0).adrs y fun _ => .sign 0 (fun _ => 0) 0 fun sig => .output 1 0 sig

theorem guesser_within (p : Par) (pk : Fin 2 → Bytes) :
    (guesser p pk).Within (fun i => if i = 0 then 1 else 0) (fun _ => 1) 1 1 1 :=
  ⟨Nat.one_pos, fun _ => ⟨Nat.one_pos, fun _ => ⟨Nat.one_pos, fun _ => ⟨Nat.one_pos, fun _ _ => Nat.one_pos⟩⟩⟩⟩

/-- The bound for this forger and SPHINCS+-SHA2-128s -/
example : chance (fun x : World (sha2_128s true).toSpec (Fin 2) × Seeds (sha2_128s true).toSpec (Fin 2) =>
      SucceedsGlobal (sha2_128s true).toSpec oneByte (guesser (sha2_128s true).toSpec) x.1 x.2) ≤
    (Fintype.card (Fin 2) : ℚ) * (1 : Nat) / 2 ^ bitSecurity (sha2_128s true).toSpec +
      (2 * ((1 : Nat) + maxCalls (sha2_128s true).toSpec) + (1 : Nat) + Fintype.card (Fin 2) * (1 : Nat) +
        2 * Fintype.card (Fin 2) ^ 2) / 2 ^ (8 * (sha2_128s true).n) :=
  C90_common_functions (P := sha2_128s true) (by decide) (text := oneByte) (by decide) (guesser (sha2_128s true).toSpec)
    (guesser_within _) (fun i => by split <;> decide) (by decide)

/-- The forger computes what the owner computes, if the secret seed of owner 0 is all zeros: a FORS secret value. -/
example {p : Par} (W : World p (Fin 2)) (pub : Value p) :
    (Hash.global oneByte W).PRF (randomiserBytes pub) (randomiserBytes (fun _ => 0 : Value p)) (Position.forsPrf 0 0 0).adrs =
      forsSk (Hash.global oneByte W) (randomiserBytes pub) (randomiserBytes (fun _ => 0 : Value p)) 0 0 0 := rfl

/-- The event is possible: if both owners have the same seeds, the forger succeeds. -/
example {p : Par} (hd : 1 ≤ p.d) (W : World p (Fin 2)) (a b c : Value p) :
    SucceedsGlobal p oneByte (guesser p) W (fun _ => a, fun _ => b, fun _ => c) := by
  have L : HashLen p.n (Hash.global oneByte W) :=
    ⟨fun pub a x => (Rom.random_len (W.1 (toValue p pub)).1).T pub a x,
      fun pub sk a => (Rom.random_len (W.2.1 (toValue p pub, toValue p sk))).PRF pub sk a,
      fun pub k o m => (Chosen.hashLen (W.1 (toValue p pub)).2 (W.2.2 (toValue p k))
        (Rom.random_len (W.1 (toValue p pub)).1)).PRFmsg pub k o m,
      fun r pub root m k => (Game.hashLen (W.1 (toValue p pub)).2 (Rom.random_len (W.1 (toValue p pub)).1)).Hmsg r pub root m k⟩
  have hs : (Seeds.bytes ((fun _ => a, fun _ => b, fun _ => c) : Seeds p (Fin 2)) 0).length = 3 * p.n := by
    unfold Seeds.bytes
    simp only [List.length_append, Game.length_randomiserBytes]
    omega
  refine ⟨?_, ?_, ?_⟩
  · simp
  · unfold Spec.sign
    simp only [List.length_append]
    rw [forsSig_len L, htSig_len L, L.PRFmsg, Nat.add_assoc]
  · have h := spec_correct L hd (optrand := randomiserBytes (n := p.n) fun _ => 0) (m := oneByte 0) (rest := []) hs
    rw [List.append_nil] at h
    exact h

/-- The code for SPHINCS+-SHA2-256f -/
example (W : World (sha2_256f true).toSpec (Fin 2)) :=
  C90_code (P := sha2_256f true) (by decide) (fun _ _ => 0) (fun _ _ => 0) oneByte W
    (pk0 := List.replicate 64 0) (sk0 := List.replicate 128 0) (seed := List.replicate 96 0)
    (sig0 := List.replicate 49856 0) (sig := List.replicate 49856 0) List.length_replicate List.length_replicate
    List.length_replicate List.length_replicate List.length_replicate 0 (by decide) fun _ => 0

end Spx
