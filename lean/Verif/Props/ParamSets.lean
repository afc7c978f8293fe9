import Verif.Proof.ShippedSign
import Verif.Proof.Digits
/-! # Properties of the parameter files: C40, C41 -/

namespace Spx
open Spec

/-- C40: what the four size functions return, for the 18 headers and both thash variants, in the
order 128s, 128f, 192s, 192f, 256s, 256f of each hash family. -/
theorem C40_advertised_sizes (r : Bool) :
    (headers r).map crypto_sign_bytes =
      [7856, 17088, 16224, 35664, 29792, 49856, 7856, 17088, 16224, 35664, 29792, 49856,
       7856, 17088, 16224, 35664, 29792, 49856] ∧
    (headers r).map crypto_sign_publickeybytes =
      [32, 32, 48, 48, 64, 64, 32, 32, 48, 48, 64, 64, 32, 32, 48, 48, 64, 64] ∧
    (headers r).map crypto_sign_secretkeybytes =
      [64, 64, 96, 96, 128, 128, 64, 64, 96, 96, 128, 128, 64, 64, 96, 96, 128, 128] ∧
    (headers r).map crypto_sign_seedbytes =
      [48, 48, 72, 72, 96, 96, 48, 48, 72, 72, 96, 96, 48, 48, 72, 72, 96, 96] := by
  cases r <;> decide +kernel

/-- C40: the sizes agree with the size formula of the specification and are the lengths of what key
generation and signing produce. -/
theorem C40_sizes_are_true {P : Params} (hP : P ∈ shipped) (G g : Nat → Nat → Byte)
    {seed pk0 sk0 sig0 m sk optrand : Bytes} (hseed : seed.length = crypto_sign_seedbytes P)
    (hpk0 : pk0.length = crypto_sign_publickeybytes P) (hsk0 : sk0.length = crypto_sign_secretkeybytes P)
    (hsk : sk.length = crypto_sign_secretkeybytes P) (hm : m.length < 2 ^ 60) (hopt : optrand.length = P.n)
    (hsig0 : sig0.length = crypto_sign_bytes P) :
    crypto_sign_bytes P = P.toSpec.sigBytes ∧
    (∃ pk' sk', crypto_sign_seed_keypair (build P G g) pk0 sk0 seed = .ok (pk', sk') ∧
      pk' = pkOf P.toSpec (specHash P) seed ∧ sk' = skOf P.toSpec (specHash P) seed ∧
      pk'.length = crypto_sign_publickeybytes P ∧ sk'.length = crypto_sign_secretkeybytes P) ∧
    (∃ sig, crypto_sign_signature (build P G g) sig0 m sk optrand = .ok (sig, crypto_sign_bytes P) ∧
      sig = Spec.sign P.toSpec (specHash P) sk optrand m ∧ sig.length = crypto_sign_bytes P) := by
  change pk0.length = P.pkBytes at hpk0
  change sk0.length = P.skBytes at hsk0
  change sig0.length = P.spxBytes at hsig0
  refine ⟨?_, ⟨_, _, ship_keypair hP G g (by omega) (by omega) hseed, ?_, ?_, ?_, ?_⟩,
    ⟨_, ship_sign hP G g hsk hm hopt (by omega), ?_, ?_⟩⟩
  · have h : ∀ P ∈ shipped, crypto_sign_bytes P = P.toSpec.sigBytes := by decide +kernel
    exact h P hP
  · rw [List.drop_of_length_le (by omega), List.append_nil]
  · rw [List.drop_of_length_le (by omega), List.append_nil]
  · rw [List.drop_of_length_le (by omega), List.append_nil]; exact ship_pkOf_len hP hseed
  · rw [List.drop_of_length_le (by omega), List.append_nil]; exact ship_skOf_len hP hseed
  · rw [List.drop_of_length_le (by omega), List.append_nil]
  · rw [List.drop_of_length_le (by omega), List.append_nil]; exact ship_sign_len hP ..

/-- C40 for a concrete call. -/
example : ∃ sig, crypto_sign_signature (build (sha2_128s true) (fun _ _ => 0) (fun _ _ => 0)) (List.replicate 7856 0)
    [1] (List.replicate 64 0) (List.replicate 16 0) = .ok (sig, 7856) ∧ sig.length = 7856 := by
  obtain ⟨s, e, _, h⟩ := (C40_sizes_are_true (P := sha2_128s true) (by decide) (fun _ _ => 0) (fun _ _ => 0)
    (seed := List.replicate 48 0) (pk0 := List.replicate 32 0) (sk0 := List.replicate 64 0)
    (sk := List.replicate 64 0) (m := [1]) (optrand := List.replicate 16 0) (sig0 := List.replicate 7856 0)
    (by decide) (by decide) (by decide) (by decide) (by decide) (by decide) List.length_replicate).2.2
  exact ⟨s, e, h⟩

/-- C41: every shipped parameter set satisfies the checks of the headers and the assumptions the
code makes without checking. -/
theorem C41_shipped_parameters_valid {P : Params} (hP : P ∈ shipped) :
    /- header checks -/
    (P.w = 16 ∨ P.w = 256) ∧ P.n ≤ 256 ∧ P.treeHeight * P.d = P.fullHeight ∧
    /- address.c and hash_message: the tree index fits 64 bits, the leaf index 32 bits -/
    P.treeHeight * (P.d - 1) ≤ 64 ∧ P.treeHeight ≤ 32 ∧
    /- shifts of an `int` 1 -/
    P.treeHeight < 31 ∧ P.forsHeight < 31 ∧
    /- byte-sized address fields: layer, chain, hash step, height -/
    P.d ≤ 256 ∧ P.wotsLen ≤ 256 ∧ P.w ≤ 256 ∧ P.treeHeight < 256 ∧ P.forsHeight < 256 ∧
    /- FORS node indices -/
    P.forsTrees * 2 ^ P.forsHeight ≤ 2 ^ 32 ∧
    /- Haraka and SHA-256 buffers hold n bytes; SHA-512 is used exactly when n ≥ 24 with SHA-2 -/
    P.n ≤ 32 ∧ (P.sha512 = true ↔ P.fam = .sha2 ∧ 24 ≤ P.n) ∧
    /- checksum digits as in the specification -/
    P.len2 = P.toSpec.len2 ∧ P.spxBytes = P.toSpec.sigBytes := by
  revert P
  decide +kernel

/-- C41: the `#if` table for SPX_WOTS_LEN2 gives, for every `n` it accepts, the least number of
base-`w` digits that holds every possible checksum, which is the formula of the specification. -/
theorem C41_len2_table {P : Params} (hw : P.w = 16 ∨ P.w = 256) (h1 : 1 ≤ P.n) (h2 : P.n ≤ 256) :
    P.len2 = P.toSpec.len2 ∧ 1 ≤ P.len2 ∧
      P.w ^ (P.len2 - 1) ≤ P.len1 * (P.w - 1) ∧ P.len1 * (P.w - 1) < P.w ^ P.len2 := by
  have key : ∀ n, n < 257 → 1 ≤ n → ∀ w ∈ [16, 256],
      let lg := if w = 256 then 8 else 4
      let l1 := 8 * n / lg
      let l2 := if w = 256 then if n ≤ 1 then 1 else 2 else if n ≤ 8 then 2 else if n ≤ 136 then 3 else 4
      l2 = Nat.log2 (l1 * (2 ^ lg - 1)) / lg + 1 ∧ 1 ≤ l2 ∧ w ^ (l2 - 1) ≤ l1 * (w - 1) ∧ l1 * (w - 1) < w ^ l2 := by
    decide +kernel
  exact key P.n (by omega) h1 P.w (by rcases hw with h | h <;> simp [h])

/-- The table at one of its corners: `n = 136` still needs 3 digits for `w = 16`, `n = 137` needs 4. -/
example : ({ sha2_128s true with n := 136 } : Params).len2 = 3 ∧ ({ sha2_128s true with n := 137 } : Params).len2 = 4 :=
  ⟨rfl, rfl⟩

example : (sha2_128s true).len2 = (sha2_128s true).toSpec.len2 :=
  (C41_len2_table (P := sha2_128s true) (Or.inl rfl) (by decide) (by decide)).1

end Spx
