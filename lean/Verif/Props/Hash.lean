import Verif.Proof.AnyAddress
/-! # C30, C31, C32: the keyed hash functions of each family

`implOf P g` are the functions the Makefile links for parameter set `P`; `specHash P` are the
functions the specification prescribes.  A ready context is one made by
`initialize_hash_function` from an `spx_ctx` object with arbitrary contents, so the precomputed
SHA-2 states and the tweaked Haraka constants are part of what is proved.  The last theorems of each
group spell the prescribed function out for one family. -/

namespace Spx
open Spec Haraka

attribute [local irreducible] Spec.Haraka.rcTweak Spec.Haraka.perm512 Spec.Haraka.perm256 Spec.Haraka.harakaS

variable {P : Params} {g : Nat → Nat → Byte} {ctx : Ctx}

/-- C30: `thash` over any number of blocks is the tweakable hash function of the family, whatever the 32 bytes of the
address buffer `ad` are: `a` is the address they encode, and there always is one (`C30_every_buffer`). -/
theorem C30_thash (hP : P ∈ shipped) (hc : ctx.Ready P g) {ad : Addr} {a : ADRS} (ha : Encodes P.fam ad a) {inp : Bytes}
    {blocks : Nat} (h1 : 1 ≤ blocks) (hin : blocks * P.n ≤ inp.length) (hb : blocks * P.n < 2 ^ 31) :
    (implOf P g).thash inp blocks ctx ad =
      .ok ((specHash P).T ctx.pub_seed a (inp.take (blocks * P.n))) := thash_any hP hc ha h1 hin hb

/-- C30: `prf_addr` is the pseudorandom function of the family. -/
theorem C30_prf_addr (hP : P ∈ shipped) (hc : ctx.Ready P g) {ad : Addr} {a : ADRS} (ha : Encodes P.fam ad a) :
    (implOf P g).prf_addr ctx ad = .ok ((specHash P).PRF ctx.pub_seed ctx.sk_seed a) := prf_any hP hc ha

/-- Every address buffer holds an address. -/
theorem C30_every_buffer (f : Family) {ad : Addr} (h : ad.length = 32) : ∃ a, Encodes f ad a := exists_encodes f h

section
variable (hP : P ∈ shipped) (hc : ctx.Ready P g) {ad : Addr} (ha : ad.length = 32) {inp : Bytes} {blocks : Nat}
  (h1 : 1 ≤ blocks) (hin : inp.length = blocks * P.n) (hb : blocks * P.n < 2 ^ 31)

include hP h1 hin in
theorem more_blocks : (P.n < inp.length) ↔ 1 < blocks := by
  have hn := shipped_n_cases hP
  rw [hin]
  constructor
  · intro h
    by_contra hb
    have : blocks = 1 := by omega
    subst this
    omega
  · intro h
    have := Nat.mul_le_mul_right P.n (show 2 ≤ blocks from h)
    omega

include hP h1 hin in
theorem one_block : (inp.length = P.n) ↔ blocks = 1 := by
  have := more_blocks hP h1 hin
  have hn := shipped_n_cases hP
  constructor
  · intro h; omega
  · rintro rfl; omega

include hP hc ha h1 hin hb

/-- C30 for SHA-2, simple: one block or `n = 16` uses SHA-256 over the seed padded to 64 bytes, the
22-byte address and the input; several blocks with larger `n` use SHA-512 and 128 bytes.  The last 10 bytes of the
address buffer do not matter. -/
theorem C30_thash_sha2_simple (hf : P.fam = .sha2) (hr : P.robust = false) :
    (implOf P g).thash inp blocks ctx ad = .ok
      (if 24 ≤ P.n ∧ 1 < blocks then
        (Spec.Sha2.sha512 (ctx.pub_seed ++ List.replicate (128 - P.n) 0 ++ ad.take 22 ++ inp)).take P.n
      else (Spec.Sha2.sha256 (ctx.pub_seed ++ List.replicate (64 - P.n) 0 ++ ad.take 22 ++ inp)).take P.n) := by
  obtain ⟨a, he⟩ := exists_encodes P.fam ha
  have h := C30_thash hP hc he h1 (Nat.le_of_eq hin.symm) hb
  rw [List.take_of_length_le (Nat.le_of_eq hin), show specHash P = sha2Hash P.n P.robust by
    unfold specHash; rw [hf]] at h
  rw [h, hr, he.take hf]
  simp only [sha2Hash, sha2T, blockPad, hc.pub_len, more_blocks hP h1 hin, Bool.false_eq_true, if_false]
  rfl

/-- C30 for SHA-2, robust: the input is masked with MGF1 of seed and address, with the same hash function. -/
theorem C30_thash_sha2_robust (hf : P.fam = .sha2) (hr : P.robust = true) :
    (implOf P g).thash inp blocks ctx ad = .ok
      (if 24 ≤ P.n ∧ 1 < blocks then
        (Spec.Sha2.sha512 (ctx.pub_seed ++ List.replicate (128 - P.n) 0 ++ ad.take 22 ++
          xorBytes inp (Spec.Sha2.mgf1 Spec.Sha2.alg512 (ctx.pub_seed ++ ad.take 22) inp.length))).take P.n
      else (Spec.Sha2.sha256 (ctx.pub_seed ++ List.replicate (64 - P.n) 0 ++ ad.take 22 ++
          xorBytes inp (Spec.Sha2.mgf1 Spec.Sha2.alg256 (ctx.pub_seed ++ ad.take 22) inp.length))).take P.n) := by
  obtain ⟨a, he⟩ := exists_encodes P.fam ha
  have h := C30_thash hP hc he h1 (Nat.le_of_eq hin.symm) hb
  rw [List.take_of_length_le (Nat.le_of_eq hin), show specHash P = sha2Hash P.n P.robust by
    unfold specHash; rw [hf]] at h
  rw [h, hr, he.take hf]
  simp only [sha2Hash, sha2T, blockPad, hc.pub_len, more_blocks hP h1 hin, if_true]
  rfl

/-- C30 for SHAKE, simple: SHAKE256 over seed, 32-byte address and input. -/
theorem C30_thash_shake_simple (hf : P.fam = .shake) (hr : P.robust = false) :
    (implOf P g).thash inp blocks ctx ad = .ok (Keccak.shake256 (ctx.pub_seed ++ ad ++ inp) P.n) := by
  obtain ⟨a, he⟩ := exists_encodes P.fam ha
  have h := C30_thash hP hc he h1 (Nat.le_of_eq hin.symm) hb
  rw [List.take_of_length_le (Nat.le_of_eq hin), show specHash P = shakeHash P.n P.robust by
    unfold specHash; rw [hf]] at h
  rw [h, hr, he.eq32 (by rw [hf]; decide)]
  rfl

/-- C30 for SHAKE, robust: the input is masked with SHAKE256 of seed and address. -/
theorem C30_thash_shake_robust (hf : P.fam = .shake) (hr : P.robust = true) :
    (implOf P g).thash inp blocks ctx ad =
      .ok (Keccak.shake256 (ctx.pub_seed ++ ad ++
        xorBytes inp (Keccak.shake256 (ctx.pub_seed ++ ad) inp.length)) P.n) := by
  obtain ⟨a, he⟩ := exists_encodes P.fam ha
  have h := C30_thash hP hc he h1 (Nat.le_of_eq hin.symm) hb
  rw [List.take_of_length_le (Nat.le_of_eq hin), show specHash P = shakeHash P.n P.robust by
    unfold specHash; rw [hf]] at h
  rw [h, hr, he.eq32 (by rw [hf]; decide)]
  rfl

/-- C30 for Haraka, simple: one block uses Haraka-512 over address and input filled up with zeros, several blocks the
sponge; all with the constants tweaked by the public seed. -/
theorem C30_thash_haraka_simple (hf : P.fam = .haraka) (hr : P.robust = false) :
    (implOf P g).thash inp blocks ctx ad = .ok
      (if blocks = 1 then
        (Spec.Haraka.haraka512 (Spec.Haraka.rcTweak ctx.pub_seed) (ad ++ inp ++ List.replicate (32 - P.n) 0#8)).take P.n
      else Spec.Haraka.harakaS (Spec.Haraka.rcTweak ctx.pub_seed) (ad ++ inp) P.n) := by
  obtain ⟨a, he⟩ := exists_encodes P.fam ha
  have h := C30_thash hP hc he h1 (Nat.le_of_eq hin.symm) hb
  rw [List.take_of_length_le (Nat.le_of_eq hin), show specHash P = harakaHash P.n P.robust by
    unfold specHash; rw [hf]] at h
  have e := he.eq32 (by rw [hf]; decide)
  rw [h, hr]
  simp only [harakaHash, Bool.false_eq_true, if_false, one_block hP h1 hin, ← e]
  split
  · rename_i hb1
    rw [zeroPad, List.length_append, ha, hin, hb1, Nat.one_mul, show 64 - (32 + P.n) = 32 - P.n by omega]
  · rfl

/-- C30 for Haraka, robust: one block is masked with Haraka-256 of the address, several blocks with the sponge. -/
theorem C30_thash_haraka_robust (hf : P.fam = .haraka) (hr : P.robust = true) :
    (implOf P g).thash inp blocks ctx ad = .ok
      (if blocks = 1 then
        (Spec.Haraka.haraka512 (Spec.Haraka.rcTweak ctx.pub_seed)
          (ad ++ xorBytes inp (Spec.Haraka.haraka256 (Spec.Haraka.rcTweak ctx.pub_seed) ad) ++
            List.replicate (32 - P.n) 0#8)).take P.n
      else Spec.Haraka.harakaS (Spec.Haraka.rcTweak ctx.pub_seed)
          (ad ++ xorBytes inp (Spec.Haraka.harakaS (Spec.Haraka.rcTweak ctx.pub_seed) ad inp.length)) P.n) := by
  obtain ⟨a, he⟩ := exists_encodes P.fam ha
  have h := C30_thash hP hc he h1 (Nat.le_of_eq hin.symm) hb
  rw [List.take_of_length_le (Nat.le_of_eq hin), show specHash P = harakaHash P.n P.robust by
    unfold specHash; rw [hf]] at h
  have e := he.eq32 (by rw [hf]; decide)
  rw [h, hr]
  simp only [harakaHash, if_true, one_block hP h1 hin, ← e]
  split
  · rename_i hb1
    have hn := shipped_n hP
    have hl : (xorBytes inp (Spec.Haraka.haraka256 (Spec.Haraka.rcTweak ctx.pub_seed) ad)).length = P.n := by
      rw [xorBytes, List.length_zipWith, haraka256_length (rcTweak_length _) ha, hin, hb1]
      omega
    rw [zeroPad, List.length_append, ha, hl, show 64 - (32 + P.n) = 32 - P.n by omega]
  · rfl

end

section
variable (hP : P ∈ shipped) (hc : ctx.Ready P g) {ad : Addr} (ha : ad.length = 32)
include hP hc ha

/-- C30 for the SHA-2 pseudorandom function. -/
theorem C30_prf_addr_sha2 (hf : P.fam = .sha2) :
    (implOf P g).prf_addr ctx ad =
      .ok ((Spec.Sha2.sha256 (ctx.pub_seed ++ List.replicate (64 - P.n) 0 ++ ad.take 22 ++ ctx.sk_seed)).take P.n) := by
  obtain ⟨a, he⟩ := exists_encodes P.fam ha
  have h := C30_prf_addr hP hc he
  rw [show specHash P = sha2Hash P.n P.robust by unfold specHash; rw [hf]] at h
  rw [h, he.take hf]
  simp only [sha2Hash, blockPad, hc.pub_len]
  rfl

/-- C30 for the SHAKE pseudorandom function. -/
theorem C30_prf_addr_shake (hf : P.fam = .shake) :
    (implOf P g).prf_addr ctx ad = .ok (Keccak.shake256 (ctx.pub_seed ++ ad ++ ctx.sk_seed) P.n) := by
  obtain ⟨a, he⟩ := exists_encodes P.fam ha
  have h := C30_prf_addr hP hc he
  rw [show specHash P = shakeHash P.n P.robust by unfold specHash; rw [hf]] at h
  rw [h, he.eq32 (by rw [hf]; decide)]
  rfl

/-- C30 for the Haraka pseudorandom function. -/
theorem C30_prf_addr_haraka (hf : P.fam = .haraka) :
    (implOf P g).prf_addr ctx ad = .ok ((Spec.Haraka.haraka512 (Spec.Haraka.rcTweak ctx.pub_seed)
      (ad ++ ctx.sk_seed ++ List.replicate (32 - P.n) 0#8)).take P.n) := by
  obtain ⟨a, he⟩ := exists_encodes P.fam ha
  have h := C30_prf_addr hP hc he
  rw [show specHash P = harakaHash P.n P.robust by unfold specHash; rw [hf]] at h
  have e := he.eq32 (by rw [hf]; decide)
  rw [h]
  simp only [harakaHash, ← e]
  rw [zeroPad, List.length_append, ha, hc.sk_len, show 64 - (32 + P.n) = 32 - P.n by omega]

end

/-- C31: `gen_message_random` is the message PRF of the family, for messages of every length, so on
both sides of the block-length branch of the SHA-2 code. -/
theorem C31_gen_message_random (hP : P ∈ shipped) (hc : ctx.Ready P g) {skPrf optrand m : Bytes}
    (hk : P.n ≤ skPrf.length) (ho : P.n ≤ optrand.length) (hm : m.length < 2 ^ 60) :
    (implOf P g).gen_message_random skPrf optrand m ctx =
      .ok ((specHash P).PRFmsg ctx.pub_seed (skPrf.take P.n) (optrand.take P.n) m) :=
  (shippedRefines hP g).genR _ _ _ _ (hc.ctxOK hP fun _ _ => 0) hk ho hm

/-- C31 for SHA-2: HMAC with SHA-256 for `n = 16` and SHA-512 above. -/
theorem C31_gen_message_random_sha2 (hP : P ∈ shipped) (hf : P.fam = .sha2) (hc : ctx.Ready P g)
    {skPrf optrand m : Bytes} (hk : skPrf.length = P.n) (ho : optrand.length = P.n) (hm : m.length < 2 ^ 60) :
    (implOf P g).gen_message_random skPrf optrand m ctx = .ok
      ((Spec.Sha2.hmac (if P.n = 16 then Spec.Sha2.alg256 else Spec.Sha2.alg512) skPrf (optrand ++ m)).take P.n) := by
  have h := C31_gen_message_random hP hc (Nat.le_of_eq hk.symm) (Nat.le_of_eq ho.symm) hm
  rw [List.take_of_length_le (Nat.le_of_eq hk), List.take_of_length_le (Nat.le_of_eq ho),
    show specHash P = sha2Hash P.n P.robust by unfold specHash; rw [hf]] at h
  rw [h]
  have hn : P.n = 16 ∨ P.n = 24 ∨ P.n = 32 := shipped_n_cases hP
  rcases hn with e | e | e <;> simp only [sha2Hash, e] <;> rfl

/-- C31 for SHAKE. -/
theorem C31_gen_message_random_shake (hP : P ∈ shipped) (hf : P.fam = .shake) (hc : ctx.Ready P g)
    {skPrf optrand m : Bytes} (hk : skPrf.length = P.n) (ho : optrand.length = P.n) (hm : m.length < 2 ^ 60) :
    (implOf P g).gen_message_random skPrf optrand m ctx = .ok (Keccak.shake256 (skPrf ++ optrand ++ m) P.n) := by
  have h := C31_gen_message_random hP hc (Nat.le_of_eq hk.symm) (Nat.le_of_eq ho.symm) hm
  rw [List.take_of_length_le (Nat.le_of_eq hk), List.take_of_length_le (Nat.le_of_eq ho),
    show specHash P = shakeHash P.n P.robust by unfold specHash; rw [hf]] at h
  exact h

/-- C31 for Haraka: the sponge with the constants tweaked by the public seed. -/
theorem C31_gen_message_random_haraka (hP : P ∈ shipped) (hf : P.fam = .haraka) (hc : ctx.Ready P g)
    {skPrf optrand m : Bytes} (hk : skPrf.length = P.n) (ho : optrand.length = P.n) (hm : m.length < 2 ^ 60) :
    (implOf P g).gen_message_random skPrf optrand m ctx =
      .ok (Spec.Haraka.harakaS (Spec.Haraka.rcTweak ctx.pub_seed) (skPrf ++ optrand ++ m) P.n) := by
  have h := C31_gen_message_random hP hc (Nat.le_of_eq hk.symm) (Nat.le_of_eq ho.symm) hm
  rw [List.take_of_length_le (Nat.le_of_eq hk), List.take_of_length_le (Nat.le_of_eq ho),
    show specHash P = harakaHash P.n P.robust by unfold specHash; rw [hf]] at h
  exact h

/-- C32: `hash_message` hashes with the family's message hash and splits the digest into the FORS
digest, the tree index and the leaf index. -/
theorem C32_hash_message (hP : P ∈ shipped) (hc : ctx.Ready P g) {R root m : Bytes}
    (hR : R.length = P.n) (hr : root.length = P.n) (hm : m.length < 2 ^ 60) :
    (implOf P g).hash_message R (ctx.pub_seed ++ root) m ctx =
      .ok (splitDigest P.toSpec ((specHash P).Hmsg R ctx.pub_seed root m (digestBytes P.toSpec))) := by
  have hl := hc.pub_len
  have h := (shippedRefines hP g).hmsg ctx R (ctx.pub_seed ++ root) m
    (hc.ctxOK hP fun _ _ => 0) (Nat.le_of_eq hR.symm) (by simp only [List.length_append]; omega)
    (by rw [← hl]; exact List.take_left) hm
  rw [List.take_of_length_le (Nat.le_of_eq hR)] at h
  rw [show ((ctx.pub_seed ++ root).drop P.n).take P.n = root by
    rw [← hl, List.drop_left, List.take_of_length_le (by omega)]] at h
  exact h

/-- C32 for SHA-2: MGF1 over `R`, the public seed and the hash of everything. -/
theorem C32_hash_message_sha2 (hP : P ∈ shipped) (hf : P.fam = .sha2) (hc : ctx.Ready P g) {R root m : Bytes}
    (hR : R.length = P.n) (hr : root.length = P.n) (hm : m.length < 2 ^ 60) :
    (implOf P g).hash_message R (ctx.pub_seed ++ root) m ctx = .ok
      (splitDigest P.toSpec
        (let A := if P.n = 16 then Spec.Sha2.alg256 else Spec.Sha2.alg512
         Spec.Sha2.mgf1 A (R ++ ctx.pub_seed ++ Spec.Sha2.hash A (R ++ ctx.pub_seed ++ root ++ m))
          (digestBytes P.toSpec))) := by
  have h := C32_hash_message hP hc hR hr hm
  rw [show specHash P = sha2Hash P.n P.robust by unfold specHash; rw [hf]] at h
  rw [h]
  have hn : P.n = 16 ∨ P.n = 24 ∨ P.n = 32 := shipped_n_cases hP
  rcases hn with e | e | e <;> simp only [sha2Hash, e] <;> rfl

/-- C32 for SHAKE. -/
theorem C32_hash_message_shake (hP : P ∈ shipped) (hf : P.fam = .shake) (hc : ctx.Ready P g) {R root m : Bytes}
    (hR : R.length = P.n) (hr : root.length = P.n) (hm : m.length < 2 ^ 60) :
    (implOf P g).hash_message R (ctx.pub_seed ++ root) m ctx =
      .ok (splitDigest P.toSpec
        (Keccak.shake256 (R ++ ctx.pub_seed ++ root ++ m) (digestBytes P.toSpec))) := by
  have h := C32_hash_message hP hc hR hr hm
  rw [show specHash P = shakeHash P.n P.robust by unfold specHash; rw [hf]] at h
  exact h

/-- C32 for Haraka: `R`, root and message; the public seed enters through the constants. -/
theorem C32_hash_message_haraka (hP : P ∈ shipped) (hf : P.fam = .haraka) (hc : ctx.Ready P g) {R root m : Bytes}
    (hR : R.length = P.n) (hr : root.length = P.n) (hm : m.length < 2 ^ 60) :
    (implOf P g).hash_message R (ctx.pub_seed ++ root) m ctx =
      .ok (splitDigest P.toSpec
        (Spec.Haraka.harakaS (Spec.Haraka.rcTweak ctx.pub_seed) (R ++ root ++ m) (digestBytes P.toSpec))) := by
  have h := C32_hash_message hP hc hR hr hm
  rw [show specHash P = harakaHash P.n P.robust by unfold specHash; rw [hf]] at h
  exact h

/-- The hypotheses can be met: every shipped parameter set has a ready context with seeds of one's
choice, for which the theorems above speak about an address, an input of two blocks and messages of
1 and 1000 bytes. -/
example (hP : P ∈ shipped) :
    ∃ ctx : Ctx, ctx.Ready P g ∧ ctx.pub_seed = List.replicate P.n 7 ∧
      (implOf P g).thash (List.replicate (2 * P.n) 5) 2 ctx (enc P.fam ⟨1, 2 ^ 40, 2, 0, 3, 9⟩) =
        .ok ((specHash P).T (List.replicate P.n 7) ⟨1, 2 ^ 40, 2, 0, 3, 9⟩ (List.replicate (2 * P.n) 5)) ∧
      (∀ k ∈ [1, 1000], ∃ md tree leaf, (implOf P g).hash_message (List.replicate P.n 1)
        (List.replicate P.n 7 ++ List.replicate P.n 3) (List.replicate k 8) ctx = .ok (md, tree, leaf)) := by
  obtain ⟨ctx, -, hc, h1, h2⟩ := (Ctx.zeroed_sized (P := P) (pub := List.replicate P.n 7)
    (sk := List.replicate P.n 9) (by simp) (by simp)).ready hP g
  have hpub : ctx.pub_seed = List.replicate P.n 7 := h1
  refine ⟨ctx, hc, hpub, ?_, ?_⟩
  · have h := C30_thash hP hc (a := ⟨1, 2 ^ 40, 2, 0, 3, 9⟩) (encodes_enc P.fam _)
      (inp := List.replicate (2 * P.n) 5) (blocks := 2) (by decide) (by simp) (two_n_small hP)
    rw [hpub, List.take_of_length_le (by simp)] at h
    exact h
  · intro k hk
    have hk' : k ≤ 1000 := by
      simp only [List.mem_cons, List.not_mem_nil, or_false] at hk
      omega
    have h := C32_hash_message hP hc (R := List.replicate P.n 1) (root := List.replicate P.n 3)
      (m := List.replicate k 8) (by simp) (by simp) (by simp; omega)
    rw [hpub] at h
    exact ⟨_, _, _, h⟩

/-- Address buffers with arbitrary contents, every byte set. -/
example : ∃ ctx : Ctx, ctx.pub_seed = List.replicate 16 7 ∧
    (implOf (sha2_128s true) g).thash (List.replicate 16 5) 1 ctx (List.replicate 32 0xfe) =
      .ok ((Spec.Sha2.sha256 (List.replicate 16 7 ++ List.replicate 48 0 ++ List.replicate 22 0xfe ++
        xorBytes (List.replicate 16 5)
          (Spec.Sha2.mgf1 Spec.Sha2.alg256 (List.replicate 16 7 ++ List.replicate 22 0xfe) 16))).take 16) := by
  obtain ⟨ctx, -, hc, h1, -⟩ := (Ctx.zeroed_sized (P := sha2_128s true) (pub := List.replicate 16 7)
    (sk := List.replicate 16 9) (by simp [sha2_128s]) (by simp [sha2_128s])).ready (by decide) g
  have hpub : ctx.pub_seed = List.replicate 16 7 := h1
  have h := C30_thash_sha2_robust (P := sha2_128s true) (by decide) hc (ad := List.replicate 32 0xfe) (by simp)
    (inp := List.replicate 16 5) (blocks := 1) (by decide) (by simp [sha2_128s]) (by decide) rfl rfl
  rw [if_neg (by decide), hpub] at h
  exact ⟨ctx, hpub, h⟩

example : ∃ ctx : Ctx, ctx.pub_seed = List.replicate 24 7 ∧
    (implOf (haraka_192f true) g).thash (List.replicate 72 5) 3 ctx (List.replicate 32 0xfe) =
      .ok (Spec.Haraka.harakaS (Spec.Haraka.rcTweak (List.replicate 24 7)) (List.replicate 32 0xfe ++
        xorBytes (List.replicate 72 5)
          (Spec.Haraka.harakaS (Spec.Haraka.rcTweak (List.replicate 24 7)) (List.replicate 32 0xfe) 72)) 24) := by
  obtain ⟨ctx, -, hc, h1, -⟩ := (Ctx.zeroed_sized (P := haraka_192f true) (pub := List.replicate 24 7)
    (sk := List.replicate 24 9) (by simp [haraka_192f]) (by simp [haraka_192f])).ready (by decide) g
  have hpub : ctx.pub_seed = List.replicate 24 7 := h1
  have h := C30_thash_haraka_robust (P := haraka_192f true) (by decide) hc (ad := List.replicate 32 0xfe) (by simp)
    (inp := List.replicate 72 5) (blocks := 3) (by decide) (by simp [haraka_192f]) (by decide) rfl rfl
  rw [if_neg (by decide), hpub] at h
  exact ⟨ctx, hpub, h⟩

end Spx
