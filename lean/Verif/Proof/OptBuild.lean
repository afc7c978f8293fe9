import Verif.Proof.Parallel
import Verif.Proof.Api
/-! A build whose hash functions refine the specification behaves as the reference build. -/

namespace Spx
open Spec Mem

/-- The entry points of the library of the optimised build `E` do what the entry points of the
reference build for `P` do: same keys, signatures, verdicts, and memory, or the same error.  `G'`, `g` are
the contents of uninitialised memory in the reference. -/
structure SameScheme (P : Params) (E : EnvX) (G' g : Nat → Nat → Byte) : Prop where
  keypair : ∀ {pk0 sk0 seed : Bytes}, P.pkBytes ≤ pk0.length → P.skBytes ≤ sk0.length →
    seed.length = P.seedBytes →
    ∃ r, crypto_sign_seed_keypairT E.toEnv (parCode E) pk0 sk0 seed = .ok r ∧
      crypto_sign_seed_keypair (build P G' g) pk0 sk0 seed = .ok r
  signature : ∀ {sig0 m sk optrand : Bytes}, sk.length = P.skBytes → m.length < 2 ^ 60 →
    optrand.length = P.n → P.spxBytes ≤ sig0.length →
    ∃ r, crypto_sign_signatureT E.toEnv (parCode E) sig0 m sk optrand = .ok r ∧
      crypto_sign_signature (build P G' g) sig0 m sk optrand = .ok r
  verify : ∀ {sig m pk : Bytes}, pk.length = P.pkBytes → m.length < 2 ^ 60 →
    ∃ r, crypto_sign_verifyT E.toEnv (parCode E) sig sig.length m pk = .ok r ∧
      crypto_sign_verify (build P G' g) sig sig.length m pk = .ok r
  crypto_sign : ∀ {M : Mem} {psm pm mlen psk : Nat} {optrand : Bytes}, M.Alloc psk P.skBytes →
    M.Alloc pm mlen → M.Alloc psm (P.spxBytes + mlen) → Disj psm P.n psk P.skBytes → mlen < 2 ^ 60 →
    optrand.length = P.n →
    ∃ r, crypto_signT E.toEnv (parCode E) M psm pm mlen psk optrand = .ok r ∧
      Spx.crypto_sign (build P G' g) M psm pm mlen psk optrand = .ok r
  crypto_sign_open : ∀ {M : Mem} {pm psm smlen ppk : Nat}, M.Alloc psm smlen → M.Alloc ppk P.pkBytes →
    smlen < 2 ^ 60 →
    crypto_sign_openT E.toEnv (parCode E) M pm psm smlen ppk =
      Spx.crypto_sign_open (build P G' g) M pm psm smlen ppk

section
variable {P : Params} {H1 H2 : HashImpl} {G1 G2 : Nat → Nat → Byte} {S : Spec.Hash} (R1 : Refines P H1 S)
  (R2 : Refines P H2 S) (hP : P.Valid) {T : TreeCode} (hT : TreeCodeOK (E := ⟨P, H1, G1⟩) R1 T)
include R1 R2 hP hT

theorem sign_mem_two {M : Mem} {psig pm mlen psk : Nat} {optrand : Bytes}
    (hsk : M.Alloc psk P.skBytes) (hm : M.Alloc pm mlen)
    (hal : M.Alloc psig P.spxBytes) (hdk : Disj psig P.n psk P.skBytes)
    (hml : mlen < 2 ^ 60) (hopt : P.n ≤ optrand.length) :
    crypto_sign_signature_memT ⟨P, H1, G1⟩ T M psig pm mlen psk optrand =
      crypto_sign_signature_mem ⟨P, H2, G2⟩ M psig pm mlen psk optrand := by
  obtain ⟨sk, hsk, hskl⟩ := rd_of_alloc hsk
  obtain ⟨m, hm, _⟩ := rd_of_alloc hm
  have hs := spxBytes_eq hP
  have hnl := R1.PRFmsg_len ((sk.drop (2 * P.n)).take P.n) ((sk.drop P.n).take P.n) (optrand.take P.n) m
  generalize hRv : S.PRFmsg ((sk.drop (2 * P.n)).take P.n) ((sk.drop P.n).take P.n) (optrand.take P.n) m = Rv at hnl
  obtain ⟨M1, e1, r1, s1⟩ := wr_of_alloc (M := M) (p := psig) (d := Rv)
    (alloc_sub hal (Nat.le_refl _) (by omega))
  rw [hnl] at r1 s1
  obtain ⟨m2, hm2, _⟩ := rd_of_alloc (s1.alloc r1 (alloc_of_rd hm))
  have hh : ∀ M1 : Mem, M.SameOutside M1 psig P.n → M1.rd psig P.n = .ok (S.PRFmsg ((sk.drop (2 * P.n)).take P.n)
      ((sk.drop P.n).take P.n) (optrand.take P.n) m) → M1.rd pm mlen = .ok m2 := fun M1' h1 h2 => by
    rw [hRv] at h2
    rw [SameOutside.unique h1 s1 h2 r1, hm2]
  obtain ⟨M', e, hr, hs⟩ := sign_mem_coreT (E := ⟨P, H1, G1⟩) R1 hP hsk hm hal hdk hh hml hopt
  obtain ⟨M'', e', hr', hs'⟩ := sign_mem_coreT (E := ⟨P, H2, G2⟩) R2 hP hsk hm hal hdk hh hml hopt
  rw [e T hT, crypto_sign_signature_mem, e' _ (refCode_ok (E := ⟨P, H2, G2⟩) R2 hP), SameOutside.unique hs hs' hr hr']

theorem verify_mem_two {M : Mem} {psig siglen pm mlen ppk : Nat}
    (hsig : M.Alloc psig P.spxBytes) (hm : M.Alloc pm mlen) (hpk : M.Alloc ppk P.pkBytes)
    (hml : mlen < 2 ^ 60) :
    crypto_sign_verify_memT ⟨P, H1, G1⟩ T M psig siglen pm mlen ppk =
      crypto_sign_verify_mem ⟨P, H2, G2⟩ M psig siglen pm mlen ppk := by
  unfold crypto_sign_verify_mem crypto_sign_verify_memT
  by_cases h : siglen = P.spxBytes
  · obtain ⟨sig, r1, h1⟩ := rd_of_alloc hsig
    obtain ⟨m, r2, h2⟩ := rd_of_alloc hm
    obtain ⟨pk, r3, h3⟩ := rd_of_alloc hpk
    rw [if_neg (by simp [h]), if_neg (by simp [h]), r1, r2, r3, h]
    simp only [ok_bind]
    refine (crypto_sign_verifyT_spec (E := ⟨P, H1, G1⟩) R1 hP hT (Nat.le_of_eq h3.symm) (by omega) (Nat.le_of_eq h1.symm)).trans ?_
    exact (crypto_sign_verify_spec (E := ⟨P, H2, G2⟩) R2 hP (Nat.le_of_eq h3.symm) (by omega) (Nat.le_of_eq h1.symm)).symm
  · rw [if_pos h, if_pos h]

end

variable {P : Params} (hP : P ∈ shipped) {H : HashImpl} {lg : Nat} {X : LaneHash} {G : Nat → Nat → Byte}
  (h1 : 1 ≤ lg) (h3 : lg ≤ 3)

include hP h1 h3 in
theorem sameScheme (R : Refines P H (specHash P)) (RX : LaneRefines (optBuild P H lg X G) R) (G' g : Nat → Nat → Byte) :
    SameScheme P (optBuild P H lg X G) G' g := by
  have hv := shipped_valid hP
  have h := shipped_heights hP
  have hT : TreeCodeOK (E := ⟨P, H, G⟩) R (parCode (optBuild P H lg X G)) :=
    parCode_ok RX hv h1 (Nat.le_trans h3 h.1) (Nat.le_trans h3 h.2.1)
      (by have h4 := h.2.2
          show P.treeHeight + lg < 32
          omega)
  refine ⟨?_, ?_, ?_, ?_, ?_⟩
  · intro pk0 sk0 seed hpk hsk hseed
    exact ⟨_, crypto_sign_seed_keypairT_spec R hv hT hpk hsk (Nat.le_of_eq hseed.symm),
      crypto_sign_seed_keypair_spec (readyRefines hP G' g) hv hpk hsk (Nat.le_of_eq hseed.symm)⟩
  · intro sig0 m sk optrand hsk hm hopt hsig
    exact ⟨_, crypto_sign_signatureT_spec R hv hT (Nat.le_of_eq hsk.symm) hm (Nat.le_of_eq hopt.symm) hsig,
      crypto_sign_signature_spec (readyRefines hP G' g) hv (Nat.le_of_eq hsk.symm) hm (Nat.le_of_eq hopt.symm) hsig⟩
  · intro sig m pk hpk hm
    by_cases hl : sig.length = P.spxBytes
    · rw [hl]
      exact ⟨_, crypto_sign_verifyT_spec R hv hT (Nat.le_of_eq hpk.symm) hm (Nat.le_of_eq hl.symm),
        crypto_sign_verify_spec (readyRefines hP G' g) hv (Nat.le_of_eq hpk.symm) hm (Nat.le_of_eq hl.symm)⟩
    · refine ⟨-1, ?_, ?_⟩
      · unfold crypto_sign_verifyT
        exact if_pos hl
      · unfold crypto_sign_verify crypto_sign_verifyT
        exact if_pos hl
  · intro M psm pm mlen psk optrand hsk hm hal hdk hml hopt
    obtain ⟨M', out, e, -⟩ := ship_crypto_sign_any hP G' g hsk hm hal hdk hml hopt
    refine ⟨_, ?_, e⟩
    have e2 := sign_mem_two (G1 := G) (G2 := G') R (readyRefines hP G' g) hv hT hsk hm
      (alloc_sub hal (Nat.le_refl _) (Nat.add_le_add_left (Nat.le_add_right _ _) _)) hdk hml (Nat.le_of_eq hopt.symm)
    rw [← e]
    unfold crypto_sign crypto_signT
    rw [← crypto_sign_signature_mem]
    show (do
      let (M, siglen, _) ← crypto_sign_signature_memT ⟨P, H, G⟩ (parCode (optBuild P H lg X G)) M psm pm mlen psk optrand
      let M ← M.memmove (psm + P.spxBytes) pm mlen
      Except.ok (M, (siglen + mlen) % 2 ^ 64, (0 : Int))) = _
    rw [e2]
    rfl
  · intro M pm psm smlen ppk hsm hpk hml
    unfold crypto_sign_open crypto_sign_openT
    show (if smlen < P.spxBytes then _ else _) = (if smlen < P.spxBytes then _ else _)
    by_cases h : smlen < P.spxBytes
    · rw [if_pos h, if_pos h]
    · rw [if_neg h, if_neg h]
      have e2 := verify_mem_two (G1 := G) (G2 := G') R (readyRefines hP G' g) hv hT
        (M := M) (psig := psm) (siglen := P.spxBytes) (pm := psm + P.spxBytes)
        (mlen := smlen - P.spxBytes) (ppk := ppk) (alloc_sub hsm (Nat.le_refl _) (by omega))
        (alloc_sub hsm (by omega) (by omega)) hpk (by omega)
      simp only
      rw [← crypto_sign_verify_mem]
      show (do
        let r ← crypto_sign_verify_memT ⟨P, H, G⟩ (parCode (optBuild P H lg X G)) M psm P.spxBytes (psm + P.spxBytes)
          (smlen - P.spxBytes) ppk
        if r ≠ 0 then
          let M ← M.memzero pm smlen
          .ok (M, 0, -1)
        else
          let M ← M.memmove pm (psm + P.spxBytes) (smlen - P.spxBytes)
          .ok (M, smlen - P.spxBytes, 0)) = _
      rw [e2]
      rfl

end Spx
