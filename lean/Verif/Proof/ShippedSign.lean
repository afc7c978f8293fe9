import Verif.Proof.Shipped
import Verif.Proof.Api
/-! The scheme-level theorems for the shipped parameter sets. -/

namespace Spx
open Spec Mem

theorem toSpec_n (P : Params) : P.toSpec.n = P.n := rfl

theorem shipped_sizes {P : Params} (h : P ∈ shipped) : P.spxBytes < 2 ^ 60 ∧ P.n + P.dgstBytes < P.spxBytes := by
  revert P
  decide +kernel

section
variable {P : Params} (hP : P ∈ shipped)
include hP

theorem shipped_len : HashLen P.toSpec.n (specHash P) := (shippedRefines hP (fun _ _ => 0)).hashLen

theorem shipped_d : 1 ≤ P.toSpec.d := (shipped_valid hP).d_pos

theorem ship_root_len (pub sk : Bytes) (l t : Nat) :
    (xmssRoot P.toSpec (specHash P) pub sk l t).length = P.n :=
  node_length' (fun _ _ _ _ => (shipped_len hP).T ..) (fun _ => (shipped_len hP).T ..) _ _

theorem ship_skOf_len {seed : Bytes} (h : seed.length = P.seedBytes) :
    (skOf P.toSpec (specHash P) seed).length = P.skBytes := by
  have h3 : seed.length = 3 * P.n := h
  unfold skOf
  rw [List.length_append, ship_root_len hP, h3]
  show _ = 2 * P.n + 2 * P.n
  omega

theorem ship_pkOf_len {seed : Bytes} (h : seed.length = P.seedBytes) :
    (pkOf P.toSpec (specHash P) seed).length = P.pkBytes := by
  have h3 : seed.length = 3 * P.n := h
  unfold pkOf
  rw [List.length_append, ship_root_len hP, toSpec_n]
  show _ = 2 * P.n
  simp; omega

theorem ship_sign_len (sk optrand m : Bytes) :
    (Spec.sign P.toSpec (specHash P) sk optrand m).length = P.spxBytes :=
  signWith_length (buildRefines hP (fun _ _ => 0) (fun _ _ => 0)) (shipped_valid hP) (m1 := m) (m2 := m)

theorem ship_keypair (G g : Nat → Nat → Byte) {pk0 sk0 seed : Bytes} (hpk : P.pkBytes ≤ pk0.length)
    (hsk : P.skBytes ≤ sk0.length) (hseed : seed.length = P.seedBytes) :
    crypto_sign_seed_keypair (build P G g) pk0 sk0 seed =
      .ok (pkOf P.toSpec (specHash P) seed ++ pk0.drop P.pkBytes,
        skOf P.toSpec (specHash P) seed ++ sk0.drop P.skBytes) := by
  have e := crypto_sign_seed_keypair_spec (buildRefines hP G g) (shipped_valid hP) hpk hsk
    (Nat.le_of_eq hseed.symm)
  have ht : seed.take (build P G g).P.seedBytes = seed := List.take_of_length_le (Nat.le_of_eq hseed)
  rw [ht] at e
  exact e

theorem ship_sign (G g : Nat → Nat → Byte) {sig0 m sk optrand : Bytes} (hsk : sk.length = P.skBytes)
    (hm : m.length < 2 ^ 60) (hopt : optrand.length = P.n) (hsig : P.spxBytes ≤ sig0.length) :
    crypto_sign_signature (build P G g) sig0 m sk optrand =
      .ok (Spec.sign P.toSpec (specHash P) sk optrand m ++ sig0.drop P.spxBytes, P.spxBytes) := by
  have e := crypto_sign_signature_spec (buildRefines hP G g) (shipped_valid hP) (Nat.le_of_eq hsk.symm) hm
    (Nat.le_of_eq hopt.symm) hsig
  have ht : optrand.take (build P G g).P.n = optrand := List.take_of_length_le (Nat.le_of_eq hopt)
  rw [ht] at e
  exact e

theorem ship_verify (G g : Nat → Nat → Byte) {sig m pk : Bytes} (hpk : pk.length = P.pkBytes)
    (hm : m.length < 2 ^ 60) (hsig : sig.length = P.spxBytes) :
    crypto_sign_verify (build P G g) sig P.spxBytes m pk =
      .ok (if verify P.toSpec (specHash P) pk m sig then 0 else -1) :=
  crypto_sign_verify_spec (buildRefines hP G g) (shipped_valid hP) (Nat.le_of_eq hpk.symm) hm
    (Nat.le_of_eq hsig.symm)

theorem ship_correct {seed : Bytes} (h : seed.length = P.seedBytes) (optrand m : Bytes) :
    verify P.toSpec (specHash P) (pkOf P.toSpec (specHash P) seed) m
      (Spec.sign P.toSpec (specHash P) (skOf P.toSpec (specHash P) seed) optrand m) = true := by
  have hv := spec_correct (shipped_len hP) (p := P.toSpec) (shipped_d hP) (seed := seed) (optrand := optrand)
    (m := m) (rest := []) h
  rwa [List.append_nil] at hv

theorem ship_sign_mem (G g : Nat → Nat → Byte) {M : Mem} {psig pm mlen psk : Nat} {sk optrand m : Bytes}
    (hsk : M.rd psk P.skBytes = .ok sk) (hm : M.rd pm mlen = .ok m)
    (hal : M.Alloc psig P.spxBytes) (hdk : Disj psig P.n psk P.skBytes)
    (hdm : Disj psig P.n pm mlen) (hml : mlen < 2 ^ 60) (hopt : optrand.length = P.n) :
    ∃ M', crypto_sign_signature_mem (build P G g) M psig pm mlen psk optrand = .ok (M', P.spxBytes, 0) ∧
      M'.rd psig P.spxBytes = .ok (Spec.sign P.toSpec (specHash P) sk optrand m) ∧
      M.SameOutside M' psig P.spxBytes := by
  have e := sign_mem_spec (buildRefines hP G g) (shipped_valid hP) hsk hm hal hdk hdm hml (Nat.le_of_eq hopt.symm)
  have ht : optrand.take (build P G g).P.n = optrand := List.take_of_length_le (Nat.le_of_eq hopt)
  rw [ht] at e
  exact e

/-- Signing whatever the placement of the message. -/
theorem ship_sign_mem_any (G g : Nat → Nat → Byte) {M : Mem} {psig pm mlen psk : Nat} {optrand : Bytes}
    (hsk : M.Alloc psk P.skBytes) (hm : M.Alloc pm mlen)
    (hal : M.Alloc psig P.spxBytes) (hdk : Disj psig P.n psk P.skBytes)
    (hml : mlen < 2 ^ 60) (hopt : optrand.length = P.n) :
    ∃ M' out, crypto_sign_signature_mem (build P G g) M psig pm mlen psk optrand = .ok (M', P.spxBytes, 0) ∧
      M'.rd psig P.spxBytes = .ok out ∧ M.SameOutside M' psig P.spxBytes := by
  obtain ⟨sk, hsk, hskl⟩ := rd_of_alloc hsk
  obtain ⟨m, hm, _⟩ := rd_of_alloc hm
  have hs := spxBytes_eq (shipped_valid hP)
  have hnl := (shippedRefines hP g).PRFmsg_len ((sk.drop (2 * P.n)).take P.n) ((sk.drop P.n).take P.n)
    (optrand.take P.n) m
  generalize hRv : (specHash P).PRFmsg ((sk.drop (2 * P.n)).take P.n) ((sk.drop P.n).take P.n)
    (optrand.take P.n) m = Rv at hnl
  obtain ⟨M1, e1, r1, s1⟩ := wr_of_alloc (M := M) (p := psig) (d := Rv)
    (alloc_sub hal (Nat.le_refl _) (by omega))
  rw [hnl] at r1 s1
  obtain ⟨m2, hm2, _⟩ := rd_of_alloc (s1.alloc r1 (alloc_of_rd hm))
  obtain ⟨M', e, hr, hs⟩ := sign_mem_core (buildRefines hP G g) (shipped_valid hP) hsk hm hal hdk (m2 := m2)
    (fun M1' h1 h2 => by
      change M1'.rd psig P.n = .ok ((specHash P).PRFmsg ((sk.drop (2 * P.n)).take P.n) ((sk.drop P.n).take P.n)
        (optrand.take P.n) m) at h2
      rw [hRv] at h2
      rw [SameOutside.unique h1 s1 h2 r1, hm2])
    hml (Nat.le_of_eq hopt.symm)
  exact ⟨M', _, e, hr, hs⟩

/-- `crypto_sign` whatever the placement of the message. -/
theorem ship_crypto_sign_any (G g : Nat → Nat → Byte) {M : Mem} {psm pm mlen psk : Nat} {optrand : Bytes}
    (hsk : M.Alloc psk P.skBytes) (hm : M.Alloc pm mlen)
    (hal : M.Alloc psm (P.spxBytes + mlen)) (hdk : Disj psm P.n psk P.skBytes)
    (hml : mlen < 2 ^ 60) (hopt : optrand.length = P.n) :
    ∃ M' out, crypto_sign (build P G g) M psm pm mlen psk optrand = .ok (M', P.spxBytes + mlen, 0) ∧
      M'.rd psm (P.spxBytes + mlen) = .ok out ∧ M.SameOutside M' psm (P.spxBytes + mlen) := by
  obtain ⟨M1, o1, e1, r1, s1⟩ := ship_sign_mem_any hP G g hsk hm
    (alloc_sub hal (Nat.le_refl _) (by omega)) hdk hml hopt
  obtain ⟨m1, hm1, hl1⟩ := rd_of_alloc (s1.alloc r1 hm)
  obtain ⟨M2, e2, r2, s2⟩ := wr_of_alloc (M := M1) (p := psm + P.spxBytes) (d := m1)
    (alloc_sub (s1.alloc r1 hal) (by omega) (by omega))
  rw [hl1] at r2 s2
  have hsz := (shipped_sizes hP).1
  refine ⟨M2, o1 ++ m1, ?_, rd_append (by rw [rd_frame s2 (Or.inr (by omega)), r1]) r2,
    s1.trans s2 (by omega) (by omega)⟩
  unfold crypto_sign crypto_signT
  rw [← crypto_sign_signature_mem, e1]
  simp only [ok_bind]
  unfold memmove
  rw [hm1]
  simp only [ok_bind]
  change (do let M ← M1.wr (psm + P.spxBytes) m1; Except.ok (M, (P.spxBytes + mlen) % 2 ^ 64, (0 : Int))) = _
  rw [e2]
  simp only [ok_bind]
  rw [Nat.mod_eq_of_lt (by omega)]

theorem ship_verify_mem (G g : Nat → Nat → Byte) {M : Mem} {psig pm mlen ppk : Nat} {sig m pk : Bytes}
    (hsig : M.rd psig P.spxBytes = .ok sig) (hm : M.rd pm mlen = .ok m) (hpk : M.rd ppk P.pkBytes = .ok pk)
    (hml : mlen < 2 ^ 60) :
    crypto_sign_verify_mem (build P G g) M psig P.spxBytes pm mlen ppk =
      .ok (if verify P.toSpec (specHash P) pk m sig then 0 else -1) :=
  verify_mem_spec (buildRefines hP G g) (shipped_valid hP) hsig hm hpk hml

theorem ship_crypto_sign (G g : Nat → Nat → Byte) {M : Mem} {psm pm mlen psk : Nat} {sk optrand m : Bytes}
    (hsk : M.rd psk P.skBytes = .ok sk) (hm : M.rd pm mlen = .ok m)
    (hal : M.Alloc psm (P.spxBytes + mlen)) (hdk : Disj psm P.n psk P.skBytes)
    (hdm : Disj psm P.spxBytes pm mlen) (hml : mlen < 2 ^ 60) (hopt : optrand.length = P.n) :
    ∃ M', crypto_sign (build P G g) M psm pm mlen psk optrand = .ok (M', P.spxBytes + mlen, 0) ∧
      M'.rd psm (P.spxBytes + mlen) = .ok (Spec.sign P.toSpec (specHash P) sk optrand m ++ m) ∧
      M.SameOutside M' psm (P.spxBytes + mlen) := by
  have e := crypto_sign_spec (buildRefines hP G g) (shipped_valid hP) hsk hm hal hdk hdm hml
    (shipped_sizes hP).1 (Nat.le_of_eq hopt.symm)
  have ht : optrand.take (build P G g).P.n = optrand := List.take_of_length_le (Nat.le_of_eq hopt)
  rw [ht] at e
  exact e

theorem ship_open (G g : Nat → Nat → Byte) {M : Mem} {pm psm smlen ppk : Nat} {sm pk : Bytes}
    (hge : P.spxBytes ≤ smlen) (hsm : M.rd psm smlen = .ok sm) (hpk : M.rd ppk P.pkBytes = .ok pk)
    (hal : M.Alloc pm smlen) (hml : smlen < 2 ^ 60) :
    ∃ M', (verify P.toSpec (specHash P) pk (sm.drop P.spxBytes) (sm.take P.spxBytes) = true ∧
        crypto_sign_open (build P G g) M pm psm smlen ppk = .ok (M', smlen - P.spxBytes, 0) ∧
        M'.rd pm (smlen - P.spxBytes) = .ok (sm.drop P.spxBytes) ∧
        M.SameOutside M' pm (smlen - P.spxBytes)) ∨
      (verify P.toSpec (specHash P) pk (sm.drop P.spxBytes) (sm.take P.spxBytes) = false ∧
        crypto_sign_open (build P G g) M pm psm smlen ppk = .ok (M', 0, -1) ∧
        M'.rd pm smlen = .ok (List.replicate smlen 0) ∧ M.SameOutside M' pm smlen) :=
  crypto_sign_open_long (buildRefines hP G g) (shipped_valid hP) hge hsm hpk hal hml

end
end Spx
