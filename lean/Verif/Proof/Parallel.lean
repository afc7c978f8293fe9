import Verif.Proof.MerkleX
import Verif.Proof.ForsX
import Verif.Proof.ChainsX
import Verif.Proof.Ready
import Verif.Proof.ShippedSign
/-! The parallel tree code computes the values of the specification. -/

namespace Spx
open Spec Mem

/-- The tree code of an optimised implementation. -/
theorem parCode_ok {E : EnvX} {S : Spec.Hash} {R : Refines E.toEnv.P E.toEnv.H S} (RX : LaneRefines E R)
    (hP : E.P.Valid) (hlg : 1 ≤ E.lg) (hlt : E.lg ≤ E.P.treeHeight) (hlf : E.lg ≤ E.P.forsHeight)
    (hbig : E.P.treeHeight + E.lg < 32) : TreeCodeOK (E := E.toEnv) R (parCode E) where
  merkle_sign := by
    intro ctx hctx layer tree hlay htr u1 v1 u2 v2 hu2 hv2 sig root hroot hsig idx hidx
    have hp30 : 2 ^ E.P.treeHeight ≤ 2 ^ 30 := Nat.pow_le_pow_right (by omega) hP.th_le
    have e := merkle_signx_core RX hP hlg hlt hctx hlay htr
      (wa := ⟨layer, tree, WOTS_HASH, idx, u1, v1⟩) rfl rfl (ta := ⟨layer, tree, TREE, 0, u2, v2⟩) rfl rfl
      hroot hsig (idx := idx) (by have : idx < 2 ^ E.P.treeHeight := hidx; omega) (Or.inl hidx)
    rw [if_pos hidx] at e
    exact ⟨u2, v2, hu2, hv2, e⟩
  merkle_gen_root hctx _ hr := merkle_gen_rootx_spec RX hP hlg hlt hctx hr hbig
  fors_sign hctx _ _ htr hkp _ hl ht hk _ _ hsig hmd := fors_signx_spec RX hP hlg hlf hctx htr hkp hl ht hk hsig hmd
  wots_pk_from_sig := by
    intro ctx hctx layer tree kp hlay htr hkp u v hu hv pk sig msg hpk hsig hm
    exact ⟨u, v, hu, hv, wots_pk_from_sigx_spec RX hP hctx hlay htr hkp hu hv hpk hsig hm⟩

/-- The heights of the shipped parameter sets suit two, four and eight lanes. -/
theorem shipped_heights {P : Params} (h : P ∈ shipped) :
    3 ≤ P.treeHeight ∧ 3 ≤ P.forsHeight ∧ P.treeHeight + 3 < 32 := by
  revert P
  decide +kernel

/-- `shippedRefines` on the contexts `initialize_hash_function` makes. -/
noncomputable def readyRefines {P : Params} (hP : P ∈ shipped) (G g : Nat → Nat → Byte) :
    Refines (build P G g).P (build P G g).H (specHash P) where
  CtxOK := Ctx.Ready P g
  T_len := (buildRefines hP G g).T_len
  PRF_len := (buildRefines hP G g).PRF_len
  PRFmsg_len := (buildRefines hP G g).PRFmsg_len
  Hmsg_len := (buildRefines hP G g).Hmsg_len
  init _ h1 h2 h3 h4 h5 h6 h7 := Ctx.Sized.ready hP g ⟨h1, h2, h3, h4, h5, h6, h7⟩
  thash ctx a inp b hc := (buildRefines hP G g).thash ctx a inp b (hc.ctxOK hP G)
  prf ctx a hc := (buildRefines hP G g).prf ctx a (hc.ctxOK hP G)
  genR ctx a b c hc := (buildRefines hP G g).genR ctx a b c (hc.ctxOK hP G)
  hmsg ctx a b c hc := (buildRefines hP G g).hmsg ctx a b c (hc.ctxOK hP G)

section
variable {E : Env} {S : Spec.Hash} (R : Refines E.P E.H S) (hP : E.P.Valid) {T : TreeCode} (hT : TreeCodeOK R T)
include R hP hT

/-- Signing with either tree code, whatever the placement of the message. -/
theorem sign_memT_same {M : Mem} {psig pm mlen psk : Nat} {optrand : Bytes}
    (hsk : M.Alloc psk E.P.skBytes) (hm : M.Alloc pm mlen)
    (hal : M.Alloc psig E.P.spxBytes) (hdk : Disj psig E.P.n psk E.P.skBytes)
    (hml : mlen < 2 ^ 60) (hopt : E.P.n ≤ optrand.length) :
    ∃ M' out, crypto_sign_signature_memT E T M psig pm mlen psk optrand = .ok (M', E.P.spxBytes, 0) ∧
      crypto_sign_signature_mem E M psig pm mlen psk optrand = .ok (M', E.P.spxBytes, 0) ∧
      M'.rd psig E.P.spxBytes = .ok out ∧ M.SameOutside M' psig E.P.spxBytes := by
  obtain ⟨sk, hsk, hskl⟩ := rd_of_alloc hsk
  obtain ⟨m, hm, _⟩ := rd_of_alloc hm
  have hs := spxBytes_eq hP
  have hnl := R.PRFmsg_len ((sk.drop (2 * E.P.n)).take E.P.n) ((sk.drop E.P.n).take E.P.n)
    (optrand.take E.P.n) m
  generalize hRv : S.PRFmsg ((sk.drop (2 * E.P.n)).take E.P.n) ((sk.drop E.P.n).take E.P.n)
    (optrand.take E.P.n) m = Rv at hnl
  obtain ⟨M1, e1, r1, s1⟩ := wr_of_alloc (M := M) (p := psig) (d := Rv)
    (alloc_sub hal (Nat.le_refl _) (by omega))
  rw [hnl] at r1 s1
  obtain ⟨m2, hm2, _⟩ := rd_of_alloc (s1.alloc r1 (alloc_of_rd hm))
  obtain ⟨M', e, hr, hs⟩ := sign_mem_coreT R hP hsk hm hal hdk (m2 := m2)
    (fun M1' h1 h2 => by
      rw [hRv] at h2
      rw [SameOutside.unique h1 s1 h2 r1, hm2])
    hml hopt
  exact ⟨M', _, e T hT, e _ (refCode_ok R hP), hr, hs⟩

/-- Verification with either tree code. -/
theorem verify_memT_same {M : Mem} {psig siglen pm mlen ppk : Nat}
    (hsig : M.Alloc psig E.P.spxBytes) (hm : M.Alloc pm mlen) (hpk : M.Alloc ppk E.P.pkBytes)
    (hml : mlen < 2 ^ 60) :
    ∃ r, crypto_sign_verify_memT E T M psig siglen pm mlen ppk = .ok r ∧
      crypto_sign_verify_mem E M psig siglen pm mlen ppk = .ok r := by
  unfold crypto_sign_verify_mem crypto_sign_verify_memT
  by_cases h : siglen = E.P.spxBytes
  · obtain ⟨sig, r1, h1⟩ := rd_of_alloc hsig
    obtain ⟨m, r2, h2⟩ := rd_of_alloc hm
    obtain ⟨pk, r3, h3⟩ := rd_of_alloc hpk
    rw [if_neg (by simp [h]), if_neg (by simp [h]), r1, r2, r3, h]
    simp only [ok_bind]
    refine ⟨_, crypto_sign_verifyT_spec R hP hT (by omega) (by omega) (by omega), ?_⟩
    exact crypto_sign_verify_spec R hP (by omega) (by omega) (by omega)
  · rw [if_pos h, if_pos h]
    exact ⟨_, rfl, rfl⟩

end
end Spx
