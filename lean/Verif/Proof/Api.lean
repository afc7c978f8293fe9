import Verif.Proof.Mem
import Verif.Proof.Correct
/-! The API functions over flat memory. -/

namespace Spx
open Spec Mem

/-- What the signing code computes when the message it hashes to get `R` (`m1`) differs from the
message it hashes to get the digest (`m2`). -/
def signWith (p : Par) (S : Spec.Hash) (sk optrand m1 m2 : Bytes) : Bytes :=
  let skSeed := sk.take p.n
  let pub := (sk.drop (2 * p.n)).take p.n
  let R := S.PRFmsg pub ((sk.drop p.n).take p.n) optrand m1
  let (md, tree, leaf) :=
    splitDigest p (S.Hmsg R pub ((sk.drop (3 * p.n)).take p.n) m2 (digestBytes p))
  R ++ forsSig p S pub skSeed tree leaf md ++
    htSig p S pub skSeed tree leaf (forsPk p S pub skSeed tree leaf)

theorem signWith_self (p : Par) (S : Spec.Hash) (sk optrand m : Bytes) :
    signWith p S sk optrand m m = Spec.sign p S sk optrand m := rfl

section
variable {E : Env} {S : Spec.Hash} (R : Refines E.P E.H S) (hP : E.P.Valid)

include R hP in
theorem signWith_length {sk optrand m1 m2 : Bytes} :
    (signWith E.P.toSpec S sk optrand m1 m2).length = E.P.spxBytes := by
  have L := R.hashLen
  unfold signWith
  simp only [List.length_append]
  rw [forsSig_len L, htSig_len L, L.PRFmsg, spxBytes_eq hP, toSpec_forsBytes]
  rfl

include R hP in
/-- All correct tree code leaves the same memory. -/
theorem sign_mem_coreT {M : Mem} {psig pm mlen psk : Nat} {sk optrand m1 m2 : Bytes}
    (hsk : M.rd psk E.P.skBytes = .ok sk) (hm1 : M.rd pm mlen = .ok m1)
    (hal : M.Alloc psig E.P.spxBytes) (hdk : Disj psig E.P.n psk E.P.skBytes)
    (hm2 : ∀ M1 : Mem, M.SameOutside M1 psig E.P.n →
      M1.rd psig E.P.n = .ok (S.PRFmsg ((sk.drop (2 * E.P.n)).take E.P.n) ((sk.drop E.P.n).take E.P.n)
        (optrand.take E.P.n) m1) → M1.rd pm mlen = .ok m2)
    (hml : mlen < 2 ^ 60) (hopt : E.P.n ≤ optrand.length) :
    ∃ M', (∀ T, TreeCodeOK R T →
        crypto_sign_signature_memT E T M psig pm mlen psk optrand = .ok (M', E.P.spxBytes, 0)) ∧
      M'.rd psig E.P.spxBytes = .ok (signWith E.P.toSpec S sk (optrand.take E.P.n) m1 m2) ∧
      M.SameOutside M' psig E.P.spxBytes := by
  have hskl := rd_length hsk
  have hsk' : 4 * E.P.n = sk.length := by
    have h : E.P.skBytes = 2 * E.P.n + 2 * E.P.n := rfl
    omega
  have hml1 := rd_length hm1
  have hb := spxBytes_eq hP
  obtain ⟨ctx, ec, hctx, hpub, hsks⟩ := uninitCtx_init R (E := E) ((sk.drop (2 * E.P.n)).take E.P.n) (sk.take E.P.n)
    (by simp; omega) (by simp; omega)
  have er := R.genR ctx (sk.drop E.P.n) optrand m1 hctx (by simp; omega) hopt (by omega)
  have hRl : (S.PRFmsg ctx.pub_seed ((sk.drop E.P.n).take E.P.n) (optrand.take E.P.n) m1).length = E.P.n :=
    R.PRFmsg_len ..
  rw [hpub] at er hRl
  have hout := signWith_length R hP (sk := sk) (optrand := optrand.take E.P.n) (m1 := m1) (m2 := m2)
  unfold signWith at hout ⊢
  simp only [show E.P.toSpec.n = E.P.n from rfl] at hout ⊢
  generalize hRd : S.PRFmsg ((sk.drop (2 * E.P.n)).take E.P.n) ((sk.drop E.P.n).take E.P.n)
    (optrand.take E.P.n) m1 = Rv at *
  obtain ⟨M1, ew, hr1, hs1⟩ := wr_of_alloc (M := M) (p := psig) (d := Rv)
    (alloc_sub hal (Nat.le_refl _) (by omega))
  rw [hRl] at hr1 hs1
  have em2 := hm2 M1 hs1 hr1
  have hml2 := rd_length em2
  have hsk1 : M1.rd psk E.P.skBytes = .ok sk := by rw [rd_frame hs1 hdk, hsk]
  have hal1 : M1.Alloc psig E.P.spxBytes := hs1.alloc hr1 hal
  obtain ⟨sig1, hsig1, hsl1⟩ := rd_of_alloc hal1
  have htk : sig1.take E.P.n = Rv := by
    have := rd_take hsig1 (k := E.P.n) (by omega)
    rw [hr1] at this
    cases this; rfl
  have em := R.hmsg ctx sig1 (sk.drop (2 * E.P.n)) m2 hctx (by omega) (by simp; omega) (by rw [hpub]) (by omega)
  rw [hpub, List.drop_drop, show 2 * E.P.n + E.P.n = 3 * E.P.n by omega, htk] at em
  have hdl := R.Hmsg_len Rv ((sk.drop (2 * E.P.n)).take E.P.n) ((sk.drop (3 * E.P.n)).take E.P.n) m2
    (digestBytes E.P.toSpec)
  generalize hdd : S.Hmsg Rv ((sk.drop (2 * E.P.n)).take E.P.n) ((sk.drop (3 * E.P.n)).take E.P.n) m2
    (digestBytes E.P.toSpec) = dg at *
  have hmd := splitDigest_md_length hdl
  have htr0 := splitDigest_tree_lt E.P.toSpec dg
  have hlf := splitDigest_leaf_lt E.P.toSpec dg
  generalize hsd : splitDigest E.P.toSpec dg = sd at *
  obtain ⟨md, tree, leaf⟩ := sd
  simp only at hmd htr0 hlf hout ⊢
  have htr : tree < 2 ^ 64 := Nat.lt_of_lt_of_le htr0 (Nat.pow_le_pow_right (by omega) hP.tree_bits)
  have es := fun T hT => sign_restT_spec R hP hctx (T := T) hT (sig := sig1) (by omega) hmd htr hlf
  simp only [htk, List.drop_of_length_le (show sig1.length ≤ E.P.spxBytes by omega), List.append_nil, hpub, hsks] at es
  rw [← hout] at hal1 ⊢
  generalize Rv ++ forsSig E.P.toSpec S ((sk.drop (2 * E.P.n)).take E.P.n) (sk.take E.P.n) tree leaf md ++
    htSig E.P.toSpec S ((sk.drop (2 * E.P.n)).take E.P.n) (sk.take E.P.n) tree leaf
      (forsPk E.P.toSpec S ((sk.drop (2 * E.P.n)).take E.P.n) (sk.take E.P.n) tree leaf) = out at *
  obtain ⟨M2, ew2, hr2, hs2⟩ := wr_of_alloc hal1
  refine ⟨M2, fun T hT => ?_, hr2, hs1.trans hs2 (by omega) (by omega)⟩
  have ec' : E.H.initialize_hash_function
    { pub_seed := (sk.drop (2 * E.P.n)).take E.P.n, sk_seed := sk.take E.P.n,
      state_seeded := (uninitCtx E).state_seeded, state_seeded_512 := (uninitCtx E).state_seeded_512,
      tweaked512_rc64 := (uninitCtx E).tweaked512_rc64, tweaked256_rc32 := (uninitCtx E).tweaked256_rc32,
      rc := (uninitCtx E).rc } =
      .ok ctx := ec
  unfold crypto_sign_signature_memT
  simp only
  rw [hsk]
  simp only [ok_bind]
  rw [sub_ok (by omega)]
  simp only [ok_bind]
  rw [sub_ok (by omega)]
  simp only [ok_bind]
  rw [rd_ok (by omega)]
  simp only [ok_bind, List.drop_zero]
  rw [wr_whole (by simp [uninitCtx]; omega)]
  simp only [ok_bind]
  rw [rd_ok (by simp; omega)]
  simp only [ok_bind, List.drop_zero]
  rw [wr_whole (by simp [uninitCtx]; omega)]
  simp only [ok_bind]
  rw [ec']
  simp only [ok_bind]
  rw [hm1]
  simp only [ok_bind]
  rw [er]
  simp only [ok_bind]
  rw [ew]
  simp only [ok_bind]
  rw [hsk1]
  simp only [ok_bind]
  rw [sub_ok (by omega)]
  simp only [ok_bind]
  rw [hsig1]
  simp only [ok_bind]
  rw [em2]
  simp only [ok_bind]
  rw [em]
  simp only [ok_bind]
  rw [es T hT]
  simp only [ok_bind]
  rw [ew2]
  simp only [ok_bind]
  rw [hout]

include R hP in
theorem sign_mem_core {M : Mem} {psig pm mlen psk : Nat} {sk optrand m1 m2 : Bytes}
    (hsk : M.rd psk E.P.skBytes = .ok sk) (hm1 : M.rd pm mlen = .ok m1)
    (hal : M.Alloc psig E.P.spxBytes) (hdk : Disj psig E.P.n psk E.P.skBytes)
    (hm2 : ∀ M1 : Mem, M.SameOutside M1 psig E.P.n →
      M1.rd psig E.P.n = .ok (S.PRFmsg ((sk.drop (2 * E.P.n)).take E.P.n) ((sk.drop E.P.n).take E.P.n)
        (optrand.take E.P.n) m1) → M1.rd pm mlen = .ok m2)
    (hml : mlen < 2 ^ 60) (hopt : E.P.n ≤ optrand.length) :
    ∃ M', crypto_sign_signature_mem E M psig pm mlen psk optrand = .ok (M', E.P.spxBytes, 0) ∧
      M'.rd psig E.P.spxBytes = .ok (signWith E.P.toSpec S sk (optrand.take E.P.n) m1 m2) ∧
      M.SameOutside M' psig E.P.spxBytes := by
  obtain ⟨M', h1, h2, h3⟩ := sign_mem_coreT R hP hsk hm1 hal hdk hm2 hml hopt
  exact ⟨M', h1 _ (refCode_ok R hP), h2, h3⟩

include R hP in
/-- Signing over flat memory, `R` not overlapping the message or the secret key. -/
theorem sign_mem_spec {M : Mem} {psig pm mlen psk : Nat} {sk optrand m : Bytes}
    (hsk : M.rd psk E.P.skBytes = .ok sk) (hm : M.rd pm mlen = .ok m)
    (hal : M.Alloc psig E.P.spxBytes) (hdk : Disj psig E.P.n psk E.P.skBytes)
    (hdm : Disj psig E.P.n pm mlen) (hml : mlen < 2 ^ 60) (hopt : E.P.n ≤ optrand.length) :
    ∃ M', crypto_sign_signature_mem E M psig pm mlen psk optrand = .ok (M', E.P.spxBytes, 0) ∧
      M'.rd psig E.P.spxBytes = .ok (Spec.sign E.P.toSpec S sk (optrand.take E.P.n) m) ∧
      M.SameOutside M' psig E.P.spxBytes := by
  rw [← signWith_self]
  exact sign_mem_core R hP hsk hm hal hdk (fun M1 h1 _ => by rw [rd_frame h1 hdm, hm]) hml hopt

include R hP in
theorem verify_mem_spec {M : Mem} {psig pm mlen ppk : Nat} {sig m pk : Bytes}
    (hsig : M.rd psig E.P.spxBytes = .ok sig) (hm : M.rd pm mlen = .ok m) (hpk : M.rd ppk E.P.pkBytes = .ok pk)
    (hml : mlen < 2 ^ 60) :
    crypto_sign_verify_mem E M psig E.P.spxBytes pm mlen ppk =
      .ok (if verify E.P.toSpec S pk m sig then 0 else -1) := by
  unfold crypto_sign_verify_mem crypto_sign_verify_memT
  rw [if_neg (by simp), hsig, hm, hpk]
  simp only [ok_bind]
  have h1 := rd_length hsig
  have h2 := rd_length hm
  have h3 := rd_length hpk
  exact crypto_sign_verify_spec R hP (by omega) (by omega) (by omega)

include R hP in
/-- `crypto_sign`, signature area not overlapping the message or the secret key. -/
theorem crypto_sign_spec {M : Mem} {psm pm mlen psk : Nat} {sk optrand m : Bytes}
    (hsk : M.rd psk E.P.skBytes = .ok sk) (hm : M.rd pm mlen = .ok m)
    (hal : M.Alloc psm (E.P.spxBytes + mlen)) (hdk : Disj psm E.P.n psk E.P.skBytes)
    (hdm : Disj psm E.P.spxBytes pm mlen) (hml : mlen < 2 ^ 60) (hsz : E.P.spxBytes < 2 ^ 60)
    (hopt : E.P.n ≤ optrand.length) :
    ∃ M', crypto_sign E M psm pm mlen psk optrand = .ok (M', E.P.spxBytes + mlen, 0) ∧
      M'.rd psm (E.P.spxBytes + mlen) = .ok (Spec.sign E.P.toSpec S sk (optrand.take E.P.n) m ++ m) ∧
      M.SameOutside M' psm (E.P.spxBytes + mlen) := by
  have hb := spxBytes_eq hP
  have hml1 := rd_length hm
  obtain ⟨M1, e1, hr1, hs1⟩ := sign_mem_spec R hP hsk hm (alloc_sub hal (Nat.le_refl _) (by omega)) hdk
    (by rcases hdm with h | h
        · exact Or.inl (by omega)
        · exact Or.inr (by omega)) hml hopt
  have hm1 : M1.rd pm mlen = .ok m := by rw [rd_frame hs1 hdm, hm]
  have hal1 : M1.Alloc (psm + E.P.spxBytes) m.length :=
    alloc_sub (hs1.alloc hr1 hal) (by omega) (by omega)
  obtain ⟨M2, e2, hr2, hs2⟩ := wr_of_alloc hal1
  rw [hml1] at hr2 hs2
  refine ⟨M2, ?_, ?_, hs1.trans hs2 (by omega) (by omega)⟩
  · unfold crypto_sign crypto_signT
    rw [← crypto_sign_signature_mem, e1]
    simp only [ok_bind]
    unfold memmove
    rw [hm1]
    simp only [ok_bind]
    rw [e2]
    simp only [ok_bind]
    rw [Nat.mod_eq_of_lt (by omega)]
  · exact rd_append (by rw [rd_frame hs2 (Or.inr (by omega)), hr1]) hr2

/-- `crypto_sign_open` on a too short input. -/
theorem crypto_sign_open_short (E : Env) {M : Mem} {m sm smlen pk : Nat} (hlt : smlen < E.P.spxBytes)
    (hal : M.Alloc m smlen) :
    ∃ M', crypto_sign_open E M m sm smlen pk = .ok (M', 0, -1) ∧
      M'.rd m smlen = .ok (List.replicate smlen 0) ∧ M.SameOutside M' m smlen := by
  obtain ⟨M', e, hr, hs⟩ := wr_of_alloc (M := M) (p := m) (d := List.replicate smlen 0) (by simpa using hal)
  rw [List.length_replicate] at hr hs
  refine ⟨M', ?_, hr, hs⟩
  unfold crypto_sign_open crypto_sign_openT
  rw [if_pos hlt]
  unfold memzero
  rw [e]
  rfl

include R hP in
/-- `crypto_sign_open` on an input which is long enough. -/
theorem crypto_sign_open_long {M : Mem} {pm psm smlen ppk : Nat} {sm pk : Bytes} (hge : E.P.spxBytes ≤ smlen)
    (hsm : M.rd psm smlen = .ok sm) (hpk : M.rd ppk E.P.pkBytes = .ok pk) (hal : M.Alloc pm smlen)
    (hml : smlen < 2 ^ 60) :
    ∃ M', (verify E.P.toSpec S pk (sm.drop E.P.spxBytes) (sm.take E.P.spxBytes) = true ∧
        crypto_sign_open E M pm psm smlen ppk = .ok (M', smlen - E.P.spxBytes, 0) ∧
        M'.rd pm (smlen - E.P.spxBytes) = .ok (sm.drop E.P.spxBytes) ∧
        M.SameOutside M' pm (smlen - E.P.spxBytes)) ∨
      (verify E.P.toSpec S pk (sm.drop E.P.spxBytes) (sm.take E.P.spxBytes) = false ∧
        crypto_sign_open E M pm psm smlen ppk = .ok (M', 0, -1) ∧
        M'.rd pm smlen = .ok (List.replicate smlen 0) ∧ M.SameOutside M' pm smlen) := by
  have hv := verify_mem_spec R hP (M := M) (psig := psm) (pm := psm + E.P.spxBytes) (mlen := smlen - E.P.spxBytes)
    (rd_take hsm hge) (rd_drop hsm hge) hpk (by omega)
  cases hb : verify E.P.toSpec S pk (sm.drop E.P.spxBytes) (sm.take E.P.spxBytes) with
  | true =>
    rw [hb, if_pos rfl] at hv
    have hl : (sm.drop E.P.spxBytes).length = smlen - E.P.spxBytes := by rw [List.length_drop, rd_length hsm]
    obtain ⟨M', e, hr, hs⟩ := wr_of_alloc (M := M) (p := pm) (d := sm.drop E.P.spxBytes)
      (alloc_sub hal (Nat.le_refl _) (by omega))
    rw [hl] at hr hs
    refine ⟨M', Or.inl ⟨rfl, ?_, hr, hs⟩⟩
    unfold crypto_sign_open crypto_sign_openT
    rw [if_neg (by omega)]
    simp only
    rw [← crypto_sign_verify_mem, hv]
    simp only [ok_bind]
    rw [if_neg (by simp)]
    unfold memmove
    rw [rd_drop hsm hge]
    simp only [ok_bind]
    rw [e]
    rfl
  | false =>
    rw [hb, if_neg (by simp)] at hv
    obtain ⟨M', e, hr, hs⟩ := wr_of_alloc (M := M) (p := pm) (d := List.replicate smlen 0) (by simpa using hal)
    rw [List.length_replicate] at hr hs
    refine ⟨M', Or.inr ⟨rfl, ?_, hr, hs⟩⟩
    unfold crypto_sign_open crypto_sign_openT
    rw [if_neg (by omega)]
    simp only
    rw [← crypto_sign_verify_mem, hv]
    simp only [ok_bind]
    rw [if_pos (by decide)]
    unfold memzero
    rw [e]
    rfl

end
end Spx
