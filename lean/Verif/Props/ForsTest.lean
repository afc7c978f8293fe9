import Verif.Proof.MaskedFors
import Verif.Proof.Tests
import Verif.Props.Sha2Lanes
import Verif.Props.HarakaAesni
/-! # FORS on address buffers of any content, and the test program ref/test/fors.c: C63

`crypto_sign_signature` passes to the FORS functions an address whose bytes before the tree field are zero; the test program
passes 32 random bytes. -/

namespace Spx
open Spec Tests

theorem fors_test_ok {E : Env} {S : Spec.Hash} {R : Refines E.P E.H S} (A : AnyHash R) (hP : E.P.Valid) {T : TreeCode}
    (hT : ∀ {ctx ad sig m}, R.CtxOK ctx → ad.length = 32 → sig.length = E.P.forsBytes → m.length = E.P.forsMsgBytes →
      T.fors_sign sig m ctx ad = fors_sign E sig m ctx ad)
    (h : Nat → Nat → Byte) {ctx : Ctx} (hs : ctx.Sized E.P) {r0 r1 rm ra : Bytes} (h0 : r0.length = E.P.n)
    (h1 : r1.length = E.P.n) (hm : rm.length = E.P.forsMsgBytes) (ha : ra.length = 32) :
    Tests.fors E T h ctx r0 r1 rm ra = .ok 0 := by
  obtain ⟨c, ec, hc, -, -⟩ := R.init { ctx with sk_seed := r0, pub_seed := r1 } h1 h0 hs.3 hs.4 hs.5 hs.6 hs.7
  obtain ⟨tree, kp, -, -, -, hl, e1, e2⟩ := fors_any A hP hc ha (sig := uninit (h 1) E.P.forsBytes) (uninit_length ..) hm
  have hpl : (forsPk E.P.toSpec (maskS E.P.fam (ra.take E.P.fam.offTree) S) c.pub_seed c.sk_seed tree kp).length = E.P.n :=
    R.T_len ..
  unfold Tests.fors
  rw [wr_all (by rw [hs.sk_seed, h0])]
  simp only [ok_bind]
  rw [wr_all (by rw [hs.pub_seed, h1])]
  simp only [ok_bind]
  rw [wr_all (by rw [uninit_length, hm]), ok_bind, wr_all (by rw [ha]; rfl), ok_bind, ec, ok_bind,
    hT hc ha (uninit_length ..) hm, e1]
  simp only [ok_bind]
  rw [e2, ok_bind, rd_ok (by omega), ok_bind, ok_bind, if_neg (fun h => h rfl)]

section
variable {P : Params} (hP : P ∈ shipped)
include hP

theorem readyAny (G g : Nat → Nat → Byte) : AnyHash (readyRefines hP G g) :=
  ⟨fun hc he h1 h2 h3 => thash_any hP hc he h1 h2 h3, fun hc he => prf_any hP hc he⟩

/-- C63.  With every initialised context, message digest and address buffer, the signature made by `fors_sign` leads
`fors_pk_from_sig` to the public key made by `fors_sign`. -/
theorem C63_any_address (G g : Nat → Nat → Byte) {ctx : Ctx} (hc : ctx.Ready P g) {ad : Addr} (ha : ad.length = 32)
    {sig m : Bytes} (hs : sig.length = P.forsBytes) (hm : m.length = P.forsMsgBytes) :
    ∃ sg pk, sg.length = P.forsBytes ∧ pk.length = P.n ∧ fors_sign (build P G g) sig m ctx ad = .ok (sg, pk) ∧
      fors_pk_from_sig (build P G g) sg m ctx ad = .ok pk := by
  obtain ⟨tree, kp, -, -, -, hl, e1, e2⟩ := fors_any (E := build P G g) (readyAny hP G g) (shipped_valid hP) hc ha hs hm
  exact ⟨_, _, hl, (readyRefines hP G g).T_len .., e1, e2⟩

/-- C63.  The parallel `fors_sign`, linked with lane functions which work lane by lane, gives the same signature and public
key as the reference for every address buffer. -/
theorem C63_parallel {g : Nat → Nat → Byte} {lg : Nat} {X : LaneHash} (h1 : 1 ≤ lg) (h3 : lg ≤ 3) (hX : LaneWise P g lg X)
    (G : Nat → Nat → Byte) {ctx : Ctx} (hc : ctx.Ready P g) {ad : Addr} (ha : ad.length = 32) {sig m : Bytes}
    (hs : sig.length = P.forsBytes) (hm : m.length = P.forsMsgBytes) :
    fors_signx (buildX P lg X G g) sig m ctx ad = fors_sign (build P G g) sig m ctx ad := by
  refine fors_anyX (E := buildX P lg X G g) (readyAny hP G g) ⟨fun hc he h1 h2 h3 => ?_, fun hc he => ?_⟩ (shipped_valid hP) h1
    (Nat.le_trans h3 (shipped_heights hP).2.1) hc ha hs hm
  · refine (hX.thashx hc (fun j hj => (he j hj).1) h1 h2 h3).trans ?_
    exact tabulate_ok fun j hj => thash_any hP hc (he j hj) h1 (h2 j hj) h3
  · refine (hX.prf_addrx hc fun j hj => (he j hj).1).trans ?_
    exact tabulate_ok fun j hj => prf_any hP hc (he j hj)

/-- C63.  ref/test/fors.c, linked with the reference code, returns 0 whatever `randombytes` delivers. -/
theorem C63_fors (G g h : Nat → Nat → Byte) {ctx : Ctx} (hs : ctx.Sized P) {r0 r1 rm ra : Bytes} (h0 : r0.length = P.n)
    (h1 : r1.length = P.n) (hm : rm.length = P.forsMsgBytes) (ha : ra.length = 32) :
    Tests.fors (build P G g) (refCode (build P G g)) h ctx r0 r1 rm ra = .ok 0 :=
  fors_test_ok (E := build P G g) (readyAny hP G g) (shipped_valid hP) (fun _ _ _ _ => rfl) h hs h0 h1 hm ha

theorem fors_test_okX {H : HashImpl} {lg : Nat} {X : LaneHash} {G : Nat → Nat → Byte} {S : Spec.Hash} {R : Refines P H S}
    (A : AnyHash R) (AX : AnyLanes (E := optBuild P H lg X G) R) (hg : 1 ≤ lg) (hg3 : lg ≤ 3)
    (h : Nat → Nat → Byte) {ctx : Ctx} (hs : ctx.Sized P) {r0 r1 rm ra : Bytes} (h0 : r0.length = P.n)
    (h1 : r1.length = P.n) (hm : rm.length = P.forsMsgBytes) (ha : ra.length = 32) :
    Tests.fors (optBuild P H lg X G).toEnv (parCode (optBuild P H lg X G)) h ctx r0 r1 rm ra = .ok 0 :=
  fors_test_ok (E := (optBuild P H lg X G).toEnv) A (shipped_valid hP)
    (fun hc ha hs hm => fors_anyX (E := optBuild P H lg X G) A AX (shipped_valid hP) hg
      (Nat.le_trans hg3 (shipped_heights hP).2.1) hc ha hs hm) h hs h0 h1 hm ha

/-- C63.  The same for the optimised implementations, which link ref/test/fors.c with their own fors.c. -/
theorem C63_fors_opt (G g h : Nat → Nat → Byte) {E : EnvX}
    (hE : (P.fam = .shake ∧ (E = optBuild P (A64.impl P g) 1 (A64.lanes P g) G ∨
          E = optBuild P (Shake.impl P g) 2 (Avx2.lanes P g) G)) ∨
      (P.fam = .haraka ∧ E = optBuild P (AesNi.impl P g) 2 (AesNi.lanes P g) G) ∨
      (P.fam = .sha2 ∧ E = optBuild P (Sha2.impl P g) 3 (Sha2X.lanes P g) G))
    {ctx : Ctx} (hs : ctx.Sized P) {r0 r1 rm ra : Bytes} (h0 : r0.length = P.n)
    (h1 : r1.length = P.n) (hm : rm.length = P.forsMsgBytes) (ha : ra.length = 32) :
    Tests.fors E.toEnv (parCode E) h ctx r0 r1 rm ra = .ok 0 := by
  have hv := shipped_valid hP
  have hn := shipped_n hP
  rcases hE with ⟨hf, rfl | rfl⟩ | ⟨hf, rfl⟩ | ⟨hf, rfl⟩
  · exact fors_test_okX hP (lg := 1) (X := A64.lanes P g) (G := G) (R := a64Refines hP hf g)
      ⟨fun hc he _ h2 _ => A64.thash_value hP g hc.1 h2 hf he, fun hc he => Shake.prf_value g hf hc.1 hc.2 he⟩
      ⟨fun hc he _ h2 _ => A64.thashx_value hP g hc.1 h2 hf he, fun hc he => A64.prfx_value hP g hc.1 hc.2 hf he⟩
      (by decide) (by decide) h hs h0 h1 hm ha
  · exact fors_test_okX hP (lg := 2) (X := Avx2.lanes P g) (G := G) (R := shakeRefines g hv hf)
      ⟨fun hc he _ h2 _ => Shake.thash_value g hf hc.1 he h2, fun hc he => Shake.prf_value g hf hc.1 hc.2 he⟩
      ⟨fun hc he _ h2 _ => Avx2.thashx_value hP g hc.1 h2 hf he, fun hc he => Avx2.prfx_value hP g hc.1 hc.2 hf he⟩
      (by decide) (by decide) h hs h0 h1 hm ha
  · exact fors_test_okX hP (lg := 2) (X := AesNi.lanes P g) (G := G) (R := aesniRefines g hv hf hn)
      ⟨fun hc he _ h2 _ => Haraka.thash_value g hv hf hn hc.lib he h2, fun hc he => Haraka.prf_value g hf hn hc.lib he⟩
      ⟨fun hc he _ h2 _ => AesNi.thashx_value hn hv.n_pos hf g hc h2 he, fun hc he => AesNi.prfx_value hn hf g hc he⟩
      (by decide) (by decide) h hs h0 h1 hm ha
  · have hh := shipped_sha512 hP hf
    exact fors_test_okX hP (lg := 3) (X := Sha2X.lanes P g) (G := G) (R := sha2Refines g hv hf hn hh)
      ⟨fun hc he h1 h2 h3 => Sha2.thash_value g hv hf hn hh hc.1 hc.2.2.1 hc.2.2.2 he h1 h2 h3,
        fun hc he => Sha2.prf_value g hf hn hc.1 hc.2.1 hc.2.2.1 he⟩
      ⟨fun hc he h1 h2 h3 => Sha2X.thashx_value hv hf hn hh g g hc h1 h2 h3 he,
        fun hc he => Sha2X.prfx_value hv hf hn hh g g hc he⟩
      (by decide) (by decide) h hs h0 h1 hm ha

end

/-! Concrete cases: address buffers with no zero byte. -/

example : Tests.fors (build (sha2_192f true) (fun _ _ => 1) fun _ _ => 2) (refCode (build (sha2_192f true) (fun _ _ => 1) fun _ _ => 2))
    (fun _ _ => 3) (Ctx.zeroed (List.replicate 24 0) (List.replicate 24 0)) (List.replicate 24 5) (List.replicate 24 6)
    (List.replicate 33 7) (List.replicate 32 255) = .ok 0 :=
  C63_fors (by decide) _ _ _ (Ctx.zeroed_sized (by rw [List.length_replicate]; rfl) (by rw [List.length_replicate]; rfl)) (by rw [List.length_replicate]; rfl)
    (by rw [List.length_replicate]; rfl) (by rw [List.length_replicate]; rfl) (by rw [List.length_replicate])

example : Tests.fors (optBuild (haraka_128s false) (AesNi.impl (haraka_128s false) fun _ _ => 1) 2
      (AesNi.lanes (haraka_128s false) fun _ _ => 1) fun _ _ => 2).toEnv
    (parCode (optBuild (haraka_128s false) (AesNi.impl (haraka_128s false) fun _ _ => 1) 2
      (AesNi.lanes (haraka_128s false) fun _ _ => 1) fun _ _ => 2))
    (fun _ _ => 3) (Ctx.zeroed (List.replicate 16 0) (List.replicate 16 0)) (List.replicate 16 5) (List.replicate 16 6)
    (List.replicate 21 7) (List.replicate 32 255) = .ok 0 :=
  C63_fors_opt (P := haraka_128s false) (by decide) _ _ _ (Or.inr (Or.inl ⟨rfl, rfl⟩))
    (Ctx.zeroed_sized (by rw [List.length_replicate]; rfl) (by rw [List.length_replicate]; rfl))
    (by rw [List.length_replicate]; rfl) (by rw [List.length_replicate]; rfl) (by rw [List.length_replicate]; rfl)
    (by rw [List.length_replicate])

end Spx
