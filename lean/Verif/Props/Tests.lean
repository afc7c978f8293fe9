import Verif.Proof.Tests
import Verif.Props.ShakeLanes
import Verif.Props.Sha2Lanes
import Verif.Props.HarakaAesni
/-! # The test programs: C57

The arguments `r0`, `r1`, `r2`, `rm`, `seed`, `optrand` are the bytes which the calls of `randombytes` deliver. -/

namespace Spx
open Spec Mem Tests

section
variable {P : Params} (hP : P ∈ shipped)
include hP

/-- C57.  shake-avx2/test/thashx4.c returns 0, whatever `randombytes` delivers. -/
theorem C57_thashx4 (hf : P.fam = .shake) (g g' h : Nat → Nat → Byte) {ctx : Ctx} (hc : ctx.Sized P) {r0 r1 r2 : Bytes}
    (h0 : r0.length = P.n) (h1 : r1.length = 4 * P.n) (h2 : r2.length = 128) :
    Tests.thashx4 P (Shake.impl P g) (Avx2.lanes P g') h ctx r0 r1 r2 = .ok 0 := by
  have hi : implOf P g = Shake.impl P g := by unfold implOf; rw [hf]
  have hs : ({ ctx with pub_seed := r0 } : Ctx).Sized P := ⟨h0, hc.2, hc.3, hc.4, hc.5, hc.6, hc.7⟩
  have hr : ({ ctx with pub_seed := r0 } : Ctx).Ready P g := ⟨_, hs, by rw [hi]; rfl, rfl, rfl⟩
  have hn := shipped_n hP
  obtain ⟨o, -, e⟩ := compare_ok hP (C45_avx2_lanes hP hf g g') hr (blocks := 1) (Nat.le_refl _) (by omega)
    (H := Shake.impl P g) (fun _ _ => by rw [hi])
    (seq := uninit (h 1) (4 * P.n)) (par := uninit (h 2) (4 * P.n)) (input := r1) (addr := r2) (by simp) (by simp)
    (by omega) (by omega)
  unfold Tests.thashx4
  rw [wr_all (by rw [hc.pub_seed, h0]), wr_all (by simp [h1]), wr_all (by rw [List.length_replicate, h2])]
  simp only [ok_bind]
  rw [show (2 : Nat) ^ 2 = 4 from rfl] at e
  rw [e]
  rfl

/-- C57.  sha2-avx2/test/thashx8.c returns 0, whatever `randombytes` delivers. -/
theorem C57_thashx8 (hf : P.fam = .sha2) (g g' h : Nat → Nat → Byte) {ctx : Ctx} (hc : ctx.Sized P) {r0 r1 r2 : Bytes}
    (h0 : r0.length = P.n) (h1 : r1.length = 16 * P.n) (h2 : r2.length = 256) :
    Tests.thashx8 P (Sha2.impl P g) (Sha2X.lanes P g') h ctx r0 r1 r2 = .ok 0 := by
  have hi : implOf P g = Sha2.impl P g := by unfold implOf; rw [hf]
  have hs : ({ ctx with pub_seed := r0 } : Ctx).Sized P := ⟨h0, hc.2, hc.3, hc.4, hc.5, hc.6, hc.7⟩
  obtain ⟨c, ec, hr, -⟩ := hs.ready hP g
  have hn := shipped_n hP
  obtain ⟨o, lo, e⟩ := compare_ok hP (C52_avx2_lanes hP hf g g') hr (blocks := 1) (Nat.le_refl _) (by omega)
    (H := Sha2.impl P g) (fun _ _ => by rw [hi])
    (seq := uninit (h 1) (8 * P.n)) (par := uninit (h 2) (8 * P.n)) (input := r1) (addr := r2) (by simp) (by simp)
    (by omega) (by omega)
  obtain ⟨o', -, e'⟩ := compare_ok hP (C52_avx2_lanes hP hf g g') hr (blocks := 2) (by omega) (by omega)
    (H := Sha2.impl P g) (fun _ _ => by rw [hi])
    (seq := o) (par := o) (input := r1) (addr := r2) lo lo (by omega) (by omega)
  rw [hi] at ec
  unfold Tests.thashx8
  rw [wr_all (by rw [hc.pub_seed, h0]), wr_all (by simp [h1]), wr_all (by rw [List.length_replicate, h2])]
  simp only [ok_bind, ec]
  rw [show (2 : Nat) ^ 3 = 8 from rfl] at e e'
  rw [e]
  simp only [ok_bind]
  rw [e']
  rfl

/-- C57.  shake-a64/test/thashx2.c always writes behind its array `input` (`randombytes(input, 4*SPX_N)` into
`2*SPX_N` bytes) before it tests anything. -/
theorem C57_thashx2_overruns (H : HashImpl) (X : LaneHash) (h : Nat → Nat → Byte) {ctx : Ctx} (hc : ctx.Sized P)
    {r0 r1 : Bytes} (r2 : Bytes) (h0 : r0.length = P.n) (h1 : r1.length = 4 * P.n) :
    Tests.thashx2 P H X h ctx r0 r1 r2 = .error .oob := by
  have hn := (shipped_valid hP).n_pos
  unfold Tests.thashx2
  rw [wr_all (by rw [hc.pub_seed, h0])]
  simp only [ok_bind]
  unfold wr
  rw [if_neg (by simp; omega)]
  rfl

/-- C57.  With the array declared as long as it is filled, and the same random bytes, the comparison succeeds. -/
theorem C57_thashx2_comparison (hf : P.fam = .shake) (g g' g'' h : Nat → Nat → Byte) {ctx : Ctx} (hc : ctx.Ready P g)
    {r1 r2 : Bytes} (h1 : r1.length = 4 * P.n) (h2 : r2.length = 64) :
    ∃ o, Tests.compare P (A64.impl P g'') (A64.lanes P g') 2 1 (uninit (h 1) (2 * P.n)) (uninit (h 2) (2 * P.n)) r1 ctx r2 =
      .ok (some (o, o)) := by
  have hn := shipped_n hP
  obtain ⟨o, -, e⟩ := compare_ok hP (C45_a64_lanes hP hf g g') hc (blocks := 1) (Nat.le_refl _) (by omega)
    (H := A64.impl P g'')
    (fun ha hi => by
      obtain ⟨o, -, k1, k2⟩ := C45_a64_thash hP hf g g'' hc ha (Nat.le_refl 1) hi (by omega)
      rw [k2]
      exact k1)
    (seq := uninit (h 1) (2 * P.n)) (par := uninit (h 2) (2 * P.n)) (input := r1) (addr := r2) (by simp) (by simp)
    (by omega) (by omega)
  exact ⟨o, e⟩

section
variable {lay : Lay} (hl : LayOK P lay) {M : Mem} {rm seed optrand : Bytes} (hrm : rm.length = 32)
  (hseed : seed.length = P.seedBytes) (hopt : optrand.length = P.n)
  (apk : M.Alloc lay.pk P.pkBytes) (ask : M.Alloc lay.sk P.skBytes) (am : M.Alloc lay.m 32)
  (asm : M.Alloc lay.sm (P.spxBytes + 32)) (amo : M.Alloc lay.mout (P.spxBytes + 32))
include hl hrm hseed hopt apk ask am asm amo

/-- C57.  ref/test/spx.c, linked with the reference library, returns 0 exactly if the scheme rejects the message with its
last bit flipped under the bytes which are then at `sm`: not under the signature, but under the signature with its first
32 bytes overwritten by the message, because line 80 has opened the signed message in place. -/
theorem C57_spx (G₁ g₁ G₂ g₂ G₃ g₃ : Nat → Nat → Nat → Byte) :
    ∃ M', Tests.spx P (fun k => Kat.refLib (build P (G₁ k) (g₁ k)) (build P (G₂ k) (g₂ k)) (build P (G₃ k) (g₃ k)))
        lay M rm seed optrand =
      .ok (M', if verify P.toSpec (specHash P) (pkOf P.toSpec (specHash P) seed) (flipLast rm)
        (rm ++ (Spec.sign P.toSpec (specHash P) (skOf P.toSpec (specHash P) seed) optrand rm).drop 32) then -1 else 0) :=
  spx_ok hP (fun _ => Kat.refLib_ok hP _ _ _ _ _ _) (fun _ => refLib_open hP _ _ _ _) hl hrm hseed hopt apk ask am asm amo

/-- C57.  The same with any of the optimised libraries. -/
theorem C57_spx_opt (G g' : Nat → Nat → Nat → Byte) {E : Nat → EnvX}
    (hE : (P.fam = .shake ∧ (E = (fun i => optBuild P (A64.impl P (g' i)) 1 (A64.lanes P (g' i)) (G i)) ∨
          E = fun i => optBuild P (Shake.impl P (g' i)) 2 (Avx2.lanes P (g' i)) (G i))) ∨
      (P.fam = .haraka ∧ E = fun i => optBuild P (AesNi.impl P (g' i)) 2 (AesNi.lanes P (g' i)) (G i)) ∨
      (P.fam = .sha2 ∧ E = fun i => optBuild P (Sha2.impl P (g' i)) 3 (Sha2X.lanes P (g' i)) (G i))) :
    ∃ M', Tests.spx P (fun k => Kat.optLib (E k)) lay M rm seed optrand =
      .ok (M', if verify P.toSpec (specHash P) (pkOf P.toSpec (specHash P) seed) (flipLast rm)
        (rm ++ (Spec.sign P.toSpec (specHash P) (skOf P.toSpec (specHash P) seed) optrand rm).drop 32) then -1 else 0) := by
  have main : ∀ E : Nat → EnvX, (∀ i, SameScheme P (E i) (fun _ _ => 0) fun _ _ => 0) → (∀ i, (E i).P = P) →
      ∃ M', Tests.spx P (fun k => Kat.optLib (E k)) lay M rm seed optrand =
        .ok (M', if verify P.toSpec (specHash P) (pkOf P.toSpec (specHash P) seed) (flipLast rm)
          (rm ++ (Spec.sign P.toSpec (specHash P) (skOf P.toSpec (specHash P) seed) optrand rm).drop 32) then -1 else 0) :=
    fun E h h' => spx_ok hP (fun k => Kat.optLib_ok hP (h k) (h' k)) (fun k => optLib_open hP (h k)) hl hrm hseed hopt
      apk ask am asm amo
  rcases hE with ⟨hf, rfl | rfl⟩ | ⟨hf, rfl⟩ | ⟨hf, rfl⟩
  · exact main _ (fun i => C46_a64_same hP hf _ (g' i) (G i) _) fun _ => rfl
  · exact main _ (fun i => C46_avx2_same hP hf _ (g' i) (G i) _) fun _ => rfl
  · exact main _ (fun i => C49_aesni_same hP hf _ (g' i) (G i) _) fun _ => rfl
  · exact main _ (fun i => C52_avx2_same hP hf _ (g' i) (G i) _) fun _ => rfl

end
end

/-! The hypotheses are met. -/

example : Tests.thashx4 (shake_192s true) (Shake.impl (shake_192s true) fun _ _ => 1)
    (Avx2.lanes (shake_192s true) fun _ _ => 2) (fun _ _ => 3) (Ctx.zeroed (List.replicate 24 0) (List.replicate 24 0))
    (List.replicate 24 5) ((List.range 96).map (BitVec.ofNat 8)) ((List.range 128).map (BitVec.ofNat 8)) = .ok 0 :=
  C57_thashx4 (by decide) rfl _ _ _ (Ctx.zeroed_sized (by simp; rfl) (by simp; rfl)) (by simp; rfl) (by simp; rfl) (by simp)

example : Tests.thashx8 (sha2_256s true) (Sha2.impl (sha2_256s true) fun _ _ => 1)
    (Sha2X.lanes (sha2_256s true) fun _ _ => 2) (fun _ _ => 3) (Ctx.zeroed (List.replicate 32 0) (List.replicate 32 0))
    (List.replicate 32 5) ((List.range 512).map (BitVec.ofNat 8)) ((List.range 256).map (BitVec.ofNat 8)) = .ok 0 :=
  C57_thashx8 (by decide) rfl _ _ _ (Ctx.zeroed_sized (by simp; rfl) (by simp; rfl)) (by simp; rfl) (by simp; rfl) (by simp)

example (r2 : Bytes) : Tests.thashx2 (shake_128f false) (Shake.impl (shake_128f false) fun _ _ => 1)
    (A64.lanes (shake_128f false) fun _ _ => 2) (fun _ _ => 3) (Ctx.zeroed (List.replicate 16 0) (List.replicate 16 0))
    (List.replicate 16 5) (List.replicate 64 6) r2 = .error .oob :=
  C57_thashx2_overruns (by decide) _ _ _ (Ctx.zeroed_sized (by simp; rfl) (by simp; rfl)) r2 (by simp; rfl) (by simp; rfl)

def spxLay : Lay := ⟨0, 100, 1000, 10000, 100000⟩

theorem spxLay_ok (P : Params) (h : P.spxBytes = 49856 ∧ P.n = 32) : LayOK P spxLay := by
  obtain ⟨h1, h2⟩ := h
  have hp : P.pkBytes = 64 := by show 2 * P.n = 64; omega
  have hs : P.skBytes = 128 := by show 2 * P.n + 2 * P.n = 128; omega
  constructor <;> unfold Disj spxLay <;> simp only [hp, hs, h1] <;> omega

example : ∃ M', Tests.spx (haraka_256f true) (fun k => Kat.refLib (build (haraka_256f true) (fun _ _ => BitVec.ofNat 8 k) fun _ _ => 2)
      (build (haraka_256f true) (fun _ _ => 4) fun _ _ => BitVec.ofNat 8 (k + 1))
      (build (haraka_256f true) (fun _ _ => 6) fun _ _ => 7)) spxLay (Mem.filled fun _ => 9)
      (List.replicate 32 1) (List.replicate 96 2) (List.replicate 32 3) =
    .ok (M', if verify (haraka_256f true).toSpec (specHash (haraka_256f true))
        (pkOf (haraka_256f true).toSpec (specHash (haraka_256f true)) (List.replicate 96 2))
        (flipLast (List.replicate 32 1)) (List.replicate 32 1 ++
          (Spec.sign (haraka_256f true).toSpec (specHash (haraka_256f true))
            (skOf (haraka_256f true).toSpec (specHash (haraka_256f true)) (List.replicate 96 2)) (List.replicate 32 3)
            (List.replicate 32 1)).drop 32) then -1 else 0) :=
  C57_spx (P := haraka_256f true) (by decide) (spxLay_ok _ ⟨by decide +kernel, rfl⟩) List.length_replicate
    List.length_replicate List.length_replicate (filled_alloc _ _ _) (filled_alloc _ _ _) (filled_alloc _ _ _)
    (filled_alloc _ _ _) (filled_alloc _ _ _) _ _ _ _ _ _

example : flipLast [5, 8, 6] = [5, 8, 7] := rfl

end Spx
