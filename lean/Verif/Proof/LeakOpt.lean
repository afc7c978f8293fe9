import Verif.Model.LeakOpt
import Verif.Proof.LeakSign
import Verif.Proof.LeakParallel
import Verif.Proof.EraseParallel
import Verif.Proof.LeakAesNi
import Verif.Proof.EraseAesNi
import Verif.Proof.LeakShakeX
import Verif.Proof.EraseShakeX
import Verif.Proof.LeakSha2X
import Verif.Proof.EraseSha2X
import Verif.Proof.OptBuild
import Verif.Proof.ShakeLanes
import Verif.Proof.HashHarakaX
import Verif.Proof.HashSha2X
/-! Traces of the optimised implementations: erasure, independence of secrets, refinement. -/

namespace Spx.Leak
open Spec

theorem Opt.low_hash (o : Opt) (P : Params) (g g' : Nat → Nat → Byte) : HashLow P (o.hash P g) (o.hash P g') := by
  cases o with
  | shakeA64 => exact A64.low_impl P g g'
  | shakeAvx2 => exact Shake.low_impl P g g'
  | harakaAesni => exact AesNi.low_impl P g g'
  | sha2Avx2 => exact Sha2.low_impl P g g'

theorem Opt.low_lanes (o : Opt) (P : Params) (g g' : Nat → Nat → Byte) : LaneLow (o.lanes P g) (o.lanes P g') := by
  cases o with
  | shakeA64 => exact A64.low_lanes P g g'
  | shakeAvx2 => exact Avx2.low_lanes P g g'
  | harakaAesni => exact AesNi.low_lanes P g g'
  | sha2Avx2 => exact Sha2X.low_lanes P g g'

theorem Opt.lg_pos (o : Opt) : 1 ≤ o.lg := by cases o <;> decide

theorem Opt.lg_le (o : Opt) : o.lg ≤ 3 := by cases o <;> decide

theorem Opt.low_parCode (o : Opt) {P : Params} (hP : P.Valid) (G G' g g' : Nat → Nat → Byte) :
    TreeLow P (parCode (o.build P G g)) (parCode (o.build P G' g')) :=
  Leak.low_parCode (o.low_hash P g g') hP (by have := o.lg_le; omega) (o.low_lanes P g g')

theorem EnvX.erase_mk {P : Params} {H : HashImpl} {G : Nat → Nat → Byte} {lg : Nat} {X : LaneHash}
    {H' : Spx.HashImpl} {X' : Spx.LaneHash} (hH : H.erase = H') (hX : X.erase = X') :
    EnvX.erase ⟨⟨P, H, G⟩, lg, X⟩ = optBuild P H' lg X' G := by
  subst hH
  subst hX
  rfl

theorem Opt.erase_build (o : Opt) (P : Params) (G g : Nat → Nat → Byte) : (o.build P G g).erase = o.plain P G g := by
  cases o with
  | shakeA64 => exact EnvX.erase_mk (A64.erase_impl P g) (A64.erase_lanes P g)
  | shakeAvx2 => exact EnvX.erase_mk (erase_shake P g) (Avx2.erase_lanes P g)
  | harakaAesni => exact EnvX.erase_mk (AesNi.erase_impl P g) (AesNi.erase_lanes P g)
  | sha2Avx2 => exact EnvX.erase_mk (erase_sha2 P g) (Sha2X.erase_lanes P g)

theorem Opt.refines (o : Opt) {P : Params} (hP : P ∈ shipped) (hf : P.fam = o.fam) (G g : Nat → Nat → Byte) :
    ∃ R : Refines (o.plain P G g).P (o.plain P G g).H (specHash P), TreeCodeOK (E := (o.plain P G g).toEnv) R
      (Spx.parCode (o.plain P G g)) := by
  have hv := shipped_valid hP
  have h := shipped_heights hP
  have key : ∀ {H : Spx.HashImpl} {lg : Nat} {X : Spx.LaneHash} (R : Refines P H (specHash P))
      (_ : LaneRefines (optBuild P H lg X G) R), 1 ≤ lg → lg ≤ 3 →
      TreeCodeOK (E := ⟨P, H, G⟩) R (Spx.parCode (optBuild P H lg X G)) := fun {H lg X} R RX h1 h3 =>
    parCode_ok RX hv h1 (Nat.le_trans h3 h.1) (Nat.le_trans h3 h.2.1)
      (by have h4 := h.2.2
          show P.treeHeight + lg < 32
          omega)
  cases o with
  | shakeA64 =>
    have hx := specHash_shake hf
    revert key
    rw [hx]
    intro key
    exact ⟨a64Refines hP hf g, key _ (a64LaneRefines hP hf g G) (by decide) (by decide)⟩
  | shakeAvx2 =>
    have hx := specHash_shake hf
    revert key
    rw [hx]
    intro key
    exact ⟨shakeRefines g hv hf, key _ (avx2LaneRefines hP hf g G) (by decide) (by decide)⟩
  | harakaAesni =>
    have hx := specHash_haraka hf
    revert key
    rw [hx]
    intro key
    exact ⟨aesniRefines g hv hf (shipped_n hP), key _ (aesniLaneRefines g G hv hf (shipped_n hP)) (by decide) (by decide)⟩
  | sha2Avx2 =>
    have hx := specHash_sha2 hf
    revert key
    rw [hx]
    intro key
    exact ⟨sha2Refines g hv hf (shipped_n hP) (shipped_sha512 hP hf),
      key _ (sha2LaneRefines g G hv hf (shipped_n hP) (shipped_sha512 hP hf)) (by decide) (by decide)⟩

theorem Opt.erase_refines (o : Opt) {P : Params} (hP : P ∈ shipped) (hf : P.fam = o.fam) (G g : Nat → Nat → Byte) :
    ∃ R : Refines P (o.hash P g).erase (specHash P), TreeCodeOK (E := Env.erase ⟨P, o.hash P g, G⟩) R
      (Spx.parCode (o.build P G g).erase) := by
  have h := o.refines hP hf G g
  rw [← Opt.erase_build] at h
  exact h

end Spx.Leak
