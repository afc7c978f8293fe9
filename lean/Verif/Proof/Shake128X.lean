import Verif.Proof.ThashShakeX
import Verif.Model.Shake128X
import Verif.Spec.Shake128
/-! The multi-lane SHAKE128 computes SHAKE128 in every lane: the proof of Proof/FipsX.lean at rate 168. -/

namespace Spx
open Spec Spec.Keccak

attribute [local irreducible] keccakF

theorem shake128_bytes (m : Bytes) (n : Nat) : Keccak.shake128 m n =
    (List.range n).map (stream keccakF 168
      (padState 168 0x1F#8 (m.foldl (absB keccakF 168) (List.replicate 200 0#8, 0)))) :=
  sponge_eq keccakF_len (by decide) (by decide) m n

section
variable {L : Nat} (hL : 0 < L) {perm : List (BitVec 64) → C (List (BitVec 64))} (hp : PermOK L perm)
include hL hp

/-- Every lane of the multi-lane function is SHAKE128. -/
theorem shake128x_spec (g : Nat → Nat → Byte) {out inp : Nat → Bytes} {outlen inlen : Nat}
    (ho : ∀ j, j < L → outlen ≤ (out j).length) (hi : ∀ j, j < L → inlen ≤ (inp j).length) :
    shake128x L perm g (inter L fun _ _ => 0#64) ((List.range L).map out) outlen ((List.range L).map inp) inlen =
      .ok ((List.range L).map fun j => Keccak.shake128 ((inp j).take inlen) outlen ++ (out j).drop outlen) := by
  obtain ⟨F1, e1, hw1⟩ := absorbx_spec hL hp (r := 168) (by decide) (by decide) (by decide) (fun j => g (30 + j))
    (F := fun _ _ => 0#64) hi (p := 0x1F#8) (by decide)
  have hq : outlen / 168 * 168 ≤ outlen := Nat.div_mul_le_self _ _
  obtain ⟨F2, e2, hw2⟩ := squeezex_spec hL hp (r := 168) (by decide) (by decide) (by decide) F1
    (h := out) (nb := outlen / 168) (fun j hj => Nat.le_trans hq (ho j hj))
  obtain ⟨F3, e3, hw3⟩ := squeezex_spec hL hp (r := 168) (by decide) (by decide) (by decide) F2
    (h := fun j => uninit (g (40 + j)) 168) (nb := 1) (by simp)
  have hb : ∀ j, j < L → Keccak.shake128 ((inp j).take inlen) outlen =
      (List.range outlen).map (stream keccakF 168 (wordsB (laneW F1 j))) := by
    intro j hj
    rw [shake128_bytes, hw1 j hj, laneW_zero]
  unfold shake128x SHAKE128_RATE
  rw [e1]
  simp only [ok_bind, e2]
  by_cases h0 : outlen % 168 ≠ 0
  · rw [if_pos h0, e3]
    simp only [ok_bind]
    refine tabulate_ok fun j hj => ?_
    rw [rd1_map (L := L) (fun j => (List.range (1 * 168)).map (stream keccakF 168 (wordsB (laneW F2 j))) ++
      (uninit (g (40 + j)) 168).drop (1 * 168)) hj, ok_bind, rd1_map (L := L) (fun j =>
      (List.range (outlen / 168 * 168)).map (stream keccakF 168 (wordsB (laneW F1 j))) ++ (out j).drop (outlen / 168 * 168)) hj,
      ok_bind, hb j hj]
    have hol := ho j hj
    refine forRange_eq' (fun i => (List.range (outlen / 168 * 168 + i)).map (stream keccakF 168 (wordsB (laneW F1 j))) ++
      (out j).drop (outlen / 168 * 168 + i)) rfl
      (by rw [show outlen / 168 * 168 + outlen % 168 = outlen by omega]) ?_
    intro i hi
    have hst : stream keccakF 168 (wordsB (laneW F2 j)) i =
        stream keccakF 168 (wordsB (laneW F1 j)) (outlen / 168 * 168 + i) := by
      rw [stream, stream, hw2 j hj, show i / 168 = 0 by omega,
        show (outlen / 168 * 168 + i) / 168 = outlen / 168 by omega,
        show (outlen / 168 * 168 + i) % 168 = i % 168 by omega]
      rfl
    rw [rd1_ok (by simp; omega), ok_bind, List.getElem_append_left (by simp; omega)]
    simp only [List.getElem_map, List.getElem_range]
    rw [hst]
    exact wr1_fill (g := stream keccakF 168 (wordsB (laneW F1 j))) (by omega)
  · rw [if_neg h0, show outlen / 168 * 168 = outlen by omega]
    congr 1
    apply List.map_congr_left
    intro j hj
    rw [hb j (List.mem_range.1 hj)]

end

theorem shake128x2_spec (g : Nat → Nat → Byte) {out inp : Nat → Bytes} {outlen inlen : Nat}
    (ho : ∀ j, j < 2 → outlen ≤ (out j).length) (hi : ∀ j, j < 2 → inlen ≤ (inp j).length) :
    shake128x2 g ((List.range 2).map out) outlen ((List.range 2).map inp) inlen =
      .ok ((List.range 2).map fun j => Keccak.shake128 ((inp j).take inlen) outlen ++ (out j).drop outlen) := by
  unfold shake128x2
  rw [zeros50]
  exact shake128x_spec (by decide) f1600x2_ok g ho hi

theorem shake128x4_spec (g : Nat → Nat → Byte) {out inp : Nat → Bytes} {outlen inlen : Nat}
    (ho : ∀ j, j < 4 → outlen ≤ (out j).length) (hi : ∀ j, j < 4 → inlen ≤ (inp j).length) :
    shake128x4 g ((List.range 4).map out) outlen ((List.range 4).map inp) inlen =
      .ok ((List.range 4).map fun j => Keccak.shake128 ((inp j).take inlen) outlen ++ (out j).drop outlen) := by
  have hz : forRange 25 (fun i s => do
      let v ← getw 4 s i
      setw 4 s i (vxor v v)) (uninit (fun i => (g 50 i).zeroExtend 64) 100) = .ok (inter 4 fun _ _ => 0#64) := by
    rw [uninit_inter]
    generalize (fun i j => (g 50 (4 * i + j)).zeroExtend 64) = F
    refine forRange_eq' (fun t => inter 4 fun i j => if i < t then 0#64 else F i j) (by simp)
      (inter_congr fun i j h _ => by simp only [if_pos h]) ?_
    intro i hi
    rw [getw_inter (by decide) _ hi, ok_bind, setw_inter (by decide) _ hi]
    congr 1
    refine inter_congr fun t j _ hj => ?_
    unfold upd vxor
    by_cases h1 : t = i
    · subst h1; simp
    · simp only [if_neg h1]
      by_cases h2 : t < i
      · rw [if_pos h2, if_pos (by omega)]
      · rw [if_neg h2, if_neg (by omega)]
  unfold shake128x4
  rw [hz, ok_bind]
  exact shake128x_spec (by decide) PermuteAll_ok g ho hi

end Spx
