import Verif.Proof.Shake
import Verif.Proof.List
import Verif.Proof.Chunking
/-! # SHAKE256 and Keccak-f[1600]: C26, C27 -/

namespace Spx
open Spec

/-- `shake256_inc_init`, absorb calls, `shake256_inc_finalize`, squeeze calls. -/
def shakeRun (s : List (BitVec 64)) (ins outs : List (Bytes × Nat)) : C (List Bytes) := do
  let s ← shake256_inc_init s
  let s ← absorbAll shake256_inc_absorb ins s
  let s ← shake256_inc_finalize s
  let (bufs, _) ← squeezeAll shake256_inc_squeeze outs s
  .ok bufs

/-- C26: the incremental interface, for every cut of the input and of the output. -/
theorem C26_shake256_incremental {s : List (BitVec 64)} (hs : s.length = 26)
    {ins outs : List (Bytes × Nat)} (hi : ∀ q ∈ ins, q.2 ≤ q.1.length) (ho : ∀ q ∈ outs, q.2 ≤ q.1.length) :
    ∃ bufs, shakeRun s ins outs = .ok bufs ∧ bufs.length = outs.length ∧
      (List.zipWith (fun o (q : Bytes × Nat) => o.take q.2) bufs outs).flatten =
        Keccak.shake256 (absorbed ins) (requested outs) ∧
      List.zipWith (fun o (q : Bytes × Nat) => o.drop q.2) bufs outs = outs.map fun q => q.1.drop q.2 := by
  obtain ⟨s1, e1, h1⟩ := shake256_inc_init_spec hs
  obtain ⟨s2, e2, h2⟩ := absorb_all (Inv := ShakeAbs)
    (fun s m x n h hl => shake256_inc_absorb_spec h hl) ins s1 [] h1 hi
  rw [List.nil_append] at h2
  obtain ⟨s3, e3, h3⟩ := shake256_inc_finalize_spec h2
  obtain ⟨bufs, s4, e4, _, h5, h6, h7⟩ := squeeze_all (Inv := fun s k => ShakeSq s (absorbed ins) k)
    (S := Keccak.shake256 (absorbed ins)) (fun n => sponge_length _ _ _ _ _ _)
    (fun a b h => by rw [shake256_bytes, shake256_bytes, ← List.map_take, List.take_range, Nat.min_eq_left h])
    (fun s k h n hk hl => shake256_inc_squeeze_spec hk hl) outs s3 0 h3 ho
  rw [Nat.zero_add, List.drop_zero] at h6
  refine ⟨bufs, ?_, h5, h6, h7⟩
  unfold shakeRun
  rw [e1, ok_bind, e2, ok_bind, e3, ok_bind, e4, ok_bind]

/-- C26: the one-shot function gives the same stream, the FIPS 202 sponge. -/
theorem C26_shake256 (g : Nat → Nat → Byte) {out input : Bytes} {outlen inlen : Nat}
    (ho : outlen ≤ out.length) (hi : inlen ≤ input.length) :
    shake256 g out outlen input inlen = .ok (Keccak.shake256 (input.take inlen) outlen ++ out.drop outlen) :=
  shake256_spec g ho hi

/-- C27: the 25 words `s`, lane (x, y) at `5y + x`, become the lanes of Keccak-f[1600]. -/
theorem C27_keccak_f1600 {s : List (BitVec 64)} (h : 25 ≤ s.length) :
    ∃ t, KeccakF1600_StatePermute s = .ok (t ++ s.drop 25) ∧ t.length = 25 ∧
      ∀ x y, x < 5 → y < 5 → t[5 * y + x]? = some (Keccak.f1600 (fun x y => s.getD (5 * y + x) 0) x y) := by
  obtain ⟨L, h1, h2⟩ := Lanes.load_ok h
  obtain ⟨L', h3, h4⟩ := keccak_rounds L
  have hl : L'.toList.length = 25 := rfl
  refine ⟨L'.toList, ?_, hl, fun x y hx hy => ?_⟩
  · unfold KeccakF1600_StatePermute
    rw [h1, ok_bind, h3, ok_bind, wr_ok (by omega)]
    simp [hl]
  · have e := h4 x y hx hy
    have e2 : LaneEq L.lane (fun x y => s.getD (5 * y + x) 0) := by
      intro x y hx hy
      rw [Lanes.lane, h2]
      simp only [List.getD]
      rw [List.getElem?_take_of_lt (by omega)]
    rw [f1600_congr e2 x y hx hy, Lanes.lane, getD_lt (by omega)] at e
    rw [List.getElem?_eq_getElem (by omega), e]

/-- The specification against the published SHAKE256 of the empty string. -/
theorem shake256_empty : Keccak.shake256 [] 32 =
    toBE 32 0x46b9dd2b0ba88d13233b3feb743eeb243fcd52ea62b81b82b50c27646ed5762f := by
  have h := C26_shake256 (fun _ _ => 0) (out := List.replicate 32 0) (input := []) (outlen := 32) (inlen := 0)
    (by decide) (by decide)
  rw [List.drop_of_length_le (by simp), List.append_nil] at h
  exact eq_of_okIs (by decide +kernel) h

/-- Cutting inside and across the 136-byte blocks makes no difference. -/
example (s : List (BitVec 64)) (hs : s.length = 26) (x : Bytes) (hx : x.length = 300) :
    ∃ bufs, shakeRun s [(x, 1), (x.drop 1, 0), (x.drop 1, 299)]
        [(List.replicate 200 7, 135), (List.replicate 200 8, 2)] = .ok bufs ∧
      (List.zipWith (fun o (n : Nat) => o.take n) bufs [135, 2]).flatten = Keccak.shake256 x 137 := by
  obtain ⟨bufs, e, hl, h, _⟩ := C26_shake256_incremental hs (ins := [(x, 1), (x.drop 1, 0), (x.drop 1, 299)])
    (outs := [(List.replicate 200 7, 135), (List.replicate 200 8, 2)]) (by simp; omega) (by
      intro q hq
      simp only [List.mem_cons, List.not_mem_nil, or_false] at hq
      rcases hq with rfl | rfl <;> simp only [List.length_replicate] <;> omega)
  refine ⟨bufs, e, ?_⟩
  have ha : absorbed [(x, 1), (x.drop 1, 0), (x.drop 1, 299)] = x := by
    simp only [absorbed, List.map_cons, List.map_nil, List.flatten_cons, List.flatten_nil, List.append_nil,
      List.take_zero, List.nil_append]
    rw [List.take_of_length_le (l := x.drop 1) (by simp; omega), List.take_append_drop]
  rw [ha] at h
  match bufs, hl with
  | [a, b], _ => exact h

end Spx
