import Verif.Proof.Shake128X
/-! # SHAKE128 on two and four states: C54

The specification is the sponge construction at rate 168 over Keccak-f[1600] (Spec/Shake128.lean). -/

namespace Spx
open Spec

/-- C54.  `shake128x2`: each output buffer receives the SHAKE128 output for the input of its lane, and
nothing behind it is written.  `g` is the contents of uninitialised memory. -/
theorem C54_shake128x2 (g : Nat → Nat → Byte) {o0 o1 i0 i1 : Bytes} {outlen inlen : Nat}
    (ho0 : outlen ≤ o0.length) (ho1 : outlen ≤ o1.length) (hi0 : inlen ≤ i0.length) (hi1 : inlen ≤ i1.length) :
    shake128x2 g [o0, o1] outlen [i0, i1] inlen =
      .ok [Keccak.shake128 (i0.take inlen) outlen ++ o0.drop outlen,
        Keccak.shake128 (i1.take inlen) outlen ++ o1.drop outlen] := by
  refine (shake128x2_spec g (out := fun j => if j = 0 then o0 else o1) (inp := fun j => if j = 0 then i0 else i1)
    (outlen := outlen) (inlen := inlen) ?_ ?_).trans rfl
  · intro j _; show _ ≤ List.length (if _ then _ else _); split <;> assumption
  · intro j _; show _ ≤ List.length (if _ then _ else _); split <;> assumption

/-- C54, `shake128x4`. -/
theorem C54_shake128x4 (g : Nat → Nat → Byte) {o0 o1 o2 o3 i0 i1 i2 i3 : Bytes} {outlen inlen : Nat}
    (ho0 : outlen ≤ o0.length) (ho1 : outlen ≤ o1.length) (ho2 : outlen ≤ o2.length) (ho3 : outlen ≤ o3.length)
    (hi0 : inlen ≤ i0.length) (hi1 : inlen ≤ i1.length) (hi2 : inlen ≤ i2.length) (hi3 : inlen ≤ i3.length) :
    shake128x4 g [o0, o1, o2, o3] outlen [i0, i1, i2, i3] inlen =
      .ok [Keccak.shake128 (i0.take inlen) outlen ++ o0.drop outlen,
        Keccak.shake128 (i1.take inlen) outlen ++ o1.drop outlen,
        Keccak.shake128 (i2.take inlen) outlen ++ o2.drop outlen,
        Keccak.shake128 (i3.take inlen) outlen ++ o3.drop outlen] := by
  refine (shake128x4_spec g (out := fun j => if j = 0 then o0 else if j = 1 then o1 else if j = 2 then o2 else o3)
    (inp := fun j => if j = 0 then i0 else if j = 1 then i1 else if j = 2 then i2 else i3)
    (outlen := outlen) (inlen := inlen) ?_ ?_).trans rfl
  · intro j _; show _ ≤ List.length (if _ then _ else _); split
    · assumption
    split
    · assumption
    split <;> assumption
  · intro j _; show _ ≤ List.length (if _ then _ else _); split
    · assumption
    split
    · assumption
    split <;> assumption

/-- Several blocks in, several blocks out, buffers longer than needed. -/
example (g : Nat → Nat → Byte) :
    shake128x2 g [List.replicate 300 1, List.replicate 290 2] 280 [List.replicate 500 3, List.replicate 600 4] 450 =
      .ok [Keccak.shake128 (List.replicate 450 3) 280 ++ List.replicate 20 1,
        Keccak.shake128 (List.replicate 450 4) 280 ++ List.replicate 10 2] := by
  have h := C54_shake128x2 g (o0 := List.replicate 300 1) (o1 := List.replicate 290 2) (i0 := List.replicate 500 3)
    (i1 := List.replicate 600 4) (outlen := 280) (inlen := 450) (by rw [List.length_replicate]; decide)
    (by rw [List.length_replicate]; decide) (by rw [List.length_replicate]; decide)
    (by rw [List.length_replicate]; decide)
  simp only [List.take_replicate, List.drop_replicate] at h
  exact h

example (g : Nat → Nat → Byte) :
    shake128x4 g [[0, 0], [1], [2, 2, 2], [3]] 1 [[], [1], [5, 6], []] 0 =
      .ok [Keccak.shake128 [] 1 ++ [0], Keccak.shake128 [] 1, Keccak.shake128 [] 1 ++ [2, 2], Keccak.shake128 [] 1] := by
  have h := C54_shake128x4 g (o0 := [0, 0]) (o1 := [1]) (o2 := [2, 2, 2]) (o3 := [3]) (i0 := []) (i1 := [1])
    (i2 := [5, 6]) (i3 := []) (outlen := 1) (inlen := 0) (by decide) (by decide) (by decide) (by decide) (by decide)
    (by decide) (by decide) (by decide)
  simpa using h

/-- One more byte than a block, so that the last byte comes out of a second permutation. -/
example (g : Nat → Nat → Byte) :
    shake128x2 g [List.replicate 169 1, List.replicate 169 2] 169 [[], [7]] 0 =
      .ok [Keccak.shake128 [] 169, Keccak.shake128 [] 169] := by
  have h := C54_shake128x2 g (o0 := List.replicate 169 1) (o1 := List.replicate 169 2) (i0 := []) (i1 := [7])
    (outlen := 169) (inlen := 0) (by rw [List.length_replicate]; decide)
    (by rw [List.length_replicate]; decide) (by decide) (by decide)
  simpa using h

end Spx
