import Verif.Proof.ShakeLanes
/-! # The SIMD SHAKE implementations: C43, C44, C45, C46

shake-a64 works on two states at once with the NEON SHA-3 instructions, shake-avx2 on four with AVX2.
The specification is the one of the scalar code: `Spec.Keccak.f1600`, `Spec.Keccak.shake256` and the
functions `T`, `PRF` of the SHAKE instantiation. -/

namespace Spx
open Spec Spec.Keccak

/-- Word `(x, y)` of state `j` out of `L` interleaved states. -/
def laneState (L : Nat) (s : List (BitVec 64)) (j : Nat) : State := fun x y => s.getD (L * (5 * y + x) + j) 0

/-! Interleaved states as lists. -/

theorem list_inter {L : Nat} {s : List (BitVec 64)} (hs : s.length = L * 25) :
    s = inter L fun i j => s.getD (L * i + j) 0 := by
  apply List.ext_getElem?
  intro k
  unfold inter
  by_cases h : k < L * 25
  · rw [List.getElem?_map, List.getElem?_range h, Option.map_some]
    show _ = some (s.getD (L * (k / L) + k % L) 0)
    rw [Nat.div_add_mod, getD_lt (by omega), List.getElem?_eq_getElem (by omega)]
  · rw [List.getElem?_eq_none (by omega), List.getElem?_eq_none (by simp; omega)]

theorem inter_getD {L : Nat} {F : Nat → VReg} {i j : Nat} (hi : i < 25) (hj : j < L) :
    (inter L F).getD (L * i + j) 0 = F i j := by
  have h : L * i + j < L * 25 := by
    have : L * (i + 1) ≤ L * 25 := Nat.mul_le_mul_left L hi
    rw [Nat.mul_succ] at this
    omega
  rw [getD_lt (by rw [inter_length]; exact h)]
  unfold inter
  rw [List.getElem_map, List.getElem_range, Nat.mul_add_div (by omega), Nat.div_eq_of_lt hj, Nat.mul_add_mod,
    Nat.mod_eq_of_lt hj, Nat.add_zero]

theorem perm_lanes {L : Nat} {perm : List (BitVec 64) → C (List (BitVec 64))} (hp : PermOK L perm)
    {s : List (BitVec 64)} (hs : s.length = L * 25) :
    ∃ s', perm s = .ok s' ∧ s'.length = L * 25 ∧
      ∀ j x y, j < L → x < 5 → y < 5 → laneState L s' j x y = f1600 (laneState L s j) x y := by
  have e := hp fun i j => s.getD (L * i + j) 0
  rw [← list_inter hs] at e
  refine ⟨_, e, inter_length .., fun j x y hj hx hy => ?_⟩
  unfold laneState
  rw [inter_getD (by omega) hj]
  unfold kf
  rw [show (5 * y + x) % 5 = x by omega, show (5 * y + x) / 5 = y by omega]

/-- C43.  The two-state permutation of shake-a64 is Keccak-f[1600] on each state, for all states. -/
theorem C43_f1600x2 {s : List (BitVec 64)} (hs : s.length = 50) :
    ∃ s', f1600x2 s = .ok s' ∧ s'.length = 50 ∧
      ∀ j x y, j < 2 → x < 5 → y < 5 → laneState 2 s' j x y = f1600 (laneState 2 s j) x y :=
  perm_lanes f1600x2_ok hs

/-- C43.  The four-state permutation of shake-avx2 is Keccak-f[1600] on each state, for all states. -/
theorem C43_f1600x4 {s : List (BitVec 64)} (hs : s.length = 100) :
    ∃ s', KeccakP1600times4_PermuteAll_24rounds s = .ok s' ∧ s'.length = 100 ∧
      ∀ j x y, j < 4 → x < 5 → y < 5 → laneState 4 s' j x y = f1600 (laneState 4 s j) x y :=
  perm_lanes PermuteAll_ok hs

example : ∃ s', f1600x2 ((List.range 50).map (BitVec.ofNat 64)) = .ok s' ∧ s'.length = 50 ∧
    ∀ j x y, j < 2 → x < 5 → y < 5 →
      laneState 2 s' j x y = f1600 (laneState 2 ((List.range 50).map (BitVec.ofNat 64)) j) x y :=
  C43_f1600x2 (by simp)

example : ∃ s', KeccakP1600times4_PermuteAll_24rounds ((List.range 100).map (BitVec.ofNat 64)) = .ok s' ∧
    s'.length = 100 ∧ ∀ j x y, j < 4 → x < 5 → y < 5 →
      laneState 4 s' j x y = f1600 (laneState 4 ((List.range 100).map (BitVec.ofNat 64)) j) x y :=
  C43_f1600x4 (by simp)

/-- C44.  `shake256x2`: each output buffer receives the SHAKE256 output for the input of its lane, and
nothing behind it is written.  `g` is the contents of uninitialised memory. -/
theorem C44_shake256x2 (g : Nat → Nat → Byte) {o0 o1 i0 i1 : Bytes} {outlen inlen : Nat}
    (ho0 : outlen ≤ o0.length) (ho1 : outlen ≤ o1.length) (hi0 : inlen ≤ i0.length) (hi1 : inlen ≤ i1.length) :
    shake256x2 g [o0, o1] outlen [i0, i1] inlen =
      .ok [Keccak.shake256 (i0.take inlen) outlen ++ o0.drop outlen,
        Keccak.shake256 (i1.take inlen) outlen ++ o1.drop outlen] := by
  refine (shake256x2_spec g (out := fun j => if j = 0 then o0 else o1) (inp := fun j => if j = 0 then i0 else i1)
    (outlen := outlen) (inlen := inlen) ?_ ?_).trans rfl
  · intro j _; show _ ≤ List.length (if _ then _ else _); split <;> assumption
  · intro j _; show _ ≤ List.length (if _ then _ else _); split <;> assumption

/-- C44, `shake256x4`. -/
theorem C44_shake256x4 (g : Nat → Nat → Byte) {o0 o1 o2 o3 i0 i1 i2 i3 : Bytes} {outlen inlen : Nat}
    (ho0 : outlen ≤ o0.length) (ho1 : outlen ≤ o1.length) (ho2 : outlen ≤ o2.length) (ho3 : outlen ≤ o3.length)
    (hi0 : inlen ≤ i0.length) (hi1 : inlen ≤ i1.length) (hi2 : inlen ≤ i2.length) (hi3 : inlen ≤ i3.length) :
    shake256x4 g [o0, o1, o2, o3] outlen [i0, i1, i2, i3] inlen =
      .ok [Keccak.shake256 (i0.take inlen) outlen ++ o0.drop outlen,
        Keccak.shake256 (i1.take inlen) outlen ++ o1.drop outlen,
        Keccak.shake256 (i2.take inlen) outlen ++ o2.drop outlen,
        Keccak.shake256 (i3.take inlen) outlen ++ o3.drop outlen] := by
  refine (shake256x4_spec g (out := fun j => if j = 0 then o0 else if j = 1 then o1 else if j = 2 then o2 else o3)
    (inp := fun j => if j = 0 then i0 else if j = 1 then i1 else if j = 2 then i2 else i3)
    (outlen := outlen) (inlen := inlen) ?_ ?_).trans rfl
  · intro j _; show _ ≤ List.length (if _ then _ else _); split
    · assumption
    split
    · assumption
    split <;> assumption
  · intro j _; show _ ≤ List.length (if _ then _ else _); split
    · assumption
    split
    · assumption
    split <;> assumption

/-- Several blocks in, several blocks out, buffers longer than needed. -/
example (g : Nat → Nat → Byte) :
    shake256x2 g [List.replicate 300 1, List.replicate 290 2] 280 [List.replicate 500 3, List.replicate 600 4] 450 =
      .ok [Keccak.shake256 (List.replicate 450 3) 280 ++ List.replicate 20 1,
        Keccak.shake256 (List.replicate 450 4) 280 ++ List.replicate 10 2] := by
  have h := C44_shake256x2 g (o0 := List.replicate 300 1) (o1 := List.replicate 290 2) (i0 := List.replicate 500 3)
    (i1 := List.replicate 600 4) (outlen := 280) (inlen := 450) (by rw [List.length_replicate]; decide)
    (by rw [List.length_replicate]; decide) (by rw [List.length_replicate]; decide)
    (by rw [List.length_replicate]; decide)
  simp only [List.take_replicate, List.drop_replicate] at h
  exact h

example (g : Nat → Nat → Byte) :
    shake256x4 g [[0, 0], [1], [2, 2, 2], [3]] 1 [[], [1], [5, 6], []] 0 =
      .ok [Keccak.shake256 [] 1 ++ [0], Keccak.shake256 [] 1, Keccak.shake256 [] 1 ++ [2, 2], Keccak.shake256 [] 1] := by
  have h := C44_shake256x4 g (o0 := [0, 0]) (o1 := [1]) (o2 := [2, 2, 2]) (o3 := [3]) (i0 := []) (i1 := [1])
    (i2 := [5, 6]) (i3 := []) (outlen := 1) (inlen := 0) (by decide) (by decide) (by decide) (by decide) (by decide)
    (by decide) (by decide) (by decide)
  simpa using h

section
variable {P : Params} (hP : P ∈ shipped) (hf : P.fam = .shake) (g g' : Nat → Nat → Byte)
include hP hf

/-- C45.  `prf_addrx2` and `thashx2` of shake-a64 return in each lane what the one-way reference functions
return for the arguments of that lane, whatever the address buffers hold. -/
theorem C45_a64_lanes : LaneWise P g 1 (A64.lanes P g') :=
  laneWise_of hP g
    (fun hc _ _ _ _ hA _ hi _ => by rw [specHash_shake hf]; exact A64.thashx_value hP g' hc.pub_len hi hf hA)
    (fun hc _ _ hA => by rw [specHash_shake hf]; exact A64.prfx_value hP g' hc.pub_len hc.sk_len hf hA)

/-- C45.  `prf_addrx4` and `thashx4` of shake-avx2. -/
theorem C45_avx2_lanes : LaneWise P g 2 (Avx2.lanes P g') :=
  laneWise_of hP g
    (fun hc _ _ _ _ hA _ hi _ => by rw [specHash_shake hf]; exact Avx2.thashx_value hP g' hc.pub_len hi hf hA)
    (fun hc _ _ hA => by rw [specHash_shake hf]; exact Avx2.prfx_value hP g' hc.pub_len hc.sk_len hf hA)

/-- C45.  `thash` of shake-a64, made from `thashx2`, is the `thash` of the reference. -/
theorem C45_a64_thash {ctx : Ctx} (hc : ctx.Ready P g) {ad : Addr} (ha : ad.length = 32) {inp : Bytes} {b : Nat}
    (hb : 1 ≤ b) (hi : b * P.n ≤ inp.length) (hs : b * P.n < 2 ^ 31) :
    ∃ out, out.length = P.n ∧ A64.thash P g' inp b ctx ad = .ok out ∧ (implOf P g).thash inp b ctx ad = .ok out := by
  obtain ⟨a, he⟩ := exists_encodes P.fam ha
  refine ⟨_, ?_, A64.thash_value hP g' hc.pub_len hi hf he, ?_⟩
  · exact (a64Refines hP hf g').T_len _ _ _
  · have := thash_any hP hc he hb hi hs
    rw [specHash_shake hf] at this
    exact this

/-- C46.  The library of shake-a64 behaves as the reference: same key pairs, signatures, verdicts and
memory contents, for all inputs and whatever uninitialised memory contains. -/
theorem C46_a64_same (G G' : Nat → Nat → Byte) :
    SameScheme P (optBuild P (A64.impl P g') 1 (A64.lanes P g') G) G' g :=
  sameScheme_of hP (specHash_shake hf).symm (a64LaneRefines hP hf g' G) (by decide) (by decide) G' g

/-- C46.  The library of shake-avx2 behaves as the reference. -/
theorem C46_avx2_same (G G' : Nat → Nat → Byte) :
    SameScheme P (optBuild P (Shake.impl P g') 2 (Avx2.lanes P g') G) G' g :=
  sameScheme_of hP (specHash_shake hf).symm (avx2LaneRefines hP hf g' G) (by decide) (by decide) G' g

end

/-! Concrete cases. -/

/-- A context, different inputs and addresses in the lanes. -/
example : ∃ ctx o0 o1 o2 o3, ctx.pub_seed = List.replicate 24 2 ∧
    (Avx2.lanes (shake_192s true) fun _ _ => 9).thashx
      [List.replicate 48 1, List.replicate 50 2, List.replicate 48 3, List.replicate 48 4] 2 ctx
      [enc .shake ⟨1, 2, 3, 4, 5, 6⟩, enc .shake ⟨1, 2, 3, 4, 5, 7⟩, enc .shake ⟨1, 2, 3, 4, 5, 8⟩,
        enc .shake ⟨1, 2, 3, 4, 5, 9⟩] = .ok [o0, o1, o2, o3] ∧
    (implOf (shake_192s true) fun _ _ => 7).thash (List.replicate 48 4) 2 ctx (enc .shake ⟨1, 2, 3, 4, 5, 9⟩) = .ok o3 := by
  obtain ⟨ctx, -, hr, hp, -⟩ := (Ctx.zeroed_sized (P := shake_192s true) (pub := List.replicate 24 2)
    (sk := List.replicate 24 0) List.length_replicate List.length_replicate).ready (by decide) (fun _ _ => 7)
  have hA : ∀ j, j < 4 → (ADRS.mk 1 2 3 4 5 (6 + j)).OK := fun j hj =>
    ⟨show 1 < 256 by decide, show 2 < 2 ^ 64 by decide, show 3 < 256 by decide, show 4 < 2 ^ 32 by decide,
      show 5 < 256 by decide, by show 6 + j < 2 ^ 32; omega⟩
  have hI : ∀ j, j < 4 → 2 * 24 ≤ (List.replicate (if j = 1 then 50 else 48) (BitVec.ofNat 8 (j + 1))).length :=
    fun j _ => by rw [List.length_replicate]; split <;> omega
  have h := (C45_avx2_lanes (P := shake_192s true) (by decide) rfl (fun _ _ => 7) (fun _ _ => 9)).thashx hr
    (as := fun j => enc .shake ⟨1, 2, 3, 4, 5, 6 + j⟩) (fun j _ => enc_length .shake _) (show 1 ≤ 2 by decide) hI (by decide)
  have hok : ∀ j, ∃ o, j < 4 → (implOf (shake_192s true) fun _ _ => 7).thash
      (List.replicate (if j = 1 then 50 else 48) (BitVec.ofNat 8 (j + 1))) 2 ctx
      (enc .shake ⟨1, 2, 3, 4, 5, 6 + j⟩) = .ok o := by
    intro j
    by_cases hj : j < 4
    · exact ⟨_, fun _ => (readyRefines (P := shake_192s true) (by decide) (fun _ _ => 7) (fun _ _ => 7)).thash ctx
        ⟨1, 2, 3, 4, 5, 6 + j⟩ _ 2 hr (hA j hj) (by decide) (hI j hj) (by decide)⟩
    · exact ⟨[], fun h => absurd h hj⟩
  obtain ⟨o, ho⟩ := Classical.axiomOfChoice hok
  have h := h.trans (tabulate_ok (fun j hj => ho j hj))
  exact ⟨ctx, o 0, o 1, o 2, o 3, hp, h, ho 3 (by decide)⟩

/-- shake-a64 with parameter set shake-256f simple, and shake-avx2 with shake-128s robust. -/
def a64Ex (G : Nat → Nat → Byte) : EnvX :=
  optBuild (shake_256f false) (A64.impl (shake_256f false) fun _ _ => 1) 1 (A64.lanes (shake_256f false) fun _ _ => 1) G
def avx2Ex (G : Nat → Nat → Byte) : EnvX :=
  optBuild (shake_128s true) (Shake.impl (shake_128s true) fun _ _ => 1) 2 (Avx2.lanes (shake_128s true) fun _ _ => 1) G

example (G G' : Nat → Nat → Byte) :
    ∃ r, crypto_sign_signatureT (a64Ex G).toEnv (parCode (a64Ex G))
        (List.replicate 49856 0) [1, 2, 3] (List.replicate 128 5) (List.replicate 32 9) = .ok r ∧
      crypto_sign_signature (build (shake_256f false) G' (fun _ _ => 7)) (List.replicate 49856 0) [1, 2, 3]
        (List.replicate 128 5) (List.replicate 32 9) = .ok r :=
  (C46_a64_same (P := shake_256f false) (by decide) rfl (fun _ _ => 7) (fun _ _ => 1) G G').signature
    (by rw [List.length_replicate]; decide) (by decide) (by rw [List.length_replicate]; decide) (by rw [List.length_replicate]; decide)

example (G G' : Nat → Nat → Byte) (sig : Bytes) :
    ∃ r, crypto_sign_verifyT (avx2Ex G).toEnv (parCode (avx2Ex G)) sig sig.length [1, 2, 3] (List.replicate 32 5) = .ok r ∧
      crypto_sign_verify (build (shake_128s true) G' (fun _ _ => 7)) sig sig.length [1, 2, 3] (List.replicate 32 5) = .ok r :=
  (C46_avx2_same (P := shake_128s true) (by decide) rfl (fun _ _ => 7) (fun _ _ => 1) G G').verify
    (by decide) (by decide)

end Spx
