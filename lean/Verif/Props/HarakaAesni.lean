import Verif.Proof.HashHarakaX
import Verif.Props.Haraka
/-! # The AES-NI implementation of Haraka: C47, C48, C49

haraka-aesni computes the AES rounds with the instruction `aesenc` and works on four states at once.  The
specification is the one of the portable code: `Spec.Haraka` and the functions `T`, `PRF` of the Haraka
instantiation. -/

namespace Spx
open Spec

section
variable {ctx : Ctx} (h : ctx.rc.length = 640) {inp : Bytes}
include h

/-- C47.  The permutation, for all round constants. -/
theorem C47_haraka512_perm (hi : 64 ≤ inp.length) :
    AesNi.haraka512_perm inp ctx = .ok (Spec.Haraka.perm512 ctx.rc (inp.take 64)) := AesNi.haraka512_perm_spec h hi

/-- C47.  Haraka-512 and Haraka-256. -/
theorem C47_haraka512 (hi : 64 ≤ inp.length) :
    AesNi.haraka512 inp ctx = .ok (Spec.Haraka.haraka512 ctx.rc (inp.take 64)) := AesNi.haraka512_spec h hi

theorem C47_haraka256 (hi : 32 ≤ inp.length) :
    AesNi.haraka256 inp ctx = .ok (Spec.Haraka.haraka256 ctx.rc (inp.take 32)) := AesNi.haraka256_spec h hi

/-- C47.  The four-way functions: block `j` of the output depends on block `j` of the input only, and is
what the one-way function makes of it. -/
theorem C47_haraka512_perm_x4 {a b c d rest : Bytes} (ha : a.length = 64) (hb : b.length = 64) (hc : c.length = 64)
    (hd : d.length = 64) : AesNi.haraka512_perm_x4 (a ++ b ++ c ++ d ++ rest) ctx =
      .ok (Spec.Haraka.perm512 ctx.rc a ++ Spec.Haraka.perm512 ctx.rc b ++ Spec.Haraka.perm512 ctx.rc c ++
        Spec.Haraka.perm512 ctx.rc d) := by
  rw [AesNi.haraka512_perm_x4_spec h (by simp; omega)]
  have e1 : a.drop 128 = [] := List.drop_eq_nil_of_le (by omega)
  have e2 : a.drop 192 = [] := List.drop_eq_nil_of_le (by omega)
  have e3 : b.drop 128 = [] := List.drop_eq_nil_of_le (by omega)
  simp [cat, chunk, List.drop_append, ha, hb, hc, hd, e1, e2, e3]

theorem C47_haraka512x4 {a b c d rest : Bytes} (ha : a.length = 64) (hb : b.length = 64) (hc : c.length = 64)
    (hd : d.length = 64) : AesNi.haraka512x4 (a ++ b ++ c ++ d ++ rest) ctx =
      .ok (Spec.Haraka.haraka512 ctx.rc a ++ Spec.Haraka.haraka512 ctx.rc b ++ Spec.Haraka.haraka512 ctx.rc c ++
        Spec.Haraka.haraka512 ctx.rc d) := by
  rw [AesNi.haraka512x4_spec h (by simp; omega)]
  have e1 : a.drop 128 = [] := List.drop_eq_nil_of_le (by omega)
  have e2 : a.drop 192 = [] := List.drop_eq_nil_of_le (by omega)
  have e3 : b.drop 128 = [] := List.drop_eq_nil_of_le (by omega)
  simp [cat, chunk, List.drop_append, ha, hb, hc, hd, e1, e2, e3]

theorem C47_haraka256x4 {a b c d rest : Bytes} (ha : a.length = 32) (hb : b.length = 32) (hc : c.length = 32)
    (hd : d.length = 32) : AesNi.haraka256x4 (a ++ b ++ c ++ d ++ rest) ctx =
      .ok (Spec.Haraka.haraka256 ctx.rc a ++ Spec.Haraka.haraka256 ctx.rc b ++ Spec.Haraka.haraka256 ctx.rc c ++
        Spec.Haraka.haraka256 ctx.rc d) := by
  rw [AesNi.haraka256x4_spec h (by simp; omega)]
  have e1 : a.drop 64 = [] := List.drop_eq_nil_of_le (by omega)
  have e2 : a.drop 96 = [] := List.drop_eq_nil_of_le (by omega)
  have e3 : b.drop 64 = [] := List.drop_eq_nil_of_le (by omega)
  simp [cat, chunk, List.drop_append, ha, hb, hc, hd, e1, e2, e3]

/-- C48.  Haraka-S, one-shot: exactly `outlen` bytes are written.  `g` is the contents of uninitialised
memory. -/
theorem C48_haraka_S (g : Nat → Nat → Byte) {out : Bytes} {outlen inlen : Nat} (ho : outlen ≤ out.length)
    (hi : inlen ≤ inp.length) : AesNi.haraka_S g out outlen inp inlen ctx =
      .ok (Spec.Haraka.harakaS ctx.rc (inp.take inlen) outlen ++ out.drop outlen) := AesNi.haraka_S_spec h g ho hi

/-- C48.  Haraka-S on four inputs at once. -/
theorem C48_haraka_Sx4 (g : Nat → Nat → Byte) {o0 o1 o2 o3 i0 i1 i2 i3 : Bytes} {outlen inlen : Nat}
    (ho0 : outlen ≤ o0.length) (ho1 : outlen ≤ o1.length) (ho2 : outlen ≤ o2.length) (ho3 : outlen ≤ o3.length)
    (hi0 : inlen ≤ i0.length) (hi1 : inlen ≤ i1.length) (hi2 : inlen ≤ i2.length) (hi3 : inlen ≤ i3.length) :
    AesNi.haraka_Sx4 g [o0, o1, o2, o3] outlen [i0, i1, i2, i3] inlen ctx =
      .ok [Spec.Haraka.harakaS ctx.rc (i0.take inlen) outlen ++ o0.drop outlen,
        Spec.Haraka.harakaS ctx.rc (i1.take inlen) outlen ++ o1.drop outlen,
        Spec.Haraka.harakaS ctx.rc (i2.take inlen) outlen ++ o2.drop outlen,
        Spec.Haraka.harakaS ctx.rc (i3.take inlen) outlen ++ o3.drop outlen] := by
  refine (AesNi.haraka_Sx4_spec h g (out := fun j => if j = 0 then o0 else if j = 1 then o1 else if j = 2 then o2 else o3)
    (inp := fun j => if j = 0 then i0 else if j = 1 then i1 else if j = 2 then i2 else i3)
    (outlen := outlen) (inlen := inlen) ?_ ?_).trans rfl
  · intro j _; show _ ≤ List.length (if _ then _ else _); split
    · assumption
    split
    · assumption
    split <;> assumption
  · intro j _; show _ ≤ List.length (if _ then _ else _); split
    · assumption
    split
    · assumption
    split <;> assumption

/-- C48.  The incremental interface over the AES-NI permutation, for every cut of the input and of the
output. -/
theorem C48_haraka_S_incremental {s : Bytes} (hs : s.length = 65) {ins outs : List (Bytes × Nat)}
    (hi : ∀ q ∈ ins, q.2 ≤ q.1.length) (ho : ∀ q ∈ outs, q.2 ≤ q.1.length) :
    ∃ bufs, Haraka.incRun AesNi.haraka512_perm ctx s ins outs = .ok bufs ∧ bufs.length = outs.length ∧
      (List.zipWith (fun o (q : Bytes × Nat) => o.take q.2) bufs outs).flatten =
        Spec.Haraka.harakaS ctx.rc (absorbed ins) (requested outs) ∧
      List.zipWith (fun o (q : Bytes × Nat) => o.drop q.2) bufs outs = outs.map fun q => q.1.drop q.2 :=
  Haraka.incRun_ok (AesNi.permIs_1 h) hs hi ho

/-- C48.  `tweak_constants` replaces the round constants by those derived from the public seed, and
changes nothing else in the context. -/
theorem C48_tweak_constants (g : Nat → Nat → Byte) :
    AesNi.tweak_constants g ctx.pub_seed.length ctx = .ok { ctx with rc := Spec.Haraka.rcTweak ctx.pub_seed } :=
  AesNi.tweak_constants_spec g rfl h

end

/-- C48.  The constants loaded before the tweak are the published ones. -/
theorem C48_standard_constants {rc : Bytes} (h : rc.length = 640) :
    AesNi.load_haraka_constants rc = .ok Spec.Haraka.rcStd := AesNi.load_constants_spec h

/-! Concrete cases. -/

/-- The test vector of the Haraka v2 paper, from the AES-NI code. -/
example (ctx : Ctx) (hc : ctx.rc = Spec.Haraka.rcStd) :
    AesNi.haraka512 ((List.range 64).map (BitVec.ofNat 8)) ctx =
      .ok (toBE 32 0xbe7f723b4e80a99813b292287f306f625a6d57331cae5f34dd9277b0945be2aa) := by
  rw [C47_haraka512 (by rw [hc]; exact Haraka.rcStd_length) (by simp), hc, List.take_of_length_le (by simp),
    Haraka.haraka512_vector]

/-- Four different blocks. -/
example (ctx : Ctx) (hc : ctx.rc = Spec.Haraka.rcStd) : ∃ x y z : Bytes,
    AesNi.haraka256x4 (List.replicate 32 1 ++ (List.range 32).map (BitVec.ofNat 8) ++ List.replicate 32 3 ++
      List.replicate 32 4 ++ [9, 9]) ctx =
      .ok (x ++ toBE 32 0x8027ccb87949774b78d0545fb72bf70c695c2a0923cbd47bba1159efbf2b2c1c ++ y ++ z) := by
  rw [C47_haraka256x4 (by rw [hc]; exact Haraka.rcStd_length) (by simp) (by simp) (by simp) (by simp), hc,
    Haraka.haraka256_vector]
  exact ⟨_, _, _, rfl⟩

/-- Two and a half blocks in, one and a bit out, output buffers longer than needed. -/
example (ctx : Ctx) (h : ctx.rc.length = 640) (g : Nat → Nat → Byte) :
    AesNi.haraka_Sx4 g [List.replicate 40 1, List.replicate 41 2, List.replicate 50 3, List.replicate 40 4] 40
      [List.replicate 80 5, List.replicate 81 6, List.replicate 80 7, List.replicate 80 8] 80 ctx =
      .ok [Spec.Haraka.harakaS ctx.rc (List.replicate 80 5) 40, Spec.Haraka.harakaS ctx.rc (List.replicate 80 6) 40 ++ [2],
        Spec.Haraka.harakaS ctx.rc (List.replicate 80 7) 40 ++ List.replicate 10 3,
        Spec.Haraka.harakaS ctx.rc (List.replicate 80 8) 40] := by
  have e := C48_haraka_Sx4 h g (o0 := List.replicate 40 1) (o1 := List.replicate 41 2) (o2 := List.replicate 50 3)
    (o3 := List.replicate 40 4) (i0 := List.replicate 80 5) (i1 := List.replicate 81 6) (i2 := List.replicate 80 7)
    (i3 := List.replicate 80 8) (outlen := 40) (inlen := 80) (by rw [List.length_replicate])
    (by rw [List.length_replicate]; decide) (by rw [List.length_replicate]; decide) (by rw [List.length_replicate])
    (by rw [List.length_replicate]) (by rw [List.length_replicate]; decide) (by rw [List.length_replicate])
    (by rw [List.length_replicate])
  simp only [List.take_replicate, List.drop_replicate] at e
  rw [e]
  simp

/-- The lane functions `X`, with a context initialised by the code `H` they are linked with, equal the
one-way reference functions, with the same context initialised by the reference code, in every lane,
whatever the address buffers hold. -/
structure LaneWiseFrom (P : Params) (g : Nat → Nat → Byte) (H : HashImpl) (lg : Nat) (X : LaneHash) (ctx0 : Ctx) :
    Prop where
  run : ∃ cx cr, H.initialize_hash_function ctx0 = .ok cx ∧ (implOf P g).initialize_hash_function ctx0 = .ok cr ∧
    (∀ {as : Nat → Addr} {I : Nat → Bytes} {blocks : Nat}, (∀ j, j < 2 ^ lg → (as j).length = 32) → 1 ≤ blocks →
      (∀ j, j < 2 ^ lg → blocks * P.n ≤ (I j).length) → blocks * P.n < 2 ^ 31 →
      ∃ outs, X.thashx ((List.range (2 ^ lg)).map I) blocks cx ((List.range (2 ^ lg)).map as) = .ok outs ∧
        (tabulate (2 ^ lg) fun j => (implOf P g).thash (I j) blocks cr (as j)) = .ok outs) ∧
    (∀ {as : Nat → Addr}, (∀ j, j < 2 ^ lg → (as j).length = 32) →
      ∃ outs, X.prf_addrx cx ((List.range (2 ^ lg)).map as) = .ok outs ∧
        (tabulate (2 ^ lg) fun j => (implOf P g).prf_addr cr (as j)) = .ok outs)

attribute [local irreducible] Spec.Haraka.rcTweak Spec.Haraka.rcStd

section
variable {P : Params} (hP : P ∈ shipped) (hf : P.fam = .haraka) (g g' : Nat → Nat → Byte)
include hP hf

/-- C49.  `prf_addrx4` and `thashx4` of haraka-aesni return in each lane what the one-way reference
functions return for the arguments of that lane. -/
theorem C49_aesni_lanes {ctx0 : Ctx} (hs : ctx0.Sized P) :
    LaneWiseFrom P g (AesNi.impl P g') 2 (AesNi.lanes P g') ctx0 := by
  obtain ⟨cr, er, hr, hp, hk⟩ := hs.ready hP g
  have e := AesNi.tweak_constants_spec g' hs.pub_seed hs.rc
  have hc : AesNi.CtxOK P { ctx0 with rc := Spec.Haraka.rcTweak ctx0.pub_seed } := ⟨hs.pub_seed, hs.sk_seed, rfl⟩
  refine ⟨_, cr, e, er, fun {as I b} hA hb hi h31 => ?_, fun {as} hA => ?_⟩
  · obtain ⟨A, hA⟩ := lanes_encode P.fam hA
    refine ⟨_, AesNi.thashx_value (shipped_n hP) (shipped_valid hP).n_pos hf g' hc hi hA, tabulate_ok fun j hj => ?_⟩
    have := thash_any hP hr (hA j hj) hb (hi j hj) h31
    rw [specHash_haraka hf, hp] at this
    exact this
  · obtain ⟨A, hA⟩ := lanes_encode P.fam hA
    refine ⟨_, AesNi.prfx_value (shipped_n hP) hf g' hc hA, tabulate_ok fun j hj => ?_⟩
    have := prf_any hP hr (hA j hj)
    rw [specHash_haraka hf, hp, hk] at this
    exact this

/-- C49.  The library of haraka-aesni behaves as the reference: same key pairs, signatures, verdicts and
memory contents, for all inputs and whatever uninitialised memory contains. -/
theorem C49_aesni_same (G G' : Nat → Nat → Byte) :
    SameScheme P (optBuild P (AesNi.impl P g') 2 (AesNi.lanes P g') G) G' g :=
  sameScheme_of hP (specHash_haraka hf).symm (aesniLaneRefines g' G (shipped_valid hP) hf (shipped_n hP)) (by decide)
    (by decide) G' g

end

/-- Robust, several blocks, different inputs and addresses in the lanes. -/
example : ∃ cx cr o0 o1 o2 o3, cx.pub_seed = List.replicate 24 2 ∧
    (AesNi.lanes (haraka_192s true) fun _ _ => 9).thashx
      [List.replicate 48 1, List.replicate 50 2, List.replicate 48 3, List.replicate 48 4] 2 cx
      [enc .haraka ⟨1, 2, 3, 4, 5, 6⟩, enc .haraka ⟨1, 2, 3, 4, 5, 7⟩, enc .haraka ⟨1, 2, 3, 4, 5, 8⟩,
        enc .haraka ⟨1, 2, 3, 4, 5, 9⟩] = .ok [o0, o1, o2, o3] ∧
    (implOf (haraka_192s true) fun _ _ => 7).thash (List.replicate 48 4) 2 cr (enc .haraka ⟨1, 2, 3, 4, 5, 9⟩) = .ok o3 := by
  have hs := Ctx.zeroed_sized (P := haraka_192s true) (pub := List.replicate 24 2)
    (sk := List.replicate 24 0) List.length_replicate List.length_replicate
  obtain ⟨cx, cr, ex, er, ht, -⟩ := (C49_aesni_lanes (P := haraka_192s true) (by decide) rfl (fun _ _ => 7)
    (fun _ _ => 9) hs).run
  have hA : ∀ j, j < 4 → (ADRS.mk 1 2 3 4 5 (6 + j)).OK := fun j hj =>
    ⟨show 1 < 256 by decide, show 2 < 2 ^ 64 by decide, show 3 < 256 by decide, show 4 < 2 ^ 32 by decide,
      show 5 < 256 by decide, by show 6 + j < 2 ^ 32; omega⟩
  have hI : ∀ j, j < 4 → 2 * 24 ≤ (List.replicate (if j = 1 then 50 else 48) (BitVec.ofNat 8 (j + 1))).length :=
    fun j _ => by rw [List.length_replicate]; split <;> omega
  obtain ⟨outs, e1, e2⟩ := ht (as := fun j => enc .haraka ⟨1, 2, 3, 4, 5, 6 + j⟩) (fun j _ => enc_length .haraka _)
    (show 1 ≤ 2 by decide) hI (by decide)
  have hp : cx.pub_seed = List.replicate 24 2 := by
    have e : AesNi.tweak_constants _ _ _ = _ := ex
    rw [AesNi.tweak_constants_spec _ hs.pub_seed hs.rc] at e
    cases e
    rfl
  have hok : ∀ j, ∃ o, j < 4 → (implOf (haraka_192s true) fun _ _ => 7).thash
      (List.replicate (if j = 1 then 50 else 48) (BitVec.ofNat 8 (j + 1))) 2 cr
      (enc .haraka ⟨1, 2, 3, 4, 5, 6 + j⟩) = .ok o := by
    obtain ⟨cr', er', hr, -, -⟩ := hs.ready (P := haraka_192s true) (by decide) (fun _ _ => 7)
    rw [er] at er'
    cases er'
    intro j
    by_cases hj : j < 4
    · exact ⟨_, fun _ => (readyRefines (P := haraka_192s true) (by decide) (fun _ _ => 7) (fun _ _ => 7)).thash cr
        ⟨1, 2, 3, 4, 5, 6 + j⟩ _ 2 hr (hA j hj) (by decide) (hI j hj) (by decide)⟩
    · exact ⟨[], fun h => absurd h hj⟩
  obtain ⟨o, ho⟩ := Classical.axiomOfChoice hok
  have e3 := e2.symm.trans (tabulate_ok (fun j hj => ho j hj))
  cases e3
  exact ⟨cx, cr, o 0, o 1, o 2, o 3, hp, e1, ho 3 (by decide)⟩

/-- haraka-aesni with parameter set haraka-128f simple. -/
def aesniEx (G : Nat → Nat → Byte) : EnvX :=
  optBuild (haraka_128f false) (AesNi.impl (haraka_128f false) fun _ _ => 1) 2 (AesNi.lanes (haraka_128f false) fun _ _ => 1) G

example (G G' : Nat → Nat → Byte) :
    ∃ r, crypto_sign_signatureT (aesniEx G).toEnv (parCode (aesniEx G))
        (List.replicate 17088 0) [1, 2, 3] (List.replicate 64 5) (List.replicate 16 9) = .ok r ∧
      crypto_sign_signature (build (haraka_128f false) G' (fun _ _ => 7)) (List.replicate 17088 0) [1, 2, 3]
        (List.replicate 64 5) (List.replicate 16 9) = .ok r :=
  (C49_aesni_same (P := haraka_128f false) (by decide) rfl (fun _ _ => 7) (fun _ _ => 1) G G').signature
    (by rw [List.length_replicate]; decide) (by decide) (by rw [List.length_replicate]; decide) (by rw [List.length_replicate]; decide)

end Spx
