import Verif.Proof.KatMain
import Verif.Proof.KatLib
import Verif.Props.ShakeLanes
import Verif.Props.HarakaAesni
import Verif.Props.Sha2Lanes
/-! # C55, C56: the known-answer program, ref/PQCgenKAT_sign.c -/

namespace Spx
open Spec Spec.Rng Spec.Kat Rng Kat Mem

/-! ## C55: fields of the files -/

/-- C55.  `FindMarker` reads to the end of the first occurrence of the marker, of which it takes the first
49 characters; without an occurrence it reads the whole file.  For all files and markers. -/
theorem C55_FindMarker (g : Nat → Byte) (s : Bytes) {marker : Bytes} (h0 : 0#8 ∉ marker) :
    (∃ pre post, s = pre ++ marker.take 49 ++ post ∧
        (∀ pre' post', s = pre' ++ marker.take 49 ++ post' → pre.length ≤ pre'.length) ∧
        FindMarker g s marker = .ok (1, post)) ∨
      ((∀ pre post, s ≠ pre ++ marker.take 49 ++ post) ∧ FindMarker g s marker = .ok (0, [])) := by
  rw [FindMarker_ok g s h0]
  generalize marker.take 49 = k
  rcases afterFirst_iff k s with ⟨pre, post, h1, h2, h3⟩ | ⟨h1, h2⟩
  · rw [h3]; exact .inl ⟨pre, post, h1, h2, rfl⟩
  · rw [h2]; exact .inr ⟨h1, rfl⟩

/-- The first occurrence, not a later one; overlapping partial matches are not missed. -/
example (g : Nat → Byte) : FindMarker g (asc "aab aaab = 1 ab = 2") (asc "ab =") = .ok (1, asc " 1 ab = 2") := by
  rw [FindMarker_ok _ _ (by decide)]; decide

example (g : Nat → Byte) : FindMarker g (asc "count 1") (asc "count = ") = .ok (0, []) := by
  rw [FindMarker_ok _ _ (by decide)]; decide

/-- C55.  `ReadHex` for a positive length: behind the first occurrence of the marker it reads one
hexadecimal field (both cases of letters, what comes before the first digit in the line is skipped) as a
number and stores it big-endian in `L` bytes, keeping the last `2L` digits; nothing behind `A[L]` changes.
For all files, previous contents and lengths. -/
theorem C55_ReadHex (g : Nat → Byte) (s : Bytes) {A str : Bytes} {L : Nat} (hL : L ≤ A.length) (h0 : 0 < L)
    (hlt : L < 2 ^ 64) (hs : 0#8 ∉ str) :
    ReadHex g s A L str = .ok (match afterFirst (str.take 49) s with
      | some r => (1, toBE L (hexNat (hexField r).1) ++ A.drop L, (hexField r).2)
      | none => (0, List.replicate L 0#8 ++ A.drop L, [])) :=
  ReadHex_ok g s hL h0 hlt hs

/-- `toBE` stores the number modulo `256^L`. -/
example (g : Nat → Byte) : ReadHex g (asc "x = (1aBcDeF) rest") [9, 9, 9, 9] 3 (asc "x = ") =
    .ok (1, [0xAB, 0xCD, 0xEF, 9], asc " rest") := by
  have h := C55_ReadHex g (asc "x = (1aBcDeF) rest") (A := [9, 9, 9, 9]) (L := 3) (str := asc "x = ") (by decide) (by decide)
    (by decide) (by decide)
  rw [show ((3 : Nat) : Int) = 3 from rfl] at h
  rw [h]
  decide

/-- C55.  `ReadHex` of length 0 writes one byte. -/
theorem C55_ReadHex_zero (g : Nat → Byte) (s : Bytes) (A str : Bytes) :
    ReadHex g s A 0 str = if A = [] then .error .oob else .ok (1, 0#8 :: A.drop 1, s) := by
  unfold ReadHex
  rw [if_pos rfl]
  cases A with
  | nil => rfl
  | cons a A => rfl

/-- C55.  What `fprintBstr` appends to a file is read back by `ReadHex` with the same label, whatever
follows, if the label does not begin in the text before. -/
theorem C55_roundtrip (g : Nat → Byte) (fs : FS) (fp : Bytes) {k0 : Byte} {k b x rest A : Bytes} (hx : fs fp = some x)
    (hk0 : k0 ∉ x) (hk : (k0 :: k).length ≤ 49) (h0 : 0#8 ∉ k0 :: k) (hb : 0 < b.length) (hlt : b.length < 2 ^ 64)
    (hA : A.length = b.length) :
    ∃ fs' y, fprintBstr fs fp (k0 :: k) b b.length = .ok fs' ∧ fs' fp = some y ∧ (∀ f, f ≠ fp → fs' f = fs f) ∧
      ReadHex g (y ++ rest) A b.length (k0 :: k) = .ok (1, b, rest) := by
  refine ⟨_, _, fprintBstr_ok fs fp (k0 :: k) (Nat.le_refl _) hb, if_pos rfl, fun f hf => if_neg hf, ?_⟩
  rw [hx, Option.getD_some, List.take_of_length_le (Nat.le_refl _), show asc "\n" = [10#8] by decide]
  have := read_here g hk0 rfl hb hlt rest hk h0 hA
  simpa only [List.append_assoc, List.cons_append, List.nil_append] using this

example (g : Nat → Byte) : ∃ fs' y, fprintBstr (fun _ => some (asc "count = 0\n")) [] (asc "seed = ") [0xDE, 0xAD] 2 = .ok fs' ∧
    fs' [] = some y ∧ ReadHex g (y ++ asc "mlen") [7, 7] 2 (asc "seed = ") = .ok (1, [0xDE, 0xAD], asc "mlen") := by
  obtain ⟨fs', y, h1, h2, -, h3⟩ := C55_roundtrip g (fun _ => some (asc "count = 0\n")) [] (k0 := 115#8) (k := asc "eed = ")
    (b := [0xDE, 0xAD]) (rest := asc "mlen") (A := [7, 7]) rfl (by decide) (by decide) (by decide) (by decide) (by decide) rfl
  exact ⟨fs', y, h1, h2, h3⟩

/-- C55.  A number printed with `%d` or `%llu` is read back. -/
theorem C55_decimal {n : Int} (h1 : -2 ^ 31 ≤ n) (h2 : n < 2 ^ 31) {c : Byte} (hc : ¬ (48 ≤ c.toNat ∧ c.toNat ≤ 57))
    (rest : Bytes) (v : Int) : fscanf_d (pct_d n ++ c :: rest) v = .ok (n, c :: rest) :=
  fscanf_d_int h1 h2 (by simpa [isdigit] using hc) rest v

theorem C55_decimal_u {n : Nat} (h : n < 2 ^ 64) {c : Byte} (hc : ¬ (48 ≤ c.toNat ∧ c.toNat ≤ 57)) (rest : Bytes) (v : Nat) :
    fscanf_llu (pct_u n ++ c :: rest) v = .ok (n, c :: rest) :=
  fscanf_llu_ok h (by simpa [isdigit] using hc) rest v

example : pct_d (-1207) = asc "-1207" ∧ fscanf_d (asc "-1207\nseed") 5 = .ok (-1207, asc "\nseed") := by
  refine ⟨by decide +kernel, ?_⟩
  have := C55_decimal (n := -1207) (by decide) (by decide) (c := 10#8) (by decide) (asc "seed") 5
  rwa [show pct_d (-1207) = asc "-1207" by decide +kernel] at this

/-! ## C56: the program -/

/-- C56.  The program linked with the reference library writes exactly the request and response files of
the competition for the scheme, leaves all other files alone and returns 0.  For every parameter set, block
cipher, previous files, placement of arrays and heap objects, and uninitialised memory. -/
theorem C56_main {aes : Bytes → Bytes → Bytes} (haes : Cipher aes) {P : Params} (hP : P ∈ shipped)
    (G₁ g₁ G₂ g₂ G₃ g₃ : Nat → Nat → Nat → Byte) {lay : Layout} (hlay : ∀ i < 100, LayOK P lay i)
    (g : Nat → Nat → Byte) {opens : Nat → Bool} (ho : ∀ k < 3, opens k = true)
    {M : Mem} (hpk : M.Alloc lay.pk P.pkBytes) (hsk : M.Alloc lay.sk P.skBytes) (fs : FS) :
    Kat.main aes P (fun i => refLib (build P (G₁ i) (g₁ i)) (build P (G₂ i) (g₂ i)) (build P (G₃ i) (g₃ i))) lay g opens M fs =
      .ok (fun f =>
        if f = ascii s!"PQCsignKAT_{P.skBytes}.rsp" then some (responseFile aes P.toSpec (specHash P))
        else if f = ascii s!"PQCsignKAT_{P.skBytes}.req" then some (requestFile aes)
        else fs f, 0) :=
  main_ok haes hP g (fun i _ => refLib_ok hP (G₁ i) (g₁ i) (G₂ i) (g₂ i) (G₃ i) (g₃ i)) hlay ho hpk hsk fs

/-- C56.  The same for any library that behaves as the reference library. -/
theorem C56_main_opt {aes : Bytes → Bytes → Bytes} (haes : Cipher aes) {P : Params} (hP : P ∈ shipped)
    {E : Nat → EnvX} {G' g' : Nat → Nat → Nat → Byte} (hE : ∀ i < 100, SameScheme P (E i) (G' i) (g' i))
    (hEP : ∀ i < 100, (E i).P = P) {lay : Layout} (hlay : ∀ i < 100, LayOK P lay i)
    (g : Nat → Nat → Byte) {opens : Nat → Bool} (ho : ∀ k < 3, opens k = true)
    {M : Mem} (hpk : M.Alloc lay.pk P.pkBytes) (hsk : M.Alloc lay.sk P.skBytes) (fs : FS) :
    Kat.main aes P (fun i => optLib (E i)) lay g opens M fs =
      .ok (fun f =>
        if f = ascii s!"PQCsignKAT_{P.skBytes}.rsp" then some (responseFile aes P.toSpec (specHash P))
        else if f = ascii s!"PQCsignKAT_{P.skBytes}.req" then some (requestFile aes)
        else fs f, 0) :=
  main_ok haes hP g (fun i hi => optLib_ok hP (hE i hi) (hEP i hi)) hlay ho hpk hsk fs

/-- C56.  Linked with shake-a64, shake-avx2, haraka-aesni or sha2-avx2 the program writes the same files and
returns the same value as with the reference library. -/
theorem C56_same_files {aes : Bytes → Bytes → Bytes} (haes : Cipher aes) {P : Params} (hP : P ∈ shipped)
    (G g' : Nat → Nat → Nat → Byte) {E : Nat → EnvX}
    (hE : (P.fam = .shake ∧ (E = (fun i => optBuild P (A64.impl P (g' i)) 1 (A64.lanes P (g' i)) (G i)) ∨
          E = fun i => optBuild P (Shake.impl P (g' i)) 2 (Avx2.lanes P (g' i)) (G i))) ∨
      (P.fam = .haraka ∧ E = fun i => optBuild P (AesNi.impl P (g' i)) 2 (AesNi.lanes P (g' i)) (G i)) ∨
      (P.fam = .sha2 ∧ E = fun i => optBuild P (Sha2.impl P (g' i)) 3 (Sha2X.lanes P (g' i)) (G i)))
    (G₁ g₁ G₂ g₂ G₃ g₃ : Nat → Nat → Nat → Byte) {lay : Layout} (hlay : ∀ i < 100, LayOK P lay i)
    (g : Nat → Nat → Byte) {opens : Nat → Bool} (ho : ∀ k < 3, opens k = true)
    {M : Mem} (hpk : M.Alloc lay.pk P.pkBytes) (hsk : M.Alloc lay.sk P.skBytes) (fs : FS) :
    Kat.main aes P (fun i => optLib (E i)) lay g opens M fs =
      Kat.main aes P (fun i => refLib (build P (G₁ i) (g₁ i)) (build P (G₂ i) (g₂ i)) (build P (G₃ i) (g₃ i))) lay g opens M fs := by
  rw [C56_main haes hP G₁ g₁ G₂ g₂ G₃ g₃ hlay g ho hpk hsk fs]
  rcases hE with ⟨hf, rfl | rfl⟩ | ⟨hf, rfl⟩ | ⟨hf, rfl⟩
  · exact C56_main_opt haes hP (fun i _ => C46_a64_same hP hf (g₁ i) (g' i) (G i) (G₁ i)) (fun _ _ => rfl) hlay g ho hpk hsk fs
  · exact C56_main_opt haes hP (fun i _ => C46_avx2_same hP hf (g₁ i) (g' i) (G i) (G₁ i)) (fun _ _ => rfl) hlay g ho hpk hsk fs
  · exact C56_main_opt haes hP (fun i _ => C49_aesni_same hP hf (g₁ i) (g' i) (G i) (G₁ i)) (fun _ _ => rfl) hlay g ho hpk hsk fs
  · exact C56_main_opt haes hP (fun i _ => C52_avx2_same hP hf (g₁ i) (g' i) (G i) (G₁ i)) (fun _ _ => rfl) hlay g ho hpk hsk fs

/-- C56.  When a file cannot be opened the program returns -1; by then it has created the files opened
before, and the request file is complete if only reopening it fails. -/
theorem C56_open_fails {aes : Bytes → Bytes → Bytes} (haes : Cipher aes) {P : Params} (hP : P ∈ shipped) (lib : Nat → Lib)
    (lay : Layout) (g : Nat → Nat → Byte) {opens : Nat → Bool} (M : Mem) (fs : FS) :
    (opens 0 = false → Kat.main aes P lib lay g opens M fs = .ok (fs, -1)) ∧
    (opens 0 = true → opens 1 = false → Kat.main aes P lib lay g opens M fs =
      .ok (fun f => if f = ascii s!"PQCsignKAT_{P.skBytes}.req" then some [] else fs f, -1)) ∧
    (opens 0 = true → opens 1 = true → opens 2 = false → Kat.main aes P lib lay g opens M fs =
      .ok (fun f => if f = ascii s!"PQCsignKAT_{P.skBytes}.rsp" then some []
        else if f = ascii s!"PQCsignKAT_{P.skBytes}.req" then some (requestFile aes) else fs f, -1)) :=
  main_fails haes hP lib lay g M fs

/-! The hypotheses of the theorems of C56 are met. -/

def katLay : Layout := ⟨0, 100, fun _ => 1000, fun _ => 10000, fun _ => 100000⟩

theorem katLay_ok (P : Params) (h : P.spxBytes = 49856 ∧ P.n = 32) (i : Nat) (hi : i < 100) : LayOK P katLay i := by
  obtain ⟨h1, h2⟩ := h
  have hp : P.pkBytes = 64 := by show 2 * P.n = 64; omega
  have hs : P.skBytes = 128 := by show 2 * P.n + 2 * P.n = 128; omega
  constructor <;> unfold Disj katLay <;> simp only [hp, hs, h1] <;> omega

example (fs : FS) : ∃ fs', Kat.main (fun _ _ => List.replicate 16 7) (shake_256f true)
      (fun i => optLib (optBuild (shake_256f true) (A64.impl (shake_256f true) fun _ _ => 3) 1
        (A64.lanes (shake_256f true) fun _ _ => 3) fun _ _ => BitVec.ofNat 8 i)) katLay (fun _ _ => 1) (fun _ => true)
      (Mem.filled fun _ => 5) fs = .ok (fs', 0) ∧
    fs' (ascii "PQCsignKAT_128.req") = some (requestFile fun _ _ => List.replicate 16 7) ∧
    fs' [1] = fs [1] := by
  refine ⟨_, C56_main_opt (aes := fun _ _ => List.replicate 16 7) (fun _ _ _ _ => List.length_replicate) (by decide)
    (fun i _ => C46_a64_same (by decide) rfl (fun _ _ => 0) (fun _ _ => 3) _ (fun _ _ => 0)) (fun _ _ => rfl)
    (katLay_ok _ ⟨by decide +kernel, rfl⟩) _ (fun _ _ => rfl) (filled_alloc _ _ _) (filled_alloc _ _ _) fs, ?_, ?_⟩
  · rw [if_neg (by decide +kernel), if_pos (by decide +kernel)]
  · rw [if_neg (by decide +kernel), if_neg (by decide +kernel)]

/-- Linked with the reference library, the objects filled with different bytes: the response file. -/
example (fs : FS) : ∃ fs', Kat.main (fun _ _ => List.replicate 16 7) (sha2_256f false)
      (fun i => refLib (build (sha2_256f false) (fun _ _ => BitVec.ofNat 8 i) fun _ _ => 2)
        (build (sha2_256f false) (fun _ _ => 4) fun _ _ => BitVec.ofNat 8 (i + 1))
        (build (sha2_256f false) (fun _ _ => 6) fun _ _ => 7)) katLay (fun _ _ => 1) (fun _ => true)
      (Mem.filled fun _ => 5) fs = .ok (fs', 0) ∧
    fs' (ascii "PQCsignKAT_128.rsp") =
      some (responseFile (fun _ _ => List.replicate 16 7) (sha2_256f false).toSpec (specHash (sha2_256f false))) := by
  refine ⟨_, C56_main (aes := fun _ _ => List.replicate 16 7) (fun _ _ _ _ => List.length_replicate) (by decide)
    (fun i _ _ => BitVec.ofNat 8 i) (fun _ _ _ => 2) (fun _ _ _ => 4) (fun i _ _ => BitVec.ofNat 8 (i + 1))
    (fun _ _ _ => 6) (fun _ _ _ => 7) (katLay_ok _ ⟨by decide +kernel, rfl⟩) _ (fun _ _ => rfl) (filled_alloc _ _ _)
    (filled_alloc _ _ _) fs, ?_⟩
  rw [if_pos (by decide +kernel)]

/-- Reopening the request file fails. -/
example (fs : FS) (lib : Nat → Lib) : ∃ fs', Kat.main (fun _ _ => List.replicate 16 7) (haraka_192s true) lib katLay
      (fun _ _ => 1) (fun k => k < 2) (Mem.filled fun _ => 5) fs = .ok (fs', -1) ∧
    fs' (ascii "PQCsignKAT_96.req") = some (requestFile fun _ _ => List.replicate 16 7) := by
  refine ⟨_, (C56_open_fails (aes := fun _ _ => List.replicate 16 7) (fun _ _ _ _ => List.length_replicate) (by decide) lib
    katLay (fun _ _ => 1) (Mem.filled fun _ => 5) fs).2.2 rfl rfl rfl, ?_⟩
  rw [if_neg (by decide +kernel), if_pos (by decide +kernel)]

/-- A record of the request file. -/
example : request 7 [0x0a, 0xf3] [1] = "count = 7\nseed = 0AF3\nmlen = 1\nmsg = 01\npk =\nsk =\nsmlen =\nsm =\n\n" := by
  decide +kernel

end Spx
