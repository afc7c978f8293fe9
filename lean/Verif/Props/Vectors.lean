import Mathlib.Data.List.Nodup
import Verif.Proof.VectorsScript
import Verif.Proof.BenchCalls
import Verif.Props.Kat
/-! # C86: vectors.py and the Makefiles

The script compiles, for each instance, the files of that instance, reads the file the program has written, and accepts
exactly if the sum of the response file is the one listed for the instance. -/

namespace Spx.Vectors
open Kat Spec Spec.Rng Spec.Kat Spec.Vectors Leak Rng Mem

/-! ## What is expected -/

/-- The headers: `params/params-NAME.h` gives the parameters `P thash`. -/
def headersByName : List (String × (Bool → Params)) := [
  ("sphincs-shake-128f", shake_128f), ("sphincs-shake-192f", shake_192f), ("sphincs-shake-256f", shake_256f),
  ("sphincs-shake-128s", shake_128s), ("sphincs-shake-192s", shake_192s), ("sphincs-shake-256s", shake_256s),
  ("sphincs-sha2-128f", sha2_128f), ("sphincs-sha2-192f", sha2_192f), ("sphincs-sha2-256f", sha2_256f),
  ("sphincs-sha2-128s", sha2_128s), ("sphincs-sha2-192s", sha2_192s), ("sphincs-sha2-256s", sha2_256s),
  ("sphincs-haraka-128f", haraka_128f), ("sphincs-haraka-192f", haraka_192f), ("sphincs-haraka-256f", haraka_256f),
  ("sphincs-haraka-128s", haraka_128s), ("sphincs-haraka-192s", haraka_192s), ("sphincs-haraka-256s", haraka_256s)]

/-- An instance: the header, the kind of thash, and the parameters -/
abbrev Inst := String × String × Params

/-- The instances -/
def instances : List Inst := headersByName.flatMap fun h => [(h.1, "robust", h.2 true), (h.1, "simple", h.2 false)]

/-- The name of an instance -/
def instName (e : Inst) : Bytes := ascii (e.1 ++ "-" ++ e.2.1)

/-- The files of the scheme, without hash functions, and the generator of the known-answer program -/
def schemeFiles : List String := ["sign.c", "merkle.c", "fors.c", "wots.c", "utils.c", "address.c", "rng.c"]

/-- All files needed for a family of hash functions and a kind of thash: in the reference code, and in the optimised
implementations. -/
def needed (o : Option Opt) (f : Family) (t : String) : List String :=
  schemeFiles ++ match o, f with
  | none, .shake => ["wotsx1.c", "utilsx1.c", "fips202.c", "hash_shake.c", "thash_shake_" ++ t ++ ".c"]
  | none, .sha2 => ["wotsx1.c", "utilsx1.c", "sha2.c", "hash_sha2.c", "thash_sha2_" ++ t ++ ".c"]
  | none, .haraka => ["wotsx1.c", "utilsx1.c", "haraka.c", "hash_haraka.c", "thash_haraka_" ++ t ++ ".c"]
  | some .shakeA64, _ => ["utilsx2.c", "fips202.c", "fips202x2.c", "f1600x2.s", "f1600x2_const.c", "hash_shake.c",
      "hash_shakex2.c", "thash_shake_" ++ t ++ "x2.c"]
  | some .shakeAvx2, _ => ["utilsx4.c", "fips202.c", "fips202x4.c", "keccak4x/KeccakP-1600-times4-SIMD256.o",
      "hash_shake.c", "hash_shakex4.c", "thash_shake_" ++ t ++ ".c", "thash_shake_" ++ t ++ "x4.c"]
  | some .harakaAesni, _ => ["utilsx4.c", "haraka.c", "hash_haraka.c", "hash_harakax4.c", "thash_haraka_" ++ t ++ ".c",
      "thash_haraka_" ++ t ++ "x4.c"]
  | some .sha2Avx2, _ => ["utilsx8.c", "sha2.c", "sha256x8.c", "sha512x4.c", "sha256avx.c", "hash_sha2.c", "hash_sha2x8.c",
      "thash_sha2_" ++ t ++ ".c", "thash_sha2_" ++ t ++ "x8.c"]

/-- The directories -/
def dir : Option Opt → String
  | none => "ref"
  | some .shakeA64 => "shake-a64"
  | some .shakeAvx2 => "shake-avx2"
  | some .harakaAesni => "haraka-aesni"
  | some .sha2Avx2 => "sha2-avx2"

/-- The implementation is for the parameters. -/
def Supports (o : Option Opt) (P : Params) : Prop := ∀ x, o = some x → P.fam = x.fam

/-- A program is the known-answer program for `P` with the library of an implementation: for some addresses and contents
of uninitialised memory. -/
def KatProgram (aes : Bytes → Bytes → Bytes) (P : Params) (o : Option Opt) (prog : Prog) : Prop :=
  ∃ (lib : Nat → Kat.Lib) (lay : Layout) (g : Nat → Nat → Byte) (opens : Nat → Bool) (M : Mem),
    (match o with
      | none => ∃ G₁ g₁ G₂ g₂ G₃ g₃ : Nat → Nat → Nat → Byte,
        lib = fun i => refLib (build P (G₁ i) (g₁ i)) (build P (G₂ i) (g₂ i)) (build P (G₃ i) (g₃ i))
      | some x => ∃ G g' : Nat → Nat → Nat → Byte, lib = fun i => optLib (x.plain P (G i) (g' i))) ∧
    (∀ i < 100, LayOK P lay i) ∧ (∀ k < 3, opens k = true) ∧ M.Alloc lay.pk P.pkBytes ∧ M.Alloc lay.sk P.skBytes ∧
    prog = fun fs => status0 (Kat.main aes P lib lay g opens M fs)

/-- The compiler makes the known-answer program of the needed files, in any order, and hashlib computes SHA-256. -/
structure Right (aes : Bytes → Bytes → Bytes) (W : World) : Prop where
  sha : W.sha256 = Spec.Sha2.sha256
  cc : ∀ o, ∀ e ∈ instances, Supports o e.2.2 → ∀ l : List Bytes, l.Perm ((needed o e.2.2.fam e.2.1).map ascii) →
    ∃ prog, W.cc (ascii (dir o)) (ascii e.1) l = some prog ∧ KatProgram aes e.2.2 o prog

/-- Sum of the response file, and name, of an instance -/
def entry (aes : Bytes → Bytes → Bytes) (e : Inst) : Bytes × Bytes :=
  (Spec.Sha2.sha256 (responseFile aes e.2.2.toSpec (specHash e.2.2)), instName e)

/-! ## The Makefiles -/

/-- C86: the instances are the shipped parameter sets, each once, and their names are distinct. -/
theorem C86_instances : (instances.map fun e => e.2.2).Perm shipped ∧ (instances.map instName).Nodup := by
  constructor <;> decide +kernel

/-- C86: for every instance and implementation the Makefile compiles exactly the needed files. -/
theorem C86_makefiles : ∀ e ∈ instances, ∀ o, Supports o e.2.2 →
    ∃ l, sources (ascii (dir o)) (ascii e.1) (ascii e.2.1) = some l ∧
      (l.map det).Perm ((needed o e.2.2.fam e.2.1).map ascii) := by
  have key : ∀ e ∈ instances, ∀ o ∈ [none, some Opt.shakeA64, some .shakeAvx2, some .harakaAesni, some .sha2Avx2],
      (match o with | none => true | some x => decide (e.2.2.fam = x.fam)) = true →
      (match sources (ascii (dir o)) (ascii e.1) (ascii e.2.1) with
        | none => false
        | some l => (l.map det).isPerm ((needed o e.2.2.fam e.2.1).map ascii)) = true := by decide +kernel
  intro e he o ho
  have h := key e he o (by cases o with | none => simp | some x => cases x <;> simp) (by
    cases o with
    | none => rfl
    | some x => exact decide_eq_true (ho x rfl))
  split at h
  · cases h
  · next l hl => exact ⟨l, hl, List.isPerm_iff.mp h⟩

/-! ## The script -/

/-- The facts the script uses about its turns are those of the instances. -/
theorem facts_eq : combos.map facts =
    instances.map fun e => (instName e, ascii e.1, ascii e.2.1, ascii s!"PQCsignKAT_{e.2.2.skBytes}.rsp") := by
  decide +kernel

theorem shipped_inst {e : Inst} (he : e ∈ instances) : e.2.2 ∈ shipped :=
  C86_instances.1.mem_iff.mp (List.mem_map_of_mem he)

section
variable {aes : Bytes → Bytes → Bytes} (haes : Cipher aes) {W : World} (hW : Right aes W)
include haes

theorem program_ok {P : Params} (hP : P ∈ shipped) {o : Option Opt} (ho : Supports o P) {prog : Prog}
    (h : KatProgram aes P o prog) : ∃ fs, prog (fun _ => none) = some fs ∧
      fs (ascii s!"PQCsignKAT_{P.skBytes}.rsp") = some (responseFile aes P.toSpec (specHash P)) := by
  obtain ⟨lib, lay, g, opens, M, hlib, hlay, hop, hpk, hsk, rfl⟩ := h
  cases o with
  | none =>
    obtain ⟨G₁, g₁, G₂, g₂, G₃, g₃, rfl⟩ := hlib
    exact ⟨_, congrArg status0 (C56_main haes hP G₁ g₁ G₂ g₂ G₃ g₃ hlay g hop hpk hsk _), if_pos rfl⟩
  | some x =>
    obtain ⟨G, g', rfl⟩ := hlib
    exact ⟨_, congrArg status0 (C56_main_opt haes hP (E := fun i => x.plain P (G i) (g' i)) (G' := G) (g' := g')
      (fun i _ => Bench.Opt.same x hP (ho x rfl) (G i) (g' i)) (fun i _ => Bench.Opt.plain_P ..) hlay g hop hpk hsk _), if_pos rfl⟩

include hW

theorem result_ok {e : Inst} (he : e ∈ instances) {o : Option Opt} (ho : Supports o e.2.2) :
    result W (ascii (dir o)) (instName e, ascii e.1, ascii e.2.1, ascii s!"PQCsignKAT_{e.2.2.skBytes}.rsp") =
      some (line (entry aes e)) := by
  obtain ⟨l, h1, h2⟩ := C86_makefiles e he o ho
  obtain ⟨prog, h3, h4⟩ := hW.cc o e he ho _ h2
  obtain ⟨fs, h5, h6⟩ := program_ok haes (shipped_inst he) ho h4
  unfold result makeKat
  simp only [h1, h3, h5, h6, hW.sha, hexdigest_eq, bind, Option.bind]
  unfold line entry
  rw [List.append_assoc]
  rfl

end

theorem joinLines_file : ∀ {l : List Bytes}, l ≠ [] → joinLines l ++ asc "\n" = l.flatMap fun a => a ++ [10#8]
  | [], h => absurd rfl h
  | [a], _ => by simp [joinLines, asc]
  | a :: b :: l, _ => by
    rw [joinLines, List.append_assoc, joinLines_file (by simp), List.flatMap_cons]
    · rfl
    · simp

theorem entry_ok (aes : Bytes → Bytes → Bytes) {e : Inst} (he : e ∈ instances) : Entry (entry aes e) := by
  have h : ∀ e ∈ instances, 32#8 ∉ instName e ∧ 10#8 ∉ instName e := by decide +kernel
  exact ⟨hash_length _, h e he⟩

theorem facts_of {e : Inst} (he : e ∈ instances) : ∃ c ∈ combos, facts c =
    (instName e, ascii e.1, ascii e.2.1, ascii s!"PQCsignKAT_{e.2.2.skBytes}.rsp") := by
  have h := List.mem_map_of_mem (f := fun e : Inst =>
    (instName e, ascii e.1, ascii e.2.1, ascii s!"PQCsignKAT_{e.2.2.skBytes}.rsp")) he
  rw [← facts_eq] at h
  obtain ⟨c, h1, h2⟩ := List.mem_map.mp h
  exact ⟨c, h1, h2⟩

section
variable {aes : Bytes → Bytes → Bytes} (haes : Cipher aes) {W : World} (hW : Right aes W)
include haes hW

/-- C86: without arguments the script writes one line for each instance, with the SHA-256 sum of its response file, in
the order of the lines. -/
theorem C86_generate : ∃ l : List Inst, l.Perm instances ∧ generate_sums W = some (file (l.map (entry aes))) ∧
    (l.map fun e => line (entry aes e)).Pairwise (· ≤ ·) := by
  have h : (combos.map fun c => result W (asc "ref") (facts c)) = (instances.map fun e => line (entry aes e)).map some := by
    rw [show (fun c => result W (asc "ref") (facts c)) = result W (asc "ref") ∘ facts from rfl, ← List.map_map, facts_eq,
      List.map_map, List.map_map]
    exact List.map_congr_left fun e he => result_ok haes hW he (o := none) fun x hx => by cases hx
  refine ⟨instances.mergeSort fun a b => decide (line (entry aes a) ≤ line (entry aes b)), List.mergeSort_perm _ _, ?_, ?_⟩
  · have e : (instances.map fun e => line (entry aes e)).mergeSort (fun a b => decide (a ≤ b)) =
        (instances.mergeSort fun a b => decide (line (entry aes a) ≤ line (entry aes b))).map fun e => line (entry aes e) :=
      (List.map_mergeSort (r := fun a b => decide (line (entry aes a) ≤ line (entry aes b))) (s := fun a b => decide (a ≤ b))
        (f := fun e => line (entry aes e)) fun _ _ _ _ => rfl).symm
    rw [generate_eq h, e, joinLines_file]
    · simp only [file, List.flatMap_map]
    · intro h0
      have := congrArg List.length h0
      rw [List.length_map, List.length_mergeSort] at this
      revert this
      decide
  · rw [List.map_mergeSort (r := fun a b => decide (line (entry aes a) ≤ line (entry aes b))) (s := fun a b => decide (a ≤ b))
      (f := fun e => line (entry aes e)) fun _ _ _ _ => rfl]
    refine (List.pairwise_mergeSort (le := fun a b : Bytes => decide (a ≤ b)) ?_ ?_ _).imp fun h => of_decide_eq_true h
    · intro a b c h1 h2
      exact decide_eq_true (List.le_trans (of_decide_eq_true h1) (of_decide_eq_true h2))
    · intro a b
      rcases List.le_total a b with h | h <;> simp [h]

/-- C86: with the name of an instance and an implementation for it, the script ends with status 0 if the sum of the
response file is listed for this name in SHA256SUMS, and otherwise with status 2. -/
theorem C86_check {es : List (Bytes × Bytes)} (hes : ∀ e ∈ es, Entry e) {e : Inst} (he : e ∈ instances) {o : Option Opt}
    (ho : Supports o e.2.2) :
    (entry aes e ∈ es → check_sum W (file es) (instName e) (ascii (dir o)) = some 0) ∧
    (entry aes e ∉ es → check_sum W (file es) (instName e) (ascii (dir o)) = some 2) := by
  obtain ⟨c, hc, hf⟩ := facts_of he
  have h := check_eq (sums := file es) hc (hf ▸ result_ok haes hW he ho)
  rw [hf] at h
  have hl := findstring_line hes (entry_ok aes he)
  constructor
  · intro hm
    rw [h, show line (entry aes e) ++ asc "\n" = line (entry aes e) ++ [10#8] from rfl, hl.mpr hm]
    rfl
  · intro hm
    rw [h, show line (entry aes e) ++ asc "\n" = line (entry aes e) ++ [10#8] from rfl,
      Bool.eq_false_iff.mpr fun h => hm (hl.mp h)]
    rfl

/-- C86: every implementation passes the check against the sums generated from the reference code. -/
theorem C86_agree {sums : Bytes} (h : generate_sums W = some sums) {e : Inst} (he : e ∈ instances) {o : Option Opt}
    (ho : Supports o e.2.2) : check_sum W sums (instName e) (ascii (dir o)) = some 0 := by
  obtain ⟨l, h1, h2, -⟩ := C86_generate haes hW
  rw [h2, Option.some.injEq] at h
  rw [← h]
  refine (C86_check haes hW (fun x hx => ?_) he ho).1 (List.mem_map_of_mem (h1.mem_iff.mpr he))
  obtain ⟨e', h3, rfl⟩ := List.mem_map.mp hx
  exact entry_ok aes (h1.mem_iff.mp h3)

end

/-- C86: for other names the status is 1, whatever the compiler does. -/
theorem C86_unknown (W : World) (sums impl : Bytes) {name : Bytes} (h : name ∉ instances.map instName) :
    check_sum W sums name impl = some 1 := by
  refine check_unknown fun c hc e => h ?_
  have hm := List.mem_map_of_mem (f := facts) hc
  rw [facts_eq] at hm
  obtain ⟨x, h1, h2⟩ := List.mem_map.mp hm
  exact List.mem_map.mpr ⟨x, h1, by rw [← e, ← h2]⟩

/-! ## The file SHA256SUMS -/

/-- The value of a lower case hexadecimal digit -/
def unhexDigit (c : Byte) : Nat := if c.toNat < 58 then c.toNat - 48 else c.toNat - 87

/-- The bytes with these digits -/
def unhex : Bytes → Bytes
  | c :: d :: l => BitVec.ofNat 8 (16 * unhexDigit c + unhexDigit d) :: unhex l
  | _ => []

/-- The entries of SHA256SUMS -/
def listed : List (Bytes × Bytes) := SHA256SUMS.map fun x => (unhex (ascii x.1), ascii x.2)

theorem sums_hex : ∀ x ∈ SHA256SUMS, hexdigest (unhex (ascii x.1)) = ascii x.1 := by decide +kernel

theorem sums_len : ∀ x ∈ SHA256SUMS, (unhex (ascii x.1)).length = 32 := by decide +kernel

theorem sums_names : (SHA256SUMS.map fun x => ascii x.2).isPerm (instances.map instName) = true := by decide +kernel

/-- C86: SHA256SUMS has one line for every instance. -/
theorem C86_sums_file : (SHA256SUMS.flatMap fun x => ascii x.1 ++ ascii " " ++ ascii x.2 ++ ascii "\n") = file listed ∧
    (∀ e ∈ listed, e.1.length = 32 ∧ 32#8 ∉ e.2 ∧ 10#8 ∉ e.2) ∧ (listed.map Prod.snd).Perm (instances.map instName) := by
  have hn : (listed.map Prod.snd).Perm (instances.map instName) := by
    unfold listed
    rw [List.map_map]
    exact List.isPerm_iff.mp sums_names
  refine ⟨?_, fun e he => ?_, hn⟩
  · unfold file listed
    rw [List.flatMap_map]
    refine List.flatMap_congr fun x hx => ?_
    simp only [line, ← hexdigest_eq, sums_hex x hx, List.append_assoc]
    rfl
  · obtain ⟨x, hx, rfl⟩ := List.mem_map.mp he
    obtain ⟨e, h1, h2⟩ := List.mem_map.mp (hn.mem_iff.mp (List.mem_map_of_mem (f := Prod.snd) he))
    exact ⟨sums_len x hx, h2 ▸ (entry_ok (fun _ _ => []) h1).2⟩

/-- C86: against SHA256SUMS, each implementation passes exactly if the sum of the response file is the one listed for the
instance. -/
theorem C86_shipped_file {e : Inst} (he : e ∈ instances) : ∃ h, (h, instName e) ∈ listed ∧
    ∀ {aes : Bytes → Bytes → Bytes}, Cipher aes → ∀ {W : World}, Right aes W → ∀ {o : Option Opt}, Supports o e.2.2 →
    check_sum W (SHA256SUMS.flatMap fun x => ascii x.1 ++ ascii " " ++ ascii x.2 ++ ascii "\n") (instName e) (ascii (dir o)) =
      some (if Spec.Sha2.sha256 (responseFile aes e.2.2.toSpec (specHash e.2.2)) = h then 0 else 2) := by
  obtain ⟨h1, h2, h3⟩ := C86_sums_file
  obtain ⟨x, hx, hn⟩ := List.mem_map.mp (h3.mem_iff.mpr (List.mem_map_of_mem he))
  have hnd : (listed.map Prod.snd).Nodup := h3.nodup_iff.mpr C86_instances.2
  refine ⟨x.1, by rw [← hn]; exact hx, fun {aes} haes {W} hW {o} ho => ?_⟩
  rw [h1]
  have hc := C86_check haes hW (es := listed) h2 he ho
  have key : entry aes e ∈ listed ↔ Spec.Sha2.sha256 (responseFile aes e.2.2.toSpec (specHash e.2.2)) = x.1 := by
    constructor
    · intro h
      have := List.inj_on_of_nodup_map hnd h hx (by rw [hn]; rfl)
      exact congrArg Prod.fst this
    · intro h
      have : entry aes e = x := Prod.ext h hn.symm
      rw [this]
      exact hx
  by_cases h : entry aes e ∈ listed
  · rw [hc.1 h, if_pos (key.mp h)]
  · rw [hc.2 h, if_neg fun h' => h (key.mpr h')]

/-! ## The hypotheses are met -/

/-- The program, with arrays at fixed addresses -/
def katProg (aes : Bytes → Bytes → Bytes) (P : Params) : Option Opt → Prog
  | none => fun fs => status0 (Kat.main aes P (fun i => refLib (build P (fun _ _ => BitVec.ofNat 8 i) fun _ _ => 2)
      (build P (fun _ _ => 4) fun _ _ => 5) (build P (fun _ _ => 6) fun _ _ => 7)) katLay (fun _ _ => 1) (fun _ => true)
      (Mem.filled fun _ => 5) fs)
  | some x => fun fs => status0 (Kat.main aes P (fun i => optLib (x.plain P (fun _ _ => BitVec.ofNat 8 i) fun _ _ => 2)) katLay
      (fun _ _ => 1) (fun _ => true) (Mem.filled fun _ => 5) fs)

/-- Implementations and instances -/
def pairs : List (Option Opt × Inst) :=
  [none, some Opt.shakeA64, some .shakeAvx2, some .harakaAesni, some .sha2Avx2].flatMap fun o => instances.map fun e => (o, e)

/-- A compiler that knows the directories, headers and files -/
def world (aes : Bytes → Bytes → Bytes) : World where
  sha256 := Spec.Sha2.sha256
  cc d p l := (pairs.find? fun x => d == ascii (dir x.1) && p == ascii x.2.1 &&
    l.isPerm ((needed x.1 x.2.2.2.fam x.2.2.1).map ascii)).map fun x => katProg aes x.2.2.2 x.1

theorem katLay_all {P : Params} (hP : P ∈ shipped) (i : Nat) (hi : i < 100) : LayOK P katLay i := by
  have h : ∀ P ∈ shipped, P.spxBytes ≤ 49856 ∧ P.n ≤ 32 := by decide +kernel
  obtain ⟨h1, h2⟩ := h P hP
  have hp : P.pkBytes = 2 * P.n := rfl
  have hs : P.skBytes = 2 * P.n + 2 * P.n := rfl
  constructor <;> unfold Disj katLay <;> simp only [hp, hs] <;> omega

theorem world_right (aes : Bytes → Bytes → Bytes) : Right aes (world aes) where
  sha := rfl
  cc o e he ho l hl := by
    have hd : ∀ o o', ascii (dir o) = ascii (dir o') → o = o' := by
      rintro (_ | _ | _ | _ | _) (_ | _ | _ | _ | _) h <;> first | rfl | exact absurd h (by decide +kernel)
    have hm : ∀ o : Option Opt, o ∈ [none, some Opt.shakeA64, some .shakeAvx2, some .harakaAesni, some .sha2Avx2] := by
      intro o
      cases o with
      | none => simp
      | some x => cases x <;> simp
    have hk : ∀ e ∈ instances, ∀ e' ∈ instances, ascii e.1 = ascii e'.1 →
        ∀ o ∈ [none, some Opt.shakeA64, some .shakeAvx2, some .harakaAesni, some .sha2Avx2],
        ((needed o e.2.2.fam e.2.1).map ascii).isPerm ((needed o e'.2.2.fam e'.2.1).map ascii) = true → e = e' := by
      decide +kernel
    have hmem : (o, e) ∈ pairs := List.mem_flatMap.mpr ⟨o, hm o, List.mem_map_of_mem he⟩
    have hs : (pairs.find? fun x => ascii (dir o) == ascii (dir x.1) && ascii e.1 == ascii x.2.1 &&
        l.isPerm ((needed x.1 x.2.2.2.fam x.2.2.1).map ascii)).isSome = true := by
      rw [List.find?_isSome]
      exact ⟨(o, e), hmem, by simpa [List.isPerm_iff] using hl⟩
    obtain ⟨x, hx⟩ := Option.isSome_iff_exists.mp hs
    have h1 := List.find?_some hx
    have h2 := List.mem_of_find?_eq_some hx
    simp only [Bool.and_eq_true, beq_iff_eq, List.isPerm_iff] at h1
    obtain ⟨⟨h3, h4⟩, h5⟩ := h1
    obtain ⟨o', -, h6⟩ := List.mem_flatMap.mp h2
    obtain ⟨e', h7, rfl⟩ := List.mem_map.mp h6
    have e1 := hd o o' h3
    subst e1
    have e2 := hk e he e' h7 h4 o (hm o) (List.isPerm_iff.mpr (hl.symm.trans h5))
    subst e2
    refine ⟨katProg aes e.2.2 o, by
      show Option.map _ (List.find? _ pairs) = _
      rw [hx]
      rfl, ?_⟩
    have hP := shipped_inst he
    cases o with
    | none => exact ⟨_, katLay, fun _ _ => 1, fun _ => true, Mem.filled fun _ => 5, ⟨_, _, _, _, _, _, rfl⟩,
        katLay_all hP, fun _ _ => rfl, filled_alloc _ _ _, filled_alloc _ _ _, rfl⟩
    | some x => exact ⟨_, katLay, fun _ _ => 1, fun _ => true, Mem.filled fun _ => 5, ⟨_, _, rfl⟩,
        katLay_all hP, fun _ _ => rfl, filled_alloc _ _ _, filled_alloc _ _ _, rfl⟩

/-- A block cipher -/
theorem cipher7 : Cipher fun _ _ => List.replicate 16 7 := fun _ _ _ _ => List.length_replicate

/-- The sums are generated, and the implementation with AVX2 passes the check. -/
example : ∃ sums, generate_sums (world fun _ _ => List.replicate 16 7) = some sums ∧
    check_sum (world fun _ _ => List.replicate 16 7) sums (ascii "sphincs-sha2-192s-simple") (ascii "sha2-avx2") = some 0 := by
  obtain ⟨l, -, h, -⟩ := C86_generate cipher7 (world_right _)
  have := C86_agree cipher7 (world_right _) h (e := ("sphincs-sha2-192s", "simple", sha2_192s false)) (by decide +kernel)
    (o := some .sha2Avx2) (fun x hx => by cases hx; rfl)
  exact ⟨_, h, by rw [← this]; congr 1⟩

/-- Without lines the check fails. -/
example : check_sum (world fun _ _ => List.replicate 16 7) [] (ascii "sphincs-shake-128f-robust") (ascii "ref") = some 2 := by
  have := (C86_check cipher7 (world_right _) (es := []) (by simp) (e := ("sphincs-shake-128f", "robust", shake_128f true))
    (by decide +kernel) (o := none) (fun x hx => by cases hx)).2 (by simp)
  rw [← this]
  congr 1

/-- A name that is not listed -/
example (W : World) : check_sum W [] (ascii "sphincs-sha2-512f-simple") (ascii "ref") = some 1 :=
  C86_unknown W _ _ (by decide +kernel)

/-- The files for one instance -/
example : ∃ l, sources (ascii "shake-a64") (ascii "sphincs-shake-256s") (ascii "robust") = some l ∧ l.length = 15 ∧
    ascii "rng.c" ∈ l.map det ∧ ascii "thash_shake_robustx2.c" ∈ l.map det := by
  have h : (match sources (ascii "shake-a64") (ascii "sphincs-shake-256s") (ascii "robust") with
    | some l => decide (l.length = 15 ∧ ascii "rng.c" ∈ l.map det ∧ ascii "thash_shake_robustx2.c" ∈ l.map det)
    | none => false) = true := by decide +kernel
  split at h
  · next l hl => exact ⟨l, hl, of_decide_eq_true h⟩
  · cases h

/-- The digits of a sum -/
example : line ([0x0A, 0xF3], ascii "x") = ascii "0af3 x" := by decide +kernel

end Spx.Vectors
