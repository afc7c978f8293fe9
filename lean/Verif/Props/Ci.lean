import Verif.Proof.CiJobs
import Verif.Props.Vectors
/-! # C91: the workflows and benchmark.py

Each implementation but shake-a64 is tested and measured with each instance it is for, with programs that were built for that
instance, whatever was in the directories before. -/

namespace Spx.Ci
open Kat Vectors Spec Spec.Rng Spec.Kat Leak Rng

/-! ## What is expected -/

/-- An implementation with an instance -/
abbrev Pair := Option Opt × Inst

/-- All implementations but shake-a64, with the instances they are for, each once -/
def Covers (l : List Pair) : Prop :=
  l.Nodup ∧ ∀ o e, (o, e) ∈ l ↔ e ∈ instances ∧ Supports o e.2.2 ∧ o ≠ some .shakeA64

/-- `PARAMS` and `THASH` for an instance -/
def conf (e : Inst) : Config := (ascii e.1, ascii e.2.1)

/-- The directory of an implementation -/
def inDir (o : Option Opt) : Bytes := ascii (dir o)

/-- The tests of an implementation: FORS, the scheme, and for SHAKE and SHA-2 parallel hashing -/
def testPrograms (o : Option Opt) : List Bytes :=
  [ascii "test/fors", ascii "test/spx"] ++ match o with
    | none => []
    | some .harakaAesni => []
    | some .shakeA64 => [ascii "test/thashx2"]
    | some .shakeAvx2 => [ascii "test/thashx4"]
    | some .sha2Avx2 => [ascii "test/thashx8"]

/-- What a job is to do -/
def expected (x : Pair) : List Event :=
  (testPrograms x.1).map (.ran (inDir x.1) · (conf x.2)) ++ [.checked (instName x.2) (inDir x.1)]

/-- What the known-answer program is built with before vectors.py builds it again: in ref, `PARAMS` is not given. -/
def katConf (x : Pair) : Config := (if x.1 = none then ascii "sphincs-haraka-128f" else ascii x.2.1, ascii x.2.2.1)

/-- All programs can be compiled, and the tests and vectors.py return 0; `n` is how much happened before. -/
def AllGood (T : Tools) (n : Nat) (x : Pair) : Prop :=
  (∀ p ∈ testPrograms x.1, T.compiles (inDir x.1) p (conf x.2) = true) ∧
  (∀ i p, (testPrograms x.1)[i]? = some p → T.runs (n + i) (inDir x.1) p (conf x.2) = true) ∧
  T.compiles (inDir x.1) (ascii "PQCgenKAT_sign") (katConf x) = true ∧ T.vectors (instName x.2) (inDir x.1) = true

/-- A job tests a pair: from any state, it does what is expected up to the first failure, all of it if it passes, and it
passes exactly if all is good.  It changes no other directory. -/
def TestsPair (x : Pair) (job : List Command) : Prop := ∀ (T : Tools) (s : State), ∃ evs,
  (runJob T job s).2.log = s.log ++ evs ∧ evs <+: expected x ∧ ((runJob T job s).1 = true → evs = expected x) ∧
  ((runJob T job s).1 = true ↔ AllGood T s.log.length x) ∧
  ∀ d, d ≠ inDir x.1 → ∀ p, (runJob T job s).2.files d p = s.files d p

deriving instance DecidableEq for Opt

instance : DecidableEq (Bytes × Config × Config × Bytes) := instDecidableEqProd

/-! ## The workflows -/

/-- The pairs as a list -/
def covered : List Pair := pairs.filter fun x => match x.1 with
  | none => true
  | some .shakeA64 => false
  | some o => decide (x.2.2.2.fam = o.fam)

theorem covers_of_perm {l : List Pair} (h : l.Perm covered) : Covers l := by
  have hn : covered.Nodup := by decide +kernel
  refine ⟨h.nodup_iff.mpr hn, fun o e => h.mem_iff.trans ?_⟩
  have hp : (o, e) ∈ pairs ↔ e ∈ instances := by
    unfold pairs
    rcases o with _ | _ | _ | _ | _ <;> simp
  unfold covered
  rw [List.mem_filter, hp]
  unfold Supports
  rcases o with _ | _ | _ | _ | _ <;> simp

/-- The pair of a job, found by name -/
def pairOf (d name : Bytes) : Option Pair := covered.find? fun x => inDir x.1 == d && instName x.2 == name

theorem jobs_pairs : (jobs.filterMap fun j => (facts j).bind fun f => pairOf f.1 f.2.2.2).isPerm covered = true := by
  decide +kernel

theorem jobs_facts : jobs.map facts = (jobs.filterMap fun j => (facts j).bind fun f => pairOf f.1 f.2.2.2).map fun x =>
    some (inDir x.1, conf x.2, katConf x, instName x.2) := by
  decide +kernel

theorem tests_dir (o : Option Opt) : tests (inDir o) = testPrograms o := by
  rcases o with _ | _ | _ | _ | _ <;> decide +kernel

theorem tests_pair {job : List Command} {x : Pair}
    (h : facts job = some (inDir x.1, conf x.2, katConf x, instName x.2)) : TestsPair x job := by
  intro T s
  obtain ⟨evs, h1, h2, h3, h4⟩ := job_ok h T s
  rw [tests_dir] at h2 h3
  refine ⟨evs, h1, h2, h3, h4.trans ?_, fun d hd p => job_dir h T s hd p⟩
  unfold AllGood
  rw [← tests_dir]
  refine and_congr Iff.rfl (and_congr ?_ Iff.rfl)
  constructor
  · intro h i p hp
    obtain ⟨hi, rfl⟩ := List.getElem?_eq_some_iff.mp hp
    exact h i hi
  · intro h i hi
    exact h i _ (List.getElem?_eq_getElem hi)

/-- C91: the jobs of the four workflows test all pairs, each in one job. -/
theorem C91_jobs : ∃ l : List Pair, Covers l ∧ List.Forall₂ TestsPair l jobs := by
  refine ⟨_, covers_of_perm (List.isPerm_iff.mp jobs_pairs), ?_⟩
  have h := jobs_facts
  generalize (jobs.filterMap fun j => (facts j).bind fun f => pairOf f.1 f.2.2.2) = l at h
  generalize jobs = js at h
  induction js generalizing l with
  | nil =>
    cases l with
    | nil => exact .nil
    | cons x l => cases h
  | cons j js ih =>
    cases l with
    | nil => cases h
    | cons x l =>
      rw [List.map_cons, List.map_cons, List.cons.injEq] at h
      exact .cons (tests_pair h.1) (ih l h.2)

/-- C91: a program that a job runs was built for the instance of the job, even if another one was there before. -/
theorem C91_own_programs {x : Pair} {job : List Command} (h : TestsPair x job) (T : Tools) (files : Bytes → Bytes → Option Config)
    {d p : Bytes} {c : Config} (hr : Event.ran d p c ∈ (runJob T job ⟨files, []⟩).2.log) :
    d = inDir x.1 ∧ p ∈ testPrograms x.1 ∧ c = conf x.2 := by
  obtain ⟨evs, h1, h2, -, -, -⟩ := h T ⟨files, []⟩
  rw [h1, List.nil_append] at hr
  have := h2.subset hr
  unfold expected at this
  rw [List.mem_append, List.mem_map] at this
  rcases this with ⟨q, hq, he⟩ | h3
  · cases he
    exact ⟨rfl, hq, rfl⟩
  · cases List.mem_singleton.mp h3

/-- vectors.py with SHA256SUMS as it is in the repository -/
def shippedCheck (W : World) (name impl : Bytes) : Bool :=
  check_sum W (SHA256SUMS.flatMap fun x => ascii x.1 ++ ascii " " ++ ascii x.2 ++ ascii "\n") name impl == some 0

/-- C91: if the compiler is right, the programs compile, the tests return 0 and vectors.py is the one of the repository, then
all jobs pass exactly if SHA256SUMS lists, for every instance, the sum of the specified response file. -/
theorem C91_all_pass {aes : Bytes → Bytes → Bytes} (haes : Cipher aes) {W : World} (hW : Right aes W) {T : Tools}
    (hc : ∀ d p c, T.compiles d p c = true) (hr : ∀ n d p c, T.runs n d p c = true) (hv : T.vectors = shippedCheck W)
    (start : Bytes → Bytes → Option Config) :
    (∀ job ∈ jobs, (runJob T job ⟨start, []⟩).1 = true) ↔
      ∀ e ∈ instances, (Spec.Sha2.sha256 (responseFile aes e.2.2.toSpec (specHash e.2.2)), instName e) ∈ listed := by
  obtain ⟨l, hl, hj⟩ := C91_jobs
  have key : ∀ x : Pair, x ∈ l → ∀ job, TestsPair x job → ((runJob T job ⟨start, []⟩).1 = true ↔
      (Spec.Sha2.sha256 (responseFile aes x.2.2.2.toSpec (specHash x.2.2.2)), instName x.2) ∈ listed) := by
    intro x hx job h
    obtain ⟨he, ho, -⟩ := (hl.2 x.1 x.2).mp hx
    obtain ⟨_, -, -, -, h4, -⟩ := h T ⟨start, []⟩
    rw [h4]
    obtain ⟨s, hs, h5⟩ := C86_shipped_file he
    have h6 : (listed.map Prod.snd).Nodup := C86_sums_file.2.2.nodup_iff.mpr C86_instances.2
    have h7 : (Spec.Sha2.sha256 (responseFile aes x.2.2.2.toSpec (specHash x.2.2.2)), instName x.2) ∈ listed ↔
        Spec.Sha2.sha256 (responseFile aes x.2.2.2.toSpec (specHash x.2.2.2)) = s := by
      constructor
      · intro h
        exact congrArg Prod.fst (List.inj_on_of_nodup_map h6 h hs rfl)
      · intro h
        rw [h]; exact hs
    rw [h7]
    have h8 : T.vectors (instName x.2) (inDir x.1) = true ↔
        Spec.Sha2.sha256 (responseFile aes x.2.2.2.toSpec (specHash x.2.2.2)) = s := by
      rw [hv]
      unfold shippedCheck inDir
      rw [h5 haes hW ho]
      split <;> simp_all
    unfold AllGood
    simp only [hc, hr, h8, implies_true, true_and]
  constructor
  · intro h e he
    have hx : (none, e) ∈ l := (hl.2 none e).mpr ⟨he, fun _ h => (by cases h), by simp⟩
    obtain ⟨job, hjob, ht⟩ : ∃ job ∈ jobs, TestsPair (none, e) job := by
      clear key h hl
      generalize jobs = js at hj
      induction hj with
      | nil => cases hx
      | cons h1 _ ih =>
        rcases List.mem_cons.mp hx with rfl | h2
        · exact ⟨_, List.mem_cons_self, h1⟩
        · obtain ⟨j, h3, h4⟩ := ih h2
          exact ⟨j, List.mem_cons_of_mem _ h3, h4⟩
    exact (key _ hx job ht).mp (h job hjob)
  · intro h job hjob
    obtain ⟨x, hx, ht⟩ : ∃ x ∈ l, TestsPair x job := by
      clear key h hl
      generalize jobs = js at hj hjob
      induction hj with
      | nil => cases hjob
      | cons h1 _ ih =>
        rcases List.mem_cons.mp hjob with rfl | h2
        · exact ⟨_, List.mem_cons_self, h1⟩
        · obtain ⟨j, h3, h4⟩ := ih h2
          exact ⟨j, List.mem_cons_of_mem _ h3, h4⟩
    exact (key x hx job ht).mpr (h x.2 ((hl.2 x.1 x.2).mp hx).1)

/-! ## benchmark.py -/

/-- C91: benchmark.py announces each pair once, and right after that runs the program built for this pair, unless it cannot be
compiled. -/
theorem C91_benchmark : ∃ l : List Pair, Covers l ∧ ∀ (T : Tools) (s : State), (benchmarkPy T s).log = s.log ++
    l.flatMap fun x => .announced (inDir x.1) (conf x.2) ::
      if T.compiles (inDir x.1) (ascii "test/benchmark") (conf x.2) then
        [.ran (inDir x.1) (ascii "test/benchmark") (conf x.2)] else [] := by
  have h1 : (turns.filterMap fun t => covered.find? fun x => inDir x.1 == t.1 && conf x.2 == t.2).isPerm covered = true := by
    decide +kernel
  have h2 : turns = (turns.filterMap fun t => covered.find? fun x => inDir x.1 == t.1 && conf x.2 == t.2).map fun x =>
    (inDir x.1, conf x.2) := by decide +kernel
  refine ⟨_, covers_of_perm (List.isPerm_iff.mp h1), fun T s => ?_⟩
  rw [benchmarkPy_log]
  conv_lhs => rw [h2]
  rw [List.flatMap_map]
  rfl

/-! ## The hypotheses are met -/

/-- Tools with which all goes well -/
def goodTools (W : World) : Tools := ⟨fun _ _ _ => true, fun _ _ _ _ => true, shippedCheck W⟩

/-- A state in which all programs are there, for one instance -/
def stale : State := ⟨fun _ _ => some (ascii "sphincs-sha2-128s", ascii "simple"), []⟩

/-- The hypotheses of `C91_all_pass` -/
example (start : Bytes → Bytes → Option Config) :
    let aes : Bytes → Bytes → Bytes := fun _ _ => List.replicate 16 7
    (∀ job ∈ jobs, (runJob (goodTools (world aes)) job ⟨start, []⟩).1 = true) ↔
      ∀ e ∈ instances, (Spec.Sha2.sha256 (responseFile aes e.2.2.toSpec (specHash e.2.2)), instName e) ∈ listed :=
  C91_all_pass cipher7 (world_right _) (T := goodTools (world fun _ _ => List.replicate 16 7)) (fun _ _ _ => rfl)
    (fun _ _ _ _ => rfl) rfl start

/-- A job that meets the hypothesis of `C91_own_programs` -/
example : ∃ x job, TestsPair x job ∧ job ∈ jobs := by
  obtain ⟨l, -, h⟩ := C91_jobs
  cases h with
  | cons h1 h2 => exact ⟨_, _, h1, List.mem_cons_self⟩

/-- Without `clean`, a program for another instance is run. -/
example : (make (goodTools (world fun _ _ => [])) (ascii "ref")
    [(ascii "PARAMS", ascii "sphincs-shake-128f"), (ascii "THASH", ascii "robust")] .benchmark stale).2.log =
    [.ran (ascii "ref") (ascii "test/benchmark") (ascii "sphincs-sha2-128s", ascii "simple")] := rfl

/-- There are 72 jobs and 72 turns of benchmark.py. -/
example : jobs.length = 72 ∧ turns.length = 72 := by decide +kernel

end Spx.Ci
