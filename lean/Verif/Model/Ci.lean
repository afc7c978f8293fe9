import Verif.Model.Vectors
/-! # The workflows in .github/workflows and benchmark.py

Simplifications:
* Of a directory we keep which of the programs that make builds are there, and the values of `PARAMS` and `THASH` they were
  built with.  A program that is there is up to date, since the sources do not change.  The object file of shake-avx2 is left
  out; what it is compiled to does not depend on `PARAMS`.
* What the compiler accepts, and what the programs return, is given (`Tools`).  The latter may depend on what happened before.
* Of the output only the line that announces a benchmark is kept. -/

namespace Spx.Ci
open Kat Vectors

/-- Values of `PARAMS` and `THASH` -/
abbrev Config := Bytes × Bytes

/-- Compiler, programs and vectors.py -/
structure Tools where
  compiles : (dir prog : Bytes) → Config → Bool
  /-- the program returns 0 -/
  runs : (before : Nat) → (dir prog : Bytes) → Config → Bool
  /-- `python3 vectors.py name impl` returns 0 -/
  vectors : (name impl : Bytes) → Bool

/-- What can be observed -/
inductive Event
  /-- a program was run that was built with `c` -/
  | ran (dir prog : Bytes) (c : Config)
  /-- vectors.py was run -/
  | checked (name impl : Bytes)
  /-- benchmark.py announced a benchmark -/
  | announced (dir : Bytes) (c : Config)

/-- Programs in the directories, and what happened -/
structure State where
  files : (dir prog : Bytes) → Option Config
  log : List Event

/-! ## make -/

/-- `PARAMS` and `THASH` in the Makefiles: ref/Makefile:1-2, haraka-aesni/Makefile:1-2, sha2-avx2/Makefile:1-2,
shake-a64/Makefile:1-2, shake-avx2/Makefile:1-2 -/
def defaults (dir : Bytes) : Config :=
  (if dir = asc "ref" then asc "sphincs-haraka-128f"
    else if dir = asc "haraka-aesni" then asc "sphincs-haraka-128f"
    else if dir = asc "sha2-avx2" then asc "sphincs-sha2-128f"
    else asc "sphincs-shake-128f", asc "robust")

/-- `TESTS`: ref/Makefile:26-27, haraka-aesni/Makefile:14-15, sha2-avx2/Makefile:14-16, shake-a64/Makefile:12-14,
shake-avx2/Makefile:13-15 -/
def tests (dir : Bytes) : List Bytes :=
  if dir = asc "ref" then [asc "test/fors", asc "test/spx"]
  else if dir = asc "haraka-aesni" then [asc "test/fors", asc "test/spx"]
  else if dir = asc "sha2-avx2" then [asc "test/fors", asc "test/spx", asc "test/thashx8"]
  else if dir = asc "shake-a64" then [asc "test/fors", asc "test/spx", asc "test/thashx2"]
  else [asc "test/fors", asc "test/spx", asc "test/thashx4"]

/-- ref/Makefile:29 -/
def benchmarkProg : Bytes := asc "test/benchmark"

/-- ref/Makefile:45 -/
def katProg : Bytes := asc "PQCgenKAT_sign"

/-- Assignments on the command line replace those of the Makefile; other variables have no effect. -/
def config (dir : Bytes) (vars : List (Bytes × Bytes)) : Config :=
  ((vars.lookup (asc "PARAMS")).getD (defaults dir).1, (vars.lookup (asc "THASH")).getD (defaults dir).2)

/-- Bring a program up to date: ref/Makefile:45-53 -/
def build (T : Tools) (dir : Bytes) (c : Config) (prog : Bytes) (s : State) : Bool × State :=
  if (s.files dir prog).isSome then (true, s)
  else if T.compiles dir prog c then
    (true, { s with files := fun d p => if d = dir ∧ p = prog then some c else s.files d p })
  else (false, s)

/-- Bring a program up to date and run it: ref/Makefile:58-59 -/
def exec (T : Tools) (dir : Bytes) (c : Config) (prog : Bytes) (s : State) : Bool × State :=
  match build T dir c prog s with
  | (false, s) => (false, s)
  | (true, s) =>
    match s.files dir prog with
    | none => (false, s)
    | some b => (T.runs s.log.length dir prog b, { s with log := s.log ++ [.ran dir prog b] })

/-- One after the other, until one fails -/
def inOrder {α : Type} (f : α → State → Bool × State) : List α → State → Bool × State
  | [], s => (true, s)
  | a :: l, s =>
    match f a s with
    | (false, s) => (false, s)
    | (true, s) => inOrder f l s

/-- The targets used -/
inductive Target
  | clean | tests | test | benchmarks | benchmark | PQCgenKAT_sign

/-- `make -C dir vars target`: ref/Makefile:37-46 and 61-66 -/
def make (T : Tools) (dir : Bytes) (vars : List (Bytes × Bytes)) (t : Target) (s : State) : Bool × State :=
  let c := config dir vars
  match t with
  | .clean => (true, { s with files := fun d p =>
      if d = dir ∧ (tests dir ++ [benchmarkProg, katProg]).contains p then none else s.files d p })
  | .tests => inOrder (build T dir c) (tests dir) s
  | .test => inOrder (exec T dir c) (tests dir) s
  | .benchmarks => build T dir c benchmarkProg s
  | .benchmark => exec T dir c benchmarkProg s
  | .PQCgenKAT_sign => build T dir c katProg s

/-! ## The workflows -/

/-- A command of a job -/
inductive Command
  | make (dir : Bytes) (vars : List (Bytes × Bytes)) (t : Target)
  | vectors (name impl : Bytes)

def command (T : Tools) : Command → State → Bool × State
  | .make dir vars t, s => make T dir vars t s
  | .vectors name impl, s => (T.vectors name impl, { s with log := s.log ++ [.checked name impl] })

/-- The lines of a job are run until one fails. -/
def runJob (T : Tools) (job : List Command) (s : State) : Bool × State := inOrder (command T) job s

/-- The matrices, test-ref.yml:12-25 and test-haraka-aesni.yml:12-21 -/
def matrixHash : List Bytes := [asc "sha2", asc "shake", asc "haraka"]
def matrixSize : List Bytes := [asc "128", asc "192", asc "256"]
def matrixOption : List Bytes := [asc "s", asc "f"]
def matrixThash : List Bytes := [asc "simple", asc "robust"]

/-- test-ref.yml:30-35 -/
def refJob (hash size option thash : Bytes) : List Command :=
  let v1 := (asc "HASH", hash)
  let v2 := (asc "THASH", thash)
  let v3 := (asc "PARAMS", asc "sphincs-" ++ hash ++ asc "-" ++ size ++ option)
  [.make (asc "ref") [v1, v2] .clean, .make (asc "ref") [v1, v2, v3] .tests, .make (asc "ref") [v1, v2, v3] .test,
    .make (asc "ref") [v2] .PQCgenKAT_sign,
    .vectors (asc "sphincs-" ++ hash ++ asc "-" ++ size ++ option ++ asc "-" ++ thash) (asc "ref")]

/-- test-haraka-aesni.yml:26-31, test-sha2-avx2.yml:26-31, test-shake-avx2.yml:26-31 -/
def optJob (dir hash size option thash : Bytes) : List Command :=
  let v2 := (asc "THASH", thash)
  let v3 := (asc "PARAMS", asc "sphincs-" ++ hash ++ asc "-" ++ size ++ option)
  [.make dir [v2] .clean, .make dir [v2, v3] .tests, .make dir [v2, v3] .test, .make dir [v2, v3] .PQCgenKAT_sign,
    .vectors (asc "sphincs-" ++ hash ++ asc "-" ++ size ++ option ++ asc "-" ++ thash) dir]

/-- The combinations of a matrix -/
def matrix : List (Bytes × Bytes × Bytes) :=
  matrixSize.flatMap fun s => matrixOption.flatMap fun o => matrixThash.map fun t => (s, o, t)

/-- The jobs of the four workflows -/
def refJobs : List (List Command) := matrixHash.flatMap fun h => matrix.map fun x => refJob h x.1 x.2.1 x.2.2
def aesniJobs : List (List Command) := matrix.map fun x => optJob (asc "haraka-aesni") (asc "haraka") x.1 x.2.1 x.2.2
def sha2Jobs : List (List Command) := matrix.map fun x => optJob (asc "sha2-avx2") (asc "sha2") x.1 x.2.1 x.2.2
def shakeJobs : List (List Command) := matrix.map fun x => optJob (asc "shake-avx2") (asc "shake") x.1 x.2.1 x.2.2
def jobs : List (List Command) := refJobs ++ aesniJobs ++ sha2Jobs ++ shakeJobs

/-! ## benchmark.py -/

/-- benchmark.py:8-13 -/
def implementations : List (Bytes × List Bytes) :=
  [(asc "ref", [asc "shake", asc "sha2", asc "haraka"]), (asc "haraka-aesni", [asc "haraka"]),
    (asc "shake-avx2", [asc "shake"]), (asc "sha2-avx2", [asc "sha2"])]

/-- benchmark.py:23-37.  What make returns is not looked at. -/
def bench (T : Tools) (impl fn opt : Bytes) (size : Nat) (thash : Bytes) (s : State) : State :=
  let paramset := asc "sphincs-" ++ fn ++ asc "-" ++ str size ++ opt
  let s := { s with log := s.log ++ [.announced impl (paramset, thash)] }
  let vars := [(asc "THASH", thash), (asc "PARAMS", paramset)]
  let s := (make T impl vars .clean s).2
  let s := (make T impl vars .benchmarks s).2
  (make T impl vars .benchmark s).2

/-- benchmark.py:19-37; the options, sizes and kinds of thash (lines 15-17) are those of vectors.py. -/
def benchmarkPy (T : Tools) (s : State) : State :=
  implementations.foldl (fun s i => i.2.foldl (fun s fn =>
    product.foldl (fun s c => bench T i.1 fn c.1 c.2.1 c.2.2 s) s) s) s

end Spx.Ci
