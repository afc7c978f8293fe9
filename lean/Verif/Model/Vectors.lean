import Verif.Model.Kat
/-! # vectors.py and the Makefiles

vectors.py builds the known-answer program for the instances, runs it and compares the SHA-256 sum of the response file.

Simplifications:
* Messages on standard error are left out.  `bindir` and the directory the program runs in are new and empty.
* `subprocess.run` raises an exception if the program fails, and so does reading a file that is not there; then the
  result is `none`.
* `pool.starmap` gives the results in the order of its arguments.
* hashlib.sha256 is given as `sha256`.
* A Makefile is the list of sources it compiles; what the compiler makes of them is given (`World.cc`). -/

namespace Spx.Vectors
open Kat

/-- What a program does with the files of the directory it is run in; `none` if it does not return 0. -/
abbrev Prog := FS → Option FS

/-- A program given by what its `main` returns -/
def status0 : C (FS × Int) → Option FS
  | .ok (fs, 0) => some fs
  | _ => none

/-- The surroundings of the script -/
structure World where
  /-- In directory `dir`, the program that the compiler makes of PQCgenKAT_sign.c and the sources for a value of `PARAMS`;
  `none` if it fails. -/
  cc : (dir params : Bytes) → (sources : List Bytes) → Option Prog
  /-- hashlib.sha256 -/
  sha256 : Bytes → Bytes

/-- `text.find(find) != -1` of Python; `$(findstring find,text)` of make is not empty. -/
def findstring (find : Bytes) : Bytes → Bool
  | [] => find.isPrefixOf []
  | c :: text => find.isPrefixOf (c :: text) || findstring find text

/-! ## The Makefiles -/

/-- Words of a list of files with `$(THASH)` -/
def words (thash : Bytes) (l : List (String × Option String)) : List Bytes :=
  l.map fun w => match w.2 with
    | none => asc w.1
    | some rest => asc w.1 ++ thash ++ asc rest

/-- `SOURCES`, ref/Makefile:7-21 -/
def sourcesRef (params thash : Bytes) : List Bytes :=
  words thash [("address.c", none), ("randombytes.c", none), ("merkle.c", none), ("wots.c", none), ("wotsx1.c", none),
    ("utils.c", none), ("utilsx1.c", none), ("fors.c", none), ("sign.c", none)] ++
  (if findstring (asc "shake") params then
    words thash [("fips202.c", none), ("hash_shake.c", none), ("thash_shake_", some ".c")] else []) ++
  (if findstring (asc "haraka") params then
    words thash [("haraka.c", none), ("hash_haraka.c", none), ("thash_haraka_", some ".c")] else []) ++
  (if findstring (asc "sha2") params then
    words thash [("sha2.c", none), ("hash_sha2.c", none), ("thash_sha2_", some ".c")] else [])

/-- `SOURCES`, haraka-aesni/Makefile:8 -/
def sourcesHarakaAesni (thash : Bytes) : List Bytes :=
  words thash [("hash_haraka.c", none), ("hash_harakax4.c", none), ("thash_haraka_", some ".c"), ("thash_haraka_", some "x4.c"),
    ("address.c", none), ("randombytes.c", none), ("merkle.c", none), ("wots.c", none), ("utils.c", none), ("utilsx4.c", none),
    ("fors.c", none), ("sign.c", none), ("haraka.c", none)]

/-- `SOURCES`, sha2-avx2/Makefile:8 -/
def sourcesSha2Avx2 (thash : Bytes) : List Bytes :=
  words thash [("hash_sha2.c", none), ("hash_sha2x8.c", none), ("thash_sha2_", some ".c"), ("thash_sha2_", some "x8.c"),
    ("sha2.c", none), ("sha256x8.c", none), ("sha512x4.c", none), ("sha256avx.c", none), ("address.c", none),
    ("randombytes.c", none), ("merkle.c", none), ("wots.c", none), ("utils.c", none), ("utilsx8.c", none), ("fors.c", none),
    ("sign.c", none)]

/-- `SOURCES`, shake-a64/Makefile:6 -/
def sourcesShakeA64 (thash : Bytes) : List Bytes :=
  words thash [("hash_shake.c", none), ("hash_shakex2.c", none), ("thash_shake_", some "x2.c"), ("address.c", none),
    ("randombytes.c", none), ("merkle.c", none), ("wots.c", none), ("utils.c", none), ("utilsx2.c", none), ("fors.c", none),
    ("sign.c", none), ("fips202.c", none), ("fips202x2.c", none), ("f1600x2_const.c", none), ("f1600x2.s", none)]

/-- `SOURCES`, shake-avx2/Makefile:7 -/
def sourcesShakeAvx2 (thash : Bytes) : List Bytes :=
  words thash [("hash_shake.c", none), ("hash_shakex4.c", none), ("thash_shake_", some ".c"), ("thash_shake_", some "x4.c"),
    ("address.c", none), ("randombytes.c", none), ("merkle.c", none), ("wots.c", none), ("utils.c", none), ("utilsx4.c", none),
    ("fors.c", none), ("sign.c", none), ("fips202.c", none), ("fips202x4.c", none),
    ("keccak4x/KeccakP-1600-times4-SIMD256.o", none)]

/-- `$(w:randombytes.%=rng.%)`, as in `DET_SOURCES`, ref/Makefile:23 -/
def det (w : Bytes) : Bytes :=
  if (asc "randombytes.").isPrefixOf w then asc "rng." ++ w.drop (asc "randombytes.").length else w

/-- `SOURCES` of the Makefile in directory `impl`, if there is one -/
def sources (impl params thash : Bytes) : Option (List Bytes) :=
  if impl = asc "ref" then some (sourcesRef params thash)
  else if impl = asc "haraka-aesni" then some (sourcesHarakaAesni thash)
  else if impl = asc "sha2-avx2" then some (sourcesSha2Avx2 thash)
  else if impl = asc "shake-a64" then some (sourcesShakeA64 thash)
  else if impl = asc "shake-avx2" then some (sourcesShakeAvx2 thash)
  else none

/-- `make -C impl PQCgenKAT_sign PARAMS=params THASH=thash` after `make clean`, ref/Makefile:45-46 -/
def makeKat (W : World) (impl params thash : Bytes) : Option Prog := do
  let l ← sources impl params thash
  W.cc impl params (l.map det)

/-! ## vectors.py -/

/-- vectors.py:20-23 -/
def fns : List Bytes := [asc "shake", asc "sha2", asc "haraka"]
def options : List Bytes := [asc "f", asc "s"]
def sizes : List Nat := [128, 192, 256]
def thashes : List Bytes := [asc "robust", asc "simple"]

/-- `itertools.product(options, sizes, thashes)` -/
def product : List (Bytes × Nat × Bytes) :=
  options.flatMap fun o => sizes.flatMap fun s => thashes.map fun t => (o, s, t)

/-- `f"{n}"` -/
def str (n : Nat) : Bytes := asc (toString n)

/-- vectors.py:25-26 -/
def nameFor (fn opt : Bytes) (size : Nat) (thash : Bytes) : Bytes :=
  asc "sphincs-" ++ fn ++ asc "-" ++ str size ++ opt ++ asc "-" ++ thash

/-- The programs in `bindir` -/
abbrev Bin := Bytes → Option Prog

/-- vectors.py:28-45 -/
def make (W : World) (fn opt : Bytes) (size : Nat) (thash : Bytes) (bindir : Bin) (impl : Bytes) :
    Option ((Bytes × Nat) × Bin) := do
  let name := nameFor fn opt size thash
  let prog ← makeKat W impl (asc "sphincs-" ++ fn ++ asc "-" ++ str size ++ opt) thash
  some ((name, size), fun f => if f = name then some prog else bindir f)

/-- `hexdigest` -/
def hexdigest (b : Bytes) : Bytes :=
  let digit (d : Nat) : Byte := if d < 10 then BitVec.ofNat 8 (48 + d) else BitVec.ofNat 8 (97 + (d - 10))
  b.flatMap fun x => [digit (x.toNat / 16), digit (x.toNat % 16)]

/-- vectors.py:47-60 -/
def run (W : World) (name_size : Bytes × Nat) (bindir : Bin) : Option Bytes := do
  let (name, size) := name_size
  let prog ← bindir name
  let fs ← prog fun _ => none
  let f ← fs (asc "PQCsignKAT_" ++ str (size / 2) ++ asc ".rsp")
  some (hexdigest (W.sha256 f) ++ asc " " ++ name)

/-- `'\n'.join(res)` -/
def joinLines : List Bytes → Bytes
  | [] => []
  | [a] => a
  | a :: l => a ++ asc "\n" ++ joinLines l

/-- vectors.py:62-72: what is written to standard output -/
def generate_sums (W : World) : Option Bytes := do
  let (name_sizes, bindir) ← (fns.flatMap fun fn => product.map fun c => (fn, c)).foldlM
    (fun (st : List (Bytes × Nat) × Bin) (c : Bytes × Bytes × Nat × Bytes) => do
      let (x, bindir) ← make W c.1 c.2.1 c.2.2.1 c.2.2.2 st.2 (asc "ref")
      some (st.1 ++ [x], bindir)) ([], fun _ => none)
  let res ← name_sizes.mapM fun x => run W x bindir
  let res := res.mergeSort fun a b => decide (a ≤ b)
  some (joinLines res ++ asc "\n")

/-- vectors.py:74-94: the exit status; `sums` is the content of SHA256SUMS. -/
def check_sum (W : World) (sums name impl : Bytes) : Option Nat := do
  let st ← fns.foldlM (fun (st : Option Bytes × Bin) fn =>
    match product.find? fun c => nameFor fn c.1 c.2.1 c.2.2 == name with
    | none => some st
    | some c => do
      let (name_size, bindir) ← make W fn c.1 c.2.1 c.2.2 st.2 impl
      let line ← run W name_size bindir
      some (some line, bindir)) (none, fun _ => none)
  match st.1 with
  | none => some 1
  | some line => if findstring (line ++ asc "\n") sums then some 0 else some 2

/-- SHA256SUMS: the two words of each line, between which there is a blank. -/
def SHA256SUMS : List (String × String) := [
  ("9e1b3168520c917b6de676caa7a5799ec972e55caa150090e8452c80c299545e",
    "sphincs-haraka-128f-robust"),
  ("c6a28dcf0667bd91c7bb46814ac7408c0375727fe5fec7d41332149006d3f9d7",
    "sphincs-haraka-128f-simple"),
  ("f93f4a554322080545a70f85ce936a12acc2fe928a243e3d13546ffe87872a9e",
    "sphincs-haraka-128s-robust"),
  ("3c9b181d3d96c066039b77e9accd926745fe1ecb010039d3579140b877da6f33",
    "sphincs-haraka-128s-simple"),
  ("8876bfae8924983db27acfeaee6252d37cea86f05fcc4b16ea2c902d717e6a6e",
    "sphincs-haraka-192f-robust"),
  ("df26bd02796f5ad9d6ff412793960e79ec911cbf4521656814895e6ef5a1db83",
    "sphincs-haraka-192f-simple"),
  ("6cfde6cb5f9ce93eb3f7b0845e1149f661f92000f54e9d340c0bff504920ec7e",
    "sphincs-haraka-192s-robust"),
  ("64037177e1524f2b2d3ea4a79fdaf9352eb39a3aa6e68bc9d3316b7c2b835820",
    "sphincs-haraka-192s-simple"),
  ("a838509fa6ec49ade2638efc35d9e29fdb56bd9b843d5e1f48210a2cab218332",
    "sphincs-haraka-256f-robust"),
  ("e1e3258be6b4467bcea81392363f657a58278a5b99fe240f29e388b0fe72f5da",
    "sphincs-haraka-256f-simple"),
  ("b5c5cc535f03789c25c018c009615ac62ba5b64188e4db5e3ede5513e3704dcc",
    "sphincs-haraka-256s-robust"),
  ("9428a566a2c2ee03665fc0eb2dbf208deb1b28716dc8c2d5e7c036a9f83d31da",
    "sphincs-haraka-256s-simple"),
  ("b6c82007bbce794f9fd67de708cd4d959319c744b918ddb28795fd491b713aa9",
    "sphincs-sha2-128f-robust"),
  ("708f6ab77f8026361e975f7be7b9b5d1cd8aca56e4a3604c85ef3f9fe6618549",
    "sphincs-sha2-128f-simple"),
  ("f4c2f31082fc8ad15419edc4f24c34a83d909f75eb37ea5ffe53df0fb5ef5306",
    "sphincs-sha2-128s-robust"),
  ("65942fac8e225fde77dd277d297e68c94c2e25a2a4089f88be4b56fa92b18a84",
    "sphincs-sha2-128s-simple"),
  ("b8e617db2099e617dfc372ff732eead88872aea791e2fe82628568d75dd03c78",
    "sphincs-sha2-192f-robust"),
  ("84b1a342683bcad658efb6c65f7367c6b30623e74e3a24c2238d19eaf74722ab",
    "sphincs-sha2-192f-simple"),
  ("50c4b94dc788446077b48af1d8fa0170dc2114b4cb72a19f1d8c7628f9dadfd6",
    "sphincs-sha2-192s-robust"),
  ("13efa67b9297afa051b9b30e2686266350c8b4000caa49aa432516e2a86d0b68",
    "sphincs-sha2-192s-simple"),
  ("dc3330f8f19c816f45ee9a1127bf2b8a8c900e05df9a964bb760f0adf8f9b1b3",
    "sphincs-sha2-256f-robust"),
  ("46e286dc1a20012789c1bf4793a8eb2043dd0c11df729fa36d9f96b0aeffdac6",
    "sphincs-sha2-256f-simple"),
  ("1f42b407e1e351861ba23e520b1974f399e349fcb66c614d727a38fb4e646634",
    "sphincs-sha2-256s-robust"),
  ("c816ca365a667e4d6564a95ac576bc9d7be0de7e66eff93e6f05dd4f134a183f",
    "sphincs-sha2-256s-simple"),
  ("4be71430814589ce7c861030c7cdce0aa73f75885b693b41fdb7c34d8f32fa79",
    "sphincs-shake-128f-robust"),
  ("5167df2ce46f33b76ccf0688f7769217d91878bd7d9b431080a3032eba51da10",
    "sphincs-shake-128f-simple"),
  ("fbe6c99d6ccc42fc9af5babbac532f28288d4164b182515dffeb1cd47f351d12",
    "sphincs-shake-128s-robust"),
  ("e7d5caee1941be99b6dfe46a95fc4535a34792f429e61d1cdc7fd3bbafe9ff02",
    "sphincs-shake-128s-simple"),
  ("243d0e25de08fea547b0beae5f778a48bd55e56066435f9cdb9afc60a722699e",
    "sphincs-shake-192f-robust"),
  ("f204fd1cd5dce187441d104ae7159b64322b6a4afae708d48dc9966fe418ec4e",
    "sphincs-shake-192f-simple"),
  ("cb13eaa2b1c074f53c87f1025e6bb1b356ad8de3bea9388b90a058a6460766bb",
    "sphincs-shake-192s-robust"),
  ("4cc01c4a562d738ac54f5abfead35ecc4f46a1e2531fa12b4bc2819f4560c351",
    "sphincs-shake-192s-simple"),
  ("5a736aeba47f8d84e3ca47126715affcb4ce6cef13e3c9f6af220827973aa383",
    "sphincs-shake-256f-robust"),
  ("127f7ab83c740344546fe30777b221e8cb39f30fc4242d07d7608dc31a9835d4",
    "sphincs-shake-256f-simple"),
  ("4d2ca7d10f2206c3cb9a26c6b00a0361601a1fe2dddf102fbfd6d3dac0be10fe",
    "sphincs-shake-256s-robust"),
  ("4ce4552e2e9b009a9016eb6dbcbefae3da2de151d61e2f392d4b9517eaeab91d",
    "sphincs-shake-256s-simple")]

end Spx.Vectors
