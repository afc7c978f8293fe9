import Verif.Model.Tests
import Verif.Model.KeccakX
/-! # Model of the benchmark programs ref/test/benchmark.c, shake-avx2/test/benchmark.c,
haraka-aesni/test/benchmark.c, sha2-avx2/test/benchmark.c and shake-a64/test/benchmark.c

Line numbers without a directory refer to ref/test/benchmark.c.

Simplifications:
* `cpucycles()` (ref/test/cycles.c:102-109, a single instruction; the Apple variant is not modelled), the clock and
  `randombytes` deliver given values.
* What `printf` makes of a `double` is given text (`dbl`); everything else that is printed is modelled.
* The calls of `malloc` are assumed to succeed.
* Reading uninitialised arrays of `unsigned char` (the context, `block`, `fors_m`) gives arbitrary bytes; the alignment
  of `addr`, which is cast to `uint32_t *`, is not modelled. -/

namespace Spx.Bench
open Kat

/-- NTESTS, line 16 -/
def NTESTS : Nat := 10

/-- The result of a computation in `int`. -/
def int (x : Int) : C Int := if -2 ^ 31 ≤ x ∧ x < 2 ^ 31 then .ok x else .error .overflow

/-- `cmp_llu`, lines 21-26 -/
def cmp_llu (a b : Nat) : Int := if a < b then -1 else if a > b then 1 else 0

/-- `median`, lines 28-34.  `qsort` is the function of the C library.  Returns the median and the array. -/
def median (qsort : (Nat → Nat → Int) → List Nat → List Nat) (l : List Nat) (llen : Nat) : C (Nat × List Nat) := do
  let l ← wr l 0 (qsort cmp_llu (← rd l 0 llen))
  if llen % 2 ≠ 0 then .ok (← rd1 l (llen / 2), l)
  else
    let x ← rd1 l ((llen / 2 + 2 ^ 64 - 1) % 2 ^ 64)
    let y ← rd1 l (llen / 2)
    .ok ((x + y) % 2 ^ 64 / 2, l)

/-- `delta`, lines 36-42.  (The counter is an `unsigned int`, the program passes `llen = 11`.) -/
def delta (l : List Nat) (llen : Nat) : C (List Nat) :=
  forRange ((llen + 2 ^ 64 - 1) % 2 ^ 64) (fun i l => do
    wr1 l i (((← rd1 l (i + 1)) + 2 ^ 64 - (← rd1 l i)) % 2 ^ 64)) l

/-- What `"%03llu"` prints. -/
def pct_03u (n : Nat) : Bytes := List.replicate (3 - (pct_u n).length) 48#8 ++ pct_u n

/-- `printfcomma`, lines 45-53: the characters printed. -/
def printfcomma (n : Nat) : Bytes :=
  if n < 1000 then pct_u n
  else printfcomma (n / 1000) ++ asc "," ++ pct_03u (n % 1000)

/-- One iteration of the `while` loop of `printfalignedcomma`, lines 60-64.  State: ncopy, len, i. -/
def align_while (s : Nat × Int × Int) : C ((Nat × Int × Int) ⊕ (Int × Int)) := do
  let (ncopy, len, i) := s
  if ncopy > 9 then .ok (.inl (ncopy / 10, ← int (len - 1), ← int (i + 1)))
  else .ok (.inr (len, i))

/-- One iteration of `for (; i < len; i++) printf(" ")`, lines 66-68.  State: i, the characters printed. -/
def align_for (len : Int) (s : Int × Bytes) : C ((Int × Bytes) ⊕ Bytes) := do
  let (i, out) := s
  if i < len then .ok (.inl (← int (i + 1), out ++ asc " "))
  else .ok (.inr out)

/-- `printfalignedcomma`, lines 55-70: the characters printed. -/
def printfalignedcomma (n : Nat) (len : Int) : C Bytes := do
  let (len, i) ← loop 64 align_while (n, len, 0)
  let i ← int (i.tdiv 3 - 1)
  let out ← loop (2 ^ 32) (align_for len) (i, [])
  .ok (out ++ printfcomma n)

/-- `display_result`, lines 72-84; `avg` is what line 79 prints.  Returns the array and the characters printed. -/
def display_result (qsort : (Nat → Nat → Int) → List Nat → List Nat) (avg : Bytes) (l : List Nat) (llen mul : Nat) :
    C (List Nat × Bytes) := do
  let l ← delta l (NTESTS + 1)
  let (med, l) ← median qsort l llen
  let out := avg ++ (← printfalignedcomma med 12)
  let out := out ++ asc " cycles,  " ++ List.replicate (5 - (pct_u mul).length) 32#8 ++ pct_u mul ++ asc "x: "
  let out := out ++ (← printfalignedcomma (mul * med % 2 ^ 64) 12) ++ asc " cycles\n"
  .ok (l, out)

/-- What the outside delivers to one measurement: the values of `cpucycles()` and the text of line 79. -/
structure Clock where
  cycles : Nat → Nat
  avg : Bytes

/-- The measurement loop of `MEASURE_GENERIC`, lines 89-93: `t`, and the state `s` the calls work on. -/
def samples {σ : Type} (corr : Nat) (clk : Clock) (call : Nat → σ → C σ) (t : List Nat) (s : σ) : C (List Nat × σ) := do
  let (t, s) ← forRange NTESTS (fun i (ts : List Nat × σ) => do
    let t ← wr1 ts.1 i (clk.cycles i / corr)
    .ok (t, ← call i ts.2)) (t, s)
  .ok (← wr1 t NTESTS (clk.cycles NTESTS), s)

/-- `MEASURE_GENERIC(TEXT, MUL, FNCALL, CORR)`, lines 86-97.  The first part of the state is `t` and what has been
printed. -/
def measure {σ : Type} (qsort : (Nat → Nat → Int) → List Nat → List Nat) (text : String) (mul corr : Nat) (clk : Clock)
    (call : Nat → σ → C σ) (s : (List Nat × Bytes) × σ) : C ((List Nat × Bytes) × σ) := do
  let (t, s') ← samples corr clk call s.1.1 s.2
  let (t, out) ← display_result qsort clk.avg t NTESTS mul
  .ok ((t, s.1.2 ++ asc text ++ out), s')

/-- The call measured by `MEASURT`, lines 98-106: `FNCALL` 1000 times. -/
def thousand {σ : Type} (call : σ → C σ) (_ : Nat) (s : σ) : C σ := forRange 1000 (fun _ s => call s) s

/-- What the variants of the program differ in from the key generation on: the texts and factors of the two WOTS
measurements. -/
structure Variant where
  text1 : String
  text2 : String
  mul1 : Params → Nat
  mul2 : Params → Nat

/-- lines 149 and 152 -/
def refVariant : Variant where
  text1 := "  - WOTS pk gen..    "
  text2 := "  - WOTS pk gen..    "
  mul1 P := 2 ^ P.treeHeight
  mul2 P := P.d * 2 ^ P.treeHeight

/-- shake-avx2/test/benchmark.c:139, 142 -/
def shakeAvx2Variant : Variant where
  text1 := "  - WOTS pk gen 4x.. "
  text2 := "  - WOTS pk gen x4.. "
  mul1 P := 2 ^ P.treeHeight / 4
  mul2 P := P.d * 2 ^ P.treeHeight / 4

/-- haraka-aesni/test/benchmark.c:139, 142 -/
def harakaAesniVariant : Variant where
  text1 := "  - WOTS pk gen..    "
  text2 := "  - WOTS pk gen..    "
  mul1 P := 2 ^ P.treeHeight
  mul2 P := P.d * 2 ^ P.treeHeight

/-- sha2-avx2/test/benchmark.c:139, 142 -/
def sha2Avx2Variant : Variant where
  text1 := "  - WOTS pk gen 8x.. "
  text2 := "  - WOTS pk gen x8.. "
  mul1 P := 2 ^ P.treeHeight / 8
  mul2 P := P.d * 2 ^ P.treeHeight / 8

/-- shake-a64/test/benchmark.c:153, 156 -/
def shakeA64Variant : Variant where
  text1 := "  - WOTS pk gen 2x.. "
  text2 := "  - WOTS pk gen x2.. "
  mul1 P := 2 ^ P.treeHeight / 2
  mul2 P := P.d * 2 ^ P.treeHeight / 2

/-- What the library functions work on: the memory with `pk`, `sk`, `m`, `sm`, `mout`, and the arrays and variables
`block`, `statex2` (shake-a64 only), `wots_pk`, `fors_sig`, `fors_pk`, `smlen`, `mlen`. -/
structure St where
  M : Mem
  block : Bytes
  statex2 : List (BitVec 64)
  wots_pk : Bytes
  fors_sig : Bytes
  fors_pk : Bytes
  smlen : Nat
  mlen : Nat

/-- What the outside delivers to the program. -/
structure World where
  /-- the two calls of `randombytes` in `main` -/
  m : Bytes
  addr : Bytes
  /-- `randombytes` in call `i` of `crypto_sign_keypair` and of `crypto_sign` -/
  seed : Nat → Bytes
  optrand : Nat → Bytes
  /-- the clock for measurement number `k` -/
  clk : Nat → Clock
  /-- the text of a size in KiB -/
  kib : Nat → Bytes

/-- The library functions of call `i`; the contents of uninitialised memory may differ from call to call. -/
structure Calls where
  lib : Nat → Kat.Lib
  fors_sign : Nat → Bytes → Bytes → Ctx → Addr → C (Bytes × Bytes)
  /-- `wots_gen_pkx1`, `wots_gen_pkx2`, `wots_gen_pkx4`, `wots_gen_pkx8` -/
  wots_gen_pk : Nat → Bytes → Ctx → Addr → C Bytes

/-- `wots_gen_pkx1`, lines 166-172.  `wots_gen_leafx1` is the function called; `info.wots_sig` is a null pointer, so there
is nothing behind it. -/
def wots_gen_pkx1 (E : Env) (pk : Bytes) (ctx : Ctx) (addr : Addr) : C Bytes := do
  let a ← rd addr 0 32
  let (d, _) ← wots_gen_leafx1 E ctx 0
    { wots_sig := [], wots_sign_leaf := 2 ^ 32 - 1, wots_steps := List.replicate E.P.wotsLen 0, leaf_addr := a, pk_addr := a }
  wr pk 0 d

/-- `wots_gen_pkx4`, shake-avx2/test/benchmark.c:156-161, haraka-aesni/test/benchmark.c:156-162;
`wots_gen_pkx8`, sha2-avx2/test/benchmark.c:156-162; `wots_gen_pkx2`, shake-a64/test/benchmark.c:170-175. -/
def wots_gen_pkx (E : EnvX) (pk : Bytes) (ctx : Ctx) (addr : Addr) : C Bytes := do
  let as ← tabulate E.L fun _ => rd addr 0 32
  let (pk, _) ← wots_gen_leafx E ctx pk 0
    { wots_sig := [], wots_sign_leaf := 2 ^ 32 - 1, wots_steps := List.replicate E.P.wotsLen 0, leaf_addr := as, pk_addr := as }
  .ok pk

/-- The measured calls of the library, lines 148-153; the argument `i` is the number of the call. -/
def call_keypair (P : Params) (F : Calls) (lay : Tests.Lay) (W : World) (i : Nat) (s : St) : C St := do
  let (pk, sk, _) ← (F.lib i).keypair (← s.M.rd lay.pk P.pkBytes) (← s.M.rd lay.sk P.skBytes) (W.seed i)
  let M ← s.M.wr lay.pk pk
  .ok { s with M := ← M.wr lay.sk sk }

@[inherit_doc call_keypair]
def call_wots (F : Calls) (ctx : Ctx) (addr : Addr) (i : Nat) (s : St) : C St := do
  .ok { s with wots_pk := ← F.wots_gen_pk i s.wots_pk ctx addr }

@[inherit_doc call_keypair]
def call_sign (F : Calls) (lay : Tests.Lay) (W : World) (i : Nat) (s : St) : C St := do
  let (M, smlen, _) ← (F.lib (20 + i)).sign s.M lay.sm lay.m Tests.SPX_MLEN lay.sk (W.optrand i)
  .ok { s with M, smlen }

@[inherit_doc call_keypair]
def call_fors (F : Calls) (fors_m : Bytes) (ctx : Ctx) (addr : Addr) (i : Nat) (s : St) : C St := do
  let (fors_sig, pk) ← F.fors_sign i s.fors_sig fors_m ctx addr
  .ok { s with fors_sig, fors_pk := ← wr s.fors_pk 0 pk }

@[inherit_doc call_keypair]
def call_open (F : Calls) (lay : Tests.Lay) (i : Nat) (s : St) : C St := do
  let (M, mlen, _) ← (F.lib (50 + i)).open' s.M lay.mout lay.sm s.smlen lay.pk
  .ok { s with M, mlen }

/-- lines 148-153 -/
def measurements (qsort : (Nat → Nat → Int) → List Nat → List Nat) (P : Params) (V : Variant) (F : Calls) (lay : Tests.Lay)
    (W : World) (ctx : Ctx) (fors_m : Bytes) (addr : Addr) (s : (List Nat × Bytes) × St) : C ((List Nat × Bytes) × St) := do
  let s ← measure qsort "Generating keypair.. " 1 1 (W.clk 0) (call_keypair P F lay W) s
  let s ← measure qsort V.text1 (V.mul1 P) 1 (W.clk 1) (call_wots F ctx addr) s
  let s ← measure qsort "Signing..            " 1 1 (W.clk 2) (call_sign F lay W) s
  let s ← measure qsort "  - FORS signing..   " 1 1 (W.clk 3) (call_fors F fors_m ctx addr) s
  let s ← measure qsort V.text2 (V.mul2 P) 1 (W.clk 4) (fun i => call_wots F ctx addr (40 + i)) s
  measure qsort "Verifying..          " 1 1 (W.clk 5) (call_open F lay) s

/-- lines 141-145 -/
def header (P : Params) : Bytes :=
  asc "Parameters: n = " ++ pct_d P.n ++ asc ", h = " ++ pct_d P.fullHeight ++ asc ", d = " ++ pct_d P.d ++
    asc ", b = " ++ pct_d P.forsHeight ++ asc ", k = " ++ pct_d P.forsTrees ++ asc ", w = " ++ pct_d P.w ++ asc "\n" ++
    asc "Running " ++ pct_d NTESTS ++ asc " iterations.\n"

/-- lines 155-157 -/
def footer (P : Params) (W : World) : Bytes :=
  asc "Signature size: " ++ pct_d P.spxBytes ++ asc " (" ++ W.kib P.spxBytes ++ asc " KiB)\n" ++
    asc "Public key size: " ++ pct_d P.pkBytes ++ asc " (" ++ W.kib P.pkBytes ++ asc " KiB)\n" ++
    asc "Secret key size: " ++ pct_d P.skBytes ++ asc " (" ++ W.kib P.skBytes ++ asc " KiB)\n"

/-- `main`, with `first` the measurements before that of the key generation, `naddr` the number of addresses in `addr` and
`g` the contents of `addr`, `fors_m` and `t` before they are written: lines 109-164 and
shake-avx2/test/benchmark.c:104-154.  Returns the final state, what has been printed and the return value. -/
def main (qsort : (Nat → Nat → Int) → List Nat → List Nat) (P : Params) (V : Variant) (F : Calls) (lay : Tests.Lay)
    (g : Nat → Nat → Byte) (W : World) (ctx : Ctx) (naddr : Nat)
    (first : Bytes → (List Nat × Bytes) × St → C ((List Nat × Bytes) × St)) (s : St) : C (St × Bytes × Int) := do
  let s := { s with M := ← s.M.wr lay.m W.m }
  let addr ← wr (uninit (g 0) (32 * naddr)) 0 W.addr
  let fors_m := uninit (g 1) P.forsMsgBytes
  let s ← first addr ((uninit (fun i => (g 2 i).toNat) (NTESTS + 1), header P), s)
  let s ← measurements qsort P V F lay W ctx fors_m (← rd addr 0 32) s
  .ok (s.2, s.1.2 ++ footer P W, 0)

/-- line 147: `thash(block, block, 1, &ctx, addr)` -/
def call_thash (H : HashImpl) (ctx : Ctx) (addr : Bytes) (s : St) : C St := do
  .ok { s with block := ← wr s.block 0 (← H.thash s.block 1 ctx (← rd addr 0 32)) }

/-- shake-a64/test/benchmark.c:150: `f1600x2(statex2)` -/
def call_f1600x2 (s : St) : C St := do .ok { s with statex2 := ← f1600x2 s.statex2 }

/-- shake-a64/test/benchmark.c:151: `thashx2(block, block, block, block, 1, &ctx, addr)`; both outputs go to `block`
(C53 has the order of reads and writes). -/
def call_thashx2 (X : LaneHash) (ctx : Ctx) (addr : Bytes) (s : St) : C St := do
  let outs ← X.thashx [s.block, s.block] 1 ctx (← Tests.addrs 2 addr)
  .ok { s with block := ← wrLanes 2 s.block 0 0 outs }

/-- line 147 -/
def refFirst (qsort : (Nat → Nat → Int) → List Nat → List Nat) (H : HashImpl) (W : World) (ctx : Ctx) (addr : Bytes)
    (s : (List Nat × Bytes) × St) : C ((List Nat × Bytes) × St) :=
  measure qsort "thash                " 1 1000 (W.clk 6) (thousand (call_thash H ctx addr)) s

/-- shake-a64/test/benchmark.c:149-151 -/
def a64First (qsort : (Nat → Nat → Int) → List Nat → List Nat) (H : HashImpl) (X : LaneHash) (W : World) (ctx : Ctx)
    (addr : Bytes) (s : (List Nat × Bytes) × St) : C ((List Nat × Bytes) × St) := do
  let s ← measure qsort "thash                " 1 1000 (W.clk 6) (thousand (call_thash H ctx addr)) s
  let s ← measure qsort "f1600x2              " 1 1000 (W.clk 7) (thousand call_f1600x2) s
  measure qsort "thashx2              " 1 1000 (W.clk 8) (thousand (call_thashx2 X ctx addr)) s

/-- shake-avx2, haraka-aesni, sha2-avx2: no measurement before that of the key generation -/
def noFirst (_ : Bytes) (s : (List Nat × Bytes) × St) : C ((List Nat × Bytes) × St) := .ok s

end Spx.Bench
