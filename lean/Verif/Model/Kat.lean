import Verif.Model.Api
import Verif.Model.Rng
/-! # Model of ref/PQCgenKAT_sign.c

The program writes a request file with 100 seeds and messages, reads it back, and writes a response file
with the key pairs and signed messages.

Simplifications: characters are ASCII bytes; a file system is a map from names to contents, a file opened
for writing is written through at once, a file opened for reading is the list of its unread bytes, and only
`fopen` can fail; `calloc` succeeds; the error messages on standard output are not modelled.  The
conversions of `printf` and `scanf` follow the C standard. -/

namespace Spx.Kat
open Rng

/-! ## The C library -/

/-- The bytes of a string constant, without the terminating NUL. -/
def asc (s : String) : Bytes := s.toList.map fun c => BitVec.ofNat 8 c.toNat

/-- `fgetc`: the character or `none` for `EOF`, and the unread rest. -/
def fgetc : Bytes → Option Byte × Bytes
  | [] => (none, [])
  | c :: s => (some c, s)

/-- `!strncmp(a, b, k)`, from index `i` on. -/
def strncmp_eq (a b : Bytes) : Nat → Nat → C Bool
  | 0, _ => .ok true
  | k + 1, i => do
    let x ← rd1 a i
    let y ← rd1 b i
    if x ≠ y then .ok false else if x = 0#8 then .ok true else strncmp_eq a b k (i + 1)

/-- `isxdigit` -/
def isxdigit (c : Byte) : Bool :=
  (48 ≤ c.toNat ∧ c.toNat ≤ 57) ∨ (65 ≤ c.toNat ∧ c.toNat ≤ 70) ∨ (97 ≤ c.toNat ∧ c.toNat ≤ 102)

/-- A decimal digit. -/
def isdigit (c : Byte) : Bool := 48 ≤ c.toNat ∧ c.toNat ≤ 57

/-- `isspace` in the C locale. -/
def isspace (c : Byte) : Bool := c.toNat = 32 ∨ (9 ≤ c.toNat ∧ c.toNat ≤ 13)

/-- What `"%llu"`, and `"%d"` for a non-negative argument, print. -/
def pct_u (n : Nat) : Bytes := if n < 10 then [BitVec.ofNat 8 (48 + n)] else pct_u (n / 10) ++ [BitVec.ofNat 8 (48 + n % 10)]

/-- What `"%d"` prints. -/
def pct_d (n : Int) : Bytes := if n < 0 then 45#8 :: pct_u (-n).toNat else pct_u n.toNat

/-- One digit of `"%X"`. -/
def pct_X1 (d : Nat) : Byte := if d < 10 then BitVec.ofNat 8 (48 + d) else BitVec.ofNat 8 (65 + (d - 10))

/-- What `"%02X"` prints for an `unsigned char`. -/
def pct_02X (b : Byte) : Bytes := [pct_X1 (b.toNat / 16), pct_X1 (b.toNat % 16)]

/-- The value of decimal digits. -/
def digits_val (ds : Bytes) : Nat := ds.foldl (fun v c => 10 * v + (c.toNat - 48)) 0

/-- An optional sign. -/
def scan_sign : Bytes → Bool × Bytes
  | [] => (false, [])
  | c :: s => if c = 45#8 then (true, s) else if c = 43#8 then (false, s) else (false, c :: s)

/-- A number as `scanf` reads it: white space, an optional sign, digits; the first other character stays
unread.  The sign and the value if there is at least one digit, and the unread rest. -/
def scan_number (s : Bytes) : Option (Bool × Nat) × Bytes :=
  let (neg, s) := scan_sign (s.dropWhile isspace)
  if s.takeWhile isdigit = [] then (none, s)
  else (some (neg, digits_val (s.takeWhile isdigit)), s.dropWhile isdigit)

/-- `fscanf(infile, "%d", &v)`: a number that does not fit is undefined behaviour; without a number `v`
keeps its value. -/
def fscanf_d (infile : Bytes) (v : Int) : C (Int × Bytes) :=
  match scan_number infile with
  | (none, s) => .ok (v, s)
  | (some (neg, x), s) =>
    let y : Int := if neg then -x else x
    if -2 ^ 31 ≤ y ∧ y < 2 ^ 31 then .ok (y, s) else .error .overflow

/-- `fscanf(infile, "%llu", &v)` -/
def fscanf_llu (infile : Bytes) (v : Nat) : C (Nat × Bytes) :=
  match scan_number infile with
  | (none, s) => .ok (v, s)
  | (some (neg, x), s) =>
    if x < 2 ^ 64 then .ok (if neg then (2 ^ 64 - x) % 2 ^ 64 else x, s) else .error .overflow

/-- The files, by name. -/
abbrev FS := Bytes → Option Bytes

/-- `fopen(name, "w")` -/
def FS.create (fs : FS) (name : Bytes) : FS := fun f => if f = name then some [] else fs f

/-- `fprintf` of the text `s` to a file opened for writing. -/
def FS.put (fs : FS) (name s : Bytes) : FS := fun f => if f = name then some ((fs name).getD [] ++ s) else fs f

/-- `calloc(n, 1)` returning `p`. -/
def calloc (M : Mem) (p n : Nat) : Mem := ⟨fun a => if p ≤ a ∧ a < p + n then some 0#8 else M a⟩

/-- `free(p)` of an object of `n` bytes. -/
def free (M : Mem) (p n : Nat) : Mem := ⟨fun a => if p ≤ a ∧ a < p + n then none else M a⟩

/-! ## Reading and writing fields -/

/-- `MAX_MARKER_LEN`, ref/PQCgenKAT_sign.c:14 -/
def MAX_MARKER_LEN : Nat := 50

def KAT_SUCCESS : Int := 0
def KAT_FILE_OPEN_ERROR : Int := -1
def KAT_DATA_ERROR : Int := -3
def KAT_CRYPTO_FAILURE : Int := -4

/-- One turn of the loop at ref/PQCgenKAT_sign.c:174-180.  `inr none` is `return 0`. -/
def fill_body (len : Nat) (st : Nat × Bytes × Bytes) : C ((Nat × Bytes × Bytes) ⊕ Option (Bytes × Bytes)) := do
  let (i, line, infile) := st
  if i < len then
    match fgetc infile with
    | (none, _) => do
      let _ ← wr1 line i 0xff#8
      .ok (.inr none)
    | (some c, infile) => do .ok (.inl (i + 1, ← wr1 line i c, infile))
  else .ok (.inr (some (line, infile)))

/-- One turn of the loop at ref/PQCgenKAT_sign.c:183-195: the sliding window.  `len - 1` is computed in
`size_t`. -/
def slide_body (marker : Bytes) (len : Nat) (st : Bytes × Bytes) : C ((Bytes × Bytes) ⊕ (Int × Bytes)) := do
  let (line, infile) := st
  if ← strncmp_eq line (marker ++ [0#8]) len 0 then .ok (.inr (1, infile))
  else
    let len1 := (len + 2 ^ 64 - 1) % 2 ^ 64
    let line ← forRange len1 (fun i line => do wr1 line i (← rd1 line (i + 1))) line
    match fgetc infile with
    | (none, infile) => do
      let _ ← wr1 line len1 0xff#8
      .ok (.inr (0, infile))
    | (some c, infile) => do
      let line ← wr1 line len1 c
      let line ← wr1 line len 0#8
      .ok (.inl (line, infile))

/-- `FindMarker`, ref/PQCgenKAT_sign.c:163-198.  `marker` is the string without its NUL.  Returns the
result and the unread rest of the file. -/
def FindMarker (g : Nat → Byte) (infile marker : Bytes) : C (Int × Bytes) := do
  let line := uninit g MAX_MARKER_LEN
  let len := marker.length
  let len := if len > MAX_MARKER_LEN - 1 then MAX_MARKER_LEN - 1 else len
  match ← loop (len + 1) (fill_body len) (0, line, infile) with
  | none => .ok (0, [])
  | some (line, infile) => do
    let line ← wr1 line len 0#8
    loop (infile.length + 1) (slide_body marker len) (line, infile)

/-- The value of a hexadecimal digit, ref/PQCgenKAT_sign.c:228-235 -/
def hex_ich (ch : Byte) : Byte :=
  if 48 ≤ ch.toNat ∧ ch.toNat ≤ 57 then BitVec.ofNat 8 (ch.toNat - 48)
  else if 65 ≤ ch.toNat ∧ ch.toNat ≤ 70 then BitVec.ofNat 8 (ch.toNat - 65 + 10)
  else if 97 ≤ ch.toNat ∧ ch.toNat ≤ 102 then BitVec.ofNat 8 (ch.toNat - 97 + 10)
  else 0#8

/-- One turn of the loop at ref/PQCgenKAT_sign.c:216-240.  State: `infile`, `A`, `started`. -/
def hex_body (Length : Nat) (st : Bytes × Bytes × Bool) : C ((Bytes × Bytes × Bool) ⊕ (Bytes × Bytes)) := do
  let (infile, A, started) := st
  match fgetc infile with
  | (none, infile) => .ok (.inr (A, infile))
  | (some ch, infile) =>
    if isxdigit ch = false then
      if started = false then
        if ch = 10#8 then .ok (.inr (A, infile)) else .ok (.inl (infile, A, started))
      else .ok (.inr (A, infile))
    else
      let ich := hex_ich ch
      let A ← forRange (Length - 1) (fun i (A : Bytes) => do
        wr1 A i (((← rd1 A i) <<< 4) ||| ((← rd1 A (i + 1)) >>> 4))) A
      let A ← wr1 A (Length - 1) (((← rd1 A (Length - 1)) <<< 4) ||| ich)
      .ok (.inl (infile, A, true))

/-- `ReadHex`, ref/PQCgenKAT_sign.c:203-245.  Returns the result, `A` and the unread rest of the file. -/
def ReadHex (g : Nat → Byte) (infile A : Bytes) (Length : Int) (str : Bytes) : C (Int × Bytes × Bytes) := do
  if Length = 0 then
    let A ← wr1 A 0 0x00#8
    .ok (1, A, infile)
  else
    let A ← wr A 0 (List.replicate (Length % 2 ^ 64).toNat 0x00#8)
    let (r, infile) ← FindMarker g infile str
    if r ≠ 0 then
      let (A, infile) ← loop (infile.length + 1) (hex_body Length.toNat) (infile, A, false)
      .ok (1, A, infile)
    else .ok (0, A, infile)

/-- `fprintBstr`, ref/PQCgenKAT_sign.c:247-261 -/
def fprintBstr (fs : FS) (fp S A : Bytes) (L : Nat) : C FS := do
  let fs := fs.put fp S
  let fs ← forRange L (fun i fs => do .ok (fs.put fp (pct_02X (← rd1 A i)))) fs
  let fs := if L = 0 then fs.put fp (asc "00") else fs
  .ok (fs.put fp (asc "\n"))

/-! ## The program -/

/-- The library the program is linked with. -/
structure Lib where
  /-- `crypto_sign_keypair(pk, sk)`; the third argument is what `randombytes` delivers to it. -/
  keypair : Bytes → Bytes → Bytes → C (Bytes × Bytes × Int)
  /-- `crypto_sign(sm, &smlen, m, mlen, sk)`; the last argument is what `randombytes` delivers to it. -/
  sign : Mem → Nat → Nat → Nat → Nat → Bytes → C (Mem × Nat × Int)
  /-- `crypto_sign_open(m, &mlen, sm, smlen, pk)` -/
  open' : Mem → Nat → Nat → Nat → Nat → C (Mem × Nat × Int)

/-- Addresses: the arrays `pk` and `sk` of `main`, and what the three calls of `calloc` return in turn
number `it` of the loop. -/
structure Layout where
  pk : Nat
  sk : Nat
  m : Nat → Nat
  m1 : Nat → Nat
  sm : Nat → Nat

/-- Variables of `main`, the generator and the files.  `req` is the unread part of the request file. -/
structure St where
  it : Nat
  fs : FS
  req : Bytes
  ctx : DrbgCtx
  M : Mem
  seed : Bytes
  count : Int
  mlen : Nat

variable (aes : Bytes → Bytes → Bytes) (P : Params) (lib : Nat → Lib) (lay : Layout) (g : Nat → Nat → Byte)

/-- Creation of the request file, ref/PQCgenKAT_sign.c:59-71, for record `i`: the generator, the files and
the buffers `seed` and `msg`. -/
def request_body (fn_req : Bytes) (i : Nat) (st : DrbgCtx × FS × Bytes × Bytes) : C (DrbgCtx × FS × Bytes × Bytes) := do
  let (ctx, fs, seed, msg) := st
  let fs := fs.put fn_req (asc "count = " ++ pct_d i ++ asc "\n")
  let (ctx, seed, _) ← randombytes aes (g 1) ctx seed 48
  let fs ← fprintBstr fs fn_req (asc "seed = ") seed 48
  let mlen := 33 * (i + 1)
  let fs := fs.put fn_req (asc "mlen = " ++ pct_u mlen ++ asc "\n")
  let (ctx, msg, _) ← randombytes aes (g 2) ctx msg mlen
  let fs ← fprintBstr fs fn_req (asc "msg = ") msg mlen
  let fs := fs.put fn_req (asc "pk =\n")
  let fs := fs.put fn_req (asc "sk =\n")
  let fs := fs.put fn_req (asc "smlen =\n")
  let fs := fs.put fn_req (asc "sm =\n\n")
  .ok (ctx, fs, seed, msg)

/-- The part of the loop of `main` behind the message, ref/PQCgenKAT_sign.c:117-151.  `inr` is a `return`
out of `main`. -/
def crypto_body (fn_rsp : Bytes) (st : St) : C (St ⊕ (FS × Int)) := do
  let L := lib st.it
  let m := lay.m st.it
  let m1 := lay.m1 st.it
  let sm := lay.sm st.it
  let (ctx, rand, _) ← randombytes aes (g 3) st.ctx (uninit (g 4) P.seedBytes) P.seedBytes
  let (pkb, skb, ret_val) ← L.keypair (← st.M.rd lay.pk P.pkBytes) (← st.M.rd lay.sk P.skBytes) rand
  let M ← st.M.wr lay.pk pkb
  let M ← M.wr lay.sk skb
  if ret_val ≠ 0 then .ok (.inr (st.fs, KAT_CRYPTO_FAILURE))
  else
    let fs ← fprintBstr st.fs fn_rsp (asc "pk = ") (← M.rd lay.pk P.pkBytes) P.pkBytes
    let fs ← fprintBstr fs fn_rsp (asc "sk = ") (← M.rd lay.sk P.skBytes) P.skBytes
    let (ctx, optrand, _) ← randombytes aes (g 5) ctx (uninit (g 6) P.n) P.n
    let (M, smlen, ret_val) ← L.sign M sm m st.mlen lay.sk optrand
    if ret_val ≠ 0 then .ok (.inr (fs, KAT_CRYPTO_FAILURE))
    else
      let fs := fs.put fn_rsp (asc "smlen = " ++ pct_u smlen ++ asc "\n")
      let fs ← fprintBstr fs fn_rsp (asc "sm = ") (← M.rd sm smlen) smlen
      let fs := fs.put fn_rsp (asc "\n")
      let (M, mlen1, ret_val) ← L.open' M m1 sm smlen lay.pk
      if ret_val ≠ 0 then .ok (.inr (fs, KAT_CRYPTO_FAILURE))
      else if st.mlen ≠ mlen1 then .ok (.inr (fs, KAT_CRYPTO_FAILURE))
      else if (← M.rd m st.mlen) ≠ (← M.rd m1 st.mlen) then .ok (.inr (fs, KAT_CRYPTO_FAILURE))
      else
        let M := free M m st.mlen
        let M := free M m1 ((st.mlen + P.spxBytes) % 2 ^ 64)
        let M := free M sm ((st.mlen + P.spxBytes) % 2 ^ 64)
        .ok (.inl { st with it := st.it + 1, fs := fs, ctx := ctx, M := M })

/-- One turn of the loop of `main`, ref/PQCgenKAT_sign.c:82-152. -/
def response_body (fn_rsp : Bytes) (st : St) : C (St ⊕ (FS × Int)) := do
  let (r, req) ← FindMarker (g 7) st.req (asc "count = ")
  if r = 0 then .ok (.inr (st.fs, KAT_SUCCESS))
  else
    let (count, req) ← fscanf_d req st.count
    let fs := st.fs.put fn_rsp (asc "count = " ++ pct_d count ++ asc "\n")
    let (r, seed, req) ← ReadHex (g 8) req st.seed 48 (asc "seed = ")
    if r = 0 then .ok (.inr (fs, KAT_DATA_ERROR))
    else
      let fs ← fprintBstr fs fn_rsp (asc "seed = ") seed 48
      let ctx ← randombytes_init aes (g 9) st.ctx seed none
      let (r, req) ← FindMarker (g 10) req (asc "mlen = ")
      if r = 0 then .ok (.inr (fs, KAT_DATA_ERROR))
      else
        let (mlen, req) ← fscanf_llu req st.mlen
        let fs := fs.put fn_rsp (asc "mlen = " ++ pct_u mlen ++ asc "\n")
        let M := calloc st.M (lay.m st.it) mlen
        let M := calloc M (lay.m1 st.it) ((mlen + P.spxBytes) % 2 ^ 64)
        let M := calloc M (lay.sm st.it) ((mlen + P.spxBytes) % 2 ^ 64)
        let (r, mb, req) ← ReadHex (g 11) req (← M.rd (lay.m st.it) mlen)
          (BitVec.ofNat 32 mlen).toInt (asc "msg = ")
        let M ← M.wr (lay.m st.it) mb
        if r = 0 then .ok (.inr (fs, KAT_DATA_ERROR))
        else
          let fs ← fprintBstr fs fn_rsp (asc "msg = ") (← M.rd (lay.m st.it) mlen) mlen
          crypto_body aes P lib lay g fn_rsp { st with fs, req, ctx, M, seed, count, mlen }

/-- `sprintf(fn, "PQCsignKAT_%d<ext>", CRYPTO_SECRETKEYBYTES)` into an array of 32 bytes; the file name is
the string before the NUL. -/
def file_name (gb : Nat → Byte) (ext : String) : C Bytes := do
  let fn ← wr (uninit gb 32) 0 (asc "PQCsignKAT_" ++ pct_d P.skBytes ++ asc ext ++ [0#8])
  .ok (fn.takeWhile (· ≠ 0#8))

/-- `main`, ref/PQCgenKAT_sign.c:28-158.  `opens k` tells whether the `k`-th call of `fopen` succeeds; `M`
is the memory with the arrays `pk` and `sk`; `DRBG_ctx` is a global variable and starts zeroed.  Returns the
files and the return value. -/
def main (opens : Nat → Bool) (M : Mem) (fs : FS) : C (FS × Int) := do
  let fn_req ← file_name P (g 12) ".req"
  if opens 0 = false then .ok (fs, KAT_FILE_OPEN_ERROR)
  else
    let fs := fs.create fn_req
    let fn_rsp ← file_name P (g 13) ".rsp"
    if opens 1 = false then .ok (fs, KAT_FILE_OPEN_ERROR)
    else
      let fs := fs.create fn_rsp
      let entropy_input ← forRange 48 (fun i e => wr1 e i (BitVec.ofNat 8 i)) (uninit (g 14) 48)
      let ctx ← randombytes_init aes (g 15) ⟨List.replicate 32 0, List.replicate 16 0, 0⟩ entropy_input none
      let (ctx, fs, seed, _) ← forRange 100 (request_body aes g fn_req) (ctx, fs, uninit (g 16) 48, uninit (g 17) 3300)
      match (if opens 2 then fs fn_req else none) with
      | none => .ok (fs, KAT_FILE_OPEN_ERROR)
      | some req => do
        let fs := fs.put fn_rsp (asc "# " ++ asc "SPHINCS+" ++ asc "\n\n")
        loop (req.length + 1) (response_body aes P lib lay g fn_rsp)
          { it := 0, fs, req, ctx, M, seed, count := (BitVec.ofNat 32 (g 18 0).toNat).toInt, mlen := (g 19 0).toNat }

end Spx.Kat
