import Verif.Model.Env
/-! # Model of ref/sha2.c

The C file contains every function twice, for 32-bit and for 64-bit words, with the same text up to
constants.  The model has each function once, over a record `Sha2.Cfg` of everything that differs;
`cfg256` and `cfg512` list the constants of the two copies.  Straight-line sequences which are
unrolled in C (loading eight words, sixteen rounds, …) are loops here. -/

namespace Spx

/-- `load_bigendian_32`, ref/sha2.c:12-15 -/
def load_bigendian_32 (x : Bytes) : C (BitVec 32) := do
  .ok ((← rd1 x 3).zeroExtend 32 ||| ((← rd1 x 2).zeroExtend 32 <<< 8) |||
    ((← rd1 x 1).zeroExtend 32 <<< 16) ||| ((← rd1 x 0).zeroExtend 32 <<< 24))

/-- `load_bigendian_64`, ref/sha2.c:17-22 -/
def load_bigendian_64 (x : Bytes) : C (BitVec 64) := do
  .ok ((← rd1 x 7).zeroExtend 64 ||| ((← rd1 x 6).zeroExtend 64 <<< 8) |||
    ((← rd1 x 5).zeroExtend 64 <<< 16) ||| ((← rd1 x 4).zeroExtend 64 <<< 24) |||
    ((← rd1 x 3).zeroExtend 64 <<< 32) ||| ((← rd1 x 2).zeroExtend 64 <<< 40) |||
    ((← rd1 x 1).zeroExtend 64 <<< 48) ||| ((← rd1 x 0).zeroExtend 64 <<< 56))

/-- `store_bigendian_32`, ref/sha2.c:24-32; the second parameter is a `uint64_t`. -/
def store_bigendian_32 (x : Bytes) (u : BitVec 64) : C Bytes := do
  let x ← wr1 x 3 (u.truncate 8)
  let u := u >>> 8
  let x ← wr1 x 2 (u.truncate 8)
  let u := u >>> 8
  let x ← wr1 x 1 (u.truncate 8)
  let u := u >>> 8
  wr1 x 0 (u.truncate 8)

/-- `store_bigendian_64`, ref/sha2.c:34-50 -/
def store_bigendian_64 (x : Bytes) (u : BitVec 64) : C Bytes := do
  let x ← wr1 x 7 (u.truncate 8)
  let u := u >>> 8
  let x ← wr1 x 6 (u.truncate 8)
  let u := u >>> 8
  let x ← wr1 x 5 (u.truncate 8)
  let u := u >>> 8
  let x ← wr1 x 4 (u.truncate 8)
  let u := u >>> 8
  let x ← wr1 x 3 (u.truncate 8)
  let u := u >>> 8
  let x ← wr1 x 2 (u.truncate 8)
  let u := u >>> 8
  let x ← wr1 x 1 (u.truncate 8)
  let u := u >>> 8
  wr1 x 0 (u.truncate 8)

namespace Sha2

/-- `ROTR_32` and `ROTR_64`, ref/sha2.c:53-54 -/
def ROTR {w : Nat} (x : BitVec w) (c : Nat) : BitVec w := (x >>> c) ||| (x <<< (w - c))
/-- `SHR`, ref/sha2.c:52 -/
def SHR {w : Nat} (x : BitVec w) (c : Nat) : BitVec w := x >>> c
/-- `Ch`, ref/sha2.c:56 -/
def Ch {w : Nat} (x y z : BitVec w) : BitVec w := (x &&& y) ^^^ (~~~ x &&& z)
/-- `Maj`, ref/sha2.c:57 -/
def Maj {w : Nat} (x y z : BitVec w) : BitVec w := (x &&& y) ^^^ (x &&& z) ^^^ (y &&& z)

/-- What differs between the two copies of the code; `wb` is the word size in bytes. -/
structure Cfg (wb : Nat) where
  /-- `Sigma0`, `Sigma1`, `sigma0`, `sigma1` -/
  Sigma0 : BitVec (8 * wb) → BitVec (8 * wb)
  Sigma1 : BitVec (8 * wb) → BitVec (8 * wb)
  sigma0 : BitVec (8 * wb) → BitVec (8 * wb)
  sigma1 : BitVec (8 * wb) → BitVec (8 * wb)
  /-- the second argument of the `F` steps, in program order -/
  K : List (BitVec (8 * wb))
  /-- number of groups of 16 `F` steps; `EXPAND` stands between consecutive groups -/
  groups : Nat
  /-- `load_bigendian`, `store_bigendian` -/
  load : Bytes → C (BitVec (8 * wb))
  store : Bytes → BitVec (8 * wb) → C Bytes
  /-- initial value -/
  iv : Bytes
  /-- block size, state size -/
  blk : Nat
  hb : Nat
  /-- in `inc_finalize`: mask of `inlen`, bound of `inlen` for the short case, index of the first
  length byte in the short and in the long case, and the length bytes -/
  mask : Nat
  thr : Nat
  zend1 : Nat
  zend2 : Nat
  lens : List (BitVec 64 → BitVec 64)

/-- The 32-bit copy: ref/sha2.c:59-62 (functions), 132-287 (rounds), 458-463 (iv), 510-556 (finalize) -/
def cfg256 : Cfg 4 where
  Sigma0 x := ROTR x 2 ^^^ ROTR x 13 ^^^ ROTR x 22
  Sigma1 x := ROTR x 6 ^^^ ROTR x 11 ^^^ ROTR x 25
  sigma0 x := ROTR x 7 ^^^ ROTR x 18 ^^^ SHR x 3
  sigma1 x := ROTR x 17 ^^^ ROTR x 19 ^^^ SHR x 10
  K := [
  0x428a2f98#32, 0x71374491#32, 0xb5c0fbcf#32, 0xe9b5dba5#32, 0x3956c25b#32, 0x59f111f1#32, 0x923f82a4#32, 0xab1c5ed5#32,
  0xd807aa98#32, 0x12835b01#32, 0x243185be#32, 0x550c7dc3#32, 0x72be5d74#32, 0x80deb1fe#32, 0x9bdc06a7#32, 0xc19bf174#32,
  0xe49b69c1#32, 0xefbe4786#32, 0x0fc19dc6#32, 0x240ca1cc#32, 0x2de92c6f#32, 0x4a7484aa#32, 0x5cb0a9dc#32, 0x76f988da#32,
  0x983e5152#32, 0xa831c66d#32, 0xb00327c8#32, 0xbf597fc7#32, 0xc6e00bf3#32, 0xd5a79147#32, 0x06ca6351#32, 0x14292967#32,
  0x27b70a85#32, 0x2e1b2138#32, 0x4d2c6dfc#32, 0x53380d13#32, 0x650a7354#32, 0x766a0abb#32, 0x81c2c92e#32, 0x92722c85#32,
  0xa2bfe8a1#32, 0xa81a664b#32, 0xc24b8b70#32, 0xc76c51a3#32, 0xd192e819#32, 0xd6990624#32, 0xf40e3585#32, 0x106aa070#32,
  0x19a4c116#32, 0x1e376c08#32, 0x2748774c#32, 0x34b0bcb5#32, 0x391c0cb3#32, 0x4ed8aa4a#32, 0x5b9cca4f#32, 0x682e6ff3#32,
  0x748f82ee#32, 0x78a5636f#32, 0x84c87814#32, 0x8cc70208#32, 0x90befffa#32, 0xa4506ceb#32, 0xbef9a3f7#32, 0xc67178f2#32]
  groups := 4
  load := load_bigendian_32
  store x u := store_bigendian_32 x (u.zeroExtend 64)
  iv := [
  0x6a#8, 0x09#8, 0xe6#8, 0x67#8, 0xbb#8, 0x67#8, 0xae#8, 0x85#8,
  0x3c#8, 0x6e#8, 0xf3#8, 0x72#8, 0xa5#8, 0x4f#8, 0xf5#8, 0x3a#8,
  0x51#8, 0x0e#8, 0x52#8, 0x7f#8, 0x9b#8, 0x05#8, 0x68#8, 0x8c#8,
  0x1f#8, 0x83#8, 0xd9#8, 0xab#8, 0x5b#8, 0xe0#8, 0xcd#8, 0x19#8]
  blk := 64
  hb := 32
  mask := 63
  thr := 56
  zend1 := 56
  zend2 := 120
  lens := [(· >>> 53), (· >>> 45), (· >>> 37), (· >>> 29), (· >>> 21), (· >>> 13), (· >>> 5), (· <<< 3)]

/-- The 64-bit copy: ref/sha2.c:64-67 (functions), 289-455 (rounds), 465-472 (iv), 558-605 (finalize) -/
def cfg512 : Cfg 8 where
  Sigma0 x := ROTR x 28 ^^^ ROTR x 34 ^^^ ROTR x 39
  Sigma1 x := ROTR x 14 ^^^ ROTR x 18 ^^^ ROTR x 41
  sigma0 x := ROTR x 1 ^^^ ROTR x 8 ^^^ SHR x 7
  sigma1 x := ROTR x 19 ^^^ ROTR x 61 ^^^ SHR x 6
  K := [
  0x428a2f98d728ae22#64, 0x7137449123ef65cd#64, 0xb5c0fbcfec4d3b2f#64, 0xe9b5dba58189dbbc#64,
  0x3956c25bf348b538#64, 0x59f111f1b605d019#64, 0x923f82a4af194f9b#64, 0xab1c5ed5da6d8118#64,
  0xd807aa98a3030242#64, 0x12835b0145706fbe#64, 0x243185be4ee4b28c#64, 0x550c7dc3d5ffb4e2#64,
  0x72be5d74f27b896f#64, 0x80deb1fe3b1696b1#64, 0x9bdc06a725c71235#64, 0xc19bf174cf692694#64,
  0xe49b69c19ef14ad2#64, 0xefbe4786384f25e3#64, 0x0fc19dc68b8cd5b5#64, 0x240ca1cc77ac9c65#64,
  0x2de92c6f592b0275#64, 0x4a7484aa6ea6e483#64, 0x5cb0a9dcbd41fbd4#64, 0x76f988da831153b5#64,
  0x983e5152ee66dfab#64, 0xa831c66d2db43210#64, 0xb00327c898fb213f#64, 0xbf597fc7beef0ee4#64,
  0xc6e00bf33da88fc2#64, 0xd5a79147930aa725#64, 0x06ca6351e003826f#64, 0x142929670a0e6e70#64,
  0x27b70a8546d22ffc#64, 0x2e1b21385c26c926#64, 0x4d2c6dfc5ac42aed#64, 0x53380d139d95b3df#64,
  0x650a73548baf63de#64, 0x766a0abb3c77b2a8#64, 0x81c2c92e47edaee6#64, 0x92722c851482353b#64,
  0xa2bfe8a14cf10364#64, 0xa81a664bbc423001#64, 0xc24b8b70d0f89791#64, 0xc76c51a30654be30#64,
  0xd192e819d6ef5218#64, 0xd69906245565a910#64, 0xf40e35855771202a#64, 0x106aa07032bbd1b8#64,
  0x19a4c116b8d2d0c8#64, 0x1e376c085141ab53#64, 0x2748774cdf8eeb99#64, 0x34b0bcb5e19b48a8#64,
  0x391c0cb3c5c95a63#64, 0x4ed8aa4ae3418acb#64, 0x5b9cca4f7763e373#64, 0x682e6ff3d6b2b8a3#64,
  0x748f82ee5defb2fc#64, 0x78a5636f43172f60#64, 0x84c87814a1f0ab72#64, 0x8cc702081a6439ec#64,
  0x90befffa23631e28#64, 0xa4506cebde82bde9#64, 0xbef9a3f7b2c67915#64, 0xc67178f2e372532b#64,
  0xca273eceea26619c#64, 0xd186b8c721c0c207#64, 0xeada7dd6cde0eb1e#64, 0xf57d4f7fee6ed178#64,
  0x06f067aa72176fba#64, 0x0a637dc5a2c898a6#64, 0x113f9804bef90dae#64, 0x1b710b35131c471b#64,
  0x28db77f523047d84#64, 0x32caab7b40c72493#64, 0x3c9ebe0a15c9bebc#64, 0x431d67c49c100d4c#64,
  0x4cc5d4becb3e42b6#64, 0x597f299cfc657e2a#64, 0x5fcb6fab3ad6faec#64, 0x6c44198c4a475817#64]
  groups := 5
  load := load_bigendian_64
  store := store_bigendian_64
  iv := [
  0x6a#8, 0x09#8, 0xe6#8, 0x67#8, 0xf3#8, 0xbc#8, 0xc9#8, 0x08#8,
  0xbb#8, 0x67#8, 0xae#8, 0x85#8, 0x84#8, 0xca#8, 0xa7#8, 0x3b#8,
  0x3c#8, 0x6e#8, 0xf3#8, 0x72#8, 0xfe#8, 0x94#8, 0xf8#8, 0x2b#8,
  0xa5#8, 0x4f#8, 0xf5#8, 0x3a#8, 0x5f#8, 0x1d#8, 0x36#8, 0xf1#8,
  0x51#8, 0x0e#8, 0x52#8, 0x7f#8, 0xad#8, 0xe6#8, 0x82#8, 0xd1#8,
  0x9b#8, 0x05#8, 0x68#8, 0x8c#8, 0x2b#8, 0x3e#8, 0x6c#8, 0x1f#8,
  0x1f#8, 0x83#8, 0xd9#8, 0xab#8, 0xfb#8, 0x41#8, 0xbd#8, 0x6b#8,
  0x5b#8, 0xe0#8, 0xcd#8, 0x19#8, 0x13#8, 0x7e#8, 0x21#8, 0x79#8]
  blk := 128
  hb := 64
  mask := 127
  thr := 112
  zend1 := 119
  zend2 := 247
  lens := [(· >>> 61), (· >>> 53), (· >>> 45), (· >>> 37), (· >>> 29), (· >>> 21), (· >>> 13), (· >>> 5),
    (· <<< 3)]

section
variable {wb : Nat} (c : Cfg wb)

/-- `M_32` and `M_64`, ref/sha2.c:69-70, on the array of the variables `w0 … w15`; the arguments are
the numbers of the variables. -/
def M (w : List (BitVec (8 * wb))) (r : Nat × Nat × Nat × Nat) : List (BitVec (8 * wb)) :=
  w.set r.1 (c.sigma1 (w.getD r.2.1 0) + w.getD r.2.2.1 0 + c.sigma0 (w.getD r.2.2.2 0) + w.getD r.1 0)

/-- The arguments of the `M` steps of `EXPAND_32` and `EXPAND_64`, ref/sha2.c:72-88, 90-106 -/
def expandRows : List (Nat × Nat × Nat × Nat) := [
  (0, 14, 9, 1), (1, 15, 10, 2), (2, 0, 11, 3), (3, 1, 12, 4), (4, 2, 13, 5), (5, 3, 14, 6),
  (6, 4, 15, 7), (7, 5, 0, 8), (8, 6, 1, 9), (9, 7, 2, 10), (10, 8, 3, 11), (11, 9, 4, 12),
  (12, 10, 5, 13), (13, 11, 6, 14), (14, 12, 7, 15), (15, 13, 8, 0)]

/-- `EXPAND_32` and `EXPAND_64` -/
def EXPAND (w : List (BitVec (8 * wb))) : List (BitVec (8 * wb)) := expandRows.foldl (M c) w

/-- The local variables `a … h`. -/
structure Vars (wb : Nat) where
  (a b c d e f g h : BitVec (8 * wb))

/-- `F_32` and `F_64`, ref/sha2.c:108-130 -/
def F (w k : BitVec (8 * wb)) (v : Vars wb) : Vars wb :=
  let T1 := v.h + c.Sigma1 v.e + Ch v.e v.f v.g + k + w
  let T2 := c.Sigma0 v.a + Maj v.a v.b v.c
  let h := v.g
  let g := v.f
  let f := v.e
  let e := v.d + T1
  let d := v.c
  let cc := v.b
  let b := v.a
  let a := T1 + T2
  ⟨a, b, cc, d, e, f, g, h⟩

/-- Group number `i` of sixteen `F` steps, e.g. ref/sha2.c:181-196, 330-345: `F(w_j, K_{16i+j})`. -/
def F16 (w : List (BitVec (8 * wb))) (v : Vars wb) (i : Nat) : Vars wb :=
  (List.range 16).foldl (fun v j => F c (w.getD j 0) (c.K.getD (16 * i + j) 0) v) v

/-- The first `k` groups, with `EXPAND` between them: ref/sha2.c:181-253, 330-421. -/
def groups (w : List (BitVec (8 * wb))) (v : Vars wb) : Nat → List (BitVec (8 * wb)) × Vars wb
  | 0 => (w, v)
  | i + 1 =>
    let (w, v) := groups w v i
    let w := if i = 0 then w else EXPAND c w
    (w, F16 c w v i)

/-- `a += state[0]; …`, ref/sha2.c:255-262, 423-430 -/
def Vars.add {wb : Nat} (x y : Vars wb) : Vars wb :=
  ⟨x.a + y.a, x.b + y.b, x.c + y.c, x.d + y.d, x.e + y.e, x.f + y.f, x.g + y.g, x.h + y.h⟩

/-- Loading `k` words, e.g. ref/sha2.c:164-179. -/
def loadWords (x : Bytes) (k : Nat) : C (List (BitVec (8 * wb))) :=
  forRange k (fun i acc => do .ok (acc ++ [← c.load (← sub x (wb * i))])) []

/-- The body of the `while` loop, ref/sha2.c:163-275, 312-443.  The loop state is `in`, `inlen`,
`a … h` and `state[8]`. -/
def blockStep (s : Bytes × Nat × Vars wb × Vars wb) :
    C ((Bytes × Nat × Vars wb × Vars wb) ⊕ (Nat × Vars wb)) := do
  let (inp, inlen, v, state) := s
  if c.blk ≤ inlen then do
    let w ← loadWords c inp 16
    let v := (groups c w v c.groups).2
    let v := v.add state
    let state := v
    let inp ← sub inp c.blk
    .ok (.inl (inp, inlen - c.blk, v, state))
  else .ok (.inr (inlen, state))

/-- `crypto_hashblocks_sha256`, ref/sha2.c:132-287; `crypto_hashblocks_sha512`, ref/sha2.c:289-455.
Returns the state bytes (the returned `inlen` is never used by the callers). -/
def hashblocks (statebytes inp : Bytes) (inlen : Nat) : C Bytes := do
  let s ← loadWords c statebytes 8
  let v : Vars wb := ⟨s.getD 0 0, s.getD 1 0, s.getD 2 0, s.getD 3 0, s.getD 4 0, s.getD 5 0,
    s.getD 6 0, s.getD 7 0⟩
  let (_, state) ← loop (inlen / c.blk + 1) (blockStep c) (inp, inlen, v, v)
  let out := [state.a, state.b, state.c, state.d, state.e, state.f, state.g, state.h]
  forRange 8 (fun i st => do
    let (st, _) ← withSub st (wb * i) (fun x => do .ok (← c.store x (← rd1 out i), ()))
    .ok st) statebytes

/-- `sha256_inc_init`, ref/sha2.c:474-481; `sha512_inc_init`, ref/sha2.c:483-490 -/
def inc_init (state : Bytes) : C Bytes := do
  let state ← forRange c.hb (fun i st => do wr1 st i (← rd1 c.iv i)) state
  forRange 8 (fun i st => wr1 st (c.hb + i) 0#8) state

/-- `sha256_inc_blocks`, ref/sha2.c:492-499; `sha512_inc_blocks`, ref/sha2.c:501-508 -/
def inc_blocks (state inp : Bytes) (inblocks : Nat) : C Bytes := do
  let bytes ← load_bigendian_64 (← sub state c.hb)
  let state ← hashblocks c state inp (c.blk * inblocks)
  let bytes := bytes + BitVec.ofNat 64 (c.blk * inblocks)
  let (state, _) ← withSub state c.hb (fun x => do .ok (← store_bigendian_64 x bytes, ()))
  .ok state

/-- The zeros and the length bytes written to `padded`: ref/sha2.c:525-535, 538-548, 573-584, 587-598 -/
def padTail (padded : Bytes) (inlen zend : Nat) (bytes : BitVec 64) : C Bytes := do
  let padded ← forRange (zend - (inlen + 1)) (fun j p => wr1 p (inlen + 1 + j) 0#8) padded
  forRange c.lens.length (fun i p =>
    wr1 p (zend + i) ((c.lens.getD i (fun _ => 0#64) bytes).truncate 8)) padded

/-- `sha256_inc_finalize`, ref/sha2.c:510-556; `sha512_inc_finalize`, ref/sha2.c:558-605.
Returns `out` and `state`.  `out` is written after the last read of `in`, so an `out` inside the
object behind `in` (ref/hash_sha2.c:95, 113) makes no difference. -/
def inc_finalize (g : Nat → Nat → Byte) (out state inp : Bytes) (inlen : Nat) : C (Bytes × Bytes) := do
  let padded := uninit (g 20) (2 * c.blk)
  let bytes := (← load_bigendian_64 (← sub state c.hb)) + BitVec.ofNat 64 inlen
  let state ← hashblocks c state inp inlen
  let inlen' := inlen &&& c.mask
  let inp ← sub inp (inlen - inlen')
  let padded ← forRange inlen' (fun i p => do wr1 p i (← rd1 inp i)) padded
  let padded ← wr1 padded inlen' 0x80#8
  let state ← (if inlen' < c.thr then do
      let padded ← padTail c padded inlen' c.zend1 bytes
      hashblocks c state padded c.blk
    else do
      let padded ← padTail c padded inlen' c.zend2 bytes
      hashblocks c state padded (2 * c.blk) : C Bytes)
  let out ← forRange c.hb (fun i out => do wr1 out i (← rd1 state i)) out
  .ok (out, state)

/-- `sha256`, ref/sha2.c:607-612; `sha512`, ref/sha2.c:614-619 -/
def sha (g : Nat → Nat → Byte) (out inp : Bytes) (inlen : Nat) : C Bytes := do
  let state := uninit (g 21) (c.hb + 8)
  let state ← inc_init c state
  let (out, _) ← inc_finalize c g out state inp inlen
  .ok out

/-- The loop of `mgf1`, ref/sha2.c:637-641, 663-667.  Loop state: `i`, the output and `inbuf`;
`out` has been advanced by `i` outputs. -/
def mgfStep (g : Nat → Nat → Byte) (outlen inlen : Nat) (s : Nat × Bytes × Bytes) :
    C ((Nat × Bytes × Bytes) ⊕ (Nat × Bytes × Bytes)) := do
  let (i, out, inbuf) := s
  if (i + 1) * c.hb ≤ outlen then do
    let (inbuf, _) ← withSub inbuf inlen (fun x => do .ok (← u32_to_bytes x (i % 2 ^ 32), ()))
    let (out, _) ← withSub out (i * c.hb) (fun x => do .ok (← sha c g x inbuf (inlen + 4), ()))
    .ok (.inl (i + 1, out, inbuf))
  else .ok (.inr (i, out, inbuf))

/-- `mgf1_256`, ref/sha2.c:627-648; `mgf1_512`, ref/sha2.c:653-674 -/
def mgf1 (g : Nat → Nat → Byte) (out : Bytes) (outlen : Nat) (inp : Bytes) (inlen : Nat) : C Bytes := do
  let inbuf := uninit (g 22) (inlen + 4)
  let outbuf := uninit (g 23) c.hb
  let inbuf ← wr inbuf 0 (← rd inp 0 inlen)
  let (i, out, inbuf) ← loop (outlen / c.hb + 1) (mgfStep c g outlen inlen) (0, out, inbuf)
  if i * c.hb < outlen then do
    let (inbuf, _) ← withSub inbuf inlen (fun x => do .ok (← u32_to_bytes x (i % 2 ^ 32), ()))
    let outbuf ← sha c g outbuf inbuf (inlen + 4)
    wr out (i * c.hb) (← rd outbuf 0 (outlen - i * c.hb))
  else .ok out

end

/-- `seed_state`, ref/sha2.c:682-700 -/
def seed_state (P : Params) (g : Nat → Nat → Byte) (ctx : Ctx) : C Ctx := do
  let block := uninit (g 24) 128
  let block ← forRange P.n (fun i b => do wr1 b i (← rd1 ctx.pub_seed i)) block
  let block ← forRange (128 - P.n) (fun j b => wr1 b (P.n + j) 0#8) block
  let st ← inc_init cfg256 ctx.state_seeded
  let st ← inc_blocks cfg256 st block 1
  let ctx := { ctx with state_seeded := st }
  if P.sha512 then do
    let st ← inc_init cfg512 ctx.state_seeded_512
    let st ← inc_blocks cfg512 st block 1
    .ok { ctx with state_seeded_512 := st }
  else .ok ctx

end Sha2
end Spx
