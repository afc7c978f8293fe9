import Verif.Base
/-! # Model of ref/rng.c

The block cipher comes from OpenSSL; `aes key block` is any function from a key and a 16-byte block
to a 16-byte block.  `unsigned long` and `unsigned long long` are numbers modulo `2 ^ 64`. -/

namespace Spx.Rng

def RNG_SUCCESS : Int := 0
def RNG_BAD_MAXLEN : Int := -1
def RNG_BAD_OUTBUF : Int := -2
def RNG_BAD_REQ_LEN : Int := -3

/-- `AES_XOF_struct`, ref/rng.h:18-24 -/
structure XofCtx where
  buffer : Bytes
  buffer_pos : Nat
  length_remaining : Nat
  key : Bytes
  ctr : Bytes

/-- `AES256_CTR_DRBG_struct`, ref/rng.h:26-30 -/
structure DrbgCtx where
  Key : Bytes
  V : Bytes
  reseed_counter : Int

variable (aes : Bytes → Bytes → Bytes)

/-- `AES256_ECB`, ref/rng.c:115-133, with `buffer + off` as output. -/
def AES256_ECB (key ctr buffer : Bytes) (off : Nat) : C Bytes := do
  wr buffer off (aes (← rd key 0 32) (← rd ctr 0 16))

/-- The increment loops, ref/rng.c:90-97, 159-166 and 193-200: `j` runs from `lo + k - 1` down to
`lo`. -/
def increment (lo : Nat) : Nat → Bytes → C Bytes
  | 0, V => .ok V
  | k + 1, V => do
    let j := lo + k
    let x ← rd1 V j
    if x = 0xff#8 then do
      let V ← wr1 V j 0x00#8
      increment lo k V
    else wr1 V j (x + 1)

/-- `seedexpander_init`, ref/rng.c:25-52 -/
def seedexpander_init (ctx : XofCtx) (seed diversifier : Bytes) (maxlen : Nat) : C (XofCtx × Int) := do
  if maxlen ≥ 0x100000000 then .ok (ctx, RNG_BAD_MAXLEN)
  else
    let length_remaining := maxlen
    let key ← wr ctx.key 0 (← rd seed 0 32)
    let ctr ← wr ctx.ctr 0 (← rd diversifier 0 8)
    let ctr ← wr1 ctr 11 (BitVec.ofNat 8 (maxlen % 256))
    let maxlen := maxlen >>> 8
    let ctr ← wr1 ctr 10 (BitVec.ofNat 8 (maxlen % 256))
    let maxlen := maxlen >>> 8
    let ctr ← wr1 ctr 9 (BitVec.ofNat 8 (maxlen % 256))
    let maxlen := maxlen >>> 8
    let ctr ← wr1 ctr 8 (BitVec.ofNat 8 (maxlen % 256))
    let ctr ← wr ctr 12 (List.replicate 4 0x00#8)
    let buffer ← wr ctx.buffer 0 (List.replicate 16 0x00#8)
    .ok (⟨buffer, 16, length_remaining, key, ctr⟩, RNG_SUCCESS)

/-- One turn of the loop of `seedexpander`, ref/rng.c:73-99.
State: the context, the output buffer, `xlen`, `offset`. -/
def seedexpander_body (s : XofCtx × Bytes × Nat × Nat) :
    C ((XofCtx × Bytes × Nat × Nat) ⊕ (XofCtx × Bytes)) := do
  let (ctx, x, xlen, offset) := s
  if xlen > 0 then
    let left := (16 + 2 ^ 64 - ctx.buffer_pos) % 2 ^ 64
    if xlen ≤ left then
      let x ← wr x offset (← rd ctx.buffer ctx.buffer_pos xlen)
      .ok (.inr ({ ctx with buffer_pos := (ctx.buffer_pos + xlen) % 2 ^ 64 }, x))
    else
      let x ← wr x offset (← rd ctx.buffer ctx.buffer_pos left)
      let xlen := xlen - left
      let offset := (offset + left) % 2 ^ 64
      let buffer ← AES256_ECB aes ctx.key ctx.ctr ctx.buffer 0
      let ctr ← increment 12 4 ctx.ctr
      .ok (.inl ({ ctx with buffer := buffer, buffer_pos := 0, ctr := ctr }, x, xlen, offset))
  else .ok (.inr (ctx, x))

/-- `seedexpander`, ref/rng.c:60-102.  `x` is `NULL` or a buffer.  Returns context, buffer and
result. -/
def seedexpander (ctx : XofCtx) (x : Option Bytes) (xlen : Nat) : C (XofCtx × Option Bytes × Int) :=
  match x with
  | none => .ok (ctx, none, RNG_BAD_OUTBUF)
  | some x =>
    if xlen ≥ ctx.length_remaining then .ok (ctx, some x, RNG_BAD_REQ_LEN)
    else do
      let ctx := { ctx with length_remaining := ctx.length_remaining - xlen }
      let (ctx, x) ← loop (2 ^ 64 + 2) (seedexpander_body aes) (ctx, x, xlen, 0)
      .ok (ctx, some x, RNG_SUCCESS)

/-- `if (p != NULL) for (i = 0; i < 48; i++) t[i] ^= p[i]`, ref/rng.c:142-144 and 204-206 -/
def xor_if (t : Bytes) : Option Bytes → C Bytes
  | none => .ok t
  | some p => forRange 48 (fun i t => do wr1 t i ((← rd1 t i) ^^^ (← rd1 p i))) t

/-- `AES256_CTR_DRBG_Update`, ref/rng.c:184-209.  `g` are the contents of the uninitialised `temp`.
Returns `Key` and `V`. -/
def AES256_CTR_DRBG_Update (g : Nat → Byte) (provided_data : Option Bytes) (Key V : Bytes) :
    C (Bytes × Bytes) := do
  let temp := uninit g 48
  let (V, temp) ← forRange 3 (fun i (s : Bytes × Bytes) => do
    let V ← increment 0 16 s.1
    let temp ← AES256_ECB aes Key V s.2 (16 * i)
    .ok (V, temp)) (V, temp)
  let temp ← xor_if temp provided_data
  let Key ← wr Key 0 (← rd temp 0 32)
  let V ← wr V 0 (← rd temp 32 16)
  .ok (Key, V)

/-- `randombytes_init`, ref/rng.c:135-149 -/
def randombytes_init (g : Nat → Byte) (ctx : DrbgCtx) (entropy_input : Bytes)
    (personalization_string : Option Bytes) : C DrbgCtx := do
  let seed_material := uninit g 48
  let seed_material ← wr seed_material 0 (← rd entropy_input 0 48)
  let seed_material ← xor_if seed_material personalization_string
  let Key ← wr ctx.Key 0 (List.replicate 32 0x00#8)
  let V ← wr ctx.V 0 (List.replicate 16 0x00#8)
  let (Key, V) ← AES256_CTR_DRBG_Update aes g (some seed_material) Key V
  .ok ⟨Key, V, 1⟩

/-- One turn of the loop of `randombytes`, ref/rng.c:157-177.  State: `V`, `x`, `xlen`, `block` and
the `int` variable `i`. -/
def randombytes_body (Key : Bytes) (s : Bytes × Bytes × Nat × Bytes × Nat) :
    C ((Bytes × Bytes × Nat × Bytes × Nat) ⊕ (Bytes × Bytes)) := do
  let (V, x, xlen, block, i) := s
  if xlen > 0 then
    let V ← increment 0 16 V
    let block ← AES256_ECB aes Key V block 0
    if xlen > 15 then
      let x ← wr x i (← rd block 0 16)
      if i + 16 < 2 ^ 31 then .ok (.inl (V, x, xlen - 16, block, i + 16))
      else .error .overflow
    else
      let x ← wr x i (← rd block 0 xlen)
      .ok (.inl (V, x, 0, block, i))
  else .ok (.inr (V, x))

/-- `randombytes`, ref/rng.c:151-182.  Returns the state, the buffer and the result. -/
def randombytes (g : Nat → Byte) (ctx : DrbgCtx) (x : Bytes) (xlen : Nat) : C (DrbgCtx × Bytes × Int) := do
  let (V, x) ← loop (2 ^ 64 + 2) (randombytes_body aes ctx.Key) (ctx.V, x, xlen, uninit g 16, 0)
  let (Key, V) ← AES256_CTR_DRBG_Update aes g none ctx.Key V
  if ctx.reseed_counter + 1 < 2 ^ 31 then
    .ok (⟨Key, V, ctx.reseed_counter + 1⟩, x, RNG_SUCCESS)
  else .error .overflow

end Spx.Rng
