import Verif.Model.LeakHash
import Verif.Model.HashShake
/-! # The SHAKE hash functions with traces

The definitions of Model/Fips202.lean and Model/HashShake.lean over the monad of Model/LeakBase.lean. -/

namespace Spx.Leak

/-- `load64`, ref/fips202.c:25-32: `r |= x[i] << 8*i` for `i < 8`. -/
def load64 (x : Bytes) : L (BitVec 64) :=
  forRange 8 (fun i r => do .ok (r ||| ((← rd1 x i).zeroExtend 64 <<< (8 * i)))) 0#64

/-- `store64`, ref/fips202.c:42-46: `x[i] = u >> 8*i` for `i < 8`. -/
def store64 (x : Bytes) (u : BitVec 64) : L Bytes :=
  forRange 8 (fun i x => wr1 x i ((u >>> (8 * i)).truncate 8)) x

/-- One iteration of the loop, ref/fips202.c:114-304; `i` is `round / 2`. -/
def keccak_loop_body (i : Nat) (A : Lanes) : L Lanes := do
  let E := keccak_round_even (← rd1 KeccakF_RoundConstants (2 * i)) A
  .ok (keccak_round_odd (← rd1 KeccakF_RoundConstants (2 * i + 1)) E)

/-- `copyFromState`, ref/fips202.c:87-112 -/
def Lanes.load (s : List (BitVec 64)) : L Lanes := do
  let ba ← rd1 s 0
  let be ← rd1 s 1
  let bi ← rd1 s 2
  let bo ← rd1 s 3
  let bu ← rd1 s 4
  let ga ← rd1 s 5
  let ge ← rd1 s 6
  let gi ← rd1 s 7
  let go ← rd1 s 8
  let gu ← rd1 s 9
  let ka ← rd1 s 10
  let ke ← rd1 s 11
  let ki ← rd1 s 12
  let ko ← rd1 s 13
  let ku ← rd1 s 14
  let ma ← rd1 s 15
  let me ← rd1 s 16
  let mi ← rd1 s 17
  let mo ← rd1 s 18
  let mu ← rd1 s 19
  let sa ← rd1 s 20
  let se ← rd1 s 21
  let si ← rd1 s 22
  let so ← rd1 s 23
  let su ← rd1 s 24
  .ok ⟨ba, be, bi, bo, bu, ga, ge, gi, go, gu, ka, ke, ki, ko, ku, ma, me, mi, mo, mu, sa, se, si, so, su⟩

/-- `KeccakF1600_StatePermute`, ref/fips202.c:71-332; `state` is the object behind the pointer
(25 or 26 words), the first 25 words are replaced. -/
def KeccakF1600_StatePermute (state : List (BitVec 64)) : L (List (BitVec 64)) := prim .keccak do
  let A ← Lanes.load state
  let A ← forRange 12 keccak_loop_body A
  wr state 0 A.toList

/-- Body of the `while` loop of `keccak_absorb`, ref/fips202.c:357-365.  State: s, m, mlen. -/
def keccak_absorb_block (r : Nat) (st : List (BitVec 64) × Bytes × Nat) :
    L ((List (BitVec 64) × Bytes × Nat) ⊕ (List (BitVec 64) × Bytes × Nat)) := do
  let (s, m, mlen) := st
  cif mlen ≥ r then do
    let s ← forRange (r / 8) (fun i s => do
      wr1 s i ((← rd1 s i) ^^^ (← load64 (← sub m (8 * i))))) s
    let s ← KeccakF1600_StatePermute s
    .ok (.inl (s, ← sub m r, mlen - r))
  else .ok (.inr (s, m, mlen))

/-- `keccak_absorb`, ref/fips202.c:347-378.  `g` is the uninitialised local `t`. -/
def keccak_absorb (g : Nat → Byte) (s : List (BitVec 64)) (r : Nat) (m : Bytes) (mlen : Nat) (p : Byte) :
    L (List (BitVec 64)) := do
  let s ← forRange 25 (fun i s => wr1 s i 0#64) s
  let (s, m, mlen) ← loop (mlen + 1) (keccak_absorb_block r) (s, m, mlen)
  let t ← forRange r (fun i t => wr1 t i 0#8) (uninit g 200)
  let t ← forRange mlen (fun i t => do wr1 t i (← rd1 m i)) t
  let t ← wr1 t mlen p
  let t ← wr1 t (r - 1) ((← rd1 t (r - 1)) ||| 128#8)
  forRange (r / 8) (fun i s => do
    wr1 s i ((← rd1 s i) ^^^ (← load64 (← sub t (8 * i))))) s

/-- `keccak_squeezeblocks`, ref/fips202.c:393-403.  State: the output buffer, the offset of the
moving pointer `h`, the Keccak state. -/
def keccak_squeezeblocks (h : Bytes) (nblocks : Nat) (s : List (BitVec 64)) (r : Nat) :
    L (Bytes × List (BitVec 64)) := do
  let (h, _, s) ← forRange nblocks (fun _ (st : Bytes × Nat × List (BitVec 64)) => do
    let (h, off, s) := st
    let s ← KeccakF1600_StatePermute s
    let (h, _) ← withSub h off (fun hh => do
      let hh ← forRange (r >>> 3) (fun i hh => do
        let (hh, _) ← withSub hh (8 * i) (fun x => do .ok (← store64 x (← rd1 s i), ()))
        .ok hh) hh
      .ok (hh, ()))
    .ok (h, off + r, s)) (h, 0, s)
  .ok (h, s)

/-- `keccak_inc_init`, ref/fips202.c:415-422 -/
def keccak_inc_init (s_inc : List (BitVec 64)) : L (List (BitVec 64)) := do
  let s ← forRange 25 (fun i s => wr1 s i 0#64) s_inc
  wr1 s 25 0#64

/-- `s_inc[k >> 3] ^= (uint64_t)b << (8 * (k & 0x07))`, the statement used in
ref/fips202.c:447, 457, 478 and 479. -/
def keccak_xor_byte (s_inc : List (BitVec 64)) (k : Nat) (b : Byte) : L (List (BitVec 64)) := do
  wr1 s_inc (k >>> 3) ((← rd1 s_inc (k >>> 3)) ^^^ (b.zeroExtend 64 <<< (8 * (k &&& 7))))

/-- The `for` loops of `keccak_inc_absorb`, ref/fips202.c:444-448 and 456-458: the first `len` bytes
of `m` are added.  `s_inc[25]` is read once instead of in every iteration; the loop does not write it. -/
def keccak_inc_xor (s_inc : List (BitVec 64)) (m : Bytes) (len : Nat) : L (List (BitVec 64)) := do
  let c ← rd1 s_inc 25
  forRange len (fun i s => do keccak_xor_byte s (c.toNat + i) (← rd1 m i)) s_inc

/-- Body of the `while` loop of `keccak_inc_absorb`, ref/fips202.c:443-454.  State: s_inc, m, mlen.
`mlen + s_inc[25]` does not wrap for lengths below 2^63. -/
def keccak_inc_absorb_block (r : Nat) (st : List (BitVec 64) × Bytes × Nat) :
    L ((List (BitVec 64) × Bytes × Nat) ⊕ (List (BitVec 64) × Bytes × Nat)) := do
  let (s_inc, m, mlen) := st
  let c := (← rd1 s_inc 25).toNat
  cif mlen + c ≥ r then do
    let s_inc ← keccak_inc_xor s_inc m (r - c)
    let mlen := mlen - (r - c)
    let m ← sub m (r - c)
    let s_inc ← wr1 s_inc 25 0#64
    let s_inc ← KeccakF1600_StatePermute s_inc
    .ok (.inl (s_inc, m, mlen))
  else .ok (.inr (s_inc, m, mlen))

/-- `keccak_inc_absorb`, ref/fips202.c:438-460 -/
def keccak_inc_absorb (s_inc : List (BitVec 64)) (r : Nat) (m : Bytes) (mlen : Nat) :
    L (List (BitVec 64)) := do
  let (s_inc, m, mlen) ← loop (mlen + 2) (keccak_inc_absorb_block r) (s_inc, m, mlen)
  let s_inc ← keccak_inc_xor s_inc m mlen
  wr1 s_inc 25 ((← rd1 s_inc 25) + BitVec.ofNat 64 mlen)

/-- `keccak_inc_finalize`, ref/fips202.c:475-481 -/
def keccak_inc_finalize (s_inc : List (BitVec 64)) (r : Nat) (p : Byte) : L (List (BitVec 64)) := do
  let s_inc ← keccak_xor_byte s_inc (← rd1 s_inc 25).toNat p
  let s_inc ← keccak_xor_byte s_inc (r - 1) 128#8
  wr1 s_inc 25 0#64

/-- `(uint8_t)(s_inc[k >> 3] >> (8 * (k & 0x07)))`, used in ref/fips202.c:504 and 515. -/
def keccak_get_byte (s_inc : List (BitVec 64)) (k : Nat) : L Byte := do
  .ok (((← rd1 s_inc (k >>> 3)) >>> (8 * (k &&& 7))).truncate 8)

/-- Body of the `while` loop of `keccak_inc_squeeze`, ref/fips202.c:511-520.
State: output buffer, offset of the moving pointer `h`, outlen, s_inc. -/
def keccak_inc_squeeze_block (r : Nat) (st : Bytes × Nat × Nat × List (BitVec 64)) :
    L ((Bytes × Nat × Nat × List (BitVec 64)) ⊕ (Bytes × List (BitVec 64))) := do
  let (h, off, outlen, s_inc) := st
  cif outlen > 0 then do
    let s_inc ← KeccakF1600_StatePermute s_inc
    let i := min outlen r
    let h ← forRange i (fun i h => do wr1 h (off + i) (← keccak_get_byte s_inc i)) h
    let s_inc ← wr1 s_inc 25 (BitVec.ofNat 64 (r - i))
    .ok (.inl (h, off + i, outlen - i, s_inc))
  else .ok (.inr (h, s_inc))

/-- `keccak_inc_squeeze`, ref/fips202.c:496-521.  The two-sided loop conditions `i < outlen && i < x`
are loops up to the minimum. -/
def keccak_inc_squeeze (h : Bytes) (outlen : Nat) (s_inc : List (BitVec 64)) (r : Nat) :
    L (Bytes × List (BitVec 64)) := do
  let c := (← rd1 s_inc 25).toNat
  let i := min outlen c
  let h ← forRange i (fun i h => do wr1 h i (← keccak_get_byte s_inc (r - c + i))) h
  let s_inc ← wr1 s_inc 25 ((← rd1 s_inc 25) - BitVec.ofNat 64 i)
  loop (outlen + 1) (keccak_inc_squeeze_block r) (h, i, outlen - i, s_inc)

/-- `shake256_inc_init`, ref/fips202.c:523-525 -/
def shake256_inc_init (s_inc : List (BitVec 64)) : L (List (BitVec 64)) := keccak_inc_init s_inc

/-- `shake256_inc_absorb`, ref/fips202.c:527-529 -/
def shake256_inc_absorb (s_inc : List (BitVec 64)) (input : Bytes) (inlen : Nat) : L (List (BitVec 64)) :=
  keccak_inc_absorb s_inc SHAKE256_RATE input inlen

/-- `shake256_inc_finalize`, ref/fips202.c:531-533 -/
def shake256_inc_finalize (s_inc : List (BitVec 64)) : L (List (BitVec 64)) :=
  keccak_inc_finalize s_inc SHAKE256_RATE 0x1F#8

/-- `shake256_inc_squeeze`, ref/fips202.c:535-537 -/
def shake256_inc_squeeze (output : Bytes) (outlen : Nat) (s_inc : List (BitVec 64)) :
    L (Bytes × List (BitVec 64)) := keccak_inc_squeeze output outlen s_inc SHAKE256_RATE

/-- `shake256_absorb`, ref/fips202.c:550-552 -/
def shake256_absorb (g : Nat → Byte) (s : List (BitVec 64)) (input : Bytes) (inlen : Nat) :
    L (List (BitVec 64)) := keccak_absorb g s SHAKE256_RATE input inlen 0x1F#8

/-- `shake256_squeezeblocks`, ref/fips202.c:567-569 -/
def shake256_squeezeblocks (output : Bytes) (nblocks : Nat) (s : List (BitVec 64)) :
    L (Bytes × List (BitVec 64)) := keccak_squeezeblocks output nblocks s SHAKE256_RATE

/-- `shake256`, ref/fips202.c:580-598.  `g` supplies the uninitialised locals (`g 0` the `t` of
keccak_absorb, `g 1` the `t` and `g 2` the `s` of this function). -/
def shake256 (g : Nat → Nat → Byte) (output : Bytes) (outlen : Nat) (input : Bytes) (inlen : Nat) :
    L Bytes := do
  let nblocks := outlen / SHAKE256_RATE
  let s := uninit (fun i => (g 2 i).zeroExtend 64) 25
  let s ← shake256_absorb (g 0) s input inlen
  let (output, s) ← shake256_squeezeblocks output nblocks s
  let off := nblocks * SHAKE256_RATE
  let outlen := outlen - nblocks * SHAKE256_RATE
  cif outlen ≠ 0 then do
    let (t, _) ← shake256_squeezeblocks (uninit (g 1) SHAKE256_RATE) 1 s
    forRange outlen (fun i output => do wr1 output (off + i) (← rd1 t i)) output
  else .ok output

namespace Shake

variable (P : Params) (g : Nat → Nat → Byte)

/-- `initialize_hash_function`, ref/hash_shake.c:12-15 -/
def initialize_hash_function (ctx : Ctx) : L Ctx := .ok ctx

/-- `prf_addr`, ref/hash_shake.c:20-30 -/
def prf_addr (ctx : Ctx) (addr : Addr) : L Bytes := do
  let buf := uninit (g 10) (2 * P.n + SPX_ADDR_BYTES)
  let buf ← wr buf 0 (← rd ctx.pub_seed 0 P.n)
  let buf ← wr buf P.n (← rd addr 0 SPX_ADDR_BYTES)
  let buf ← wr buf (P.n + SPX_ADDR_BYTES) (← rd ctx.sk_seed 0 P.n)
  shake256 g (uninit (g 11) P.n) P.n buf (2 * P.n + SPX_ADDR_BYTES)

/-- `gen_message_random`, ref/hash_shake.c:36-50 -/
def gen_message_random (sk_prf optrand m : Bytes) (_ctx : Ctx) : L Bytes := do
  let s_inc := uninit (fun i => (g 12 i).zeroExtend 64) 26
  let s_inc ← shake256_inc_init s_inc
  let s_inc ← shake256_inc_absorb s_inc sk_prf P.n
  let s_inc ← shake256_inc_absorb s_inc optrand P.n
  let s_inc ← shake256_inc_absorb s_inc m m.length
  let s_inc ← shake256_inc_finalize s_inc
  let (R, _) ← shake256_inc_squeeze (uninit (g 13) P.n) P.n s_inc
  .ok R

/-- `hash_message`, ref/hash_shake.c:57-97 -/
def hash_message (R pk m : Bytes) (_ctx : Ctx) : L (Bytes × Nat × Nat) := do
  let s_inc := uninit (fun i => (g 14 i).zeroExtend 64) 26
  let s_inc ← shake256_inc_init s_inc
  let s_inc ← shake256_inc_absorb s_inc R P.n
  let s_inc ← shake256_inc_absorb s_inc pk P.pkBytes
  let s_inc ← shake256_inc_absorb s_inc m m.length
  let s_inc ← shake256_inc_finalize s_inc
  let (buf, _) ← shake256_inc_squeeze (uninit (g 15) P.dgstBytes) P.dgstBytes s_inc
  hash_message_split P buf

/-- `thash`, ref/thash_shake_simple.c:14-24 -/
def thash_simple (inp : Bytes) (inblocks : Nat) (ctx : Ctx) (addr : Addr) : L Bytes := do
  let buf := uninit (g 16) (P.n + SPX_ADDR_BYTES + inblocks * P.n)
  let buf ← wr buf 0 (← rd ctx.pub_seed 0 P.n)
  let buf ← wr buf P.n (← rd addr 0 SPX_ADDR_BYTES)
  let buf ← wr buf (P.n + SPX_ADDR_BYTES) (← rd inp 0 (inblocks * P.n))
  shake256 g (uninit (g 17) P.n) P.n buf (P.n + SPX_ADDR_BYTES + inblocks * P.n)

/-- `thash`, ref/thash_shake_robust.c:14-31 -/
def thash_robust (inp : Bytes) (inblocks : Nat) (ctx : Ctx) (addr : Addr) : L Bytes := do
  let buf := uninit (g 16) (P.n + SPX_ADDR_BYTES + inblocks * P.n)
  let bitmask := uninit (g 18) (inblocks * P.n)
  let buf ← wr buf 0 (← rd ctx.pub_seed 0 P.n)
  let buf ← wr buf P.n (← rd addr 0 SPX_ADDR_BYTES)
  let bitmask ← shake256 g bitmask (inblocks * P.n) buf (P.n + SPX_ADDR_BYTES)
  let buf ← forRange (inblocks * P.n) (fun i buf => do
    wr1 buf (P.n + SPX_ADDR_BYTES + i) ((← rd1 inp i) ^^^ (← rd1 bitmask i))) buf
  shake256 g (uninit (g 17) P.n) P.n buf (P.n + SPX_ADDR_BYTES + inblocks * P.n)

/-- The functions linked for the SHAKE parameter sets (ref/Makefile:10-13). -/
def impl : HashImpl where
  initialize_hash_function := initialize_hash_function
  prf_addr := prf_addr P g
  thash := if P.robust then thash_robust P g else thash_simple P g
  gen_message_random := gen_message_random P g
  hash_message := hash_message P g

end Shake

end Spx.Leak
