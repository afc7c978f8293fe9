import Verif.Base
/-! # Model of ref/fips202.c

Generated in part from the C text: the two unrolled rounds are a literal transcription. -/

namespace Spx

/-- `load64`, ref/fips202.c:25-32: `r |= x[i] << 8*i` for `i < 8`. -/
def load64 (x : Bytes) : C (BitVec 64) :=
  forRange 8 (fun i r => do .ok (r ||| ((← rd1 x i).zeroExtend 64 <<< (8 * i)))) 0#64

/-- `store64`, ref/fips202.c:42-46: `x[i] = u >> 8*i` for `i < 8`. -/
def store64 (x : Bytes) (u : BitVec 64) : C Bytes :=
  forRange 8 (fun i x => wr1 x i ((u >>> (8 * i)).truncate 8)) x

/-- `ROL`, ref/fips202.c:14 -/
def ROL (a : BitVec 64) (offset : Nat) : BitVec 64 := (a <<< offset) ^^^ (a >>> (64 - offset))

/-- `KeccakF_RoundConstants`, ref/fips202.c:49-62 -/
def KeccakF_RoundConstants : List (BitVec 64) := [
  0x0000000000000001#64, 0x0000000000008082#64, 0x800000000000808a#64, 0x8000000080008000#64,
  0x000000000000808b#64, 0x0000000080000001#64, 0x8000000080008081#64, 0x8000000000008009#64,
  0x000000000000008a#64, 0x0000000000000088#64, 0x0000000080008009#64, 0x000000008000000a#64,
  0x000000008000808b#64, 0x800000000000008b#64, 0x8000000000008089#64, 0x8000000000008003#64,
  0x8000000000008002#64, 0x8000000000000080#64, 0x000000000000800a#64, 0x800000008000000a#64,
  0x8000000080008081#64, 0x8000000000008080#64, 0x0000000080000001#64, 0x8000000080008008#64]

/-- The 25 local variables `Aba … Asu` (or `Eba … Esu`) of the permutation, ref/fips202.c:74-85. -/
structure Lanes where
  (ba be bi bo bu : BitVec 64)
  (ga ge gi go gu : BitVec 64)
  (ka ke ki ko ku : BitVec 64)
  (ma me mi mo mu : BitVec 64)
  (sa se si so su : BitVec 64)

/-- First half of the loop body (round `round`, from `A` to `E`), ref/fips202.c:116-208; `rc` is
`KeccakF_RoundConstants[round]`. -/
def keccak_round_even (rc : BitVec 64) : Lanes → Lanes
  | ⟨Aba, Abe, Abi, Abo, Abu, Aga, Age, Agi, Ago, Agu, Aka, Ake, Aki, Ako, Aku, Ama, Ame, Ami, Amo,
    Amu, Asa, Ase, Asi, Aso, Asu⟩ =>
    let BCa := Aba ^^^ Aga ^^^ Aka ^^^ Ama ^^^ Asa
    let BCe := Abe ^^^ Age ^^^ Ake ^^^ Ame ^^^ Ase
    let BCi := Abi ^^^ Agi ^^^ Aki ^^^ Ami ^^^ Asi
    let BCo := Abo ^^^ Ago ^^^ Ako ^^^ Amo ^^^ Aso
    let BCu := Abu ^^^ Agu ^^^ Aku ^^^ Amu ^^^ Asu
    let Da := BCu ^^^ ROL BCe 1
    let De := BCa ^^^ ROL BCi 1
    let Di := BCe ^^^ ROL BCo 1
    let Do := BCi ^^^ ROL BCu 1
    let Du := BCo ^^^ ROL BCa 1
    let Aba := Aba ^^^ Da
    let BCa := Aba
    let Age := Age ^^^ De
    let BCe := ROL Age 44
    let Aki := Aki ^^^ Di
    let BCi := ROL Aki 43
    let Amo := Amo ^^^ Do
    let BCo := ROL Amo 21
    let Asu := Asu ^^^ Du
    let BCu := ROL Asu 14
    let Eba := BCa ^^^ ((~~~BCe) &&& BCi)
    let Eba := Eba ^^^ rc
    let Ebe := BCe ^^^ ((~~~BCi) &&& BCo)
    let Ebi := BCi ^^^ ((~~~BCo) &&& BCu)
    let Ebo := BCo ^^^ ((~~~BCu) &&& BCa)
    let Ebu := BCu ^^^ ((~~~BCa) &&& BCe)
    let Abo := Abo ^^^ Do
    let BCa := ROL Abo 28
    let Agu := Agu ^^^ Du
    let BCe := ROL Agu 20
    let Aka := Aka ^^^ Da
    let BCi := ROL Aka 3
    let Ame := Ame ^^^ De
    let BCo := ROL Ame 45
    let Asi := Asi ^^^ Di
    let BCu := ROL Asi 61
    let Ega := BCa ^^^ ((~~~BCe) &&& BCi)
    let Ege := BCe ^^^ ((~~~BCi) &&& BCo)
    let Egi := BCi ^^^ ((~~~BCo) &&& BCu)
    let Ego := BCo ^^^ ((~~~BCu) &&& BCa)
    let Egu := BCu ^^^ ((~~~BCa) &&& BCe)
    let Abe := Abe ^^^ De
    let BCa := ROL Abe 1
    let Agi := Agi ^^^ Di
    let BCe := ROL Agi 6
    let Ako := Ako ^^^ Do
    let BCi := ROL Ako 25
    let Amu := Amu ^^^ Du
    let BCo := ROL Amu 8
    let Asa := Asa ^^^ Da
    let BCu := ROL Asa 18
    let Eka := BCa ^^^ ((~~~BCe) &&& BCi)
    let Eke := BCe ^^^ ((~~~BCi) &&& BCo)
    let Eki := BCi ^^^ ((~~~BCo) &&& BCu)
    let Eko := BCo ^^^ ((~~~BCu) &&& BCa)
    let Eku := BCu ^^^ ((~~~BCa) &&& BCe)
    let Abu := Abu ^^^ Du
    let BCa := ROL Abu 27
    let Aga := Aga ^^^ Da
    let BCe := ROL Aga 36
    let Ake := Ake ^^^ De
    let BCi := ROL Ake 10
    let Ami := Ami ^^^ Di
    let BCo := ROL Ami 15
    let Aso := Aso ^^^ Do
    let BCu := ROL Aso 56
    let Ema := BCa ^^^ ((~~~BCe) &&& BCi)
    let Eme := BCe ^^^ ((~~~BCi) &&& BCo)
    let Emi := BCi ^^^ ((~~~BCo) &&& BCu)
    let Emo := BCo ^^^ ((~~~BCu) &&& BCa)
    let Emu := BCu ^^^ ((~~~BCa) &&& BCe)
    let Abi := Abi ^^^ Di
    let BCa := ROL Abi 62
    let Ago := Ago ^^^ Do
    let BCe := ROL Ago 55
    let Aku := Aku ^^^ Du
    let BCi := ROL Aku 39
    let Ama := Ama ^^^ Da
    let BCo := ROL Ama 41
    let Ase := Ase ^^^ De
    let BCu := ROL Ase 2
    let Esa := BCa ^^^ ((~~~BCe) &&& BCi)
    let Ese := BCe ^^^ ((~~~BCi) &&& BCo)
    let Esi := BCi ^^^ ((~~~BCo) &&& BCu)
    let Eso := BCo ^^^ ((~~~BCu) &&& BCa)
    let Esu := BCu ^^^ ((~~~BCa) &&& BCe)
    ⟨Eba, Ebe, Ebi, Ebo, Ebu, Ega, Ege, Egi, Ego, Egu, Eka, Eke, Eki, Eko, Eku, Ema, Eme, Emi, Emo,
    Emu, Esa, Ese, Esi, Eso, Esu⟩

/-- Second half of the loop body (round `round+1`, from `E` back to `A`), ref/fips202.c:211-303; `rc` is
`KeccakF_RoundConstants[round + 1]`. -/
def keccak_round_odd (rc : BitVec 64) : Lanes → Lanes
  | ⟨Eba, Ebe, Ebi, Ebo, Ebu, Ega, Ege, Egi, Ego, Egu, Eka, Eke, Eki, Eko, Eku, Ema, Eme, Emi, Emo,
    Emu, Esa, Ese, Esi, Eso, Esu⟩ =>
    let BCa := Eba ^^^ Ega ^^^ Eka ^^^ Ema ^^^ Esa
    let BCe := Ebe ^^^ Ege ^^^ Eke ^^^ Eme ^^^ Ese
    let BCi := Ebi ^^^ Egi ^^^ Eki ^^^ Emi ^^^ Esi
    let BCo := Ebo ^^^ Ego ^^^ Eko ^^^ Emo ^^^ Eso
    let BCu := Ebu ^^^ Egu ^^^ Eku ^^^ Emu ^^^ Esu
    let Da := BCu ^^^ ROL BCe 1
    let De := BCa ^^^ ROL BCi 1
    let Di := BCe ^^^ ROL BCo 1
    let Do := BCi ^^^ ROL BCu 1
    let Du := BCo ^^^ ROL BCa 1
    let Eba := Eba ^^^ Da
    let BCa := Eba
    let Ege := Ege ^^^ De
    let BCe := ROL Ege 44
    let Eki := Eki ^^^ Di
    let BCi := ROL Eki 43
    let Emo := Emo ^^^ Do
    let BCo := ROL Emo 21
    let Esu := Esu ^^^ Du
    let BCu := ROL Esu 14
    let Aba := BCa ^^^ ((~~~BCe) &&& BCi)
    let Aba := Aba ^^^ rc
    let Abe := BCe ^^^ ((~~~BCi) &&& BCo)
    let Abi := BCi ^^^ ((~~~BCo) &&& BCu)
    let Abo := BCo ^^^ ((~~~BCu) &&& BCa)
    let Abu := BCu ^^^ ((~~~BCa) &&& BCe)
    let Ebo := Ebo ^^^ Do
    let BCa := ROL Ebo 28
    let Egu := Egu ^^^ Du
    let BCe := ROL Egu 20
    let Eka := Eka ^^^ Da
    let BCi := ROL Eka 3
    let Eme := Eme ^^^ De
    let BCo := ROL Eme 45
    let Esi := Esi ^^^ Di
    let BCu := ROL Esi 61
    let Aga := BCa ^^^ ((~~~BCe) &&& BCi)
    let Age := BCe ^^^ ((~~~BCi) &&& BCo)
    let Agi := BCi ^^^ ((~~~BCo) &&& BCu)
    let Ago := BCo ^^^ ((~~~BCu) &&& BCa)
    let Agu := BCu ^^^ ((~~~BCa) &&& BCe)
    let Ebe := Ebe ^^^ De
    let BCa := ROL Ebe 1
    let Egi := Egi ^^^ Di
    let BCe := ROL Egi 6
    let Eko := Eko ^^^ Do
    let BCi := ROL Eko 25
    let Emu := Emu ^^^ Du
    let BCo := ROL Emu 8
    let Esa := Esa ^^^ Da
    let BCu := ROL Esa 18
    let Aka := BCa ^^^ ((~~~BCe) &&& BCi)
    let Ake := BCe ^^^ ((~~~BCi) &&& BCo)
    let Aki := BCi ^^^ ((~~~BCo) &&& BCu)
    let Ako := BCo ^^^ ((~~~BCu) &&& BCa)
    let Aku := BCu ^^^ ((~~~BCa) &&& BCe)
    let Ebu := Ebu ^^^ Du
    let BCa := ROL Ebu 27
    let Ega := Ega ^^^ Da
    let BCe := ROL Ega 36
    let Eke := Eke ^^^ De
    let BCi := ROL Eke 10
    let Emi := Emi ^^^ Di
    let BCo := ROL Emi 15
    let Eso := Eso ^^^ Do
    let BCu := ROL Eso 56
    let Ama := BCa ^^^ ((~~~BCe) &&& BCi)
    let Ame := BCe ^^^ ((~~~BCi) &&& BCo)
    let Ami := BCi ^^^ ((~~~BCo) &&& BCu)
    let Amo := BCo ^^^ ((~~~BCu) &&& BCa)
    let Amu := BCu ^^^ ((~~~BCa) &&& BCe)
    let Ebi := Ebi ^^^ Di
    let BCa := ROL Ebi 62
    let Ego := Ego ^^^ Do
    let BCe := ROL Ego 55
    let Eku := Eku ^^^ Du
    let BCi := ROL Eku 39
    let Ema := Ema ^^^ Da
    let BCo := ROL Ema 41
    let Ese := Ese ^^^ De
    let BCu := ROL Ese 2
    let Asa := BCa ^^^ ((~~~BCe) &&& BCi)
    let Ase := BCe ^^^ ((~~~BCi) &&& BCo)
    let Asi := BCi ^^^ ((~~~BCo) &&& BCu)
    let Aso := BCo ^^^ ((~~~BCu) &&& BCa)
    let Asu := BCu ^^^ ((~~~BCa) &&& BCe)
    ⟨Aba, Abe, Abi, Abo, Abu, Aga, Age, Agi, Ago, Agu, Aka, Ake, Aki, Ako, Aku, Ama, Ame, Ami, Amo,
    Amu, Asa, Ase, Asi, Aso, Asu⟩

/-- One iteration of the loop, ref/fips202.c:114-304; `i` is `round / 2`. -/
def keccak_loop_body (i : Nat) (A : Lanes) : C Lanes := do
  let E := keccak_round_even (← rd1 KeccakF_RoundConstants (2 * i)) A
  .ok (keccak_round_odd (← rd1 KeccakF_RoundConstants (2 * i + 1)) E)

/-- `copyFromState`, ref/fips202.c:87-112 -/
def Lanes.load (s : List (BitVec 64)) : C Lanes := do
  let ba ← rd1 s 0
  let be ← rd1 s 1
  let bi ← rd1 s 2
  let bo ← rd1 s 3
  let bu ← rd1 s 4
  let ga ← rd1 s 5
  let ge ← rd1 s 6
  let gi ← rd1 s 7
  let go ← rd1 s 8
  let gu ← rd1 s 9
  let ka ← rd1 s 10
  let ke ← rd1 s 11
  let ki ← rd1 s 12
  let ko ← rd1 s 13
  let ku ← rd1 s 14
  let ma ← rd1 s 15
  let me ← rd1 s 16
  let mi ← rd1 s 17
  let mo ← rd1 s 18
  let mu ← rd1 s 19
  let sa ← rd1 s 20
  let se ← rd1 s 21
  let si ← rd1 s 22
  let so ← rd1 s 23
  let su ← rd1 s 24
  .ok ⟨ba, be, bi, bo, bu, ga, ge, gi, go, gu, ka, ke, ki, ko, ku, ma, me, mi, mo, mu, sa, se, si, so, su⟩

/-- The values written by `copyToState`, ref/fips202.c:307-331 -/
def Lanes.toList (A : Lanes) : List (BitVec 64) :=
  [A.ba, A.be, A.bi, A.bo, A.bu, A.ga, A.ge, A.gi, A.go, A.gu, A.ka, A.ke, A.ki, A.ko, A.ku, A.ma,
    A.me, A.mi, A.mo, A.mu, A.sa, A.se, A.si, A.so, A.su]

/-- `KeccakF1600_StatePermute`, ref/fips202.c:71-332; `state` is the object behind the pointer
(25 or 26 words), the first 25 words are replaced. -/
def KeccakF1600_StatePermute (state : List (BitVec 64)) : C (List (BitVec 64)) := do
  let A ← Lanes.load state
  let A ← forRange 12 keccak_loop_body A
  wr state 0 A.toList

/-- Body of the `while` loop of `keccak_absorb`, ref/fips202.c:357-365.  State: s, m, mlen. -/
def keccak_absorb_block (r : Nat) (st : List (BitVec 64) × Bytes × Nat) :
    C ((List (BitVec 64) × Bytes × Nat) ⊕ (List (BitVec 64) × Bytes × Nat)) := do
  let (s, m, mlen) := st
  if mlen ≥ r then
    let s ← forRange (r / 8) (fun i s => do
      wr1 s i ((← rd1 s i) ^^^ (← load64 (← sub m (8 * i))))) s
    let s ← KeccakF1600_StatePermute s
    .ok (.inl (s, ← sub m r, mlen - r))
  else .ok (.inr (s, m, mlen))

/-- `keccak_absorb`, ref/fips202.c:347-378.  `g` is the uninitialised local `t`. -/
def keccak_absorb (g : Nat → Byte) (s : List (BitVec 64)) (r : Nat) (m : Bytes) (mlen : Nat) (p : Byte) :
    C (List (BitVec 64)) := do
  let s ← forRange 25 (fun i s => wr1 s i 0#64) s
  let (s, m, mlen) ← loop (mlen + 1) (keccak_absorb_block r) (s, m, mlen)
  let t ← forRange r (fun i t => wr1 t i 0#8) (uninit g 200)
  let t ← forRange mlen (fun i t => do wr1 t i (← rd1 m i)) t
  let t ← wr1 t mlen p
  let t ← wr1 t (r - 1) ((← rd1 t (r - 1)) ||| 128#8)
  forRange (r / 8) (fun i s => do
    wr1 s i ((← rd1 s i) ^^^ (← load64 (← sub t (8 * i))))) s

/-- `keccak_squeezeblocks`, ref/fips202.c:393-403.  State: the output buffer, the offset of the
moving pointer `h`, the Keccak state. -/
def keccak_squeezeblocks (h : Bytes) (nblocks : Nat) (s : List (BitVec 64)) (r : Nat) :
    C (Bytes × List (BitVec 64)) := do
  let (h, _, s) ← forRange nblocks (fun _ (st : Bytes × Nat × List (BitVec 64)) => do
    let (h, off, s) := st
    let s ← KeccakF1600_StatePermute s
    let (h, _) ← withSub h off (fun hh => do
      let hh ← forRange (r >>> 3) (fun i hh => do
        let (hh, _) ← withSub hh (8 * i) (fun x => do .ok (← store64 x (← rd1 s i), ()))
        .ok hh) hh
      .ok (hh, ()))
    .ok (h, off + r, s)) (h, 0, s)
  .ok (h, s)

/-- `keccak_inc_init`, ref/fips202.c:415-422 -/
def keccak_inc_init (s_inc : List (BitVec 64)) : C (List (BitVec 64)) := do
  let s ← forRange 25 (fun i s => wr1 s i 0#64) s_inc
  wr1 s 25 0#64

/-- `s_inc[k >> 3] ^= (uint64_t)b << (8 * (k & 0x07))`, the statement used in
ref/fips202.c:447, 457, 478 and 479. -/
def keccak_xor_byte (s_inc : List (BitVec 64)) (k : Nat) (b : Byte) : C (List (BitVec 64)) := do
  wr1 s_inc (k >>> 3) ((← rd1 s_inc (k >>> 3)) ^^^ (b.zeroExtend 64 <<< (8 * (k &&& 7))))

/-- The `for` loops of `keccak_inc_absorb`, ref/fips202.c:444-448 and 456-458: the first `len` bytes
of `m` are added.  `s_inc[25]` is read once instead of in every iteration; the loop does not write it. -/
def keccak_inc_xor (s_inc : List (BitVec 64)) (m : Bytes) (len : Nat) : C (List (BitVec 64)) := do
  let c ← rd1 s_inc 25
  forRange len (fun i s => do keccak_xor_byte s (c.toNat + i) (← rd1 m i)) s_inc

/-- Body of the `while` loop of `keccak_inc_absorb`, ref/fips202.c:443-454.  State: s_inc, m, mlen.
`mlen + s_inc[25]` does not wrap for lengths below 2^63. -/
def keccak_inc_absorb_block (r : Nat) (st : List (BitVec 64) × Bytes × Nat) :
    C ((List (BitVec 64) × Bytes × Nat) ⊕ (List (BitVec 64) × Bytes × Nat)) := do
  let (s_inc, m, mlen) := st
  let c := (← rd1 s_inc 25).toNat
  if mlen + c ≥ r then
    let s_inc ← keccak_inc_xor s_inc m (r - c)
    let mlen := mlen - (r - c)
    let m ← sub m (r - c)
    let s_inc ← wr1 s_inc 25 0#64
    let s_inc ← KeccakF1600_StatePermute s_inc
    .ok (.inl (s_inc, m, mlen))
  else .ok (.inr (s_inc, m, mlen))

/-- `keccak_inc_absorb`, ref/fips202.c:438-460 -/
def keccak_inc_absorb (s_inc : List (BitVec 64)) (r : Nat) (m : Bytes) (mlen : Nat) :
    C (List (BitVec 64)) := do
  let (s_inc, m, mlen) ← loop (mlen + 2) (keccak_inc_absorb_block r) (s_inc, m, mlen)
  let s_inc ← keccak_inc_xor s_inc m mlen
  wr1 s_inc 25 ((← rd1 s_inc 25) + BitVec.ofNat 64 mlen)

/-- `keccak_inc_finalize`, ref/fips202.c:475-481 -/
def keccak_inc_finalize (s_inc : List (BitVec 64)) (r : Nat) (p : Byte) : C (List (BitVec 64)) := do
  let s_inc ← keccak_xor_byte s_inc (← rd1 s_inc 25).toNat p
  let s_inc ← keccak_xor_byte s_inc (r - 1) 128#8
  wr1 s_inc 25 0#64

/-- `(uint8_t)(s_inc[k >> 3] >> (8 * (k & 0x07)))`, used in ref/fips202.c:504 and 515. -/
def keccak_get_byte (s_inc : List (BitVec 64)) (k : Nat) : C Byte := do
  .ok (((← rd1 s_inc (k >>> 3)) >>> (8 * (k &&& 7))).truncate 8)

/-- Body of the `while` loop of `keccak_inc_squeeze`, ref/fips202.c:511-520.
State: output buffer, offset of the moving pointer `h`, outlen, s_inc. -/
def keccak_inc_squeeze_block (r : Nat) (st : Bytes × Nat × Nat × List (BitVec 64)) :
    C ((Bytes × Nat × Nat × List (BitVec 64)) ⊕ (Bytes × List (BitVec 64))) := do
  let (h, off, outlen, s_inc) := st
  if outlen > 0 then
    let s_inc ← KeccakF1600_StatePermute s_inc
    let i := min outlen r
    let h ← forRange i (fun i h => do wr1 h (off + i) (← keccak_get_byte s_inc i)) h
    let s_inc ← wr1 s_inc 25 (BitVec.ofNat 64 (r - i))
    .ok (.inl (h, off + i, outlen - i, s_inc))
  else .ok (.inr (h, s_inc))

/-- `keccak_inc_squeeze`, ref/fips202.c:496-521.  The two-sided loop conditions `i < outlen && i < x`
are loops up to the minimum. -/
def keccak_inc_squeeze (h : Bytes) (outlen : Nat) (s_inc : List (BitVec 64)) (r : Nat) :
    C (Bytes × List (BitVec 64)) := do
  let c := (← rd1 s_inc 25).toNat
  let i := min outlen c
  let h ← forRange i (fun i h => do wr1 h i (← keccak_get_byte s_inc (r - c + i))) h
  let s_inc ← wr1 s_inc 25 ((← rd1 s_inc 25) - BitVec.ofNat 64 i)
  loop (outlen + 1) (keccak_inc_squeeze_block r) (h, i, outlen - i, s_inc)

/-- `SHAKE256_RATE`, ref/fips202.h:8 -/
def SHAKE256_RATE : Nat := 136

/-- `shake256_inc_init`, ref/fips202.c:523-525 -/
def shake256_inc_init (s_inc : List (BitVec 64)) : C (List (BitVec 64)) := keccak_inc_init s_inc
/-- `shake256_inc_absorb`, ref/fips202.c:527-529 -/
def shake256_inc_absorb (s_inc : List (BitVec 64)) (input : Bytes) (inlen : Nat) : C (List (BitVec 64)) :=
  keccak_inc_absorb s_inc SHAKE256_RATE input inlen
/-- `shake256_inc_finalize`, ref/fips202.c:531-533 -/
def shake256_inc_finalize (s_inc : List (BitVec 64)) : C (List (BitVec 64)) :=
  keccak_inc_finalize s_inc SHAKE256_RATE 0x1F#8
/-- `shake256_inc_squeeze`, ref/fips202.c:535-537 -/
def shake256_inc_squeeze (output : Bytes) (outlen : Nat) (s_inc : List (BitVec 64)) :
    C (Bytes × List (BitVec 64)) := keccak_inc_squeeze output outlen s_inc SHAKE256_RATE
/-- `shake256_absorb`, ref/fips202.c:550-552 -/
def shake256_absorb (g : Nat → Byte) (s : List (BitVec 64)) (input : Bytes) (inlen : Nat) :
    C (List (BitVec 64)) := keccak_absorb g s SHAKE256_RATE input inlen 0x1F#8
/-- `shake256_squeezeblocks`, ref/fips202.c:567-569 -/
def shake256_squeezeblocks (output : Bytes) (nblocks : Nat) (s : List (BitVec 64)) :
    C (Bytes × List (BitVec 64)) := keccak_squeezeblocks output nblocks s SHAKE256_RATE

/-- `shake256`, ref/fips202.c:580-598.  `g` supplies the uninitialised locals (`g 0` the `t` of
keccak_absorb, `g 1` the `t` and `g 2` the `s` of this function). -/
def shake256 (g : Nat → Nat → Byte) (output : Bytes) (outlen : Nat) (input : Bytes) (inlen : Nat) :
    C Bytes := do
  let nblocks := outlen / SHAKE256_RATE
  let s := uninit (fun i => (g 2 i).zeroExtend 64) 25
  let s ← shake256_absorb (g 0) s input inlen
  let (output, s) ← shake256_squeezeblocks output nblocks s
  let off := nblocks * SHAKE256_RATE
  let outlen := outlen - nblocks * SHAKE256_RATE
  if outlen ≠ 0 then
    let (t, _) ← shake256_squeezeblocks (uninit (g 1) SHAKE256_RATE) 1 s
    forRange outlen (fun i output => do wr1 output (off + i) (← rd1 t i)) output
  else .ok output

end Spx
