import Verif.Model.Fips202
/-! # Model of the vectorised Keccak permutations

shake-a64/f1600x2.s (two lanes, ARMv8.2 SHA-3 instructions) and
shake-avx2/keccak4x/KeccakP-1600-times4-SIMD256.c (four lanes, AVX2).

Generated in part from the source text: the rounds are a literal transcription, one `let` for each
instruction or statement.  The vector instructions are modelled after the vendors' manuals (ARM
Architecture Reference Manual C7.2; Intel Intrinsics Guide): this is trusted.

Memory is a list of 64-bit words: `uint64_t state[50]` (shake-a64) and `__m256i state[25]`
(shake-avx2, 100 words).  Word `i` of lane `j` is at index `L*i + j` in both.  Both machines are
little-endian. -/

namespace Spx

/-- A vector register: lane ↦ 64-bit word.  Lanes from `L` on do not exist in the machine; no
operation moves data between lanes except `shuffle_epi8`, which stays in its 128-bit half. -/
abbrev VReg := Nat → BitVec 64

/-- EOR3: `Vd = Vn EOR Vm EOR Va` -/
def eor3 (n m a : VReg) : VReg := fun l => n l ^^^ m l ^^^ a l
/-- RAX1: `Vd = Vn EOR ROL(Vm, 1)` in each 64-bit element -/
def rax1 (n m : VReg) : VReg := fun l => n l ^^^ (m l).rotateLeft 1
/-- XAR: `Vd = ROR(Vn EOR Vm, imm6)` in each 64-bit element -/
def xar (n m : VReg) (k : Nat) : VReg := fun l => (n l ^^^ m l).rotateRight k
/-- BCAX: `Vd = Vn EOR (Vm AND NOT(Va))` -/
def bcax (n m a : VReg) : VReg := fun l => n l ^^^ (m l &&& ~~~a l)
/-- EOR (vector), `_mm256_xor_si256` -/
def vxor (n m : VReg) : VReg := fun l => n l ^^^ m l
/-- LD1R, `_mm256_broadcast_sd`, `_mm256_set1_epi64x`: one 64-bit value in every lane -/
def vdup (w : BitVec 64) : VReg := fun _ => w
/-- `_mm256_andnot_si256(a, b)` -/
def vandn (a b : VReg) : VReg := fun l => ~~~a l &&& b l
/-- `_mm256_or_si256` -/
def vor (a b : VReg) : VReg := fun l => a l ||| b l
/-- `_mm256_slli_epi64` -/
def vsll (a : VReg) (k : Nat) : VReg := fun l => a l <<< k
/-- `_mm256_srli_epi64` -/
def vsrl (a : VReg) (k : Nat) : VReg := fun l => a l >>> k

/-- Byte `c` of a word, least significant first. -/
def vbyte (w : BitVec 64) (c : Nat) : Byte := (w >>> (8 * c)).truncate 8

/-- `_mm256_shuffle_epi8(a, m)`: in each 128-bit half, byte `p` of the result is byte `m[p] & 15` of
that half of `a`, or 0 if bit 7 of `m[p]` is set. -/
def shuffle_epi8 (a m : VReg) : VReg := fun l =>
  (List.range 8).foldl (fun (w : BitVec 64) c =>
    let s := vbyte (m l) c
    let k := (s &&& 15#8).toNat
    let b : Byte := if s.getLsbD 7 then 0#8 else vbyte (a (2 * (l / 2) + k / 8)) (k % 8)
    w ||| (b.zeroExtend 64 <<< (8 * c))) 0#64

/-- 25 vector registers: `v0 … v24` of f1600x2.s, `Aba … Asu` and `Eba … Esu` of the AVX2 code. -/
structure VLanes where
  (ba be bi bo bu : VReg)
  (ga ge gi go gu : VReg)
  (ka ke ki ko ku : VReg)
  (ma me mi mo mu : VReg)
  (sa se si so su : VReg)

/-- The registers in the order of the state array. -/
def VLanes.toList (A : VLanes) : List VReg :=
  [A.ba, A.be, A.bi, A.bo, A.bu, A.ga, A.ge, A.gi, A.go, A.gu, A.ka, A.ke, A.ki, A.ko, A.ku, A.ma,
    A.me, A.mi, A.mo, A.mu, A.sa, A.se, A.si, A.so, A.su]

/-- Load vector `i` of `L` words: LD1, `_mm256_load_si256(&state[i])`. -/
def getw (L : Nat) (s : List (BitVec 64)) (i : Nat) : C VReg := do
  let x ← rd s (L * i) L
  .ok fun j => x.getD j 0

/-- Store vector `i` of `L` words: ST1, `_mm256_store_si256(&state[i], w)`; also the `L` assignments
`state[L*i + j] = w(j)`. -/
def setw (L : Nat) (s : List (BitVec 64)) (i : Nat) (w : VReg) : C (List (BitVec 64)) :=
  wr s (L * i) ((List.range L).map w)

/-- shake-a64/f1600x2.s:115-121 (LD1 of consecutive vectors), `copyFromState`,
KeccakP-1600-times4-SIMD256.c:714-739 -/
def VLanes.load (L : Nat) (s : List (BitVec 64)) : C VLanes := do
  let ba ← getw L s 0
  let be ← getw L s 1
  let bi ← getw L s 2
  let bo ← getw L s 3
  let bu ← getw L s 4
  let ga ← getw L s 5
  let ge ← getw L s 6
  let gi ← getw L s 7
  let go ← getw L s 8
  let gu ← getw L s 9
  let ka ← getw L s 10
  let ke ← getw L s 11
  let ki ← getw L s 12
  let ko ← getw L s 13
  let ku ← getw L s 14
  let ma ← getw L s 15
  let me ← getw L s 16
  let mi ← getw L s 17
  let mo ← getw L s 18
  let mu ← getw L s 19
  let sa ← getw L s 20
  let se ← getw L s 21
  let si ← getw L s 22
  let so ← getw L s 23
  let su ← getw L s 24
  .ok ⟨ba, be, bi, bo, bu, ga, ge, gi, go, gu, ka, ke, ki, ko, ku, ma, me, mi, mo, mu, sa, se, si, so, su⟩

/-- shake-a64/f1600x2.s:130-136, `copyToState`, KeccakP-1600-times4-SIMD256.c:741-766 -/
def VLanes.store (L : Nat) (A : VLanes) (s : List (BitVec 64)) : C (List (BitVec 64)) :=
  forRange 25 (fun i s => do setw L s i (← rd1 A.toList i)) s

/-- `f1600_RC`, shake-a64/f1600x2_const.c:3-28 -/
def f1600_RC : List (BitVec 64) := [
  0x0000000000000001#64, 0x0000000000008082#64, 0x800000000000808A#64, 0x8000000080008000#64,
  0x000000000000808B#64, 0x0000000080000001#64, 0x8000000080008081#64, 0x8000000000008009#64,
  0x000000000000008A#64, 0x0000000000000088#64, 0x0000000080008009#64, 0x000000008000000A#64,
  0x000000008000808B#64, 0x800000000000008B#64, 0x8000000000008089#64, 0x8000000000008003#64,
  0x8000000000008002#64, 0x8000000000000080#64, 0x000000000000800A#64, 0x800000008000000A#64,
  0x8000000080008081#64, 0x8000000000008080#64, 0x0000000080000001#64, 0x8000000080008008#64]

/-- The macro `round`, shake-a64/f1600x2.s:3-102; `rc` is the word loaded from `[x1]`. -/
def a64_round (rc : BitVec 64) : VLanes → VLanes
  | ⟨v0, v1, v2, v3, v4, v5, v6, v7, v8, v9, v10, v11, v12, v13, v14, v15, v16, v17, v18, v19,
    v20, v21, v22, v23, v24⟩ =>
    let v25 := eor3 v0 v5 v10
    let v26 := eor3 v1 v6 v11
    let v27 := eor3 v2 v7 v12
    let v28 := eor3 v3 v8 v13
    let v29 := eor3 v4 v9 v14
    let v25 := eor3 v25 v15 v20
    let v26 := eor3 v26 v16 v21
    let v27 := eor3 v27 v17 v22
    let v28 := eor3 v28 v18 v23
    let v29 := eor3 v29 v19 v24
    let v30 := rax1 v29 v26
    let v29 := rax1 v27 v29
    let v27 := rax1 v25 v27
    let v25 := rax1 v28 v25
    let v28 := rax1 v26 v28
    let v0 := vxor v0 v30
    let v31 := v1
    let v1 := xar v6 v27 20
    let v6 := xar v9 v25 44
    let v9 := xar v22 v28 3
    let v22 := xar v14 v25 25
    let v14 := xar v20 v30 46
    let v20 := xar v2 v28 2
    let v2 := xar v12 v28 21
    let v12 := xar v13 v29 39
    let v13 := xar v19 v25 56
    let v19 := xar v23 v29 8
    let v23 := xar v15 v30 23
    let v15 := xar v4 v25 37
    let v4 := xar v24 v25 50
    let v24 := xar v21 v27 62
    let v21 := xar v8 v29 9
    let v8 := xar v16 v27 19
    let v16 := xar v5 v30 28
    let v5 := xar v3 v29 36
    let v3 := xar v18 v29 43
    let v18 := xar v17 v28 49
    let v17 := xar v11 v27 54
    let v11 := xar v7 v28 58
    let v7 := xar v10 v30 61
    let v10 := xar v31 v27 63
    let v25 := bcax v0 v2 v1
    let v26 := bcax v1 v3 v2
    let v2 := bcax v2 v4 v3
    let v3 := bcax v3 v0 v4
    let v4 := bcax v4 v1 v0
    let v0 := v25
    let v1 := v26
    let v25 := bcax v5 v7 v6
    let v26 := bcax v6 v8 v7
    let v7 := bcax v7 v9 v8
    let v8 := bcax v8 v5 v9
    let v9 := bcax v9 v6 v5
    let v5 := v25
    let v6 := v26
    let v25 := bcax v10 v12 v11
    let v26 := bcax v11 v13 v12
    let v12 := bcax v12 v14 v13
    let v13 := bcax v13 v10 v14
    let v14 := bcax v14 v11 v10
    let v10 := v25
    let v11 := v26
    let v25 := bcax v15 v17 v16
    let v26 := bcax v16 v18 v17
    let v17 := bcax v17 v19 v18
    let v18 := bcax v18 v15 v19
    let v19 := bcax v19 v16 v15
    let v15 := v25
    let v16 := v26
    let v25 := bcax v20 v22 v21
    let v26 := bcax v21 v23 v22
    let v22 := bcax v22 v24 v23
    let v23 := bcax v23 v20 v24
    let v24 := bcax v24 v21 v20
    let v20 := v25
    let v21 := v26
    let v25 := vdup rc
    let v0 := vxor v0 v25
    ⟨v0, v1, v2, v3, v4, v5, v6, v7, v8, v9, v10, v11, v12, v13, v14, v15, v16, v17, v18, v19,
    v20, v21, v22, v23, v24⟩

/-- `f1600x2(s)`, shake-a64/f1600x2.h:9 and f1600x2.s:106-143.  (The saved registers d8…d15 and the
stack are not modelled; all of v25…v31 are written in a round before they are read.) -/
def f1600x2 (s : List (BitVec 64)) : C (List (BitVec 64)) := do
  let V ← VLanes.load 2 s
  let V ← forRange 24 (fun i V => do .ok (a64_round (← rd1 f1600_RC i) V)) V
  V.store 2 s

/-- `ROL64in256(d, a, o)`, KeccakP-1600-times4-SIMD256.c:46 -/
def ROL64in256 (a : VReg) (o : Nat) : VReg := vor (vsll a o) (vsrl a (64 - o))

/-- `rho8`, KeccakP-1600-times4-SIMD256.c:49 -/
def rho8 : List (BitVec 64) :=
  [0x0605040302010007#64, 0x0E0D0C0B0A09080F#64, 0x1615141312111017#64, 0x1E1D1C1B1A19181F#64]
/-- `rho56`, KeccakP-1600-times4-SIMD256.c:50 -/
def rho56 : List (BitVec 64) :=
  [0x0007060504030201#64, 0x080F0E0D0C0B0A09#64, 0x1017161514131211#64, 0x181F1E1D1C1B1A19#64]

/-- `ROL64in256_8(d, a)`, KeccakP-1600-times4-SIMD256.c:47 -/
def ROL64in256_8 (a : VReg) : VReg := shuffle_epi8 a (fun l => rho8.getD l 0)
/-- `ROL64in256_56(d, a)`, KeccakP-1600-times4-SIMD256.c:48 -/
def ROL64in256_56 (a : VReg) : VReg := shuffle_epi8 a (fun l => rho56.getD l 0)

/-- `KeccakF1600RoundConstants`, KeccakP-1600-times4-SIMD256.c:688-712 -/
def KeccakF1600RoundConstants : List (BitVec 64) := [
  0x0000000000000001#64, 0x0000000000008082#64, 0x800000000000808a#64, 0x8000000080008000#64,
  0x000000000000808b#64, 0x0000000080000001#64, 0x8000000080008081#64, 0x8000000000008009#64,
  0x000000000000008a#64, 0x0000000000000088#64, 0x0000000080008009#64, 0x000000008000000a#64,
  0x000000008000808b#64, 0x800000000000008b#64, 0x8000000000008089#64, 0x8000000000008003#64,
  0x8000000000008002#64, 0x8000000000000080#64, 0x000000000000800a#64, 0x800000008000000a#64,
  0x8000000080008081#64, 0x8000000000008080#64, 0x0000000080000001#64, 0x8000000080008008#64]

/-- The column parities `Ca, Ce, Ci, Co, Cu`, KeccakP-1600-times4-SIMD256.c:455 -/
structure VCols where
  (a e i o u : VReg)

/-- `prepareTheta`, KeccakP-1600-times4-SIMD256.c:464-469 -/
def prepareTheta : VLanes → VCols
  | ⟨Aba, Abe, Abi, Abo, Abu, Aga, Age, Agi, Ago, Agu, Aka, Ake, Aki, Ako, Aku, Ama, Ame, Ami,
    Amo, Amu, Asa, Ase, Asi, Aso, Asu⟩ =>
    let Ca := vxor Aba (vxor Aga (vxor Aka (vxor Ama Asa)))
    let Ce := vxor Abe (vxor Age (vxor Ake (vxor Ame Ase)))
    let Ci := vxor Abi (vxor Agi (vxor Aki (vxor Ami Asi)))
    let Co := vxor Abo (vxor Ago (vxor Ako (vxor Amo Aso)))
    let Cu := vxor Abu (vxor Agu (vxor Aku (vxor Amu Asu)))
    ⟨Ca, Ce, Ci, Co, Cu⟩

/-- `thetaRhoPiChiIotaPrepareTheta(i, A, E)`, KeccakP-1600-times4-SIMD256.c:473-590; `rc` is
`KeccakF1600RoundConstants[i]`.  The changed `A` variables are not returned: the next use of the macro
assigns all of them before reading. -/
def thetaRhoPiChiIotaPrepareTheta (rc : BitVec 64) : VCols → VLanes → VCols × VLanes
  | ⟨Ca, Ce, Ci, Co, Cu⟩, ⟨Aba, Abe, Abi, Abo, Abu, Aga, Age, Agi, Ago, Agu, Aka, Ake, Aki, Ako, Aku, Ama, Ame, Ami,
    Amo, Amu, Asa, Ase, Asi, Aso, Asu⟩ =>
    let Ce1 := ROL64in256 Ce 1
    let Da := vxor Cu Ce1
    let Ci1 := ROL64in256 Ci 1
    let De := vxor Ca Ci1
    let Co1 := ROL64in256 Co 1
    let Di := vxor Ce Co1
    let Cu1 := ROL64in256 Cu 1
    let Do := vxor Ci Cu1
    let Ca1 := ROL64in256 Ca 1
    let Du := vxor Co Ca1
    let Aba := vxor Aba Da
    let Bba := Aba
    let Age := vxor Age De
    let Bbe := ROL64in256 Age 44
    let Aki := vxor Aki Di
    let Bbi := ROL64in256 Aki 43
    let Eba := vxor Bba (vandn Bbe Bbi)
    let Eba := vxor Eba (vdup rc)
    let Ca := Eba
    let Amo := vxor Amo Do
    let Bbo := ROL64in256 Amo 21
    let Ebe := vxor Bbe (vandn Bbi Bbo)
    let Ce := Ebe
    let Asu := vxor Asu Du
    let Bbu := ROL64in256 Asu 14
    let Ebi := vxor Bbi (vandn Bbo Bbu)
    let Ci := Ebi
    let Ebo := vxor Bbo (vandn Bbu Bba)
    let Co := Ebo
    let Ebu := vxor Bbu (vandn Bba Bbe)
    let Cu := Ebu
    let Abo := vxor Abo Do
    let Bga := ROL64in256 Abo 28
    let Agu := vxor Agu Du
    let Bge := ROL64in256 Agu 20
    let Aka := vxor Aka Da
    let Bgi := ROL64in256 Aka 3
    let Ega := vxor Bga (vandn Bge Bgi)
    let Ca := vxor Ca Ega
    let Ame := vxor Ame De
    let Bgo := ROL64in256 Ame 45
    let Ege := vxor Bge (vandn Bgi Bgo)
    let Ce := vxor Ce Ege
    let Asi := vxor Asi Di
    let Bgu := ROL64in256 Asi 61
    let Egi := vxor Bgi (vandn Bgo Bgu)
    let Ci := vxor Ci Egi
    let Ego := vxor Bgo (vandn Bgu Bga)
    let Co := vxor Co Ego
    let Egu := vxor Bgu (vandn Bga Bge)
    let Cu := vxor Cu Egu
    let Abe := vxor Abe De
    let Bka := ROL64in256 Abe 1
    let Agi := vxor Agi Di
    let Bke := ROL64in256 Agi 6
    let Ako := vxor Ako Do
    let Bki := ROL64in256 Ako 25
    let Eka := vxor Bka (vandn Bke Bki)
    let Ca := vxor Ca Eka
    let Amu := vxor Amu Du
    let Bko := ROL64in256_8 Amu
    let Eke := vxor Bke (vandn Bki Bko)
    let Ce := vxor Ce Eke
    let Asa := vxor Asa Da
    let Bku := ROL64in256 Asa 18
    let Eki := vxor Bki (vandn Bko Bku)
    let Ci := vxor Ci Eki
    let Eko := vxor Bko (vandn Bku Bka)
    let Co := vxor Co Eko
    let Eku := vxor Bku (vandn Bka Bke)
    let Cu := vxor Cu Eku
    let Abu := vxor Abu Du
    let Bma := ROL64in256 Abu 27
    let Aga := vxor Aga Da
    let Bme := ROL64in256 Aga 36
    let Ake := vxor Ake De
    let Bmi := ROL64in256 Ake 10
    let Ema := vxor Bma (vandn Bme Bmi)
    let Ca := vxor Ca Ema
    let Ami := vxor Ami Di
    let Bmo := ROL64in256 Ami 15
    let Eme := vxor Bme (vandn Bmi Bmo)
    let Ce := vxor Ce Eme
    let Aso := vxor Aso Do
    let Bmu := ROL64in256_56 Aso
    let Emi := vxor Bmi (vandn Bmo Bmu)
    let Ci := vxor Ci Emi
    let Emo := vxor Bmo (vandn Bmu Bma)
    let Co := vxor Co Emo
    let Emu := vxor Bmu (vandn Bma Bme)
    let Cu := vxor Cu Emu
    let Abi := vxor Abi Di
    let Bsa := ROL64in256 Abi 62
    let Ago := vxor Ago Do
    let Bse := ROL64in256 Ago 55
    let Aku := vxor Aku Du
    let Bsi := ROL64in256 Aku 39
    let Esa := vxor Bsa (vandn Bse Bsi)
    let Ca := vxor Ca Esa
    let Ama := vxor Ama Da
    let Bso := ROL64in256 Ama 41
    let Ese := vxor Bse (vandn Bsi Bso)
    let Ce := vxor Ce Ese
    let Ase := vxor Ase De
    let Bsu := ROL64in256 Ase 2
    let Esi := vxor Bsi (vandn Bso Bsu)
    let Ci := vxor Ci Esi
    let Eso := vxor Bso (vandn Bsu Bsa)
    let Co := vxor Co Eso
    let Esu := vxor Bsu (vandn Bsa Bse)
    let Cu := vxor Cu Esu
    (⟨Ca, Ce, Ci, Co, Cu⟩, ⟨Eba, Ebe, Ebi, Ebo, Ebu, Ega, Ege, Egi, Ego, Egu, Eka, Eke, Eki, Eko, Eku, Ema, Eme, Emi,
    Emo, Emu, Esa, Ese, Esi, Eso, Esu⟩)

/-- `thetaRhoPiChiIota(i, A, E)`, KeccakP-1600-times4-SIMD256.c:594-686 -/
def thetaRhoPiChiIota (rc : BitVec 64) : VCols → VLanes → VLanes
  | ⟨Ca, Ce, Ci, Co, Cu⟩, ⟨Aba, Abe, Abi, Abo, Abu, Aga, Age, Agi, Ago, Agu, Aka, Ake, Aki, Ako, Aku, Ama, Ame, Ami,
    Amo, Amu, Asa, Ase, Asi, Aso, Asu⟩ =>
    let Ce1 := ROL64in256 Ce 1
    let Da := vxor Cu Ce1
    let Ci1 := ROL64in256 Ci 1
    let De := vxor Ca Ci1
    let Co1 := ROL64in256 Co 1
    let Di := vxor Ce Co1
    let Cu1 := ROL64in256 Cu 1
    let Do := vxor Ci Cu1
    let Ca1 := ROL64in256 Ca 1
    let Du := vxor Co Ca1
    let Aba := vxor Aba Da
    let Bba := Aba
    let Age := vxor Age De
    let Bbe := ROL64in256 Age 44
    let Aki := vxor Aki Di
    let Bbi := ROL64in256 Aki 43
    let Eba := vxor Bba (vandn Bbe Bbi)
    let Eba := vxor Eba (vdup rc)
    let Amo := vxor Amo Do
    let Bbo := ROL64in256 Amo 21
    let Ebe := vxor Bbe (vandn Bbi Bbo)
    let Asu := vxor Asu Du
    let Bbu := ROL64in256 Asu 14
    let Ebi := vxor Bbi (vandn Bbo Bbu)
    let Ebo := vxor Bbo (vandn Bbu Bba)
    let Ebu := vxor Bbu (vandn Bba Bbe)
    let Abo := vxor Abo Do
    let Bga := ROL64in256 Abo 28
    let Agu := vxor Agu Du
    let Bge := ROL64in256 Agu 20
    let Aka := vxor Aka Da
    let Bgi := ROL64in256 Aka 3
    let Ega := vxor Bga (vandn Bge Bgi)
    let Ame := vxor Ame De
    let Bgo := ROL64in256 Ame 45
    let Ege := vxor Bge (vandn Bgi Bgo)
    let Asi := vxor Asi Di
    let Bgu := ROL64in256 Asi 61
    let Egi := vxor Bgi (vandn Bgo Bgu)
    let Ego := vxor Bgo (vandn Bgu Bga)
    let Egu := vxor Bgu (vandn Bga Bge)
    let Abe := vxor Abe De
    let Bka := ROL64in256 Abe 1
    let Agi := vxor Agi Di
    let Bke := ROL64in256 Agi 6
    let Ako := vxor Ako Do
    let Bki := ROL64in256 Ako 25
    let Eka := vxor Bka (vandn Bke Bki)
    let Amu := vxor Amu Du
    let Bko := ROL64in256_8 Amu
    let Eke := vxor Bke (vandn Bki Bko)
    let Asa := vxor Asa Da
    let Bku := ROL64in256 Asa 18
    let Eki := vxor Bki (vandn Bko Bku)
    let Eko := vxor Bko (vandn Bku Bka)
    let Eku := vxor Bku (vandn Bka Bke)
    let Abu := vxor Abu Du
    let Bma := ROL64in256 Abu 27
    let Aga := vxor Aga Da
    let Bme := ROL64in256 Aga 36
    let Ake := vxor Ake De
    let Bmi := ROL64in256 Ake 10
    let Ema := vxor Bma (vandn Bme Bmi)
    let Ami := vxor Ami Di
    let Bmo := ROL64in256 Ami 15
    let Eme := vxor Bme (vandn Bmi Bmo)
    let Aso := vxor Aso Do
    let Bmu := ROL64in256_56 Aso
    let Emi := vxor Bmi (vandn Bmo Bmu)
    let Emo := vxor Bmo (vandn Bmu Bma)
    let Emu := vxor Bmu (vandn Bma Bme)
    let Abi := vxor Abi Di
    let Bsa := ROL64in256 Abi 62
    let Ago := vxor Ago Do
    let Bse := ROL64in256 Ago 55
    let Aku := vxor Aku Du
    let Bsi := ROL64in256 Aku 39
    let Esa := vxor Bsa (vandn Bse Bsi)
    let Ama := vxor Ama Da
    let Bso := ROL64in256 Ama 41
    let Ese := vxor Bse (vandn Bsi Bso)
    let Ase := vxor Ase De
    let Bsu := ROL64in256 Ase 2
    let Esi := vxor Bsi (vandn Bso Bsu)
    let Eso := vxor Bso (vandn Bsu Bsa)
    let Esu := vxor Bsu (vandn Bsa Bse)
    ⟨Eba, Ebe, Ebi, Ebo, Ebu, Ega, Ege, Egi, Ego, Egu, Eka, Eke, Eki, Eko, Eku, Ema, Eme, Emi,
    Emo, Emu, Esa, Ese, Esi, Eso, Esu⟩

/-- `KeccakP1600times4_PermuteAll_24rounds`, KeccakP-1600-times4-SIMD256.c:802-813 with `rounds24`,
KeccakP-1600-unrolling.macros:15-41: the macros are used for rounds 0 … 22 (alternating the roles of
`A` and `E`) and round 23. -/
def KeccakP1600times4_PermuteAll_24rounds (s : List (BitVec 64)) : C (List (BitVec 64)) := do
  let A ← VLanes.load 4 s
  let (Cs, A) ← forRange 23 (fun i (st : VCols × VLanes) => do
    .ok (thetaRhoPiChiIotaPrepareTheta (← rd1 KeccakF1600RoundConstants i) st.1 st.2)) (prepareTheta A, A)
  let A := thetaRhoPiChiIota (← rd1 KeccakF1600RoundConstants 23) Cs A
  A.store 4 s

end Spx
