import Verif.Base
import Verif.Spec.Sphincs
/-! # Model of the parameter headers (ref/params/*.h) and offset headers -/

namespace Spx

/-- Hash family, selected by the params header and the linked hash file (ref/Makefile:10-21). -/
inductive Family
  | sha2 | shake | haraka
  deriving DecidableEq, Repr

/-- The `#define`s of one params header (e.g. ref/params/params-sphincs-sha2-192f.h:7-24) together
with the thash variant (`THASH` in ref/Makefile). -/
structure Params where
  /-- SPX_N, line 7 -/
  n : Nat
  /-- SPX_FULL_HEIGHT, line 9 -/
  fullHeight : Nat
  /-- SPX_D, line 11 -/
  d : Nat
  /-- SPX_FORS_HEIGHT, line 13 -/
  forsHeight : Nat
  /-- SPX_FORS_TREES, line 14 -/
  forsTrees : Nat
  /-- SPX_WOTS_W, line 16 -/
  w : Nat
  fam : Family
  /-- thash_*_robust.c instead of thash_*_simple.c -/
  robust : Bool
  /-- SPX_SHA512, params-sphincs-sha2-*.h:24 (false for the other families) -/
  sha512 : Bool
  deriving DecidableEq, Repr

namespace Params

/-- SPX_WOTS_LOGW, params-sphincs-sha2-192f.h:30-36 -/
def logw (P : Params) : Nat := if P.w = 256 then 8 else 4
/-- SPX_WOTS_LEN1, params-sphincs-sha2-192f.h:38 -/
def len1 (P : Params) : Nat := 8 * P.n / P.logw
/-- SPX_WOTS_LEN2, params-sphincs-sha2-192f.h:41-59 (n > 256 is an `#error`, see `Valid`) -/
def len2 (P : Params) : Nat :=
  if P.w = 256 then
    if P.n ≤ 1 then 1 else 2
  else
    if P.n ≤ 8 then 2 else if P.n ≤ 136 then 3 else 4
/-- SPX_WOTS_LEN, params-sphincs-sha2-192f.h:61 -/
def wotsLen (P : Params) : Nat := P.len1 + P.len2
/-- SPX_WOTS_BYTES, params-sphincs-sha2-192f.h:62 -/
def wotsBytes (P : Params) : Nat := P.wotsLen * P.n
/-- SPX_TREE_HEIGHT, params-sphincs-sha2-192f.h:66 -/
def treeHeight (P : Params) : Nat := P.fullHeight / P.d
/-- SPX_FORS_MSG_BYTES, params-sphincs-sha2-192f.h:73 -/
def forsMsgBytes (P : Params) : Nat := (P.forsHeight * P.forsTrees + 7) / 8
/-- SPX_FORS_BYTES, params-sphincs-sha2-192f.h:74 -/
def forsBytes (P : Params) : Nat := (P.forsHeight + 1) * P.forsTrees * P.n
/-- SPX_BYTES, params-sphincs-sha2-192f.h:78-79 -/
def spxBytes (P : Params) : Nat :=
  P.n + P.forsBytes + P.d * P.wotsBytes + P.fullHeight * P.n
/-- SPX_PK_BYTES, params-sphincs-sha2-192f.h:80 -/
def pkBytes (P : Params) : Nat := 2 * P.n
/-- SPX_SK_BYTES, params-sphincs-sha2-192f.h:81 -/
def skBytes (P : Params) : Nat := 2 * P.n + P.pkBytes
/-- CRYPTO_SEEDBYTES, ref/api.h:14 -/
def seedBytes (P : Params) : Nat := 3 * P.n

/-- SPX_TREE_BITS, ref/hash_sha2.c:128 (same in hash_shake.c:63, hash_haraka.c:62) -/
def treeBits (P : Params) : Nat := P.treeHeight * (P.d - 1)
/-- SPX_TREE_BYTES, ref/hash_sha2.c:129 -/
def treeBytes (P : Params) : Nat := (P.treeBits + 7) / 8
/-- SPX_LEAF_BITS, ref/hash_sha2.c:130 -/
def leafBits (P : Params) : Nat := P.treeHeight
/-- SPX_LEAF_BYTES, ref/hash_sha2.c:131 -/
def leafBytes (P : Params) : Nat := (P.leafBits + 7) / 8
/-- SPX_DGST_BYTES, ref/hash_sha2.c:132 -/
def dgstBytes (P : Params) : Nat := P.forsMsgBytes + P.treeBytes + P.leafBytes

/-- The same parameters in the notation of the specification. -/
def toSpec (P : Params) : Spec.Par :=
  { n := P.n, h := P.fullHeight, d := P.d, a := P.forsHeight, k := P.forsTrees,
    lgw := if P.w = 256 then 8 else 4 }

/-- The `#error` checks of the headers and of address.c:21-23 / hash_*.c, plus the assumptions
the code makes without checking them: all of them are used by some proof. -/
structure Valid (P : Params) : Prop where
  /-- params header 30-36 -/
  w : P.w = 16 ∨ P.w = 256
  n_pos : 1 ≤ P.n
  /-- params header 47, 57 -/
  n_le : P.n ≤ 256
  d_pos : 1 ≤ P.d
  /-- params header 68 -/
  dvd : P.treeHeight * P.d = P.fullHeight
  /-- `1 << SPX_TREE_HEIGHT` in `int` -/
  th_pos : 1 ≤ P.treeHeight
  th_le : P.treeHeight ≤ 30
  /-- address.c:21, hash_sha2.c:181 -/
  tree_bits : P.treeBits ≤ 64
  /-- the layer field of an address is a byte -/
  d_le : P.d ≤ 256
  fh_pos : 1 ≤ P.forsHeight
  fh_le : P.forsHeight ≤ 30
  ft_pos : 1 ≤ P.forsTrees
  /-- FORS node indices count across trees in a `uint32_t` -/
  fors_idx : P.forsTrees * 2 ^ P.forsHeight ≤ 2 ^ 32
  /-- `inblocks * SPX_N` in thash is computed in `unsigned int` -/
  ft_n : P.forsTrees * P.n < 2 ^ 31
  /-- the chain field of an address is a byte -/
  len_le : P.wotsLen ≤ 256

/-- The part of `Valid` the WOTS digit code relies on. -/
structure WotsValid (P : Params) : Prop where
  w : P.w = 16 ∨ P.w = 256
  n_pos : 1 ≤ P.n
  n_le : P.n ≤ 256

theorem Valid.wots {P : Params} (h : P.Valid) : P.WotsValid := ⟨h.w, h.n_pos, h.n_le⟩

end Params

/-- SPX_OFFSET_LAYER, ref/sha2_offsets.h:9, shake_offsets.h:9, haraka_offsets.h:9 -/
def Family.offLayer : Family → Nat | .sha2 => 0 | _ => 3
/-- SPX_OFFSET_TREE, ref/sha2_offsets.h:10, shake_offsets.h:10, haraka_offsets.h:10 -/
def Family.offTree : Family → Nat | .sha2 => 1 | _ => 8
/-- SPX_OFFSET_TYPE, ref/sha2_offsets.h:11, shake_offsets.h:11, haraka_offsets.h:11 -/
def Family.offType : Family → Nat | .sha2 => 9 | _ => 19
/-- SPX_OFFSET_KP_ADDR, ref/sha2_offsets.h:12, shake_offsets.h:12, haraka_offsets.h:12 -/
def Family.offKp : Family → Nat | .sha2 => 10 | _ => 20
/-- SPX_OFFSET_CHAIN_ADDR, ref/sha2_offsets.h:13, shake_offsets.h:13, haraka_offsets.h:13 -/
def Family.offChain : Family → Nat | .sha2 => 17 | _ => 27
/-- SPX_OFFSET_HASH_ADDR, ref/sha2_offsets.h:14, shake_offsets.h:14, haraka_offsets.h:14 -/
def Family.offHash : Family → Nat | .sha2 => 21 | _ => 31
/-- SPX_OFFSET_TREE_HGT, ref/sha2_offsets.h:15, shake_offsets.h:15, haraka_offsets.h:15 -/
def Family.offTreeHgt : Family → Nat | .sha2 => 17 | _ => 27
/-- SPX_OFFSET_TREE_INDEX, ref/sha2_offsets.h:16, shake_offsets.h:16, haraka_offsets.h:16 -/
def Family.offTreeIndex : Family → Nat | .sha2 => 18 | _ => 28

end Spx
