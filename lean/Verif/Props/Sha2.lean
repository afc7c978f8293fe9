import Verif.Proof.Sha2
import Verif.Proof.List
/-! # SHA-256, SHA-512 and MGF1: C23, C24, C25 -/

namespace Spx
open Spec

/-- The message fed to the incremental interface: whole blocks by calls of `inc_blocks`, each with a
buffer and a number of blocks, and the rest. -/
def shaInput (blk : Nat) (calls : List (Bytes × Nat)) (tail : Bytes) : Bytes :=
  (calls.map fun q => q.1.take (q.2 * blk)).flatten ++ tail

/-- `sha256_inc_init`, any calls of `sha256_inc_blocks`, `sha256_inc_finalize` (and the same for SHA-512). -/
def shaRun {wb : Nat} (c : Sha2.Cfg wb) (g : Nat → Nat → Byte) (st out : Bytes) (calls : List (Bytes × Nat))
    (tail : Bytes) (inlen : Nat) : C (Bytes × Bytes) := do
  let st ← Sha2.inc_init c st
  let st ← calls.foldlM (fun st q => Sha2.inc_blocks c st q.1 q.2) st
  Sha2.inc_finalize c g out st tail inlen

theorem shaRun_spec {A : Sha2.Alg} {c : Spx.Sha2.Cfg A.wb} {mx : Nat} (ok : CfgOK A c mx) (g : Nat → Nat → Byte)
    {st out : Bytes} {calls : List (Bytes × Nat)} {tail : Bytes} {inlen : Nat} (hst : st.length = 8 * A.wb + 8)
    (ho : 8 * A.wb ≤ out.length) (hc : ∀ q ∈ calls, q.2 * (16 * A.wb) ≤ q.1.length) (ht : inlen ≤ tail.length)
    (hl : (shaInput (16 * A.wb) calls (tail.take inlen)).length < mx) :
    ∃ st', shaRun c g st out calls tail inlen =
      .ok (Sha2.hash A (shaInput (16 * A.wb) calls (tail.take inlen)) ++ out.drop (8 * A.wb), st') := by
  have hmx := ok.max
  have hlen : (shaInput (16 * A.wb) calls (tail.take inlen)).length =
      ((calls.map fun q => q.1.take (q.2 * (16 * A.wb))).flatten).length + inlen := by
    simp only [shaInput, List.length_append, List.length_take]
    omega
  obtain ⟨s1, e1, h1⟩ := inc_init_spec ok hst
  obtain ⟨s2, e2, h2⟩ := inc_blocks_all ok h1 calls hc (by rw [List.nil_append]; omega)
  rw [List.nil_append] at h2
  obtain ⟨s3, e3⟩ := inc_finalize_spec ok g h2 ht ho (by omega)
  refine ⟨s3, ?_⟩
  unfold shaRun
  rw [e1, ok_bind, e2, ok_bind, e3]
  rfl

/-- C23: the incremental SHA-256 interface, for every split of the input. -/
theorem C23_sha256_incremental (g : Nat → Nat → Byte) {st out : Bytes} {calls : List (Bytes × Nat)} {tail : Bytes}
    {inlen : Nat} (hst : st.length = 40) (ho : 32 ≤ out.length) (hc : ∀ q ∈ calls, q.2 * 64 ≤ q.1.length)
    (ht : inlen ≤ tail.length) (hl : (shaInput 64 calls (tail.take inlen)).length < 2 ^ 61) :
    ∃ st', shaRun Sha2.cfg256 g st out calls tail inlen =
      .ok (Sha2.sha256 (shaInput 64 calls (tail.take inlen)) ++ out.drop 32, st') :=
  shaRun_spec cfg256_ok g hst ho hc ht hl

/-- C23: the one-shot function. -/
theorem C23_sha256 (g : Nat → Nat → Byte) {inp out : Bytes} {inlen : Nat} (hi : inlen ≤ inp.length)
    (ho : 32 ≤ out.length) (hl : inlen < 2 ^ 61) :
    Sha2.sha Sha2.cfg256 g out inp inlen = .ok (Sha2.sha256 (inp.take inlen) ++ out.drop 32) :=
  sha_spec cfg256_ok g hi ho hl

/-- C24: the incremental SHA-512 interface, for every split of the input. -/
theorem C24_sha512_incremental (g : Nat → Nat → Byte) {st out : Bytes} {calls : List (Bytes × Nat)} {tail : Bytes}
    {inlen : Nat} (hst : st.length = 72) (ho : 64 ≤ out.length) (hc : ∀ q ∈ calls, q.2 * 128 ≤ q.1.length)
    (ht : inlen ≤ tail.length) (hl : (shaInput 128 calls (tail.take inlen)).length < 2 ^ 64) :
    ∃ st', shaRun Sha2.cfg512 g st out calls tail inlen =
      .ok (Sha2.sha512 (shaInput 128 calls (tail.take inlen)) ++ out.drop 64, st') :=
  shaRun_spec cfg512_ok g hst ho hc ht hl

/-- C24: the one-shot function. -/
theorem C24_sha512 (g : Nat → Nat → Byte) {inp out : Bytes} {inlen : Nat} (hi : inlen ≤ inp.length)
    (ho : 64 ≤ out.length) (hl : inlen < 2 ^ 64) :
    Sha2.sha Sha2.cfg512 g out inp inlen = .ok (Sha2.sha512 (inp.take inlen) ++ out.drop 64) :=
  sha_spec cfg512_ok g hi ho hl

/-- C25: `mgf1_256`. -/
theorem C25_mgf1_256 (g : Nat → Nat → Byte) {inp out : Bytes} {inlen outlen : Nat} (hi : inlen ≤ inp.length)
    (ho : outlen ≤ out.length) (hl : inlen + 4 < 2 ^ 61) (h32 : outlen ≤ 2 ^ 32 * 32) :
    Sha2.mgf1 Sha2.cfg256 g out outlen inp inlen =
      .ok (Spec.Sha2.mgf1 Sha2.alg256 (inp.take inlen) outlen ++ out.drop outlen) :=
  mgf1_spec' cfg256_ok g hi ho hl h32

/-- C25: `mgf1_512`. -/
theorem C25_mgf1_512 (g : Nat → Nat → Byte) {inp out : Bytes} {inlen outlen : Nat} (hi : inlen ≤ inp.length)
    (ho : outlen ≤ out.length) (hl : inlen + 4 < 2 ^ 64) (h32 : outlen ≤ 2 ^ 32 * 64) :
    Sha2.mgf1 Sha2.cfg512 g out outlen inp inlen =
      .ok (Spec.Sha2.mgf1 Sha2.alg512 (inp.take inlen) outlen ++ out.drop outlen) :=
  mgf1_spec' cfg512_ok g hi ho hl h32

theorem cat_prefix {α : Type} (f : Nat → List α) {a b : Nat} (h : a ≤ b) : ∃ t, cat b f = cat a f ++ t := by
  obtain ⟨m, rfl⟩ : ∃ m, b = a + m := ⟨b - a, by omega⟩
  exact ⟨_, cat_split _ _⟩

/-- C25: a shorter request is a prefix of a longer one. -/
theorem C25_mgf1_prefix (A : Sha2.Alg) (hA : 0 < A.wb) (seed : Bytes) {a b : Nat} (h : a ≤ b) :
    Spec.Sha2.mgf1 A seed a = (Spec.Sha2.mgf1 A seed b).take a := by
  have hl := mgf1_length (A := A) seed a hA
  have hp : 0 < A.out := by unfold Sha2.Alg.out; omega
  obtain ⟨t, e⟩ := cat_prefix (fun i => Sha2.hash A (seed ++ toBE 4 i))
    (Nat.div_le_div_right (c := A.out) (show a + A.out - 1 ≤ b + A.out - 1 by omega))
  unfold Spec.Sha2.mgf1 at hl ⊢
  rw [List.length_take] at hl
  rw [List.take_take, Nat.min_eq_left h, e, List.take_append_of_le_length (by omega)]

/-- Byte `i` of the stream is byte `i mod out` of block `i / out`. -/
theorem C25_mgf1_stream (A : Sha2.Alg) (hA : 0 < A.wb) (seed : Bytes) {len i : Nat} (hi : i < len) :
    (Spec.Sha2.mgf1 A seed len)[i]? = (Sha2.hash A (seed ++ toBE 4 (i / A.out)))[i % A.out]? := by
  have hp : 0 < A.out := by unfold Sha2.Alg.out; omega
  unfold Spec.Sha2.mgf1
  rw [List.getElem?_take_of_lt hi]
  have hq : i / A.out < (len + A.out - 1) / A.out := by
    rw [Nat.div_lt_iff_lt_mul hp]
    have h1 := Nat.div_add_mod (len + A.out - 1) A.out
    have h2 := Nat.mod_lt (len + A.out - 1) hp
    rw [Nat.mul_comm] at h1
    omega
  have hc := cat_chunk (n := A.out) (f := fun i => Sha2.hash A (seed ++ toBE 4 i)) (fun j _ => hash_length _) hq []
  rw [List.append_nil] at hc
  rw [← hc, List.getElem?_take_of_lt (Nat.mod_lt _ hp), List.getElem?_drop, Nat.mul_comm, Nat.div_add_mod]

/-- The specification against the FIPS 180 example "abc". -/
theorem sha256_abc : Sha2.sha256 [0x61, 0x62, 0x63] =
    toBE 32 0xba7816bf8f01cfea414140de5dae2223b00361a396177a9cb410ff61f20015ad := by
  have h := C23_sha256 (fun _ _ => 0) (inp := [0x61, 0x62, 0x63]) (out := List.replicate 32 0) (inlen := 3)
    (by decide) (by decide) (by decide)
  rw [List.drop_of_length_le (by simp), List.append_nil] at h
  exact eq_of_okIs (by decide +kernel) h

/-- A message of two whole blocks and three bytes in two different splits. -/
example (g : Nat → Nat → Byte) (x : Bytes) (hx : x.length = 131) (st : Bytes) (hst : st.length = 40) :
    ∃ s1 s2, shaRun Sha2.cfg256 g st (List.replicate 32 0) [(x, 2)] (x.drop 128) 3 = .ok (Sha2.sha256 x, s1) ∧
      shaRun Sha2.cfg256 g st (List.replicate 32 0) [(x, 1), (x.drop 64, 1)] (x.drop 128) 3 =
        .ok (Sha2.sha256 x, s2) := by
  have h1 : shaInput 64 [(x, 2)] ((x.drop 128).take 3) = x := by
    rw [List.take_of_length_le (by simp; omega)]
    simp [shaInput]
  have h2 : shaInput 64 [(x, 1), (x.drop 64, 1)] ((x.drop 128).take 3) = x := by
    rw [List.take_of_length_le (by simp; omega)]
    have e : x = x.take 64 ++ ((x.drop 64).take 64 ++ x.drop 128) := by
      rw [show (128 : Nat) = 64 + 64 from rfl, ← List.drop_drop, List.take_append_drop, List.take_append_drop]
    refine Eq.trans ?_ e.symm
    simp only [shaInput, List.map_cons, List.map_nil, List.flatten_cons, List.flatten_nil, List.append_nil,
      Nat.one_mul, List.append_assoc]
  obtain ⟨s1, e1⟩ := C23_sha256_incremental g (st := st) (out := List.replicate 32 0) (calls := [(x, 2)])
    (tail := x.drop 128) (inlen := 3) hst (by simp) (by simp; omega) (by simp; omega) (by rw [h1, hx]; decide)
  obtain ⟨s2, e2⟩ := C23_sha256_incremental g (st := st) (out := List.replicate 32 0)
    (calls := [(x, 1), (x.drop 64, 1)])
    (tail := x.drop 128) (inlen := 3) hst (by simp) (by simp; omega) (by simp; omega) (by rw [h2, hx]; decide)
  rw [h1] at e1
  rw [h2] at e2
  exact ⟨s1, s2, by simpa using e1, by simpa using e2⟩

/-- The specification against the FIPS 180 example for SHA-512. -/
theorem sha512_abc : Sha2.sha512 [0x61, 0x62, 0x63] =
    toBE 64 0xddaf35a193617abacc417349ae20413112e6fa4e89a97ea20a9eeee64b55d39a2192992a274fc1a836ba3c23a3feebbd454d4423643ce80e2a9ac94fa54ca49f := by
  have h := C24_sha512 (fun _ _ => 0) (inp := [0x61, 0x62, 0x63]) (out := List.replicate 64 0) (inlen := 3)
    (by decide) (by decide) (by decide)
  rw [List.drop_of_length_le (by simp), List.append_nil] at h
  exact eq_of_okIs (by decide +kernel) h

/-- MGF1 with a partial last block. -/
example (g : Nat → Nat → Byte) (seed : Bytes) (hs : seed.length = 16) :
    Sha2.mgf1 Sha2.cfg256 g (List.replicate 40 0) 34 seed 16 =
      .ok (Sha2.sha256 (seed ++ [0, 0, 0, 0]) ++ (Sha2.sha256 (seed ++ [0, 0, 0, 1])).take 2 ++ List.replicate 6 0) := by
  rw [C25_mgf1_256 g (by omega) (by simp) (by decide) (by decide), List.take_of_length_le (by omega)]
  have h : (Sha2.sha256 (seed ++ [0, 0, 0, 0])).length = 32 := hash_length _
  have e : Spec.Sha2.mgf1 Sha2.alg256 seed 34 =
      (Sha2.sha256 (seed ++ [0, 0, 0, 0]) ++ Sha2.sha256 (seed ++ [0, 0, 0, 1])).take 34 := rfl
  rw [e, List.take_append, h, List.take_of_length_le (l := Sha2.sha256 _) (by omega)]
  simp

end Spx
