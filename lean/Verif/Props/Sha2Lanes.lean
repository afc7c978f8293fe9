import Verif.Proof.HashSha2X
import Verif.Props.Sha2
/-! # The AVX2 implementation of SHA-2: C50, C51, C52

sha2-avx2 works on eight SHA-256 states or four SHA-512 states at once, word `i` of all the states in one
vector.  The specification is the one of the portable code: `Spec.Sha2` and the functions `T`, `PRF` of the
SHA-2 instantiation. -/

namespace Spx
open Spec Sha2X

attribute [local irreducible] Spec.Sha2.hash Spec.Sha2.mgf1 hashx

/-- C50.  `sha256_transform8x`: in every lane the block function of FIPS 180-4, of the state and the block
of that lane. -/
theorem C50_transform8x {cs : List (V 4)} {data : List Bytes} (hc : cs.length = 8) (hd : data.length = 8)
    (hl : ∀ x ∈ data, 64 ≤ x.length) :
    ∃ s, transform256 cs data = .ok s ∧ s.length = 8 ∧ ∀ l x, data[l]? = some x →
      (s.map fun v => v l) = Spec.Sha2.compress Spec.Sha2.alg256 (cs.map fun v => v l) (x.take 64) := by
  obtain ⟨s, e, h1, h2⟩ := transform256_spec hc hd (fun j hj => by
    rw [getD_lt (by omega)]; exact hl _ (List.getElem_mem _))
  refine ⟨s, e, h1, fun l x hx => ?_⟩
  obtain ⟨hlt, rfl⟩ := List.getElem?_eq_some_iff.1 hx
  have := h2 l (by omega)
  rwa [getD_lt hlt] at this

/-- C50.  `sha512_transform4x`. -/
theorem C50_transform4x {cs : List (V 8)} {data : List Bytes} (hc : cs.length = 8) (hd : data.length = 4)
    (hl : ∀ x ∈ data, 128 ≤ x.length) :
    ∃ s, transform512 cs data = .ok s ∧ s.length = 8 ∧ ∀ l x, data[l]? = some x →
      (s.map fun v => v l) = Spec.Sha2.compress Spec.Sha2.alg512 (cs.map fun v => v l) (x.take 128) := by
  obtain ⟨s, e, h1, h2⟩ := transform512_spec hc hd (fun j hj => by
    rw [getD_lt (by omega)]; exact hl _ (List.getElem_mem _))
  refine ⟨s, e, h1, fun l x hx => ?_⟩
  obtain ⟨hlt, rfl⟩ := List.getElem?_eq_some_iff.1 hx
  have := h2 l (by omega)
  rwa [getD_lt hlt] at this

theorem map_range_getD {α : Type} {l : List α} {k : Nat} (h : l.length = k) (d : α) :
    l = (List.range k).map fun i => l.getD i d := by
  rw [← h]
  exact (range_map_getD l d id).trans (List.map_id l) |>.symm

theorem getD_all {l : List Bytes} {k n : Nat} (h : l.length = k) (hl : ∀ x ∈ l, n ≤ x.length) :
    ∀ j, j < k → n ≤ (l.getD j []).length := fun j hj => by
  rw [getD_lt (by omega)]; exact hl _ (List.getElem_mem _)

/-- C50.  `sha256x8`: SHA-256 in every lane.  `g` is the contents of uninitialised memory. -/
theorem C50_sha256x8 (g : Nat → Nat → Byte) {ins : List Bytes} {inlen : Nat} (h8 : ins.length = 8)
    (hi : ∀ x ∈ ins, inlen ≤ x.length) (hl : inlen < 2 ^ 61) :
    hashx x256 g ins inlen = .ok (ins.map fun x => Spec.Sha2.sha256 (x.take inlen)) := by
  have h := hashx_spec x256_ok g (ins := fun i => ins.getD i []) (inlen := inlen) (getD_all h8 hi)
    (by show inlen < 2 ^ 64; omega) (by omega)
  rw [show (List.range x256.L).map (fun i => ins.getD i []) = ins from (map_range_getD h8 []).symm] at h
  rw [h, show x256.L = ins.length from h8.symm]
  exact congrArg Except.ok (range_map_getD ins [] fun x => Spec.Sha2.sha256 (x.take inlen))

/-- C50.  `sha512_init4x` and `_sha512x4`: SHA-512 in every lane, for inputs below 2^32 bytes. -/
theorem C50_sha512x4 (g : Nat → Nat → Byte) {ins : List Bytes} {inlen : Nat} (h4 : ins.length = 4)
    (hi : ∀ x ∈ ins, inlen ≤ x.length) (hl : inlen < 2 ^ 32) :
    hashx x512 g ins inlen = .ok (ins.map fun x => Spec.Sha2.sha512 (x.take inlen)) := by
  have h := hashx_spec x512_ok g (ins := fun i => ins.getD i []) (inlen := inlen) (getD_all h4 hi)
    (by show inlen < 2 ^ 32; omega) (by omega)
  rw [show (List.range x512.L).map (fun i => ins.getD i []) = ins from (map_range_getD h4 []).symm] at h
  rw [h, show x512.L = ins.length from h4.symm]
  exact congrArg Except.ok (range_map_getD ins [] fun x => Spec.Sha2.sha512 (x.take inlen))

/-- C50.  The bound on the input of `_sha512x4` is sharp: from 2^32 bytes on the 32-bit counter returns to 0
and the loop does not end, whatever the number of iterations. -/
theorem C50_sha512x4_endless {ins : List Bytes} {inlen : Nat} (h4 : ins.length = 4)
    (hi : ∀ x ∈ ins, inlen ≤ x.length) (h32 : 2 ^ 32 ≤ inlen) (h64 : inlen < 2 ^ 64) {s : List (V 8)} (hs : s.length = 8)
    (msglen : BitVec 64) (iterations : Nat) :
    loop iterations (absorbStep x512 ins inlen) (0, s, msglen) = .error .fuel := by
  have key : ∀ f i (s : List (V 8)) m, s.length = 8 → i + 128 ≤ 2 ^ 32 → i % 128 = 0 →
      loop f (absorbStep x512 ins inlen) (i, s, m) = .error .fuel := by
    intro f
    induction f with
    | zero => intro i s m _ _ _; with_unfolding_all rfl
    | succ f ih =>
      intro i s m hs hi' hmod
      rw [loop_succ]
      unfold absorbStep
      have ht : (tabulate x512.L fun j => do sub (← rd1 ins j) i) =
          .ok ((List.range 4).map fun j => (ins.getD j []).drop i) := tabulate_ok fun j hj => by
        have hj : j < 4 := hj
        have hj' : j < ins.length := by omega
        have := hi ins[j] (List.getElem_mem _)
        rw [rd1_ok hj', ok_bind, sub_ok (by omega), getD_lt hj']
      obtain ⟨s', e, hl, -⟩ := transform512_spec (cs := s) (data := (List.range 4).map fun j => (ins.getD j []).drop i)
        hs (by simp) (fun j hj => by
          have hj' : j < ins.length := by omega
          have := hi ins[j] (List.getElem_mem _)
          rw [map_getD_range _ _ hj, List.length_drop, getD_lt hj']; omega)
      simp only []
      rw [if_pos (by show 128 ≤ _; omega), ht, ok_bind, show x512.transform = transform512 from rfl, e, ok_bind, ok_bind]
      show loop f _ ((i + 128) % 2 ^ 32, s', _) = _
      exact ih _ _ _ hl (by omega) (by omega)
  exact key _ _ _ _ hs (by decide) (by decide)

/-- C50.  `sha256x8_seeded` continues, in every lane, the incremental SHA-256 computation which the portable
code has brought to the state `st` by any calls of `sha256_inc_blocks`. -/
theorem C50_sha256x8_seeded (g : Nat → Nat → Byte) {st0 st : Bytes} {calls : List (Bytes × Nat)} {ins : List Bytes}
    {inlen : Nat} (h0 : st0.length = 40) (hc : ∀ q ∈ calls, q.2 * 64 ≤ q.1.length)
    (hst : (Sha2.inc_init Sha2.cfg256 st0 >>= fun s => calls.foldlM (fun s q => Sha2.inc_blocks Sha2.cfg256 s q.1 q.2) s) = .ok st)
    (h8 : ins.length = 8) (hi : ∀ x ∈ ins, inlen ≤ x.length) (hl : (shaInput 64 calls []).length + inlen < 2 ^ 61) :
    seeded x256 g st (8 * (shaInput 64 calls []).length) ins inlen =
      .ok (ins.map fun x => Spec.Sha2.sha256 (shaInput 64 calls (x.take inlen))) := by
  have hin : ∀ t : Bytes, shaInput 64 calls t = shaInput 64 calls [] ++ t := fun t => by simp [shaInput]
  obtain ⟨s1, e1, k1⟩ := inc_init_spec cfg256_ok h0
  obtain ⟨s2, e2, k2⟩ := inc_blocks_all cfg256_ok k1 calls hc (by
    have : ([] ++ (calls.map fun (q : Bytes × Nat) => q.1.take (q.2 * (16 * 4))).flatten).length = (shaInput 64 calls []).length := by
      simp [shaInput]
    show ([] ++ (calls.map fun (q : Bytes × Nat) => q.1.take (q.2 * (16 * 4))).flatten).length < _
    omega)
  rw [e1, ok_bind, e2] at hst
  cases hst
  have k3 : ShaInc Spec.Sha2.alg256 st (shaInput 64 calls []) := by
    rw [show shaInput 64 calls [] = [] ++ (calls.map fun q => q.1.take (q.2 * (16 * 4))).flatten by simp [shaInput]]
    exact k2
  have h := seeded_spec x256_ok g k3 (ins := fun i => ins.getD i []) (inlen := inlen) (getD_all h8 hi)
    (by show inlen < 2 ^ 64; omega) (by omega)
  rw [show (List.range x256.L).map (fun i => ins.getD i []) = ins from (map_range_getD h8 []).symm] at h
  rw [h, show x256.L = ins.length from h8.symm]
  refine congrArg Except.ok (Eq.trans ?_ (range_map_getD ins [] fun x => Spec.Sha2.sha256 (shaInput 64 calls (x.take inlen))))
  refine List.map_congr_left fun j _ => ?_
  rw [hin (List.take _ _)]
  rfl

/-- C50.  `sha512x4_seeded`. -/
theorem C50_sha512x4_seeded (g : Nat → Nat → Byte) {st0 st : Bytes} {calls : List (Bytes × Nat)} {ins : List Bytes}
    {inlen : Nat} (h0 : st0.length = 72) (hc : ∀ q ∈ calls, q.2 * 128 ≤ q.1.length)
    (hst : (Sha2.inc_init Sha2.cfg512 st0 >>= fun s => calls.foldlM (fun s q => Sha2.inc_blocks Sha2.cfg512 s q.1 q.2) s) = .ok st)
    (h4 : ins.length = 4) (hi : ∀ x ∈ ins, inlen ≤ x.length) (h32 : inlen < 2 ^ 32)
    (hl : (shaInput 128 calls []).length + inlen < 2 ^ 61) :
    seeded x512 g st (8 * (shaInput 128 calls []).length) ins inlen =
      .ok (ins.map fun x => Spec.Sha2.sha512 (shaInput 128 calls (x.take inlen))) := by
  have hin : ∀ t : Bytes, shaInput 128 calls t = shaInput 128 calls [] ++ t := fun t => by simp [shaInput]
  obtain ⟨s1, e1, k1⟩ := inc_init_spec cfg512_ok h0
  obtain ⟨s2, e2, k2⟩ := inc_blocks_all cfg512_ok k1 calls hc (by
    have : ([] ++ (calls.map fun (q : Bytes × Nat) => q.1.take (q.2 * (16 * 8))).flatten).length = (shaInput 128 calls []).length := by
      simp [shaInput]
    show ([] ++ (calls.map fun (q : Bytes × Nat) => q.1.take (q.2 * (16 * 8))).flatten).length < _
    omega)
  rw [e1, ok_bind, e2] at hst
  cases hst
  have k3 : ShaInc Spec.Sha2.alg512 st (shaInput 128 calls []) := by
    rw [show shaInput 128 calls [] = [] ++ (calls.map fun q => q.1.take (q.2 * (16 * 8))).flatten by simp [shaInput]]
    exact k2
  have h := seeded_spec x512_ok g k3 (ins := fun i => ins.getD i []) (inlen := inlen) (getD_all h4 hi)
    (by show inlen < 2 ^ 32; omega) (by omega)
  rw [show (List.range x512.L).map (fun i => ins.getD i []) = ins from (map_range_getD h4 []).symm] at h
  rw [h, show x512.L = ins.length from h4.symm]
  refine congrArg Except.ok (Eq.trans ?_ (range_map_getD ins [] fun x => Spec.Sha2.sha512 (shaInput 128 calls (x.take inlen))))
  refine List.map_congr_left fun j _ => ?_
  rw [hin (List.take _ _)]
  rfl

theorem cat_getD {l : List Bytes} {k : Nat} (h : l.length = k) (f : Bytes → Bytes) :
    cat k (fun j => f (l.getD j [])) = (l.map f).flatten := by
  have : ∀ k (F : Nat → Bytes), cat k F = ((List.range k).map F).flatten := by
    intro k F
    induction k with
    | zero => rfl
    | succ k ih => rw [List.range_succ, List.map_append, List.flatten_append, ← ih]; simp [cat]
  rw [this, ← h, range_map_getD]

/-- C51.  `mgf1x8`: the output buffer receives the eight MGF1-SHA-256 masks one behind the other. -/
theorem C51_mgf1x8 (g : Nat → Nat → Byte) {out : Bytes} {ins : List Bytes} {outlen inlen : Nat}
    (ho : out.length = 8 * outlen) (h8 : ins.length = 8) (hi : ∀ x ∈ ins, inlen ≤ x.length) (hl : inlen + 4 < 2 ^ 61) :
    mgf1x8 g out outlen ins inlen =
      .ok (ins.map fun x => Spec.Sha2.mgf1 Spec.Sha2.alg256 (x.take inlen) outlen).flatten := by
  have h := mgf1x8_spec g ho (ins := fun i => ins.getD i []) (inlen := inlen) (getD_all h8 hi) (by omega)
  rw [← map_range_getD h8 []] at h
  rw [h]
  exact congrArg Except.ok (cat_getD h8 fun x => Spec.Sha2.mgf1 Spec.Sha2.alg256 (x.take inlen) outlen)

/-- C51.  `mgf1x4_512`. -/
theorem C51_mgf1x4_512 (g : Nat → Nat → Byte) {out : Bytes} {ins : List Bytes} {outlen inlen : Nat}
    (ho : out.length = 4 * outlen) (h4 : ins.length = 4) (hi : ∀ x ∈ ins, inlen ≤ x.length) (hl : inlen + 4 < 2 ^ 32) :
    mgf1x4_512 g out outlen ins inlen =
      .ok (ins.map fun x => Spec.Sha2.mgf1 Spec.Sha2.alg512 (x.take inlen) outlen).flatten := by
  have h := mgf1x4_spec g ho (ins := fun i => ins.getD i []) (inlen := inlen) (getD_all h4 hi) hl
  rw [← map_range_getD h4 []] at h
  rw [h]
  exact congrArg Except.ok (cat_getD h4 fun x => Spec.Sha2.mgf1 Spec.Sha2.alg512 (x.take inlen) outlen)

section
variable {P : Params} (hP : P ∈ shipped) (hf : P.fam = .sha2) (g g' : Nat → Nat → Byte)
include hP hf

/-- C52.  `prf_addrx8` and `thashx8` of sha2-avx2 return in each lane what the one-way reference functions
return for the arguments of that lane, whatever the address buffers hold. -/
theorem C52_avx2_lanes : LaneWise P g 3 (Sha2X.lanes P g') :=
  laneWise_of hP g
    (fun hc _ _ _ _ hA hb hi h31 => by
      rw [specHash_sha2 hf]
      exact Sha2X.thashx_value (shipped_valid hP) hf (shipped_n hP) (shipped_sha512 hP hf) g' g (hc.sha2OK hP hf) hb hi h31 hA)
    (fun hc _ _ hA => by
      rw [specHash_sha2 hf]
      exact Sha2X.prfx_value (shipped_valid hP) hf (shipped_n hP) (shipped_sha512 hP hf) g' g (hc.sha2OK hP hf) hA)

/-- C52.  The library of sha2-avx2 behaves as the reference: same key pairs, signatures, verdicts and
memory contents, for all inputs and whatever uninitialised memory contains. -/
theorem C52_avx2_same (G G' : Nat → Nat → Byte) :
    SameScheme P (optBuild P (Sha2.impl P g') 3 (Sha2X.lanes P g') G) G' g :=
  sameScheme_of hP (specHash_sha2 hf).symm
    (sha2LaneRefines g' G (shipped_valid hP) hf (shipped_n hP) (shipped_sha512 hP hf)) (by decide) (by decide) G' g

end

/-! Concrete cases. -/

/-- The lanes have different states and blocks. -/
example : ∃ s, transform256 ((List.range 8).map fun i l => BitVec.ofNat 32 (100 * i + l))
    ((List.range 8).map fun j => List.replicate 64 (BitVec.ofNat 8 j)) = .ok s ∧ s.length = 8 ∧
    (s.map fun v => v 5) = Spec.Sha2.compress Spec.Sha2.alg256 [5#32, 105#32, 205#32, 305#32, 405#32, 505#32, 605#32, 705#32]
      (List.replicate 64 5#8) := by
  obtain ⟨s, e, h1, h2⟩ := C50_transform8x (cs := (List.range 8).map fun i l => BitVec.ofNat 32 (100 * i + l))
    (data := (List.range 8).map fun j => List.replicate 64 (BitVec.ofNat 8 j)) (by simp) (by simp) (by simp)
  refine ⟨s, e, h1, ?_⟩
  have := h2 5 (List.replicate 64 5#8) rfl
  rw [List.take_of_length_le (by rw [List.length_replicate])] at this
  exact this

example : ∃ s, transform512 ((List.range 8).map fun i l => BitVec.ofNat 64 (100 * i + l))
    ((List.range 4).map fun j => List.replicate 128 (BitVec.ofNat 8 j)) = .ok s ∧ s.length = 8 ∧
    (s.map fun v => v 3) = Spec.Sha2.compress Spec.Sha2.alg512 [3#64, 103#64, 203#64, 303#64, 403#64, 503#64, 603#64, 703#64]
      (List.replicate 128 3#8) := by
  obtain ⟨s, e, h1, h2⟩ := C50_transform4x (cs := (List.range 8).map fun i l => BitVec.ofNat 64 (100 * i + l))
    (data := (List.range 4).map fun j => List.replicate 128 (BitVec.ofNat 8 j)) (by simp) (by simp) (by simp)
  refine ⟨s, e, h1, ?_⟩
  have := h2 3 (List.replicate 128 3#8) rfl
  rw [List.take_of_length_le (by rw [List.length_replicate])] at this
  exact this

/-- The FIPS 180 example "abc" in lane 2, other messages in the others. -/
example (g : Nat → Nat → Byte) : ∃ a b, hashx x256 g [[1, 2, 3], [4, 5, 6], [0x61, 0x62, 0x63, 9], [0, 0, 0], [7, 7, 7], [1, 1, 1],
    [2, 2, 2], [3, 3, 3]] 3 = .ok (a ++ toBE 32 0xba7816bf8f01cfea414140de5dae2223b00361a396177a9cb410ff61f20015ad :: b) ∧
    a.length = 2 := by
  rw [C50_sha256x8 g rfl (by simp) (by decide), ← sha256_abc]
  exact ⟨[_, _], _, rfl, rfl⟩

example (g : Nat → Nat → Byte) : ∃ a b, hashx x512 g [[1, 2, 3], [4, 5, 6], [0x61, 0x62, 0x63, 9], [0, 0, 0]] 3 =
    .ok (a ++ toBE 64 0xddaf35a193617abacc417349ae20413112e6fa4e89a97ea20a9eeee64b55d39a2192992a274fc1a836ba3c23a3feebbd454d4423643ce80e2a9ac94fa54ca49f :: b) ∧
    a.length = 2 := by
  rw [C50_sha512x4 g rfl (by simp) (by decide), ← sha512_abc]
  exact ⟨[_, _], _, rfl, rfl⟩

/-- 2^32 bytes in every lane. -/
example (iterations : Nat) : loop iterations (absorbStep x512 (List.replicate 4 (List.replicate (2 ^ 32) 0#8)) (2 ^ 32))
    (0, x512.init, 0#64) = .error .fuel := by
  refine C50_sha512x4_endless List.length_replicate (fun x hx => ?_) (Nat.le_refl _) (by decide) rfl _ _
  rw [List.eq_of_mem_replicate hx, List.length_replicate]

/-- The portable code absorbs one block, the lanes go on with 70 bytes each. -/
example (g : Nat → Nat → Byte) (x : Bytes) (hx : x.length = 64) : ∃ st,
    (Sha2.inc_init Sha2.cfg256 (List.replicate 40 0) >>= fun s => Sha2.inc_blocks Sha2.cfg256 s x 1) = .ok st ∧
    seeded x256 g st 512 ((List.range 8).map fun j => List.replicate 70 (BitVec.ofNat 8 j)) 70 =
      .ok ((List.range 8).map fun j => Spec.Sha2.sha256 (x ++ List.replicate 70 (BitVec.ofNat 8 j))) := by
  obtain ⟨s1, e1, k1⟩ := inc_init_spec cfg256_ok (st := List.replicate 40 0) (by rw [List.length_replicate]; rfl)
  obtain ⟨s2, e2, -⟩ := inc_blocks_all cfg256_ok k1 [(x, 1)] (by simp [hx]) (by simp)
  have hl : shaInput 64 [(x, 1)] [] = x := by simp [shaInput, List.take_of_length_le (show x.length ≤ 64 by omega)]
  have h := C50_sha256x8_seeded g (st0 := List.replicate 40 0) (st := s2) (calls := [(x, 1)])
    (ins := (List.range 8).map fun j => List.replicate 70 (BitVec.ofNat 8 j)) (inlen := 70)
    (by rw [List.length_replicate]) (by simp; omega) (by rw [e1, ok_bind]; exact e2) (by simp) (by simp)
    (by rw [hl, hx]; decide)
  rw [hl, hx, List.map_map] at h
  refine ⟨s2, ?_, h.trans (congrArg Except.ok (List.map_congr_left fun j _ => ?_))⟩
  · rw [e1, ok_bind, ← e2, List.foldlM_cons]
    exact (bind_pure _).symm
  · show Spec.Sha2.sha256 (shaInput 64 [(x, 1)] ((List.replicate 70 _).take 70)) = _
    rw [List.take_of_length_le (by rw [List.length_replicate])]
    simp [shaInput, List.take_of_length_le (show x.length ≤ 64 by omega)]

example (g : Nat → Nat → Byte) (x : Bytes) (hx : x.length = 128) : ∃ st,
    (Sha2.inc_init Sha2.cfg512 (List.replicate 72 0) >>= fun s => Sha2.inc_blocks Sha2.cfg512 s x 1) = .ok st ∧
    seeded x512 g st 1024 ((List.range 4).map fun j => List.replicate 70 (BitVec.ofNat 8 j)) 70 =
      .ok ((List.range 4).map fun j => Spec.Sha2.sha512 (x ++ List.replicate 70 (BitVec.ofNat 8 j))) := by
  obtain ⟨s1, e1, k1⟩ := inc_init_spec cfg512_ok (st := List.replicate 72 0) (by rw [List.length_replicate]; rfl)
  obtain ⟨s2, e2, -⟩ := inc_blocks_all cfg512_ok k1 [(x, 1)] (by simp [hx]) (by simp)
  have hl : shaInput 128 [(x, 1)] [] = x := by simp [shaInput, List.take_of_length_le (show x.length ≤ 128 by omega)]
  have h := C50_sha512x4_seeded g (st0 := List.replicate 72 0) (st := s2) (calls := [(x, 1)])
    (ins := (List.range 4).map fun j => List.replicate 70 (BitVec.ofNat 8 j)) (inlen := 70)
    (by rw [List.length_replicate]) (by simp; omega) (by rw [e1, ok_bind]; exact e2) (by simp) (by simp)
    (by decide) (by rw [hl, hx]; decide)
  rw [hl, hx, List.map_map] at h
  refine ⟨s2, ?_, h.trans (congrArg Except.ok (List.map_congr_left fun j _ => ?_))⟩
  · rw [e1, ok_bind, ← e2, List.foldlM_cons]
    exact (bind_pure _).symm
  · show Spec.Sha2.sha512 (shaInput 128 [(x, 1)] ((List.replicate 70 _).take 70)) = _
    rw [List.take_of_length_le (by rw [List.length_replicate])]
    simp [shaInput, List.take_of_length_le (show x.length ≤ 128 by omega)]

/-- MGF1 with a partial last block. -/
example (g : Nat → Nat → Byte) (x y : Bytes) (hx : x.length = 38) (hy : y.length = 40) :
    mgf1x4_512 g (List.replicate 288 0) 72 [x, y, x, x] 38 =
      .ok (Spec.Sha2.mgf1 Spec.Sha2.alg512 x 72 ++ (Spec.Sha2.mgf1 Spec.Sha2.alg512 (y.take 38) 72 ++
        (Spec.Sha2.mgf1 Spec.Sha2.alg512 x 72 ++ Spec.Sha2.mgf1 Spec.Sha2.alg512 x 72))) := by
  rw [C51_mgf1x4_512 g (by rw [List.length_replicate]) rfl (by simp; omega) (by decide)]
  have hx' : x.take 38 = x := List.take_of_length_le (by omega)
  simp [hx']

example (g : Nat → Nat → Byte) (x y : Bytes) (hx : x.length = 38) (hy : y.length = 40) :
    mgf1x8 g (List.replicate 320 0) 40 [x, y, x, x, x, x, x, y] 38 =
      .ok ([x, y.take 38, x, x, x, x, x, y.take 38].map fun z => Spec.Sha2.mgf1 Spec.Sha2.alg256 z 40).flatten := by
  rw [C51_mgf1x8 g (by rw [List.length_replicate]) rfl (by simp; omega) (by decide)]
  have hx' : x.take 38 = x := List.take_of_length_le (by omega)
  simp [hx']

/-- Robust, with SHA-512 in `thashx8`; different inputs and address buffers in the lanes, used to the last byte. -/
example : ∃ (ctx : Ctx) (o : Nat → Bytes), ctx.pub_seed = List.replicate 24 2 ∧
    (Sha2X.lanes (sha2_192s true) fun _ _ => 9).thashx
      ((List.range 8).map fun j => List.replicate (48 + j) (BitVec.ofNat 8 j)) 2 ctx
      ((List.range 8).map fun j => List.replicate 32 (BitVec.ofNat 8 (200 + j))) = .ok ((List.range 8).map o) ∧
    ∀ j, j < 8 → (implOf (sha2_192s true) fun _ _ => 7).thash (List.replicate (48 + j) (BitVec.ofNat 8 j)) 2 ctx
      (List.replicate 32 (BitVec.ofNat 8 (200 + j))) = .ok (o j) := by
  obtain ⟨ctx, -, hr, hp, -⟩ := (Ctx.zeroed_sized (P := sha2_192s true) (pub := List.replicate 24 2)
    (sk := List.replicate 24 0) List.length_replicate List.length_replicate).ready (by decide) (fun _ _ => 7)
  have hA : ∀ j, j < 8 → (List.replicate 32 (BitVec.ofNat 8 (200 + j))).length = 32 := fun j _ => List.length_replicate
  have hI : ∀ j, j < 8 → 2 * 24 ≤ (List.replicate (48 + j) (BitVec.ofNat 8 j)).length :=
    fun j _ => by rw [List.length_replicate]; omega
  have h := (C52_avx2_lanes (P := sha2_192s true) (by decide) rfl (fun _ _ => 7) (fun _ _ => 9)).thashx hr hA
    (show 1 ≤ 2 by decide) hI (by decide)
  have hok : ∀ j, ∃ o, j < 8 → (implOf (sha2_192s true) fun _ _ => 7).thash
      (List.replicate (48 + j) (BitVec.ofNat 8 j)) 2 ctx (List.replicate 32 (BitVec.ofNat 8 (200 + j))) = .ok o := by
    intro j
    by_cases hj : j < 8
    · obtain ⟨a, he⟩ := exists_encodes .sha2 (hA j hj)
      exact ⟨_, fun _ => thash_any (P := sha2_192s true) (by decide) hr he (by decide) (hI j hj) (by decide)⟩
    · exact ⟨[], fun h => absurd h hj⟩
  obtain ⟨o, ho⟩ := Classical.axiomOfChoice hok
  exact ⟨ctx, o, hp, h.trans (tabulate_ok (fun j hj => ho j hj)), ho⟩

/-- sha2-avx2 with parameter set sha2-128f simple. -/
def sha2avx2Ex (G : Nat → Nat → Byte) : EnvX :=
  optBuild (sha2_128f false) (Sha2.impl (sha2_128f false) fun _ _ => 1) 3 (Sha2X.lanes (sha2_128f false) fun _ _ => 1) G

example (G G' : Nat → Nat → Byte) :
    ∃ r, crypto_sign_signatureT (sha2avx2Ex G).toEnv (parCode (sha2avx2Ex G))
        (List.replicate 17088 0) [1, 2, 3] (List.replicate 64 5) (List.replicate 16 9) = .ok r ∧
      crypto_sign_signature (build (sha2_128f false) G' (fun _ _ => 7)) (List.replicate 17088 0) [1, 2, 3]
        (List.replicate 64 5) (List.replicate 16 9) = .ok r :=
  (C52_avx2_same (P := sha2_128f false) (by decide) rfl (fun _ _ => 7) (fun _ _ => 1) G G').signature
    (by rw [List.length_replicate]; decide) (by decide) (by rw [List.length_replicate]; decide) (by rw [List.length_replicate]; decide)

end Spx
