import Verif.Proof.HashHaraka
import Verif.Proof.List
import Verif.Proof.Chunking
/-! # Haraka: C28, C29 -/

namespace Spx.Haraka
open Spec

/-- The byte with the given bits. -/
def byteOfBits (f : Nat → Bool) : Byte :=
  BitVec.ofNat 8 ((List.range 8).foldl (fun a j => a + if f j then 2 ^ j else 0) 0)

/-- Bytes from bitsliced words: the words come in groups of eight, word `j` of a group holds bit `j`
of every byte of the group, and byte `r` of column `c` of block `i` (of `b` blocks) is at bit position
`4br + bc + i`. -/
def unslice (b : Nat) {w : Nat} (words : List (BitVec w)) : Bytes :=
  cat (words.length / 8) fun k => (List.range (16 * b)).map fun p =>
    byteOfBits fun j => (words.getD (8 * k + j) 0).getLsbD (4 * b * (p % 4) + b * (p / 4 % 4) + p / 16)

theorem byteOfBits_mkB (b0 b1 b2 b3 b4 b5 b6 b7 : Bool) :
    byteOfBits (fun j => [b0, b1, b2, b3, b4, b5, b6, b7].getD j false) = mkB b0 b1 b2 b3 b4 b5 b6 b7 := by
  revert b0 b1 b2 b3 b4 b5 b6 b7
  decide +kernel

theorem byteOfBits_congr {f h : Nat → Bool} (e : ∀ j, j < 8 → f j = h j) : byteOfBits f = byteOfBits h := by
  unfold byteOfBits
  simp only [List.range, List.range.loop, List.foldl_cons, List.foldl_nil]
  rw [e 0 (by omega), e 1 (by omega), e 2 (by omega), e 3 (by omega), e 4 (by omega), e 5 (by omega), e 6 (by omega),
    e 7 (by omega)]

theorem load_getD {w : Nat} {words : List (BitVec w)} {k : Nat} (hk : 8 * k + 8 ≤ words.length) :
    ∃ q, Q8.load words k = .ok q ∧ ∀ pos, byteOfBits (fun j => (words.getD (8 * k + j) 0).getLsbD pos) = byteAt q pos := by
  unfold Q8.load
  rw [rd1_ok (by omega), ok_bind, rd1_ok (by omega), ok_bind, rd1_ok (by omega), ok_bind, rd1_ok (by omega), ok_bind,
    rd1_ok (by omega), ok_bind, rd1_ok (by omega), ok_bind, rd1_ok (by omega), ok_bind, rd1_ok (by omega), ok_bind]
  refine ⟨_, rfl, fun pos => ?_⟩
  rw [byteAt, ← byteOfBits_mkB]
  apply byteOfBits_congr
  intro j hj
  rw [getD_lt (by omega)]
  interval_cases j <;> rfl

theorem unslice64_rc {rc : List (BitVec 64)} (h : rc.length = 80) : Rc64 rc (unslice 4 rc) := by
  have hd : rc.length / 8 = 10 := by omega
  have hl : ∀ k, k < 10 → ((List.range (16 * 4)).map fun p =>
    byteOfBits fun j => (rc.getD (8 * k + j) 0).getLsbD (4 * 4 * (p % 4) + 4 * (p / 4 % 4) + p / 16)).length = 64 :=
    fun k _ => by simp
  refine ⟨by unfold unslice; rw [hd, cat_length hl], fun k hk => ?_⟩
  obtain ⟨q, e, hq⟩ := load_getD (words := rc) (k := k) (by omega)
  refine ⟨q, e, ?_⟩
  unfold unslice
  rw [hd, chunk_cat hl hk]
  refine ⟨by simp, fun p hp => ?_⟩
  rw [map_range_getD _ (by omega), hq]
  rfl

theorem unslice32_rc {rc : List (BitVec 32)} (h : rc.length = 80) : Rc32 rc (unslice 2 rc) := by
  have hd : rc.length / 8 = 10 := by omega
  have hl : ∀ k, k < 10 → ((List.range (16 * 2)).map fun p =>
    byteOfBits fun j => (rc.getD (8 * k + j) 0).getLsbD (4 * 2 * (p % 4) + 2 * (p / 4 % 4) + p / 16)).length = 32 :=
    fun k _ => by simp
  refine ⟨by unfold unslice; rw [hd, cat_length hl], fun k hk => ?_⟩
  obtain ⟨q, e, hq⟩ := load_getD (words := rc) (k := k) (by omega)
  refine ⟨q, e, ?_⟩
  unfold unslice
  rw [hd, chunk_cat hl hk]
  refine ⟨by simp, fun p hp => ?_⟩
  rw [map_range_getD _ (by omega), hq]
  rfl

/-- C29: the permutation, for every array of round constants. -/
theorem C29_haraka512_perm {ctx : Ctx} (hrc : ctx.tweaked512_rc64.length = 80) {inp : Bytes} (hi : 64 ≤ inp.length) :
    haraka512_perm inp ctx = .ok (Spec.Haraka.perm512 (unslice 4 ctx.tweaked512_rc64) (inp.take 64)) :=
  haraka512_perm_spec (unslice64_rc hrc) hi

/-- C29: Haraka-512. -/
theorem C29_haraka512 {ctx : Ctx} (hrc : ctx.tweaked512_rc64.length = 80) {inp : Bytes} (hi : 64 ≤ inp.length) :
    haraka512 inp ctx = .ok (Spec.Haraka.haraka512 (unslice 4 ctx.tweaked512_rc64) (inp.take 64)) :=
  haraka512_spec (unslice64_rc hrc) hi

/-- C29: Haraka-256. -/
theorem C29_haraka256 {ctx : Ctx} (hrc : ctx.tweaked256_rc32.length = 80) {inp : Bytes} (hi : 32 ≤ inp.length) :
    haraka256 inp ctx = .ok (Spec.Haraka.haraka256 (unslice 2 ctx.tweaked256_rc32) (inp.take 32)) :=
  haraka256_spec (unslice32_rc hrc) hi

theorem rc64_unique {rc : List (BitVec 64)} {a b : Bytes} (ha : Rc64 rc a) (hb : Rc64 rc b) : a = b := by
  have hbe : b = cat 10 (chunk 64 b) := eq_cat_of_chunks (by rw [hb.1]) (fun _ _ => rfl)
  refine (eq_cat_of_chunks (k := 10) (n := 64) (by rw [ha.1]) fun k hk => ?_).trans hbe.symm
  obtain ⟨q, e, h1, h2⟩ := ha.2 k hk
  obtain ⟨q', e', h1', h2'⟩ := hb.2 k hk
  rw [e] at e'
  injection e' with e'
  subst e'
  apply List.ext_getElem (by rw [h1, h1'])
  intro p hp hp'
  rw [h1] at hp
  have := (h2 p hp).symm.trans (h2' p hp)
  rwa [getD_lt (by omega), getD_lt (by omega)] at this

theorem rc32_unique {rc : List (BitVec 32)} {a b : Bytes} (ha : Rc32 rc a) (hb : Rc32 rc b) :
    a.take 320 = b.take 320 := by
  rw [show 320 = 10 * 32 from rfl, ← cat_chunks _ _ _ ha.1, ← cat_chunks _ _ _ hb.1]
  apply cat_congr
  intro k hk
  obtain ⟨q, e, h1, h2⟩ := ha.2 k hk
  obtain ⟨q', e', h1', h2'⟩ := hb.2 k hk
  rw [e] at e'
  injection e' with e'
  subst e'
  apply List.ext_getElem (by rw [h1, h1'])
  intro p hp hp'
  rw [h1] at hp
  have := (h2 p hp).symm.trans (h2' p hp)
  rwa [getD_lt (by omega), getD_lt (by omega)] at this

/-- C29: the built-in table is the published list of round constants. -/
theorem C29_standard_constants : unslice 4 haraka512_rc64 = Spec.Haraka.rcStd :=
  rc64_unique (unslice64_rc (by decide +kernel)) rc64_std

/-- C29: `tweak_constants` installs the constants derived from the public seed in both arrays. -/
theorem C29_tweaked_constants (g : Nat → Nat → Byte) {n : Nat} {ctx : Ctx} (hn : ctx.pub_seed.length = n)
    (h5 : ctx.tweaked512_rc64.length = 80) (h2 : ctx.tweaked256_rc32.length = 80) :
    ∃ ctx', tweak_constants g n ctx = .ok ctx' ∧
      unslice 4 ctx'.tweaked512_rc64 = Spec.Haraka.rcTweak ctx.pub_seed ∧
      unslice 2 ctx'.tweaked256_rc32 = (Spec.Haraka.rcTweak ctx.pub_seed).take 320 := by
  obtain ⟨ctx', e, h64, h32, _, _, l64, l32⟩ := tweak_constants_spec g hn h5 h2
  refine ⟨ctx', e, rc64_unique (unslice64_rc l64) h64, ?_⟩
  have := rc32_unique (unslice32_rc l32) h32
  rwa [List.take_of_length_le (by
    unfold unslice
    rw [l32, cat_length (n := 32) (fun k _ => by simp)])] at this

/-- `haraka_S_inc_init`, absorb calls, `haraka_S_inc_finalize`, squeeze calls. -/
def incRun (perm : Bytes → Ctx → C Bytes) (ctx : Ctx) (s : Bytes) (ins outs : List (Bytes × Nat)) : C (List Bytes) := do
  let s ← haraka_S_inc_init s
  let s ← absorbAll (fun s x n => haraka_S_inc_absorb perm s x n ctx) ins s
  let s ← haraka_S_inc_finalize s
  let (bufs, _) ← squeezeAll (fun h n s => haraka_S_inc_squeeze perm h n s ctx) outs s
  .ok bufs

/-- The incremental interface over any correct permutation function, for every cut of the input and of
the output. -/
theorem incRun_ok {perm : Bytes → Ctx → C Bytes} {ctx : Ctx} {rcb : Bytes} (h64 : PermIs perm ctx rcb) {s : Bytes}
    (hs : s.length = 65) {ins outs : List (Bytes × Nat)} (hi : ∀ q ∈ ins, q.2 ≤ q.1.length)
    (ho : ∀ q ∈ outs, q.2 ≤ q.1.length) :
    ∃ bufs, incRun perm ctx s ins outs = .ok bufs ∧ bufs.length = outs.length ∧
      (List.zipWith (fun o (q : Bytes × Nat) => o.take q.2) bufs outs).flatten =
        Spec.Haraka.harakaS rcb (absorbed ins) (requested outs) ∧
      List.zipWith (fun o (q : Bytes × Nat) => o.drop q.2) bufs outs = outs.map fun q => q.1.drop q.2 := by
  obtain ⟨s1, e1, h1⟩ := haraka_inc_init_abs rcb hs
  obtain ⟨s2, e2, h2⟩ := absorb_all (Inv := fun s m => HarAbs rcb s m)
    (fun s m x n h hl => haraka_inc_absorb_abs h64 h hl) ins s1 [] h1 hi
  rw [List.nil_append] at h2
  obtain ⟨s3, e3, h3⟩ := haraka_inc_finalize_abs h64 h2
  obtain ⟨bufs, s4, e4, _, h5, h6, h7⟩ := squeeze_all (Inv := fun s k => HarSq rcb s (absorbed ins) k)
    (S := Spec.Haraka.harakaS rcb (absorbed ins)) (fun n => sponge_length _ _ _ _ _ _)
    (fun a b h => by rw [harakaS_bytes h64, harakaS_bytes h64, ← List.map_take, List.take_range, Nat.min_eq_left h])
    (fun s k h n hk hl => haraka_inc_squeeze_abs h64 hk hl) outs s3 0 h3 ho
  rw [Nat.zero_add, List.drop_zero] at h6
  refine ⟨bufs, ?_, h5, h6, h7⟩
  unfold incRun
  rw [e1, ok_bind, e2, ok_bind, e3, ok_bind, e4, ok_bind]

/-- C28: the incremental interface, for every cut of the input and of the output. -/
theorem C28_haraka_S_incremental {ctx : Ctx} (hrc : ctx.tweaked512_rc64.length = 80) {s : Bytes} (hs : s.length = 65)
    {ins outs : List (Bytes × Nat)} (hi : ∀ q ∈ ins, q.2 ≤ q.1.length) (ho : ∀ q ∈ outs, q.2 ≤ q.1.length) :
    ∃ bufs, incRun haraka512_perm ctx s ins outs = .ok bufs ∧ bufs.length = outs.length ∧
      (List.zipWith (fun o (q : Bytes × Nat) => o.take q.2) bufs outs).flatten =
        Spec.Haraka.harakaS (unslice 4 ctx.tweaked512_rc64) (absorbed ins) (requested outs) ∧
      List.zipWith (fun o (q : Bytes × Nat) => o.drop q.2) bufs outs = outs.map fun q => q.1.drop q.2 :=
  incRun_ok (permIs_ref (unslice64_rc hrc)) hs hi ho

/-- C28: the one-shot function gives the same stream. -/
theorem C28_haraka_S {ctx : Ctx} (hrc : ctx.tweaked512_rc64.length = 80) (g : Nat → Nat → Byte) {out inp : Bytes}
    {outlen inlen : Nat} (ho : outlen ≤ out.length) (hi : inlen ≤ inp.length) :
    haraka_S haraka512_perm g out outlen inp inlen ctx =
      .ok (Spec.Haraka.harakaS (unslice 4 ctx.tweaked512_rc64) (inp.take inlen) outlen ++ out.drop outlen) :=
  haraka_S_spec (permIs_ref (unslice64_rc hrc)) g ho hi

/-- The specification against the Haraka-512 test vector of the Haraka v2 paper. -/
theorem haraka512_vector : Spec.Haraka.haraka512 Spec.Haraka.rcStd ((List.range 64).map (BitVec.ofNat 8)) =
    toBE 32 0xbe7f723b4e80a99813b292287f306f625a6d57331cae5f34dd9277b0945be2aa := by
  decide +kernel

/-- The specification against the Haraka-256 test vector of the Haraka v2 paper. -/
theorem haraka256_vector : Spec.Haraka.haraka256 Spec.Haraka.rcStd ((List.range 32).map (BitVec.ofNat 8)) =
    toBE 32 0x8027ccb87949774b78d0545fb72bf70c695c2a0923cbd47bba1159efbf2b2c1c := by
  decide +kernel

/-- Cutting inside and across the 32-byte blocks makes no difference, here with the built-in constants. -/
example (ctx : Ctx) (hc : ctx.tweaked512_rc64 = haraka512_rc64) (s : Bytes) (hs : s.length = 65) (x : Bytes)
    (hx : x.length = 70) :
    ∃ bufs, incRun haraka512_perm ctx s [(x, 31), (x.drop 31, 39)]
        [(List.replicate 200 7, 33), (List.replicate 200 8, 2)] = .ok bufs ∧
      (List.zipWith (fun o (n : Nat) => o.take n) bufs [33, 2]).flatten =
        Spec.Haraka.harakaS Spec.Haraka.rcStd x 35 := by
  obtain ⟨bufs, e, hl, h, _⟩ := C28_haraka_S_incremental (ctx := ctx) (by rw [hc]; decide +kernel) hs
    (ins := [(x, 31), (x.drop 31, 39)])
    (outs := [(List.replicate 200 7, 33), (List.replicate 200 8, 2)]) (by simp; omega) (by
      intro q hq
      simp only [List.mem_cons, List.not_mem_nil, or_false] at hq
      rcases hq with rfl | rfl <;> simp only [List.length_replicate] <;> omega)
  refine ⟨bufs, e, ?_⟩
  have ha : absorbed [(x, 31), (x.drop 31, 39)] = x := by
    simp only [absorbed, List.map_cons, List.map_nil, List.flatten_cons, List.flatten_nil, List.append_nil]
    rw [List.take_of_length_le (l := x.drop 31) (by simp; omega), List.take_append_drop]
  rw [ha, hc, C29_standard_constants] at h
  match bufs, hl with
  | [a, b], _ => exact h

end Spx.Haraka
