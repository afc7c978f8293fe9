import Verif.Proof.CountSha2
import Verif.Proof.CountParallel
import Verif.Model.LeakSha2X

/-! # Compression functions computed by the functions of sha2-avx2 -/

namespace Spx.Leak.Sha2X

open Spec
open Spx.Sha2X (V)

variable {f : Fn}

theorem free_LOAD (wb : Nat) (b : Bytes) (o : Nat) : Free (LOAD wb b o) := by unfold LOAD; free
macro_rules | `(tactic| free_leaf) => `(tactic| with_reducible exact Sha2X.free_LOAD ..)
macro_rules | `(tactic| free_leaf) => `(tactic| with_reducible exact Sha2.free_load32 ..)

/-- Blocks of a message of `len` bytes with its padding -/
def blocks {wb : Nat} (c : XCfg wb) (len : Nat) : Nat := (len + (c.blk - c.thr)) / c.blk + 1

/-- What the counting needs to know about a copy of the code; `h` is the primitive. -/
structure Count {wb : Nat} (c : XCfg wb) (h : Fn) : Prop where
  load : ∀ x, Free (c.loadL x)
  transform : ∀ f s d, Wp f (c.transformL s d) fun _ k => k = one f h
  blk : 0 < c.blk
  thr : c.thr ≤ c.blk
  thr0 : 0 < c.thr
  ibits : 32 ≤ c.ibits

theorem count256 : Count x256 .sha256x where
  load x := by show Free (load_bigendian_32 x); free
  transform f s d := by
    show Wp f (transform256 s d) _
    unfold transform256
    refine Wp.prim ?_
    skipb
    skipb
    exact Wp.ok (by omega)
  blk := by decide
  thr := by decide
  thr0 := by decide
  ibits := by decide

theorem count512 : Count x512 .sha512x where
  load x := by show Free (load_bigendian_64 x); free
  transform f s d := by
    show Wp f (transform512 s d) _
    unfold transform512
    refine Wp.prim ?_
    skipb
    skipb
    skipb
    skipb
    exact Wp.ok (by omega)
  blk := by decide
  thr := by decide
  thr0 := by decide
  ibits := by decide

section
variable {wb : Nat} {c : XCfg wb} {g : Nat → Nat → Byte} {h : Fn}

theorem free_padBlocks (c : XCfg wb) (m : Bytes) (d : Nat) : Free (padBlocks c m d) := by unfold padBlocks; free
macro_rules | `(tactic| free_leaf) => `(tactic| with_reducible exact free_padBlocks ..)
theorem free_lenBlocks (c : XCfg wb) (m : Bytes) (l : BitVec 64) : Free (lenBlocks c m l) := by unfold lenBlocks; free
macro_rules | `(tactic| free_leaf) => `(tactic| with_reducible exact free_lenBlocks ..)
theorem free_setCounter (c : XCfg wb) (b : Bytes) (l i : Nat) : Free (setCounter c b l i) := by unfold setCounter; free
macro_rules | `(tactic| free_leaf) => `(tactic| with_reducible exact free_setCounter ..)

variable (hc : Count c h)
include hc

theorem prims_absorbStep {ins : List Bytes} {len : Nat} (hl : len < 2 ^ 32) {st : Nat × List (V wb) × BitVec 64}
    (hi : st.1 ≤ len) (hm : (len - st.1) % c.blk = len % c.blk) :
    Wp f (absorbStep c ins len st) fun x k =>
      (∀ t, x = .inl t → (t.1 ≤ len ∧ (len - t.1) % c.blk = len % c.blk) ∧
        k + (len - t.1) / c.blk * one f h = (len - st.1) / c.blk * one f h) ∧
      ∀ t, x = .inr t → (t.1 ≤ len ∧ len - t.1 = len % c.blk) ∧ k = (len - st.1) / c.blk * one f h := by
  obtain ⟨i, s, ml⟩ := st
  dsimp only at hi hm ⊢
  have h0 := hc.blk
  have e : (len + 2 ^ 64 - i) % 2 ^ 64 = len - i := by omega
  have h32 : (2 : Nat) ^ 32 ≤ 2 ^ c.ibits := Nat.pow_le_pow_right (by omega) hc.ibits
  unfold absorbStep
  dsimp only
  rw [e]
  refine Wp.branch (fun hb => ?_) (fun hb => ?_)
  · skipb
    refine Wp.bind ((hc.transform f _ _).mono fun s' k _ hk => ?_)
    subst hk
    refine Wp.ok ⟨fun t e => ?_, fun t e => (nomatch e)⟩
    cases e
    dsimp only
    rw [Nat.mod_eq_of_lt (show i + c.blk < 2 ^ c.ibits by omega), ← Nat.sub_sub]
    refine ⟨⟨by omega, ?_⟩, ?_⟩
    · rw [← Nat.mod_eq_sub_mod hb]; exact hm
    · rw [Nat.div_eq_sub_div h0 hb, Nat.add_mul, Nat.one_mul]
      omega
  · refine Wp.ok ⟨fun t e => (nomatch e), fun t e => ?_⟩
    cases e
    rw [Nat.mod_eq_of_lt (by omega)] at hm
    dsimp only
    rw [Nat.div_eq_of_lt (by omega), Nat.zero_mul]
    exact ⟨⟨hi, hm⟩, rfl⟩

theorem prims_run {s : List (V wb)} {ml : BitVec 64} {ins : List Bytes} {len : Nat} (hl : len < 2 ^ 32) :
    Wp f (run c g s ml ins len) fun _ k => k = blocks c len * one f h := by
  have h0 := hc.blk
  have h1 := hc.thr
  have h2 := hc.thr0
  have hlt := Nat.mod_lt len hc.blk
  have hd := Nat.div_add_mod len c.blk
  unfold run blocks
  dsimp only
  refine Wp.bind (Wp.loop (fun t => t.1 ≤ len ∧ (len - t.1) % c.blk = len % c.blk)
    (fun t => t.1 ≤ len ∧ len - t.1 = len % c.blk) (fun t => (len - t.1) / c.blk * one f h) ⟨Nat.zero_le _, rfl⟩
    (fun t ht => prims_absorbStep hc hl ht.1 ht.2) fun a ha => ?_)
  obtain ⟨i, s, ml⟩ := a
  dsimp only at ha ⊢
  rw [show (len + 2 ^ 64 - i) % 2 ^ 64 = len % c.blk by omega, Nat.sub_zero]
  skipb
  skipb
  refine Wp.bind (Wp.mono (Q := fun _ k => k = if len % c.blk < c.thr then 0 else one f h)
    (Wp.branch (fun hb => ?_) fun hb => ?_) fun a k _ hk => ?_)
  · rw [if_pos hb]
    exact Wp.ok rfl
  · rw [if_neg hb]
    skipb
    refine Wp.bind ((hc.transform f _ _).mono fun s' k _ hk => ?_)
    subst hk
    exact Wp.ok (by omega)
  subst hk
  obtain ⟨s, mb⟩ := a
  dsimp only
  skipb
  skipb
  refine Wp.bind ((hc.transform f _ _).mono fun s' k _ hk => ?_)
  subst hk
  refine Wp.ok ?_
  by_cases hb : len % c.blk < c.thr
  · rw [if_pos hb, show (len + (c.blk - c.thr)) / c.blk = len / c.blk from
      Nat.div_eq_of_lt_le (by rw [Nat.mul_comm]; omega) (by rw [Nat.succ_mul, Nat.mul_comm]; omega), Nat.add_mul]
    omega
  · rw [if_neg hb, show (len + (c.blk - c.thr)) / c.blk = len / c.blk + 1 from
      Nat.div_eq_of_lt_le (by rw [Nat.succ_mul, Nat.mul_comm]; omega)
        (by rw [Nat.succ_mul, Nat.succ_mul, Nat.mul_comm]; omega), Nat.add_mul, Nat.add_mul]
    omega

theorem prims_seeded {seed : Bytes} {sl : Nat} {ins : List Bytes} {len : Nat} (hl : len < 2 ^ 32) :
    Wp f (seeded c g seed sl ins len) fun _ k => k = blocks c len * one f h := by
  unfold seeded
  refine Wp.bind (Wp.free (free_tabulate fun j => Free.bind (Free.sub _ _) fun x => Free.bind (hc.load x) fun _ => Free.ok _)
    fun s _ => ?_)
  refine (prims_run hc hl).mono fun _ k _ hk => ?_
  omega

theorem prims_hashx {ins : List Bytes} {len : Nat} (hl : len < 2 ^ 32) :
    Wp f (hashx c g ins len) fun _ k => k = blocks c len * one f h := prims_run hc hl

end

section
variable {g : Nat → Nat → Byte}

theorem prims_mgfStep8 {o l : Nat} (hl : l + 4 < 2 ^ 32) {st : Nat × Bytes × Bytes} (h : st.1 ≤ o / 32) :
    Wp f (mgfStep8 g o l st) fun x k =>
      (∀ t, x = .inl t → t.1 ≤ o / 32 ∧ k + (o / 32 - t.1) * (blocks x256 (l + 4) * one f .sha256x) =
        (o / 32 - st.1) * (blocks x256 (l + 4) * one f .sha256x)) ∧
      ∀ t, x = .inr t → t.1 = o / 32 ∧ k = (o / 32 - st.1) * (blocks x256 (l + 4) * one f .sha256x) := by
  obtain ⟨i, out, inbuf⟩ := st
  dsimp only at h
  unfold mgfStep8
  dsimp only
  refine Wp.branch (fun hb => ?_) (fun hb => ?_)
  · skipb
    skipb
    refine Wp.bind ((prims_hashx count256 hl).mono fun b k _ hk => ?_)
    subst hk
    skipb
    refine Wp.ok ⟨fun t e => ?_, fun t e => (nomatch e)⟩
    cases e
    refine ⟨by show i + 1 ≤ _; omega, ?_⟩
    dsimp only
    rw [show o / 32 - i = (o / 32 - (i + 1)) + 1 by omega, Nat.succ_mul]
    omega
  · refine Wp.ok ⟨fun t e => (nomatch e), fun t e => ?_⟩
    cases e
    have hi : i = o / 32 := by omega
    refine ⟨hi, ?_⟩
    rw [hi, Nat.sub_self, Nat.zero_mul]

theorem prims_mgf1x8 {out : Bytes} {ins : List Bytes} {o l : Nat} (hl : l + 4 < 2 ^ 32) :
    Wp f (mgf1x8 g out o ins l) fun _ k => k = (o / 32 + 1) * (blocks x256 (l + 4) * one f .sha256x) := by
  unfold mgf1x8
  dsimp only
  skipb
  refine Wp.bind (Wp.loop (fun t => t.1 ≤ o / 32) (fun t => t.1 = o / 32)
    (fun t => (o / 32 - t.1) * (blocks x256 (l + 4) * one f .sha256x)) (Nat.zero_le _)
    (fun t ht => prims_mgfStep8 hl ht) fun a ha => ?_)
  obtain ⟨i, out, inbuf⟩ := a
  dsimp only at ha ⊢
  skipb
  skipb
  refine Wp.bind ((prims_hashx count256 hl).mono fun b k _ hk => ?_)
  subst hk
  skipb
  skip1
  rw [Nat.sub_zero, Nat.succ_mul]
  omega

theorem prims_mgfStep4 {o l : Nat} (hl : l + 4 < 2 ^ 32) {st : Nat × Nat × Nat × Bytes × Bytes × Bytes} :
    Wp f (mgfStep4 g o l st) fun x k =>
      (∀ t, x = .inl t → True ∧ k + (t.2.1 + 63) / 64 * (blocks x512 (l + 4) * one f .sha512x) =
        (st.2.1 + 63) / 64 * (blocks x512 (l + 4) * one f .sha512x)) ∧
      ∀ t, x = .inr t → True ∧ k = (st.2.1 + 63) / 64 * (blocks x512 (l + 4) * one f .sha512x) := by
  obtain ⟨i, rem, pos, out, inbuf, outbuf⟩ := st
  unfold mgfStep4
  dsimp only
  refine Wp.branch (fun hb => ?_) (fun hb => ?_)
  · refine Wp.bind (Wp.mono (Q := fun s k => s = min rem 64 ∧ k = 0)
      (Wp.branch (fun h => Wp.ok ⟨by omega, rfl⟩) fun h => Wp.ok ⟨by omega, rfl⟩) fun s k _ hk => ?_)
    obtain ⟨rfl, rfl⟩ := hk
    skipb
    skipb
    refine Wp.bind ((prims_hashx count512 hl).mono fun b k _ hk => ?_)
    subst hk
    skipb
    skipb
    refine Wp.ok ⟨fun t e => ⟨trivial, ?_⟩, fun t e => (nomatch e)⟩
    cases e
    dsimp only
    rw [show (rem + 63) / 64 = (rem - min rem 64 + 63) / 64 + 1 by omega, Nat.succ_mul]
    omega
  · refine Wp.ok ⟨fun t e => (nomatch e), fun t e => ⟨trivial, ?_⟩⟩
    rw [show (rem + 63) / 64 = 0 by omega, Nat.zero_mul]

theorem prims_mgf1x4 {out : Bytes} {ins : List Bytes} {o l : Nat} (hl : l + 4 < 2 ^ 32) :
    Wp f (mgf1x4_512 g out o ins l) fun _ k => k = (o + 63) / 64 * (blocks x512 (l + 4) * one f .sha512x) := by
  unfold mgf1x4_512
  dsimp only
  skipb
  refine Wp.loop (fun _ => True) (fun _ => True)
    (fun t => (t.2.1 + 63) / 64 * (blocks x512 (l + 4) * one f .sha512x)) trivial
    (fun t ht => prims_mgfStep4 hl) fun a ha => ?_
  dsimp only
  omega

variable {P : Params}

theorem free_simpleBufs (P : Params) (g : Nat → Nat → Byte) (i : List Bytes) (b : Nat) (a : List Addr) :
    Free (simpleBufs P g i b a) := by unfold simpleBufs; free
macro_rules | `(tactic| free_leaf) => `(tactic| with_reducible exact free_simpleBufs ..)
theorem free_robustBufs (P : Params) (g : Nat → Nat → Byte) (b : Nat) (c : Ctx) (a : List Addr) :
    Free (robustBufs P g b c a) := by unfold robustBufs; free
macro_rules | `(tactic| free_leaf) => `(tactic| with_reducible exact free_robustBufs ..)
theorem free_maskBufs (P : Params) (k l : Nat) (i : List Bytes) (b : Nat) (m x : Bytes) :
    Free (maskBufs P k l i b m x) := by unfold maskBufs; free
macro_rules | `(tactic| free_leaf) => `(tactic| with_reducible exact free_maskBufs ..)

theorem prims_outs512 {seed b : Bytes} {base stride len : Nat} (hl : len < 2 ^ 32) :
    Wp f (outs512 P g seed b base stride len) fun _ k => k = 2 * (blocks x512 len * one f .sha512x) := by
  unfold outs512
  dsimp only
  skipb
  refine Wp.bind ((prims_seeded count512 hl).mono fun b k _ hk => ?_)
  subst hk
  skipb
  skipb
  skipb
  refine Wp.bind ((prims_seeded count512 hl).mono fun b k _ hk => ?_)
  subst hk
  skipb
  skipb
  exact Wp.ok (by omega)

theorem prims_outs256 {seed b : Bytes} {base stride len : Nat} (hl : len < 2 ^ 32) :
    Wp f (outs256 P g seed b base stride len) fun _ k => k = blocks x256 len * one f .sha256x := by
  unfold outs256
  dsimp only
  skipb
  refine Wp.bind ((prims_seeded count256 hl).mono fun b k _ hk => ?_)
  subst hk
  skipb
  skip1
  omega

end

theorem weigh_shax256 (len : Nat) : weigh (one f) (shax false len) = blocks x256 len * one f .sha256x := by
  show weigh (one f) [((len + 8) / 64 + 1, .sha256x)] = ((len + (64 - 56)) / 64 + 1) * one f .sha256x
  rw [weigh_cons, weigh_nil, Nat.add_zero]

theorem weigh_shax512 (len : Nat) : weigh (one f) (shax true len) = 2 * (blocks x512 len * one f .sha512x) := by
  show weigh (one f) (times 2 [((len + 16) / 128 + 1, .sha512x)]) = 2 * (((len + (128 - 112)) / 128 + 1) * one f .sha512x)
  rw [weigh_times, weigh_cons, weigh_nil, Nat.add_zero]

theorem weigh_mgfx256 (i o : Nat) : weigh (one f) (mgfx false i o) =
    (o / 32 + 1) * (blocks x256 (i + 4) * one f .sha256x) := by
  unfold mgfx
  rw [weigh_times, weigh_shax256]
  rfl

theorem weigh_mgfx512 (i o : Nat) : weigh (one f) (mgfx true i o) =
    2 * ((o + 63) / 64 * (blocks x512 (i + 4) * one f .sha512x)) := by
  unfold mgfx
  rw [weigh_times, weigh_shax512, Nat.mul_left_comm]
  rfl

theorem lanes_cost (f : Fn) (P : Params) (hn : P.n ≤ 64) (h5 : P.sha512 = decide (24 ≤ P.n)) (g : Nat → Nat → Byte)
    (ml : Nat) : LaneCost f (Sha2X.lanes P g) fun h => weigh (one f) (sha2PrimsX P.toSpec P.robust ml h) where
  prfx c a := by
    show Wp f (prf_addrx8 P g c a) fun _ k => k = weigh (one f) (shax false (22 + P.n))
    rw [weigh_shax256]
    unfold prf_addrx8
    dsimp only
    rw [show SPX_SHA256_ADDR_BYTES = 22 from rfl]
    skipb
    skipb
    refine Wp.bind ((prims_seeded count256 (by omega)).mono fun x k _ hk => ?_)
    subst hk
    skipb
    skip1
    omega
  thashx i b c a hb := by
    show Wp f ((if P.robust then thashx8_robust P g else thashx8_simple P g) i b c a) fun _ k =>
      k = weigh (one f) ((if P.robust then mgfx (decide (24 ≤ P.n ∧ 1 < b)) (P.n + 22) (b * P.n) else []) ++
        shax (decide (24 ≤ P.n ∧ 1 < b)) (22 + b * P.n))
    have hbn : b * P.n ≤ 256 * 64 := Nat.mul_le_mul hb hn
    rw [weigh_append]
    cases P.robust
    · simp only [Bool.false_eq_true, if_false, weigh_nil, Nat.zero_add]
      unfold thashx8_simple
      dsimp only
      rw [h5, show SPX_SHA256_ADDR_BYTES = 22 from rfl]
      refine Wp.branch (fun h => ?_) (fun h => ?_)
      · rw [decide_eq_true (by simpa using h), weigh_shax512]
        skipb
        refine (prims_outs512 (by omega)).mono fun _ k _ hk => ?_
        omega
      · rw [decide_eq_false (by simpa using h), weigh_shax256]
        skipb
        refine (prims_outs256 (by omega)).mono fun _ k _ hk => ?_
        omega
    · simp only [if_true]
      unfold thashx8_robust
      dsimp only
      rw [h5, show SPX_SHA256_ADDR_BYTES = 22 from rfl]
      refine Wp.branch (fun h => ?_) (fun h => ?_)
      · rw [decide_eq_true (by simpa using h), weigh_shax512, weigh_mgfx512]
        skipb
        skipb
        refine Wp.bind ((prims_mgf1x4 (by omega)).mono fun _ k _ hk => ?_)
        subst hk
        skipb
        skipb
        refine Wp.bind ((prims_mgf1x4 (by omega)).mono fun _ k _ hk => ?_)
        subst hk
        skipb
        refine (prims_outs512 (by omega)).mono fun _ k _ hk => ?_
        omega
      · rw [decide_eq_false (by simpa using h), weigh_shax256, weigh_mgfx256]
        skipb
        skipb
        refine Wp.bind ((prims_mgf1x8 (by omega)).mono fun _ k _ hk => ?_)
        subst hk
        skipb
        refine (prims_outs256 (by omega)).mono fun _ k _ hk => ?_
        omega

theorem sha2_costX (f : Fn) (P : Params) (hn : P.n ≤ 64) (h5 : P.sha512 = decide (24 ≤ P.n)) (g : Nat → Nat → Byte)
    (ml : Nat) : HashCost f (Sha2.impl P g) (fun h => weigh (one f) (sha2PrimsX P.toSpec P.robust ml h)) ml where
  init c := (Sha2.sha2_cost f P hn h5 g ml).init c
  prf c a := (Sha2.sha2_cost f P hn h5 g ml).prf c a
  thash i b c a := (Sha2.sha2_cost f P hn h5 g ml).thash i b c a
  rand s o m c hm := (Sha2.sha2_cost f P hn h5 g ml).rand s o m c hm
  msg R pk m c hm := (Sha2.sha2_cost f P hn h5 g ml).msg R pk m c hm

end Spx.Leak.Sha2X
