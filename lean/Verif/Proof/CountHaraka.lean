import Verif.Proof.CountShake
import Verif.Proof.LeakHaraka
/-! # Permutations computed by the Haraka functions -/

namespace Spx.Leak.Haraka

open Spec Spx.Haraka

theorem free_Q8_load {w : Nat} (s : List (BitVec w)) (i : Nat) : Free (Q8.load s i) := by unfold Q8.load; free
macro_rules | `(tactic| free_leaf) => `(tactic| with_reducible exact free_Q8_load ..)
theorem free_br_dec32le (s : Bytes) : Free (br_dec32le s) := by unfold br_dec32le; free
macro_rules | `(tactic| free_leaf) => `(tactic| with_reducible exact free_br_dec32le ..)
theorem free_br_range_dec32le (k : Nat) (s : Bytes) : Free (br_range_dec32le k s) := by unfold br_range_dec32le; free
macro_rules | `(tactic| free_leaf) => `(tactic| with_reducible exact free_br_range_dec32le ..)
theorem free_br_range_enc32le (k : Nat) (s : List (BitVec 32)) : Free (br_range_enc32le k s) := by
  unfold br_range_enc32le; free
macro_rules | `(tactic| free_leaf) => `(tactic| with_reducible exact free_br_range_enc32le ..)
theorem free_slice64 (s : Bytes) : Free (slice64 s) := by unfold slice64; free
macro_rules | `(tactic| free_leaf) => `(tactic| with_reducible exact free_slice64 ..)
theorem free_slice32 (s : Bytes) : Free (slice32 s) := by unfold slice32; free
macro_rules | `(tactic| free_leaf) => `(tactic| with_reducible exact free_slice32 ..)
theorem free_interleave_constant (o : List (BitVec 64)) (i : Nat) (s : Bytes) : Free (interleave_constant o i s) := by
  unfold interleave_constant; free
macro_rules | `(tactic| free_leaf) => `(tactic| with_reducible exact free_interleave_constant ..)
theorem free_interleave_constant32 (o : List (BitVec 32)) (i : Nat) (s : Bytes) : Free (interleave_constant32 o i s) := by
  unfold interleave_constant32; free
macro_rules | `(tactic| free_leaf) => `(tactic| with_reducible exact free_interleave_constant32 ..)
theorem free_aes64 (rc : List (BitVec 64)) (k : Nat) (q : Q8 64) : Free (aes64 rc k q) := by unfold aes64; free
macro_rules | `(tactic| free_leaf) => `(tactic| with_reducible exact free_aes64 ..)
theorem free_aes32 (rc : List (BitVec 32)) (k : Nat) (q : Q8 32) : Free (aes32 rc k q) := by unfold aes32; free
macro_rules | `(tactic| free_leaf) => `(tactic| with_reducible exact free_aes32 ..)

variable {f : Fn}

/-- A permutation which writes 64 bytes and counts `c` -/
def PermCost (f : Fn) (perm : Bytes → Ctx → L Bytes) (c : Nat) : Prop :=
  ∀ s ctx, Wp f (perm s ctx) fun o k => o.length = 64 ∧ k = c

theorem PermCost.of {perm : Bytes → Ctx → L Bytes} {c : Nat} (h : PermLow perm perm)
    (hk : ∀ s ctx, Wp f (perm s ctx) fun _ k => k = c) : PermCost f perm c := by
  intro s ctx o ho
  have := (h s s ctx ctx rfl ⟨rfl, rfl, rfl, rfl, rfl, rfl, rfl⟩).2
  rw [ho] at this
  exact ⟨this.1, hk s ctx o ho⟩

theorem haraka512_perm_cost : PermCost f haraka512_perm (one f .haraka512) := by
  refine PermCost.of low_perm fun s ctx => ?_
  unfold haraka512_perm
  refine Wp.prim ?_
  skipb
  skipb
  skip1
  omega

/-- The element of the state which counts bytes. -/
def cur (s : Bytes) : Nat := (s.getD 64 0).toNat

theorem rd1_cur {s : Bytes} {x : Byte} (h : Spx.rd1 s 64 = .ok x) : x.toNat = cur s := by
  unfold Spx.rd1 at h
  unfold cur
  rw [List.getD_eq_getElem?_getD]
  split at h
  · next e => cases h; rw [e]; rfl
  · cases h

theorem wr1_cur {s s' : Bytes} {i : Nat} {x : Byte} (h : Spx.wr1 s i x = .ok s') :
    cur s' = if i = 64 then x.toNat else cur s := by
  obtain ⟨hi, rfl⟩ := wr1_inv h
  unfold cur
  simp only [List.getD_eq_getElem?_getD, List.getElem?_set]
  by_cases e : i = 64
  · subst e; simp [hi]
  · simp [e]

theorem wr_cur {s s' d : Bytes} (hd : d.length = 64) (h : Spx.wr s 0 d = .ok s') : cur s' = cur s := by
  unfold Spx.wr at h
  split at h
  · cases h
    unfold cur
    rw [List.getD_eq_getElem?_getD, List.getD_eq_getElem?_getD]
    simp [List.getElem?_append, hd]
  · cases h

section
variable {perm : Bytes → Ctx → L Bytes} {x : Nat} (hp : PermCost f perm x) {ctx : Ctx}
include hp

theorem prims_absorb_block {r : Nat} (hr : 0 < r) {st : Bytes × Bytes × Nat} :
    Wp f (haraka_S_absorb_block perm r ctx st) fun y k =>
      (∀ t, y = .inl t → True ∧ k + t.2.2 / r * x = st.2.2 / r * x) ∧
      ∀ t, y = .inr t → True ∧ k = st.2.2 / r * x := by
  obtain ⟨s, m, mlen⟩ := st
  unfold haraka_S_absorb_block
  dsimp only
  refine Wp.branch (fun h => ?_) (fun h => ?_)
  · skipb
    refine Wp.bind ((hp _ _).mono fun s' k _ hk => ?_)
    obtain ⟨-, rfl⟩ := hk
    skipb
    skipb
    refine Wp.ok ⟨fun t e => ⟨trivial, ?_⟩, fun t e => (nomatch e)⟩
    cases e
    dsimp only
    rw [Nat.div_eq_sub_div hr h, Nat.add_mul, Nat.one_mul]
    omega
  · refine Wp.ok ⟨fun t e => (nomatch e), fun t _ => ⟨trivial, ?_⟩⟩
    rw [Nat.div_eq_of_lt (by omega), Nat.zero_mul]

theorem prims_absorb {g : Nat → Byte} {s : Bytes} {r : Nat} (hr : 0 < r) {m : Bytes} {mlen : Nat} {p : Byte} :
    Wp f (haraka_S_absorb perm g s r m mlen p ctx) fun _ k => k = mlen / r * x := by
  unfold haraka_S_absorb
  refine Wp.bind (Wp.loop (fun _ => True) (fun _ => True) (fun t => t.2.2 / r * x) trivial
    (fun t _ => prims_absorb_block hp hr) fun a _ => ?_)
  obtain ⟨s, m, l⟩ := a
  dsimp only
  skipb
  skipb
  skipb
  skipb
  skipb
  skip1
  omega

theorem prims_squeezeblocks {h : Bytes} {n : Nat} {s : Bytes} {r : Nat} :
    Wp f (haraka_S_squeezeblocks perm h n s r ctx) fun _ k => k = n * x := by
  unfold haraka_S_squeezeblocks
  refine Wp.bind (Wp.forConst x (fun i t _ => ?_) fun t => ?_)
  · obtain ⟨h, off, s⟩ := t
    dsimp only
    refine Wp.bind ((hp _ _).mono fun s' k _ hk => ?_)
    obtain ⟨-, rfl⟩ := hk
    skipb
    skipb
    skipb
    exact Wp.ok (by omega)
  · obtain ⟨h, off, s⟩ := t
    exact Wp.ok rfl

theorem prims_haraka_S {g : Nat → Nat → Byte} {out : Bytes} {o : Nat} {inp : Bytes} {i : Nat} :
    Wp f (haraka_S perm g out o inp i ctx) fun _ k => k = spongePerms 32 i o * x := by
  unfold haraka_S spongePerms
  dsimp only
  skipb
  refine Wp.bind ((prims_absorb hp (by omega)).mono fun s k _ hk => ?_)
  subst hk
  refine Wp.bind ((prims_squeezeblocks hp).mono fun a k _ hk => ?_)
  subst hk
  obtain ⟨out, s⟩ := a
  dsimp only
  refine Wp.branch (fun h => ?_) (fun h => ?_)
  · refine Wp.bind ((prims_squeezeblocks hp).mono fun a k _ hk => ?_)
    subst hk
    obtain ⟨t, s⟩ := a
    dsimp only
    skip1
    rw [show (o + 32 - 1) / 32 = o / 32 + 1 by omega, Nat.add_mul, Nat.add_mul]
    omega
  · refine Wp.ok ?_
    rw [show (o + 32 - 1) / 32 = o / 32 by omega, Nat.add_mul]
    omega

/-! ## The incremental functions -/

omit hp in
theorem prims_inc_init {s : Bytes} : Wp f (haraka_S_inc_init s) fun s' k => cur s' = 0 ∧ k = 0 := by
  unfold haraka_S_inc_init
  skipb
  refine Wp.free (by free) fun s' h => ⟨?_, rfl⟩
  exact wr1_cur h

omit hp in
theorem prims_inc_xor {s : Bytes} {m : Bytes} {len : Nat} (h : cur s + len ≤ 64) :
    Wp f (haraka_S_inc_xor s m len) fun s' c => cur s' = cur s ∧ c = 0 := by
  unfold haraka_S_inc_xor
  refine Wp.bind (Wp.free (by free) fun x hx => ?_)
  have hx := rd1_cur hx
  refine Wp.forInv (fun _ t => cur t = cur s) (fun _ => 0) rfl (fun i t hi ht => ?_) fun t ht => ⟨ht, ?_⟩
  · skipb
    skipb
    refine Wp.free (by free) fun t' h' => ⟨?_, rfl⟩
    have h' := wr1_cur h'
    rw [if_neg (by omega)] at h'
    rw [h', ht]
  · rw [sum_const, Nat.mul_zero]

theorem prims_inc_absorb_block {T : Nat} {st : Bytes × Bytes × Nat} (h1 : cur st.1 < 32)
    (h2 : (st.2.2 + cur st.1) % 32 = T % 32) :
    Wp f (haraka_S_inc_absorb_block perm ctx st) fun y k =>
      (∀ t, y = .inl t → (cur t.1 < 32 ∧ (t.2.2 + cur t.1) % 32 = T % 32) ∧
        k + (t.2.2 + cur t.1) / 32 * x = (st.2.2 + cur st.1) / 32 * x) ∧
      ∀ t, y = .inr t → t.2.2 + cur t.1 = T % 32 ∧ k = (st.2.2 + cur st.1) / 32 * x := by
  obtain ⟨s, m, mlen⟩ := st
  unfold haraka_S_inc_absorb_block
  rw [show HARAKAS_RATE = 32 from rfl]
  dsimp only at h1 h2 ⊢
  refine Wp.bind (Wp.free (by free) fun y hy => ?_)
  have hy := rd1_cur hy
  refine Wp.branch (fun h => ?_) (fun h => ?_)
  · refine Wp.bind ((prims_inc_xor (by omega)).mono fun s1 k _ hk => ?_)
    obtain ⟨e1, rfl⟩ := hk
    skipb
    refine Wp.bind (Wp.free (by free) fun s2 hs2 => ?_)
    have e2 := wr1_cur hs2
    rw [if_pos rfl] at e2
    refine Wp.bind ((hp _ _).mono fun o k _ hk => ?_)
    obtain ⟨e3, rfl⟩ := hk
    refine Wp.bind (Wp.free (by free) fun s3 hs3 => ?_)
    refine Wp.ok ⟨fun t e => ?_, fun t e => (nomatch e)⟩
    cases e
    have e4 : cur s3 = 0 := (wr_cur e3 hs3).trans e2
    dsimp only
    rw [e4]
    refine ⟨⟨by omega, by omega⟩, ?_⟩
    rw [show (mlen + cur s) / 32 = 1 + (mlen - (32 - y.toNat) + 0) / 32 by omega, Nat.add_mul]
    omega
  · refine Wp.ok ⟨fun t e => (nomatch e), fun t e => ?_⟩
    cases e
    dsimp only
    refine ⟨by omega, ?_⟩
    rw [Nat.div_eq_of_lt (by omega), Nat.zero_mul]

theorem prims_inc_absorb {s : Bytes} {m : Bytes} {mlen : Nat} (h : cur s < 32) :
    Wp f (haraka_S_inc_absorb perm s m mlen ctx) fun s' k =>
      cur s' = (cur s + mlen) % 32 ∧ k = (cur s + mlen) / 32 * x := by
  unfold haraka_S_inc_absorb
  refine Wp.bind (Wp.loop (fun t => cur t.1 < 32 ∧ (t.2.2 + cur t.1) % 32 = (cur s + mlen) % 32)
    (fun t => t.2.2 + cur t.1 = (cur s + mlen) % 32) (fun t => (t.2.2 + cur t.1) / 32 * x)
    ⟨h, by rw [Nat.add_comm]⟩ (fun t ht => prims_inc_absorb_block hp ht.1 ht.2) fun a ha => ?_)
  obtain ⟨s1, m1, l1⟩ := a
  dsimp only at ha ⊢
  refine Wp.bind ((prims_inc_xor (by omega)).mono fun s2 k _ hk => ?_)
  obtain ⟨e2, rfl⟩ := hk
  refine Wp.bind (Wp.free (by free) fun y hy => ?_)
  have hy := rd1_cur hy
  refine Wp.free (by free) fun s3 hs3 => ?_
  have e3 := wr1_cur hs3
  rw [if_pos rfl, BitVec.toNat_add, BitVec.toNat_ofNat] at e3
  refine ⟨by omega, ?_⟩
  rw [Nat.add_comm mlen]
  omega

omit hp in
theorem prims_inc_finalize {s : Bytes} :
    Wp f (haraka_S_inc_finalize s) fun s' k => cur s' = 0 ∧ k = 0 := by
  unfold haraka_S_inc_finalize
  skipb
  skipb
  skipb
  skipb
  skipb
  refine Wp.free (by free) fun s3 hs3 => ⟨?_, rfl⟩
  exact wr1_cur hs3

theorem prims_inc_squeeze_block {st : Bytes × Nat × Nat × Bytes} :
    Wp f (haraka_S_inc_squeeze_block perm ctx st) fun y k =>
      (∀ t, y = .inl t → True ∧ k + (t.2.2.1 + 31) / 32 * x = (st.2.2.1 + 31) / 32 * x) ∧
      ∀ t, y = .inr t → True ∧ k = (st.2.2.1 + 31) / 32 * x := by
  obtain ⟨h, off, outlen, s⟩ := st
  unfold haraka_S_inc_squeeze_block
  rw [show HARAKAS_RATE = 32 from rfl]
  dsimp only
  refine Wp.branch (fun hpos => ?_) (fun hpos => ?_)
  · refine Wp.bind ((hp _ _).mono fun s1 k _ hk => ?_)
    obtain ⟨-, rfl⟩ := hk
    skipb
    skipb
    skipb
    refine Wp.ok ⟨fun t e => ⟨trivial, ?_⟩, fun t e => (nomatch e)⟩
    cases e
    dsimp only
    rw [show (outlen + 31) / 32 = 1 + (outlen - min outlen 32 + 31) / 32 by omega, Nat.add_mul]
    omega
  · refine Wp.ok ⟨fun t e => (nomatch e), fun t e => ⟨trivial, ?_⟩⟩
    rw [Nat.div_eq_of_lt (by omega), Nat.zero_mul]

theorem prims_inc_squeeze {h : Bytes} {o : Nat} {s : Bytes} (hs : cur s = 0) :
    Wp f (haraka_S_inc_squeeze perm h o s ctx) fun _ k => k = (o + 31) / 32 * x := by
  unfold haraka_S_inc_squeeze
  refine Wp.bind (Wp.free (by free) fun y hy => ?_)
  have hy := rd1_cur hy
  rw [hs] at hy
  rw [hy]
  skipb
  skipb
  skipb
  refine Wp.loop (fun _ => True) (fun _ => True) (fun t => (t.2.2.1 + 31) / 32 * x) trivial
    (fun t _ => prims_inc_squeeze_block hp) fun a _ => ?_
  dsimp only
  rw [Nat.min_zero, Nat.sub_zero]
  omega

end

/-- The functions of haraka.c make the calls which the hash functions expect. -/
structure LibCost (f : Fn) (K : Lib) : Prop where
  perm : PermCost f K.haraka512_perm (one f .haraka512)
  h512 : ∀ s c, Wp f (K.haraka512 s c) fun _ k => k = one f .haraka512
  h256 : ∀ s c, Wp f (K.haraka256 s c) fun _ k => k = one f .haraka256
  sponge : ∀ g o ol i il c, Wp f (K.haraka_S g o ol i il c) fun _ k => k = weigh (one f) (harakaS il ol)
  tweak : ∀ g n c, Wp f (K.tweak_constants g n c) fun _ k => k = weigh (one f) (harakaS n 640)

theorem weigh_harakaS (i o : Nat) : weigh (one f) (harakaS i o) = spongePerms 32 i o * one f .haraka512 := by
  unfold harakaS
  rw [weigh_cons, weigh_nil, Nat.add_zero]

theorem refLib_cost : LibCost f refLib where
  perm := haraka512_perm_cost
  h512 s c := by
    show Wp f (haraka512 s c) _
    unfold haraka512
    refine Wp.bind ((haraka512_perm_cost s c).mono fun b k _ hk => ?_)
    obtain ⟨-, rfl⟩ := hk
    skipb
    skip1
    omega
  h256 s c := by
    show Wp f (haraka256 s c) _
    unfold haraka256
    refine Wp.prim ?_
    skipb
    skipb
    skip1
    omega
  sponge g o ol i il c := by
    rw [weigh_harakaS]
    exact prims_haraka_S haraka512_perm_cost
  tweak g n c := by
    show Wp f (tweak_constants g n c) _
    rw [weigh_harakaS]
    unfold tweak_constants
    skipb
    refine Wp.bind ((prims_haraka_S haraka512_perm_cost).mono fun b k _ hk => ?_)
    subst hk
    skip1
    rw [show 40 * 16 = 640 from rfl]
    omega

theorem haraka_cost {K : Lib} (hK : LibCost f K) (P : Params) (g : Nat → Nat → Byte) (ml : Nat) :
    HashCost f (implWith K P g) (fun h => weigh (one f) (harakaPrims P.toSpec P.robust ml h)) ml where
  init c := hK.tweak _ _ _
  prf c a := by
    show Wp f (prf_addr K P c a) fun _ k => k = weigh (one f) [(1, .haraka512)]
    rw [weigh_cons, weigh_nil]
    unfold prf_addr
    skipb
    skipb
    skipb
    skipb
    refine Wp.bind ((hK.h512 _ _).mono fun b k _ hk => ?_)
    subst hk
    skip1
    omega
  thash i b c a := by
    show Wp f ((if P.robust then thash_robust K P g else thash_simple K P g) i b c a) fun _ k =>
      k = weigh (one f) (if b = 1 then (if P.robust then [(1, .haraka256)] else []) ++ [(1, .haraka512)]
        else (if P.robust then harakaS 32 (b * P.n) else []) ++ harakaS (32 + b * P.n) P.n)
    cases P.robust
    · simp only [Bool.false_eq_true, if_false, List.nil_append]
      unfold thash_simple
      refine Wp.branch (fun h => ?_) (fun h => ?_)
      · rw [if_pos h, weigh_cons, weigh_nil]
        skipb
        skipb
        skipb
        skipb
        refine Wp.bind ((hK.h512 _ _).mono fun b k _ hk => ?_)
        subst hk
        skip1
        omega
      · rw [if_neg h]
        skipb
        skipb
        skipb
        skipb
        refine (hK.sponge _ _ _ _ _ _).mono fun b k _ hk => ?_
        subst hk
        rw [show SPX_ADDR_BYTES = 32 from rfl]
        omega
    · simp only [if_true]
      unfold thash_robust
      refine Wp.branch (fun h => ?_) (fun h => ?_)
      · rw [if_pos h, weigh_append, weigh_cons, weigh_nil, weigh_cons, weigh_nil]
        skipb
        skipb
        refine Wp.bind ((hK.h256 _ _).mono fun b k _ hk => ?_)
        subst hk
        skipb
        refine Wp.bind ((hK.h512 _ _).mono fun b k _ hk => ?_)
        subst hk
        skip1
        omega
      · rw [if_neg h, weigh_append]
        skipb
        skipb
        refine Wp.bind ((hK.sponge _ _ _ _ _ _).mono fun b k _ hk => ?_)
        subst hk
        skipb
        refine (hK.sponge _ _ _ _ _ _).mono fun b k _ hk => ?_
        subst hk
        rw [show SPX_ADDR_BYTES = 32 from rfl]
        omega
  rand s o m c hm := by
    subst hm
    show Wp f (gen_message_random K P g s o m c) fun _ k => k = weigh (one f) (harakaS (2 * P.n + m.length) P.n)
    unfold gen_message_random
    rw [weigh_harakaS, show 2 * P.n + m.length = P.n + P.n + m.length by omega, ← sponge_sum (by omega)]
    refine Wp.bind (prims_inc_init.mono fun s0 k _ hk => ?_)
    obtain ⟨e0, rfl⟩ := hk
    refine Wp.bind ((prims_inc_absorb hK.perm (by omega)).mono fun s1 k _ hk => ?_)
    obtain ⟨e1, rfl⟩ := hk
    refine Wp.bind ((prims_inc_absorb hK.perm (by omega)).mono fun s2 k _ hk => ?_)
    obtain ⟨e2, rfl⟩ := hk
    refine Wp.bind ((prims_inc_absorb hK.perm (by omega)).mono fun s3 k _ hk => ?_)
    obtain ⟨e3, rfl⟩ := hk
    refine Wp.bind (prims_inc_finalize.mono fun s4 k _ hk => ?_)
    obtain ⟨e4, rfl⟩ := hk
    refine Wp.bind ((prims_inc_squeeze hK.perm e4).mono fun r k _ hk => ?_)
    subst hk
    obtain ⟨R, s5⟩ := r
    refine Wp.ok ?_
    rw [e2, e1, e0]
    simp only [Nat.zero_add, Nat.add_zero]
    rfl
  msg R pk m c hm := by
    subst hm
    show Wp f (hash_message K P g R pk m c) fun _ k =>
      k = weigh (one f) (harakaS (2 * P.n + m.length) (digestBytes P.toSpec))
    rw [show digestBytes P.toSpec = P.dgstBytes by
      unfold digestBytes Params.dgstBytes; rw [toSpec_mdBytes, toSpec_treeBytes, toSpec_leafBytes]]
    unfold hash_message
    rw [weigh_harakaS, show 2 * P.n + m.length = P.n + P.n + m.length by omega, ← sponge_sum (by omega)]
    refine Wp.bind (prims_inc_init.mono fun s0 k _ hk => ?_)
    obtain ⟨e0, rfl⟩ := hk
    refine Wp.bind ((prims_inc_absorb hK.perm (by omega)).mono fun s1 k _ hk => ?_)
    obtain ⟨e1, rfl⟩ := hk
    skipb
    refine Wp.bind ((prims_inc_absorb hK.perm (by omega)).mono fun s2 k _ hk => ?_)
    obtain ⟨e2, rfl⟩ := hk
    refine Wp.bind ((prims_inc_absorb hK.perm (by omega)).mono fun s3 k _ hk => ?_)
    obtain ⟨e3, rfl⟩ := hk
    refine Wp.bind (prims_inc_finalize.mono fun s4 k _ hk => ?_)
    obtain ⟨e4, rfl⟩ := hk
    refine Wp.bind ((prims_inc_squeeze hK.perm e4).mono fun r k _ hk => ?_)
    subst hk
    obtain ⟨buf, s5⟩ := r
    dsimp only
    skip1
    rw [e2, e1, e0]
    simp only [Nat.zero_add, Nat.add_zero]
    rfl

end Spx.Leak.Haraka
