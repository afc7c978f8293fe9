import Verif.Proof.CountShake
import Verif.Proof.CountParallel
import Verif.Model.LeakShakeX

/-! # Permutations computed by the SHAKE functions for several lanes -/

namespace Spx.Leak

open Spec

variable {f : Fn}

theorem Wp.branchOr {α : Type} {p q : Prop} [Decidable p] [Decidable q] {x y : L α} {Q : α → Nat → Prop}
    (hx : p ∨ q → Wp f x Q) (hy : ¬ (p ∨ q) → Wp f y Q) : Wp f (Leak.branchOr p q x y) Q := by
  unfold Leak.branchOr
  refine Wp.L_bind fun _ _ => ?_
  have e : calls f (Ev.br (decide p) :: if p then [] else [Ev.br (decide q)]) = 0 := by
    split
    · exact calls_br ..
    · exact calls_br2 ..
  show Wp f _ fun b m => Q b (calls f (Ev.br (decide p) :: if p then [] else [Ev.br (decide q)]) + m)
  rw [e]
  simp only [Nat.zero_add]
  by_cases h : p ∨ q
  · rw [if_pos h]; exact hx h
  · rw [if_neg h]; exact hy h

theorem free_getw (ln : Nat) (s : List (BitVec 64)) (i : Nat) : Free (getw ln s i) := by unfold getw; free
macro_rules | `(tactic| free_leaf) => `(tactic| with_reducible exact free_getw ..)
theorem free_setw (ln : Nat) (s : List (BitVec 64)) (i : Nat) (w : VReg) : Free (setw ln s i w) := by unfold setw; free
macro_rules | `(tactic| free_leaf) => `(tactic| with_reducible exact free_setw ..)
theorem free_VLanes_load (ln : Nat) (s : List (BitVec 64)) : Free (VLanes.load ln s) := by unfold VLanes.load; free
macro_rules | `(tactic| free_leaf) => `(tactic| with_reducible exact free_VLanes_load ..)
theorem free_VLanes_store (ln : Nat) (A : VLanes) (s : List (BitVec 64)) : Free (VLanes.store ln A s) := by
  unfold VLanes.store; free
macro_rules | `(tactic| free_leaf) => `(tactic| with_reducible exact free_VLanes_store ..)
theorem free_ldLanes (ln : Nat) (m : List Bytes) (i : Nat) : Free (ldLanes ln m i) := by unfold ldLanes; free
macro_rules | `(tactic| free_leaf) => `(tactic| with_reducible exact free_ldLanes ..)
theorem free_addrWord (a : Addr) (k : Nat) : Free (addrWord a k) := by unfold addrWord; free
macro_rules | `(tactic| free_leaf) => `(tactic| with_reducible exact free_addrWord ..)
theorem free_addrLanes (ln : Nat) (a : List Addr) (i : Nat) : Free (addrLanes ln a i) := by unfold addrLanes; free
macro_rules | `(tactic| free_leaf) => `(tactic| with_reducible exact free_addrLanes ..)
theorem free_xorLanes (ln r : Nat) (s : List (BitVec 64)) (m : List Bytes) : Free (xorLanes ln r s m) := by
  unfold xorLanes; free
macro_rules | `(tactic| free_leaf) => `(tactic| with_reducible exact free_xorLanes ..)
theorem free_absorbx_last (g : Nat → Byte) (r : Nat) (m : Bytes) (l : Nat) (p : Byte) :
    Free (keccak_absorbx_last g r m l p) := by unfold keccak_absorbx_last; free
macro_rules | `(tactic| free_leaf) => `(tactic| with_reducible exact free_absorbx_last ..)
theorem free_storeLane (ln : Nat) (s : List (BitVec 64)) (j k : Nat) (h : Bytes) : Free (storeLane ln s j k h) := by
  unfold storeLane; free
macro_rules | `(tactic| free_leaf) => `(tactic| with_reducible exact free_storeLane ..)
theorem free_seedLanes (ln n a : Nat) (b : Bytes) (s : List (BitVec 64)) : Free (seedLanes ln n a b s) := by
  unfold seedLanes; free
macro_rules | `(tactic| free_leaf) => `(tactic| with_reducible exact free_seedLanes ..)
theorem free_putAddrs (ln a : Nat) (b : List Addr) (s : List (BitVec 64)) : Free (putAddrs ln a b s) := by
  unfold putAddrs; free
macro_rules | `(tactic| free_leaf) => `(tactic| with_reducible exact free_putAddrs ..)
theorem free_outLanes (ln n : Nat) (g : Nat → Nat → Byte) (s : List (BitVec 64)) : Free (outLanes ln n g s) := by
  unfold outLanes; free
macro_rules | `(tactic| free_leaf) => `(tactic| with_reducible exact free_outLanes ..)
theorem free_zeroWords (ln a b : Nat) (s : List (BitVec 64)) : Free (zeroWords ln a b s) := by unfold zeroWords; free
macro_rules | `(tactic| free_leaf) => `(tactic| with_reducible exact free_zeroWords ..)
theorem free_xorWord (ln : Nat) (s : List (BitVec 64)) (i : Nat) (w : BitVec 64) : Free (xorWord ln s i w) := by
  unfold xorWord; free
macro_rules | `(tactic| free_leaf) => `(tactic| with_reducible exact free_xorWord ..)

/-- A permutation of several lanes -/
def PermX (f : Fn) (perm : List (BitVec 64) → L (List (BitVec 64))) : Prop :=
  ∀ s, Wp f (perm s) fun _ k => k = one f .keccakx

theorem f1600x2_cost : PermX f f1600x2 := by
  intro s
  unfold f1600x2
  refine Wp.prim ?_
  skipb
  skipb
  skip1
  omega

theorem permuteAll_cost : PermX f KeccakP1600times4_PermuteAll_24rounds := by
  intro s
  unfold KeccakP1600times4_PermuteAll_24rounds
  refine Wp.prim ?_
  skipb
  refine Wp.bind (Wp.free (by free) fun a _ => ?_)
  obtain ⟨c, a⟩ := a
  dsimp only
  skipb
  skip1
  omega

section
variable {ln : Nat} {perm : List (BitVec 64) → L (List (BitVec 64))} (hp : PermX f perm)
include hp

theorem prims_absorbx_block {r : Nat} (hr : 0 < r) {st : List (BitVec 64) × List Bytes × Nat} :
    Wp f (keccak_absorbx_block ln perm r st) fun x k =>
      (∀ t, x = .inl t → True ∧ k + t.2.2 / r * one f .keccakx = st.2.2 / r * one f .keccakx) ∧
      ∀ t, x = .inr t → True ∧ k = st.2.2 / r * one f .keccakx := by
  obtain ⟨s, m, mlen⟩ := st
  unfold keccak_absorbx_block
  dsimp only
  refine Wp.branch (fun h => ?_) (fun h => ?_)
  · skipb
    refine Wp.bind ((hp _).mono fun s' k _ hk => ?_)
    subst hk
    skipb
    refine Wp.ok ⟨fun t e => ⟨trivial, ?_⟩, fun t e => (nomatch e)⟩
    cases e
    dsimp only
    rw [Nat.div_eq_sub_div hr h, Nat.add_mul, Nat.one_mul]
    omega
  · refine Wp.ok ⟨fun t e => (nomatch e), fun t _ => ⟨trivial, ?_⟩⟩
    rw [Nat.div_eq_of_lt (by omega), Nat.zero_mul]

theorem prims_absorbx {g : Nat → Nat → Byte} {s : List (BitVec 64)} {r : Nat} (hr : 0 < r) {m : List Bytes} {mlen : Nat}
    {p : Byte} : Wp f (keccak_absorbx ln perm g s r m mlen p) fun _ k => k = mlen / r * one f .keccakx := by
  unfold keccak_absorbx
  refine Wp.bind (Wp.loop (fun _ => True) (fun _ => True) (fun t => t.2.2 / r * one f .keccakx) trivial
    (fun t _ => prims_absorbx_block hp hr) fun a _ => ?_)
  obtain ⟨s, m, l⟩ := a
  dsimp only
  skipb
  skip1
  omega

theorem prims_squeezeblocksx {h : List Bytes} {n : Nat} {s : List (BitVec 64)} {r : Nat} :
    Wp f (keccak_squeezeblocksx ln perm h n s r) fun _ k => k = n * one f .keccakx := by
  unfold keccak_squeezeblocksx
  refine Wp.bind (Wp.forConst (one f .keccakx) (fun i t _ => ?_) fun t => ?_)
  · obtain ⟨h, off, s⟩ := t
    dsimp only
    refine Wp.bind ((hp _).mono fun s' k _ hk => ?_)
    subst hk
    skipb
    refine Wp.ok ?_
    omega
  · obtain ⟨h, off, s⟩ := t
    exact Wp.ok rfl

theorem prims_shake256x {g : Nat → Nat → Byte} {s : List (BitVec 64)} {out : List Bytes} {o : Nat} {inp : List Bytes}
    {i : Nat} : Wp f (shake256x ln perm g s out o inp i) fun _ k => k = weigh (one f) (shakex i o) := by
  unfold shake256x shakex spongePerms
  rw [show SHAKE256_RATE = 136 from rfl, weigh_cons, weigh_nil]
  dsimp only
  refine Wp.bind ((prims_absorbx hp (by omega)).mono fun s k _ hk => ?_)
  subst hk
  refine Wp.bind ((prims_squeezeblocksx hp).mono fun a k _ hk => ?_)
  subst hk
  obtain ⟨out, s⟩ := a
  dsimp only
  refine Wp.branch (fun h => ?_) (fun h => ?_)
  · refine Wp.bind ((prims_squeezeblocksx hp).mono fun a k _ hk => ?_)
    subst hk
    obtain ⟨t, s⟩ := a
    dsimp only
    skip1
    rw [show (o + 136 - 1) / 136 = o / 136 + 1 by omega, Nat.add_mul, Nat.add_mul]
    omega
  · refine Wp.ok ?_
    rw [show (o + 136 - 1) / 136 = o / 136 by omega, Nat.add_mul]
    omega

end

/-- SHAKE256 of several lanes -/
def ShakeX (f : Fn) (shk : List Bytes → Nat → List Bytes → Nat → L (List Bytes)) : Prop :=
  ∀ out o inp i, Wp f (shk out o inp i) fun _ k => k = weigh (one f) (shakex i o)

theorem shake256x2_cost (g : Nat → Nat → Byte) : ShakeX f (shake256x2 g) :=
  fun _ _ _ _ => prims_shake256x f1600x2_cost

theorem shake256x4_cost (g : Nat → Nat → Byte) : ShakeX f (shake256x4 g) := by
  intro out o inp i
  unfold shake256x4
  skipb
  refine (prims_shake256x permuteAll_cost).mono fun _ k _ hk => ?_
  omega

section
variable {ln : Nat} {shk : List Bytes → Nat → List Bytes → Nat → L (List Bytes)} (hs : ShakeX f shk) {P : Params}
  {g : Nat → Nat → Byte} {ins : List Bytes} {b : Nat} {ctx : Ctx} {addrs : List Addr}
include hs

theorem prims_simple_long : Wp f (thashx_simple_long ln shk P g ins b ctx addrs) fun _ k =>
    k = weigh (one f) (shakex (P.n + 32 + b * P.n) P.n) := by
  unfold thashx_simple_long
  skipb
  refine (hs _ _ _ _).mono fun _ k _ hk => ?_
  rw [show SPX_ADDR_BYTES = 32 from rfl] at hk
  omega

theorem prims_robust_long : Wp f (thashx_robust_long ln shk P g ins b ctx addrs) fun _ k =>
    k = weigh (one f) (shakex (P.n + 32) (b * P.n) ++ shakex (P.n + 32 + b * P.n) P.n) := by
  unfold thashx_robust_long
  rw [weigh_append]
  skipb
  refine Wp.bind ((hs _ _ _ _).mono fun _ k _ hk => ?_)
  skipb
  refine (hs _ _ _ _).mono fun _ k' _ hk' => ?_
  rw [show SPX_ADDR_BYTES = 32 from rfl] at hk hk'
  omega

end

/-- Inputs and outputs of one block -/
theorem weigh_shakex {i o : Nat} (hi : i < 136) (h0 : 0 < o) (ho : o ≤ 136) :
    weigh (one f) (shakex i o) = one f .keccakx := by
  unfold shakex spongePerms
  rw [weigh_cons, weigh_nil, Nat.div_eq_of_lt hi, show (o + 136 - 1) / 136 = 1 by omega]
  omega

section
variable {P : Params} (h0 : 0 < P.n) (hn : P.n ≤ 32) (g : Nat → Nat → Byte)
include h0 hn

theorem weigh_simple_short {b : Nat} (hb : b = 1 ∨ b = 2) :
    weigh (one f) (shakex (P.n + 32 + b * P.n) P.n) = one f .keccakx := by
  rcases hb with rfl | rfl <;> exact weigh_shakex (by omega) h0 (by omega)

theorem weigh_robust_short {b : Nat} (hb : b = 1 ∨ b = 2) :
    weigh (one f) (shakex (P.n + 32) (b * P.n)) = one f .keccakx := by
  rcases hb with rfl | rfl <;> exact weigh_shakex (by omega) (by omega) (by omega)

theorem a64_thashx (i : List Bytes) (b : Nat) (c : Ctx) (a : List Addr) :
    Wp f ((A64.lanes P g).thashx i b c a) fun _ k => k = weigh (one f)
      ((if P.robust then shakex (P.n + 32) (b * P.n) else []) ++ shakex (P.n + 32 + b * P.n) P.n) := by
  show Wp f ((if P.robust then A64.thashx2_robust P g else A64.thashx2_simple P g) i b c a) _
  cases P.robust
  · simp only [Bool.false_eq_true, if_false, List.nil_append]
    unfold A64.thashx2_simple
    refine Wp.branchOr (fun h => ?_) (fun h => prims_simple_long (shake256x2_cost g))
    rw [weigh_simple_short h0 hn h]
    skipb
    skipb
    skipb
    skipb
    skipb
    refine Wp.bind ((f1600x2_cost _).mono fun _ k _ hk => ?_)
    subst hk
    skip1
    omega
  · simp only [if_true]
    unfold A64.thashx2_robust
    refine Wp.branchOr (fun h => ?_) (fun h => prims_robust_long (shake256x2_cost g))
    rw [weigh_append, weigh_simple_short h0 hn h, weigh_robust_short h0 hn h]
    skipb
    skipb
    skipb
    skipb
    refine Wp.bind ((f1600x2_cost _).mono fun _ k _ hk => ?_)
    subst hk
    skipb
    skipb
    refine Wp.bind ((f1600x2_cost _).mono fun _ k _ hk => ?_)
    subst hk
    skip1
    omega

theorem avx2_thashx (i : List Bytes) (b : Nat) (c : Ctx) (a : List Addr) :
    Wp f ((Avx2.lanes P g).thashx i b c a) fun _ k => k = weigh (one f)
      ((if P.robust then shakex (P.n + 32) (b * P.n) else []) ++ shakex (P.n + 32 + b * P.n) P.n) := by
  show Wp f ((if P.robust then Avx2.thashx4_robust P g else Avx2.thashx4_simple P g) i b c a) _
  cases P.robust
  · simp only [Bool.false_eq_true, if_false, List.nil_append]
    unfold Avx2.thashx4_simple
    refine Wp.branchOr (fun h => ?_) (fun h => prims_simple_long (shake256x4_cost g))
    rw [weigh_simple_short h0 hn h]
    skipb
    skipb
    skipb
    skipb
    skipb
    skipb
    skipb
    refine Wp.bind ((permuteAll_cost _).mono fun _ k _ hk => ?_)
    subst hk
    skip1
    omega
  · simp only [if_true]
    unfold Avx2.thashx4_robust
    refine Wp.branchOr (fun h => ?_) (fun h => prims_robust_long (shake256x4_cost g))
    rw [weigh_append, weigh_simple_short h0 hn h, weigh_robust_short h0 hn h]
    skipb
    skipb
    skipb
    skipb
    skipb
    skipb
    refine Wp.bind ((permuteAll_cost _).mono fun _ k _ hk => ?_)
    subst hk
    skipb
    skipb
    refine Wp.bind ((permuteAll_cost _).mono fun _ k _ hk => ?_)
    subst hk
    skip1
    omega

theorem a64_lanes_cost (ml : Nat) :
    LaneCost f (A64.lanes P g) fun h => weigh (one f) (shakePrimsXX P.toSpec P.robust ml h) where
  prfx c a := by
    show Wp f (A64.prf_addrx2 P g c a) fun _ k => k = weigh (one f) (shakex (2 * P.n + 32) P.n)
    rw [weigh_shakex (by omega) h0 (by omega)]
    unfold A64.prf_addrx2
    skipb
    skipb
    skipb
    skipb
    skipb
    refine Wp.bind ((f1600x2_cost _).mono fun _ k _ hk => ?_)
    subst hk
    skip1
    omega
  thashx i b c a _ := a64_thashx h0 hn g i b c a

theorem avx2_lanes_cost (ml : Nat) :
    LaneCost f (Avx2.lanes P g) fun h => weigh (one f) (shakePrimsX P.toSpec P.robust ml h) where
  prfx c a := by
    show Wp f (Avx2.prf_addrx4 P g c a) fun _ k => k = weigh (one f) (shakex (2 * P.n + 32) P.n)
    rw [weigh_shakex (by omega) h0 (by omega)]
    unfold Avx2.prf_addrx4
    skipb
    skipb
    skipb
    skipb
    skipb
    skipb
    skipb
    refine Wp.bind ((permuteAll_cost _).mono fun _ k _ hk => ?_)
    subst hk
    skip1
    omega
  thashx i b c a _ := avx2_thashx h0 hn g i b c a

theorem a64_cost (ml : Nat) :
    HashCost f (A64.impl P g) (fun h => weigh (one f) (shakePrimsXX P.toSpec P.robust ml h)) ml where
  init c := (shake_cost f P g ml).init c
  prf c a := (shake_cost f P g ml).prf c a
  thash i b c a := by
    show Wp f (A64.thash P g i b c a) _
    unfold A64.thash
    skipb
    refine Wp.bind ((a64_thashx h0 hn g _ b c _).mono fun _ k _ hk => ?_)
    subst hk
    skip1
    simp only [Nat.zero_add, Nat.add_zero]
    rfl
  rand s o m c hm := (shake_cost f P g ml).rand s o m c hm
  msg R pk m c hm := (shake_cost f P g ml).msg R pk m c hm

end

theorem shake_costX (f : Fn) (P : Params) (g : Nat → Nat → Byte) (ml : Nat) :
    HashCost f (Shake.impl P g) (fun h => weigh (one f) (shakePrimsX P.toSpec P.robust ml h)) ml where
  init c := (shake_cost f P g ml).init c
  prf c a := (shake_cost f P g ml).prf c a
  thash i b c a := (shake_cost f P g ml).thash i b c a
  rand s o m c hm := (shake_cost f P g ml).rand s o m c hm
  msg R pk m c hm := (shake_cost f P g ml).msg R pk m c hm

end Spx.Leak
