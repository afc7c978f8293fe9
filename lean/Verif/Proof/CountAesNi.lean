import Verif.Proof.CountHaraka
import Verif.Proof.CountParallel
import Verif.Proof.LeakAesNi

/-! # Permutations computed by the functions of haraka-aesni -/

namespace Spx.Leak.AesNi

open Spec Spx.AesNi Spx.Leak.Haraka

variable {f : Fn}

theorem free_LOAD (b : Bytes) (o : Nat) : Free (LOAD b o) := by unfold LOAD; free
macro_rules | `(tactic| free_leaf) => `(tactic| with_reducible exact AesNi.free_LOAD ..)
theorem free_STORE (b : Bytes) (o : Nat) (x : Bytes) : Free (STORE b o x) := by unfold STORE; free
macro_rules | `(tactic| free_leaf) => `(tactic| with_reducible exact AesNi.free_STORE ..)
theorem free_rcAt (b : Bytes) (k : Nat) : Free (rcAt b k) := by unfold rcAt; free
macro_rules | `(tactic| free_leaf) => `(tactic| with_reducible exact free_rcAt ..)
theorem free_load4 (b : Bytes) (o : Nat) : Free (load4 b o) := by unfold load4; free
macro_rules | `(tactic| free_leaf) => `(tactic| with_reducible exact free_load4 ..)
theorem free_load2 (b : Bytes) (o : Nat) : Free (load2 b o) := by unfold load2; free
macro_rules | `(tactic| free_leaf) => `(tactic| with_reducible exact free_load2 ..)
theorem free_feed4 (b : Bytes) (o : Nat) (s : S4) : Free (feed4 b o s) := by unfold feed4; free
macro_rules | `(tactic| free_leaf) => `(tactic| with_reducible exact free_feed4 ..)
theorem free_feed2 (b : Bytes) (o : Nat) (s : S2) : Free (feed2 b o s) := by unfold feed2; free
macro_rules | `(tactic| free_leaf) => `(tactic| with_reducible exact free_feed2 ..)
theorem free_AES4 (rc : Bytes) (k : Nat) (s : S4) : Free (AES4 rc k s) := by unfold AES4; free
macro_rules | `(tactic| free_leaf) => `(tactic| with_reducible exact free_AES4 ..)
theorem free_AES2 (rc : Bytes) (k : Nat) (s : S2) : Free (AES2 rc k s) := by unfold AES2; free
macro_rules | `(tactic| free_leaf) => `(tactic| with_reducible exact free_AES2 ..)
theorem free_AES4_4x (rc : Bytes) (k : Nat) (s : List S4) : Free (AES4_4x rc k s) := by unfold AES4_4x; free
macro_rules | `(tactic| free_leaf) => `(tactic| with_reducible exact free_AES4_4x ..)
theorem free_AES2_4x (rc : Bytes) (k : Nat) (s : List S2) : Free (AES2_4x rc k s) := by unfold AES2_4x; free
macro_rules | `(tactic| free_leaf) => `(tactic| with_reducible exact free_AES2_4x ..)
theorem free_rounds4 (rc : Bytes) (s : S4) : Free (rounds4 rc s) := by unfold rounds4; free
macro_rules | `(tactic| free_leaf) => `(tactic| with_reducible exact free_rounds4 ..)
theorem free_rounds2 (rc : Bytes) (s : S2) : Free (rounds2 rc s) := by unfold rounds2; free
macro_rules | `(tactic| free_leaf) => `(tactic| with_reducible exact free_rounds2 ..)
theorem free_rounds4_4x (rc : Bytes) (s : List S4) : Free (rounds4_4x rc s) := by unfold rounds4_4x; free
macro_rules | `(tactic| free_leaf) => `(tactic| with_reducible exact free_rounds4_4x ..)
theorem free_rounds2_4x (rc : Bytes) (s : List S2) : Free (rounds2_4x rc s) := by unfold rounds2_4x; free
macro_rules | `(tactic| free_leaf) => `(tactic| with_reducible exact free_rounds2_4x ..)
theorem free_xorBlock (s : Bytes) (o : Nat) (m : Bytes) : Free (xorBlock s o m) := by unfold xorBlock; free
macro_rules | `(tactic| free_leaf) => `(tactic| with_reducible exact free_xorBlock ..)
theorem free_xorBlocks (k : Nat) (s : Bytes) (m : List Bytes) : Free (xorBlocks k s m) := by unfold xorBlocks; free
macro_rules | `(tactic| free_leaf) => `(tactic| with_reducible exact free_xorBlocks ..)
theorem free_haraka_S_last (g : Nat → Byte) (r : Nat) (m : Bytes) (l : Nat) (p : Byte) : Free (haraka_S_last g r m l p) := by
  unfold haraka_S_last; free
macro_rules | `(tactic| free_leaf) => `(tactic| with_reducible exact free_haraka_S_last ..)
theorem free_load_constants (rc : Bytes) : Free (AesNi.load_haraka_constants rc) := by
  unfold AesNi.load_haraka_constants; free
macro_rules | `(tactic| free_leaf) => `(tactic| with_reducible exact AesNi.free_load_constants ..)
theorem free_outs32 (P : Params) (b : Bytes) : Free (outs32 P b) := by unfold outs32; free
macro_rules | `(tactic| free_leaf) => `(tactic| with_reducible exact free_outs32 ..)

theorem prims_perm {s : Bytes} {ctx : Ctx} : Wp f (AesNi.haraka512_perm s ctx) fun _ k => k = one f .haraka512 := by
  unfold AesNi.haraka512_perm
  refine Wp.prim ?_
  skipb
  skipb
  exact Wp.ok (by omega)

theorem prims_perm_x4 {s : Bytes} {ctx : Ctx} : Wp f (haraka512_perm_x4 s ctx) fun _ k => k = one f .haraka512x := by
  unfold haraka512_perm_x4
  refine Wp.prim ?_
  skipb
  skipb
  exact Wp.ok (by omega)

theorem prims_haraka512 {s : Bytes} {ctx : Ctx} : Wp f (AesNi.haraka512 s ctx) fun _ k => k = one f .haraka512 := by
  unfold AesNi.haraka512
  refine Wp.prim ?_
  skipb
  skipb
  skipb
  exact Wp.ok (by omega)

theorem prims_haraka512x4 {s : Bytes} {ctx : Ctx} : Wp f (haraka512x4 s ctx) fun _ k => k = one f .haraka512x := by
  unfold haraka512x4
  refine Wp.prim ?_
  skipb
  skipb
  skipb
  exact Wp.ok (by omega)

theorem prims_haraka256 {s : Bytes} {ctx : Ctx} : Wp f (AesNi.haraka256 s ctx) fun _ k => k = one f .haraka256 := by
  unfold AesNi.haraka256
  refine Wp.prim ?_
  skipb
  skipb
  skipb
  exact Wp.ok (by omega)

theorem prims_haraka256x4 {s : Bytes} {ctx : Ctx} : Wp f (haraka256x4 s ctx) fun _ k => k = one f .haraka256x := by
  unfold haraka256x4
  refine Wp.prim ?_
  skipb
  skipb
  skipb
  exact Wp.ok (by omega)

section
variable {k : Nat} {perm : Bytes → Ctx → L Bytes} {x : Nat} (hp : ∀ s c, Wp f (perm s c) fun _ k => k = x) {ctx : Ctx}
include hp

theorem prims_absorbx_block {r : Nat} (hr : 0 < r) {st : Bytes × List Bytes × Nat} :
    Wp f (haraka_S_absorbx_block k perm r ctx st) fun y k =>
      (∀ t, y = .inl t → True ∧ k + t.2.2 / r * x = st.2.2 / r * x) ∧
      ∀ t, y = .inr t → True ∧ k = st.2.2 / r * x := by
  obtain ⟨s, m, mlen⟩ := st
  unfold haraka_S_absorbx_block
  dsimp only
  refine Wp.branch (fun h => ?_) (fun h => ?_)
  · skipb
    refine Wp.bind ((hp _ _).mono fun s' k _ hk => ?_)
    subst hk
    skipb
    skipb
    refine Wp.ok ⟨fun t e => ⟨trivial, ?_⟩, fun t e => (nomatch e)⟩
    cases e
    dsimp only
    rw [Nat.div_eq_sub_div hr h, Nat.add_mul, Nat.one_mul]
    omega
  · refine Wp.ok ⟨fun t e => (nomatch e), fun t _ => ⟨trivial, ?_⟩⟩
    rw [Nat.div_eq_of_lt (by omega), Nat.zero_mul]

theorem prims_absorbx {g : Nat → Nat → Byte} {s : Bytes} {r : Nat} (hr : 0 < r) {m : List Bytes} {mlen : Nat} {p : Byte} :
    Wp f (haraka_S_absorbx k perm g s r m mlen p ctx) fun _ k => k = mlen / r * x := by
  unfold haraka_S_absorbx
  refine Wp.bind (Wp.loop (fun _ => True) (fun _ => True) (fun t => t.2.2 / r * x) trivial
    (fun t _ => prims_absorbx_block hp hr) fun a _ => ?_)
  obtain ⟨s, m, l⟩ := a
  dsimp only
  skipb
  skip1
  omega

theorem prims_squeezeblocksx {h : List Bytes} {n : Nat} {s : Bytes} {r : Nat} :
    Wp f (haraka_S_squeezeblocksx k perm h n s r ctx) fun _ k => k = n * x := by
  unfold haraka_S_squeezeblocksx
  refine Wp.bind (Wp.forConst x (fun i t _ => ?_) fun t => ?_)
  · obtain ⟨h, off, s⟩ := t
    dsimp only
    refine Wp.bind ((hp _ _).mono fun s' k _ hk => ?_)
    subst hk
    skipb
    skipb
    exact Wp.ok (by omega)
  · obtain ⟨h, off, s⟩ := t
    exact Wp.ok rfl

theorem prims_haraka_Sx {g : Nat → Nat → Byte} {out : List Bytes} {o : Nat} {inp : List Bytes} {i : Nat} :
    Wp f (haraka_Sx k perm g out o inp i ctx) fun _ k => k = spongePerms 32 i o * x := by
  unfold haraka_Sx spongePerms
  rw [show _root_.Spx.Haraka.HARAKAS_RATE = 32 from rfl]
  dsimp only
  skipb
  refine Wp.bind ((prims_absorbx hp (by omega)).mono fun s k _ hk => ?_)
  subst hk
  refine Wp.bind ((prims_squeezeblocksx hp).mono fun a k _ hk => ?_)
  subst hk
  obtain ⟨out, s⟩ := a
  dsimp only
  refine Wp.branch (fun h => ?_) (fun h => ?_)
  · refine Wp.bind ((prims_squeezeblocksx hp).mono fun a k _ hk => ?_)
    subst hk
    obtain ⟨t, s⟩ := a
    dsimp only
    skip1
    rw [show (o + 32 - 1) / 32 = o / 32 + 1 by omega, Nat.add_mul, Nat.add_mul]
    omega
  · refine Wp.ok ?_
    rw [show (o + 32 - 1) / 32 = o / 32 by omega, Nat.add_mul]
    omega

end

theorem prims_S {g : Nat → Nat → Byte} {out : Bytes} {o : Nat} {inp : Bytes} {i : Nat} {ctx : Ctx} :
    Wp f (AesNi.haraka_S g out o inp i ctx) fun _ k => k = weigh (one f) (harakaS i o) := by
  rw [weigh_harakaS]
  unfold AesNi.haraka_S
  refine Wp.bind ((prims_haraka_Sx fun _ _ => prims_perm).mono fun _ k _ hk => ?_)
  subst hk
  skip1
  omega

theorem prims_Sx4 {g : Nat → Nat → Byte} {out : List Bytes} {o : Nat} {inp : List Bytes} {i : Nat} {ctx : Ctx} :
    Wp f (haraka_Sx4 g out o inp i ctx) fun _ k => k = weigh (one f) (harakaSx i o) := by
  unfold harakaSx
  rw [weigh_cons, weigh_nil, Nat.add_zero]
  exact prims_haraka_Sx fun _ _ => prims_perm_x4

theorem lib_cost : LibCost f AesNi.lib where
  perm := PermCost.of AesNi.low_perm fun _ _ => prims_perm
  h512 _ _ := prims_haraka512
  h256 _ _ := prims_haraka256
  sponge _ _ _ _ _ _ := prims_S
  tweak g n c := by
    show Wp f (AesNi.tweak_constants g n c) _
    unfold AesNi.tweak_constants
    skipb
    refine Wp.bind (prims_S.mono fun b k _ hk => ?_)
    subst hk
    skipb
    refine Wp.ok ?_
    rw [show 40 * 16 = 640 from rfl]
    omega

theorem aesni_cost (f : Fn) (P : Params) (g : Nat → Nat → Byte) (ml : Nat) :
    HashCost f (AesNi.impl P g) (fun h => weigh (one f) (harakaPrimsX P.toSpec P.robust ml h)) ml where
  init c := (haraka_cost lib_cost P g ml).init c
  prf c a := (haraka_cost lib_cost P g ml).prf c a
  thash i b c a := (haraka_cost lib_cost P g ml).thash i b c a
  rand s o m c hm := (haraka_cost lib_cost P g ml).rand s o m c hm
  msg R pk m c hm := (haraka_cost lib_cost P g ml).msg R pk m c hm

theorem lanes_cost (f : Fn) (P : Params) (g : Nat → Nat → Byte) (ml : Nat) :
    LaneCost f (AesNi.lanes P g) fun h => weigh (one f) (harakaPrimsX P.toSpec P.robust ml h) where
  prfx c a := by
    show Wp f (AesNi.prf_addrx4 P c a) fun _ k => k = weigh (one f) [(1, .haraka512x)]
    rw [weigh_cons, weigh_nil]
    unfold AesNi.prf_addrx4
    skipb
    refine Wp.bind (prims_haraka512x4.mono fun b k _ hk => ?_)
    subst hk
    skip1
    omega
  thashx i b c a _ := by
    show Wp f ((if P.robust then AesNi.thashx4_robust P g else AesNi.thashx4_simple P g) i b c a) fun _ k =>
      k = weigh (one f) (if b = 1 then (if P.robust then [(1, .haraka256x)] else []) ++ [(1, .haraka512x)]
        else (if P.robust then harakaSx 32 (b * P.n) else []) ++ harakaSx (32 + b * P.n) P.n)
    cases P.robust
    · simp only [Bool.false_eq_true, if_false, List.nil_append]
      unfold AesNi.thashx4_simple
      refine Wp.branch (fun h => ?_) (fun h => ?_)
      · rw [if_pos h, weigh_cons, weigh_nil]
        skipb
        skipb
        refine Wp.bind (prims_haraka512x4.mono fun b k _ hk => ?_)
        subst hk
        skip1
        omega
      · rw [if_neg h]
        skipb
        refine prims_Sx4.mono fun b k _ hk => ?_
        subst hk
        rw [show SPX_ADDR_BYTES = 32 from rfl]
        omega
    · simp only [if_true]
      unfold AesNi.thashx4_robust
      refine Wp.branch (fun h => ?_) (fun h => ?_)
      · rw [if_pos h, weigh_append, weigh_cons, weigh_nil, weigh_cons, weigh_nil]
        skipb
        refine Wp.bind (prims_haraka256x4.mono fun b k _ hk => ?_)
        subst hk
        skipb
        skipb
        skipb
        skipb
        skipb
        skipb
        skipb
        skipb
        skipb
        refine Wp.bind (prims_haraka512x4.mono fun b k _ hk => ?_)
        subst hk
        skip1
        omega
      · rw [if_neg h, weigh_append]
        skipb
        refine Wp.bind (prims_Sx4.mono fun b k _ hk => ?_)
        subst hk
        skipb
        refine prims_Sx4.mono fun b k _ hk => ?_
        subst hk
        rw [show SPX_ADDR_BYTES = 32 from rfl]
        omega

end Spx.Leak.AesNi
