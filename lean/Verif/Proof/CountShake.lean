import Verif.Proof.CountSign
import Verif.Proof.LeakShake
import Verif.Proof.LanesMem

/-! # Permutations computed by the SHAKE functions -/

namespace Spx.Leak

open Spec

variable {f : Fn}

theorem Wp.prim {α : Type} {g : Fn} {x : L α} {Q : α → Nat → Prop} (h : Wp f x fun a k => Q a (one f g + k)) :
    Wp f (Leak.prim g x) Q := by
  intro a ha
  have e : calls f (Leak.prim g x).tr = one f g + calls f x.tr := by
    show calls f ([Ev.call g] ++ x.tr) = _
    rw [calls_append]
    congr 1
    exact Wp.call (α := Unit) (f := f) (g := g) (r := .ok ()) (Q := fun _ k => k = one f g) (fun _ _ => rfl) () rfl
  rw [e]
  exact h a ha

theorem Free.ite {α : Type} {p : Prop} [Decidable p] {x y : L α} (hx : Free x) (hy : Free y) :
    Free (if p then x else y) := by
  split
  · exact hx
  · exact hy
macro_rules | `(tactic| free_leaf) => `(tactic| with_reducible apply Free.ite)

theorem free_load64 (x : Bytes) : Free (load64 x) := by unfold load64; free
macro_rules | `(tactic| free_leaf) => `(tactic| with_reducible exact free_load64 ..)
theorem free_store64 (x : Bytes) (u : BitVec 64) : Free (store64 x u) := by unfold store64; free
macro_rules | `(tactic| free_leaf) => `(tactic| with_reducible exact free_store64 ..)
theorem free_keccak_loop_body (i : Nat) (A : Lanes) : Free (keccak_loop_body i A) := by unfold keccak_loop_body; free
macro_rules | `(tactic| free_leaf) => `(tactic| with_reducible exact free_keccak_loop_body ..)
theorem free_Lanes_load (s : List (BitVec 64)) : Free (Lanes.load s) := by unfold Lanes.load; free
macro_rules | `(tactic| free_leaf) => `(tactic| with_reducible exact free_Lanes_load ..)

/-- The element of the state which counts bytes. -/
def cur (s : List (BitVec 64)) : Nat := (s.getD 25 0).toNat

theorem rd1_cur {s : List (BitVec 64)} {x : BitVec 64} (h : Spx.rd1 s 25 = .ok x) : x.toNat = cur s := by
  unfold Spx.rd1 at h
  unfold cur
  rw [List.getD_eq_getElem?_getD]
  split at h
  · next e => cases h; rw [e]; rfl
  · cases h

theorem wr1_cur {s s' : List (BitVec 64)} {i : Nat} {x : BitVec 64} (h : Spx.wr1 s i x = .ok s') :
    cur s' = if i = 25 then x.toNat else cur s := by
  obtain ⟨hi, rfl⟩ := wr1_inv h
  unfold cur
  simp only [List.getD_eq_getElem?_getD, List.getElem?_set]
  by_cases e : i = 25
  · subst e; simp [hi]
  · simp [e]

theorem prims_permute {s : List (BitVec 64)} :
    Wp f (KeccakF1600_StatePermute s) fun s' k => cur s' = cur s ∧ k = one f .keccak := by
  intro s' hs
  have h1 := (low_StatePermute' (x := s) (y := s) rfl).2
  rw [hs] at h1
  refine ⟨by unfold cur; rw [List.getD_eq_getElem?_getD, List.getD_eq_getElem?_getD, (h1.2 25 (Nat.le_refl _)).1], ?_⟩
  have h2 : Wp f (KeccakF1600_StatePermute s) fun _ k => k = one f .keccak := by
    unfold KeccakF1600_StatePermute
    refine Wp.prim ?_
    skipb
    skipb
    skip1
    omega
  exact h2 s' hs

theorem prims_absorb_block {r : Nat} (hr : 0 < r) {st : List (BitVec 64) × Bytes × Nat} :
    Wp f (keccak_absorb_block r st) fun x k =>
      (∀ t, x = .inl t → True ∧ k + t.2.2 / r * one f .keccak = st.2.2 / r * one f .keccak) ∧
      ∀ t, x = .inr t → True ∧ k = st.2.2 / r * one f .keccak := by
  obtain ⟨s, m, mlen⟩ := st
  unfold keccak_absorb_block
  dsimp only
  refine Wp.branch (fun h => ?_) (fun h => ?_)
  · skipb
    refine Wp.bind (prims_permute.mono fun s' k _ hk => ?_)
    obtain ⟨-, rfl⟩ := hk
    skipb
    refine Wp.ok ⟨fun t e => ⟨trivial, ?_⟩, fun t e => (nomatch e)⟩
    cases e
    dsimp only
    rw [Nat.div_eq_sub_div hr h, Nat.add_mul, Nat.one_mul]
    omega
  · refine Wp.ok ⟨fun t e => (nomatch e), fun t _ => ⟨trivial, ?_⟩⟩
    rw [Nat.div_eq_of_lt (by omega), Nat.zero_mul]

theorem prims_absorb {g : Nat → Byte} {s : List (BitVec 64)} {r : Nat} (hr : 0 < r) {m : Bytes} {mlen : Nat} {p : Byte} :
    Wp f (keccak_absorb g s r m mlen p) fun _ k => k = mlen / r * one f .keccak := by
  unfold keccak_absorb
  skipb
  refine Wp.bind (Wp.loop (fun _ => True) (fun _ => True) (fun t => t.2.2 / r * one f .keccak) trivial
    (fun t _ => prims_absorb_block hr) fun a _ => ?_)
  obtain ⟨s, m, l⟩ := a
  dsimp only
  skipb
  skipb
  skipb
  skipb
  skipb
  skip1
  omega

theorem prims_squeezeblocks {h : Bytes} {n : Nat} {s : List (BitVec 64)} {r : Nat} :
    Wp f (keccak_squeezeblocks h n s r) fun _ k => k = n * one f .keccak := by
  unfold keccak_squeezeblocks
  refine Wp.bind (Wp.forConst (one f .keccak) (fun i t _ => ?_) fun t => ?_)
  · obtain ⟨h, off, s⟩ := t
    dsimp only
    refine Wp.bind (prims_permute.mono fun s' k _ hk => ?_)
    obtain ⟨-, rfl⟩ := hk
    skipb
    refine Wp.ok ?_
    omega
  · obtain ⟨h, off, s⟩ := t
    exact Wp.ok rfl

theorem prims_shake256 {g : Nat → Nat → Byte} {out : Bytes} {o : Nat} {inp : Bytes} {i : Nat} :
    Wp f (shake256 g out o inp i) fun _ k => k = weigh (one f) (shake i o) := by
  unfold shake256 shake256_absorb shake256_squeezeblocks shake spongePerms
  rw [show SHAKE256_RATE = 136 from rfl, weigh_cons, weigh_nil]
  dsimp only
  refine Wp.bind ((prims_absorb (by omega)).mono fun s k _ hk => ?_)
  subst hk
  refine Wp.bind (prims_squeezeblocks.mono fun a k _ hk => ?_)
  subst hk
  obtain ⟨out, s⟩ := a
  dsimp only
  refine Wp.branch (fun h => ?_) (fun h => ?_)
  · refine Wp.bind (prims_squeezeblocks.mono fun a k _ hk => ?_)
    subst hk
    obtain ⟨t, s⟩ := a
    dsimp only
    skip1
    rw [show (o + 136 - 1) / 136 = o / 136 + 1 by omega, Nat.add_mul, Nat.add_mul]
    omega
  · refine Wp.ok ?_
    rw [show (o + 136 - 1) / 136 = o / 136 by omega, Nat.add_mul]
    omega

/-! ## The incremental functions -/

theorem prims_inc_init {s : List (BitVec 64)} :
    Wp f (keccak_inc_init s) fun s' k => cur s' = 0 ∧ k = 0 := by
  unfold keccak_inc_init
  skipb
  refine Wp.free (by free) fun s' h => ⟨?_, rfl⟩
  exact wr1_cur h

theorem prims_xor_byte {s : List (BitVec 64)} {k : Nat} (hk : k < 200) {b : Byte} :
    Wp f (keccak_xor_byte s k b) fun s' c => cur s' = cur s ∧ c = 0 := by
  unfold keccak_xor_byte
  skipb
  refine Wp.free (by free) fun s' h => ⟨?_, rfl⟩
  have h' := wr1_cur h
  rw [if_neg] at h'
  · exact h'
  · rw [Nat.shiftRight_eq_div_pow]
    omega

theorem prims_inc_xor {s : List (BitVec 64)} {m : Bytes} {len : Nat} (h : cur s + len ≤ 200) :
    Wp f (keccak_inc_xor s m len) fun s' c => cur s' = cur s ∧ c = 0 := by
  unfold keccak_inc_xor
  refine Wp.bind (Wp.free (by free) fun x hx => ?_)
  have hx := rd1_cur hx
  refine Wp.forInv (fun _ t => cur t = cur s) (fun _ => 0) rfl (fun i t hi ht => ?_) fun t ht => ⟨ht, ?_⟩
  · skipb
    refine (prims_xor_byte (by omega)).mono fun t' k _ hk => ⟨?_, ?_⟩
    · rw [hk.1, ht]
    · omega
  · rw [sum_const, Nat.mul_zero]

theorem prims_inc_absorb_block {T : Nat} {st : List (BitVec 64) × Bytes × Nat} (h1 : cur st.1 < 136)
    (h2 : (st.2.2 + cur st.1) % 136 = T % 136) :
    Wp f (keccak_inc_absorb_block 136 st) fun x k =>
      (∀ t, x = .inl t → (cur t.1 < 136 ∧ (t.2.2 + cur t.1) % 136 = T % 136) ∧
        k + (t.2.2 + cur t.1) / 136 * one f .keccak = (st.2.2 + cur st.1) / 136 * one f .keccak) ∧
      ∀ t, x = .inr t → t.2.2 + cur t.1 = T % 136 ∧ k = (st.2.2 + cur st.1) / 136 * one f .keccak := by
  obtain ⟨s, m, mlen⟩ := st
  unfold keccak_inc_absorb_block
  dsimp only at h1 h2 ⊢
  refine Wp.bind (Wp.free (by free) fun x hx => ?_)
  have hx := rd1_cur hx
  refine Wp.branch (fun h => ?_) (fun h => ?_)
  · refine Wp.bind ((prims_inc_xor (by omega)).mono fun s1 k _ hk => ?_)
    obtain ⟨e1, rfl⟩ := hk
    skipb
    refine Wp.bind (Wp.free (by free) fun s2 hs2 => ?_)
    have e2 := wr1_cur hs2
    rw [if_pos rfl] at e2
    refine Wp.bind (prims_permute.mono fun s3 k _ hk => ?_)
    obtain ⟨e3, rfl⟩ := hk
    refine Wp.ok ⟨fun t e => ?_, fun t e => (nomatch e)⟩
    cases e
    have e4 : cur s3 = 0 := e3.trans e2
    dsimp only
    rw [e4]
    refine ⟨⟨by omega, by omega⟩, ?_⟩
    rw [show (mlen + cur s) / 136 = 1 + (mlen - (136 - x.toNat) + 0) / 136 by omega, Nat.add_mul]
    omega
  · refine Wp.ok ⟨fun t e => (nomatch e), fun t e => ?_⟩
    cases e
    dsimp only
    refine ⟨by omega, ?_⟩
    rw [Nat.div_eq_of_lt (by omega), Nat.zero_mul]

theorem prims_inc_absorb {s : List (BitVec 64)} {m : Bytes} {mlen : Nat} (h : cur s < 136) :
    Wp f (shake256_inc_absorb s m mlen) fun s' k =>
      cur s' = (cur s + mlen) % 136 ∧ k = (cur s + mlen) / 136 * one f .keccak := by
  unfold shake256_inc_absorb keccak_inc_absorb
  rw [show SHAKE256_RATE = 136 from rfl]
  refine Wp.bind (Wp.loop (fun t => cur t.1 < 136 ∧ (t.2.2 + cur t.1) % 136 = (cur s + mlen) % 136)
    (fun t => t.2.2 + cur t.1 = (cur s + mlen) % 136) (fun t => (t.2.2 + cur t.1) / 136 * one f .keccak)
    ⟨h, by rw [Nat.add_comm]⟩ (fun t ht => prims_inc_absorb_block ht.1 ht.2) fun a ha => ?_)
  obtain ⟨s1, m1, l1⟩ := a
  dsimp only at ha ⊢
  refine Wp.bind ((prims_inc_xor (by omega)).mono fun s2 k _ hk => ?_)
  obtain ⟨e2, rfl⟩ := hk
  refine Wp.bind (Wp.free (by free) fun x hx => ?_)
  have hx := rd1_cur hx
  refine Wp.free (by free) fun s3 hs3 => ?_
  have e3 := wr1_cur hs3
  rw [if_pos rfl, BitVec.toNat_add, BitVec.toNat_ofNat] at e3
  refine ⟨by omega, ?_⟩
  rw [Nat.add_comm mlen]
  omega

theorem prims_inc_finalize {s : List (BitVec 64)} (h : cur s < 136) :
    Wp f (shake256_inc_finalize s) fun s' k => cur s' = 0 ∧ k = 0 := by
  unfold shake256_inc_finalize keccak_inc_finalize
  refine Wp.bind (Wp.free (by free) fun x hx => ?_)
  have hx := rd1_cur hx
  refine Wp.bind ((prims_xor_byte (by omega)).mono fun s1 k _ hk => ?_)
  obtain ⟨-, rfl⟩ := hk
  refine Wp.bind ((prims_xor_byte (by decide)).mono fun s2 k _ hk => ?_)
  obtain ⟨-, rfl⟩ := hk
  refine Wp.free (by free) fun s3 hs3 => ⟨?_, rfl⟩
  exact wr1_cur hs3

theorem free_keccak_get_byte (s : List (BitVec 64)) (k : Nat) : Free (keccak_get_byte s k) := by
  unfold keccak_get_byte; free
macro_rules | `(tactic| free_leaf) => `(tactic| with_reducible exact free_keccak_get_byte ..)

theorem prims_inc_squeeze_block {st : Bytes × Nat × Nat × List (BitVec 64)} :
    Wp f (keccak_inc_squeeze_block 136 st) fun x k =>
      (∀ t, x = .inl t → True ∧ k + (t.2.2.1 + 135) / 136 * one f .keccak = (st.2.2.1 + 135) / 136 * one f .keccak) ∧
      ∀ t, x = .inr t → True ∧ k = (st.2.2.1 + 135) / 136 * one f .keccak := by
  obtain ⟨h, off, outlen, s⟩ := st
  unfold keccak_inc_squeeze_block
  dsimp only
  refine Wp.branch (fun hp => ?_) (fun hp => ?_)
  · refine Wp.bind (prims_permute.mono fun s1 k _ hk => ?_)
    obtain ⟨-, rfl⟩ := hk
    skipb
    skipb
    refine Wp.ok ⟨fun t e => ⟨trivial, ?_⟩, fun t e => (nomatch e)⟩
    cases e
    dsimp only
    rw [show (outlen + 135) / 136 = 1 + (outlen - min outlen 136 + 135) / 136 by omega, Nat.add_mul]
    omega
  · refine Wp.ok ⟨fun t e => (nomatch e), fun t e => ⟨trivial, ?_⟩⟩
    rw [Nat.div_eq_of_lt (by omega), Nat.zero_mul]

theorem prims_inc_squeeze {h : Bytes} {o : Nat} {s : List (BitVec 64)} (hs : cur s = 0) :
    Wp f (shake256_inc_squeeze h o s) fun _ k => k = (o + 135) / 136 * one f .keccak := by
  unfold shake256_inc_squeeze keccak_inc_squeeze
  rw [show SHAKE256_RATE = 136 from rfl]
  refine Wp.bind (Wp.free (by free) fun x hx => ?_)
  have hx := rd1_cur hx
  rw [hs] at hx
  rw [hx]
  skipb
  skipb
  skipb
  refine Wp.loop (fun _ => True) (fun _ => True) (fun t => (t.2.2.1 + 135) / 136 * one f .keccak) trivial
    (fun t _ => prims_inc_squeeze_block) fun a _ => ?_
  dsimp only
  rw [Nat.min_zero, Nat.sub_zero]
  omega

theorem free_bytes_to_ull (i : Bytes) (l : Nat) : Free (bytes_to_ull i l) := by unfold bytes_to_ull; free
macro_rules | `(tactic| free_leaf) => `(tactic| with_reducible exact free_bytes_to_ull ..)
theorem free_hash_message_split (P : Params) (b : Bytes) : Free (hash_message_split P b) := by
  unfold hash_message_split; free
macro_rules | `(tactic| free_leaf) => `(tactic| with_reducible exact free_hash_message_split ..)

/-- A sponge which is given three inputs and asked for output. -/
theorem sponge_sum {r a b c o x : Nat} (hr : 0 < r) :
    a / r * x + (((a % r + b) / r) * x + ((((a % r + b) % r + c) / r) * x + (o + r - 1) / r * x)) =
      spongePerms r (a + b + c) o * x := by
  unfold spongePerms
  have e1 : (a + b) / r = a / r + (a % r + b) / r := by
    conv => lhs; rw [← Nat.div_add_mod a r, Nat.add_assoc, Nat.mul_add_div hr]
  have e2 : (a + b) % r = (a % r + b) % r := by rw [Nat.mod_add_mod]
  have e3 : (a + b + c) / r = (a + b) / r + ((a + b) % r + c) / r := by
    conv => lhs; rw [← Nat.div_add_mod (a + b) r, Nat.add_assoc, Nat.mul_add_div hr]
  rw [e3, e1, e2]
  simp only [Nat.add_mul]
  omega

section
variable {P : Params} {g : Nat → Nat → Byte}

theorem shake_cost (f : Fn) (P : Params) (g : Nat → Nat → Byte) (ml : Nat) :
    HashCost f (Shake.impl P g) (fun h => weigh (one f) (shakePrims P.toSpec P.robust ml h)) ml where
  init c := Wp.ok rfl
  prf c a := by
    show Wp f (Shake.prf_addr P g c a) _
    unfold Shake.prf_addr
    skipb
    skipb
    skipb
    skipb
    skipb
    skipb
    refine prims_shake256.mono fun b k _ hk => ?_
    simp only [Nat.zero_add]
    exact hk
  thash i b c a := by
    show Wp f ((if P.robust then Shake.thash_robust P g else Shake.thash_simple P g) i b c a) fun _ k =>
      k = weigh (one f) ((if P.robust then shake (P.n + 32) (b * P.n) else []) ++ shake (P.n + 32 + b * P.n) P.n)
    rw [weigh_append]
    cases P.robust
    · simp only [Bool.false_eq_true, if_false]
      unfold Shake.thash_simple
      skipb
      skipb
      skipb
      skipb
      skipb
      skipb
      refine prims_shake256.mono fun b k _ hk => ?_
      simp only [Nat.zero_add, weigh_nil]
      exact hk
    · simp only [if_true]
      unfold Shake.thash_robust
      skipb
      skipb
      skipb
      skipb
      refine Wp.bind (prims_shake256.mono fun m k _ hk => ?_)
      subst hk
      skipb
      refine prims_shake256.mono fun b k _ hk => ?_
      subst hk
      simp only [Nat.zero_add]
      rfl
  rand s o m c hm := by
    subst hm
    show Wp f (Shake.gen_message_random P g s o m c) fun _ k =>
      k = weigh (one f) [(spongePerms 136 (2 * P.n + m.length) P.n, .keccak)]
    unfold Shake.gen_message_random
    rw [weigh_cons, weigh_nil, Nat.add_zero, show 2 * P.n + m.length = P.n + P.n + m.length by omega,
      ← sponge_sum (by omega)]
    refine Wp.bind (prims_inc_init.mono fun s0 k _ hk => ?_)
    obtain ⟨e0, rfl⟩ := hk
    refine Wp.bind ((prims_inc_absorb (by omega)).mono fun s1 k _ hk => ?_)
    obtain ⟨e1, rfl⟩ := hk
    refine Wp.bind ((prims_inc_absorb (by omega)).mono fun s2 k _ hk => ?_)
    obtain ⟨e2, rfl⟩ := hk
    refine Wp.bind ((prims_inc_absorb (by omega)).mono fun s3 k _ hk => ?_)
    obtain ⟨e3, rfl⟩ := hk
    refine Wp.bind ((prims_inc_finalize (by omega)).mono fun s4 k _ hk => ?_)
    obtain ⟨e4, rfl⟩ := hk
    refine Wp.bind ((prims_inc_squeeze e4).mono fun r k _ hk => ?_)
    subst hk
    obtain ⟨R, s5⟩ := r
    refine Wp.ok ?_
    rw [e2, e1, e0]
    simp only [Nat.zero_add, Nat.add_zero]
    rfl
  msg R pk m c hm := by
    subst hm
    show Wp f (Shake.hash_message P g R pk m c) fun _ k =>
      k = weigh (one f) [(spongePerms 136 (3 * P.n + m.length) (digestBytes P.toSpec), .keccak)]
    unfold Shake.hash_message
    rw [weigh_cons, weigh_nil, Nat.add_zero, show 3 * P.n + m.length = P.n + P.pkBytes + m.length by
      unfold Params.pkBytes; omega, ← sponge_sum (by omega)]
    refine Wp.bind (prims_inc_init.mono fun s0 k _ hk => ?_)
    obtain ⟨e0, rfl⟩ := hk
    refine Wp.bind ((prims_inc_absorb (by omega)).mono fun s1 k _ hk => ?_)
    obtain ⟨e1, rfl⟩ := hk
    refine Wp.bind ((prims_inc_absorb (by omega)).mono fun s2 k _ hk => ?_)
    obtain ⟨e2, rfl⟩ := hk
    refine Wp.bind ((prims_inc_absorb (by omega)).mono fun s3 k _ hk => ?_)
    obtain ⟨e3, rfl⟩ := hk
    refine Wp.bind ((prims_inc_finalize (by omega)).mono fun s4 k _ hk => ?_)
    obtain ⟨e4, rfl⟩ := hk
    refine Wp.bind ((prims_inc_squeeze e4).mono fun r k _ hk => ?_)
    subst hk
    obtain ⟨buf, s5⟩ := r
    dsimp only
    skip1
    rw [e2, e1, e0, show P.dgstBytes = digestBytes P.toSpec by
      unfold digestBytes Params.dgstBytes; rw [toSpec_mdBytes, toSpec_treeBytes, toSpec_leafBytes]]
    simp only [Nat.zero_add, Nat.add_zero]
    rfl

end

end Spx.Leak
