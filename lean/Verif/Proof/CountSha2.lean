import Verif.Proof.CountShake
import Verif.Model.LeakSha2
/-! # Compression functions computed by the SHA-2 functions -/

namespace Spx.Leak.Sha2

open Spec Spx.Sha2

theorem free_load32 (x : Bytes) : Free (load_bigendian_32 x) := by unfold load_bigendian_32; free
theorem free_load64 (x : Bytes) : Free (load_bigendian_64 x) := by unfold load_bigendian_64; free
macro_rules | `(tactic| free_leaf) => `(tactic| with_reducible exact Sha2.free_load64 ..)
theorem free_store32 (x : Bytes) (u : BitVec 64) : Free (store_bigendian_32 x u) := by unfold store_bigendian_32; free
theorem free_store64 (x : Bytes) (u : BitVec 64) : Free (store_bigendian_64 x u) := by unfold store_bigendian_64; free
macro_rules | `(tactic| free_leaf) => `(tactic| with_reducible exact Sha2.free_store64 ..)

/-- Blocks of a message of `len` bytes with its padding -/
def blocks {wb : Nat} (c : Cfg wb) (len : Nat) : Nat := (len + (c.blk - c.thr)) / c.blk + 1

/-- What the counting needs to know about a copy of the code -/
structure Cfg.Count {wb : Nat} (c : Cfg wb) : Prop where
  load : ∀ x, Free (c.loadL x)
  store : ∀ x u, Free (c.storeL x u)
  mask : ∀ x, x &&& c.mask = x % c.blk
  blk : 0 < c.blk
  hb : 0 < c.hb
  thr : c.thr ≤ c.blk
  thr0 : 0 < c.thr

theorem count256 : cfg256.Count :=
  ⟨fun x => free_load32 x, fun x u => free_store32 x _, fun x => Nat.and_two_pow_sub_one_eq_mod x 6, by decide, by decide,
    by decide, by decide⟩

theorem count512 : cfg512.Count :=
  ⟨fun x => free_load64 x, fun x u => free_store64 x _, fun x => Nat.and_two_pow_sub_one_eq_mod x 7, by decide, by decide,
    by decide, by decide⟩

section
variable {f : Fn} {wb : Nat} {c : Cfg wb} (hc : c.Count)

theorem free_inc_init (c : Cfg wb) (s : Bytes) : Free (inc_init c s) := by unfold inc_init; free
macro_rules | `(tactic| free_leaf) => `(tactic| with_reducible exact free_inc_init ..)
theorem free_padTail (c : Cfg wb) (p : Bytes) (i z : Nat) (b : BitVec 64) : Free (padTail c p i z b) := by unfold padTail; free
macro_rules | `(tactic| free_leaf) => `(tactic| with_reducible exact free_padTail ..)

include hc

theorem free_loadWords (x : Bytes) (k : Nat) : Free (loadWords c x k) := by
  unfold loadWords
  exact Free.forRange fun i t => Free.bind (Free.sub _ _) fun y => Free.bind (hc.load y) fun _ => Free.ok _

theorem prims_blockStep {st : Bytes × Nat × Vars wb × Vars wb} :
    Wp f (blockStep c st) fun x k =>
      (∀ t, x = .inl t → True ∧ k + t.2.1 / c.blk * one f c.fn = st.2.1 / c.blk * one f c.fn) ∧
      ∀ t, x = .inr t → True ∧ k = st.2.1 / c.blk * one f c.fn := by
  obtain ⟨i, len, v, s⟩ := st
  unfold blockStep
  dsimp only
  refine Wp.branch (fun h => ?_) (fun h => ?_)
  · refine Wp.prim (Wp.bind (Wp.free (free_loadWords hc _ _) fun _ _ => ?_))
    skipb
    refine Wp.ok ⟨fun t e => ⟨trivial, ?_⟩, fun t e => (nomatch e)⟩
    cases e
    dsimp only
    rw [Nat.div_eq_sub_div hc.blk h, Nat.add_mul, Nat.one_mul]
    omega
  · refine Wp.ok ⟨fun t e => (nomatch e), fun t _ => ⟨trivial, ?_⟩⟩
    rw [Nat.div_eq_of_lt (by omega), Nat.zero_mul]

theorem prims_hashblocks {s i : Bytes} {len : Nat} :
    Wp f (hashblocks c s i len) fun _ k => k = len / c.blk * one f c.fn := by
  unfold hashblocks
  refine Wp.bind (Wp.free (free_loadWords hc _ _) fun _ _ => ?_)
  refine Wp.bind (Wp.loop (fun _ => True) (fun _ => True) (fun t => t.2.1 / c.blk * one f c.fn) trivial
    (fun t _ => prims_blockStep hc) fun a _ => ?_)
  obtain ⟨_, st⟩ := a
  dsimp only
  refine Wp.free (Free.forRange fun i t => Free.bind (Free.withSub fun p => ?_) fun _ => Free.ok _) fun _ _ => by omega
  exact Free.bind (Free.rd1 _ _) fun y => Free.bind (hc.store _ _) fun _ => Free.ok _

theorem prims_inc_blocks {s i : Bytes} {b : Nat} :
    Wp f (inc_blocks c s i b) fun _ k => k = b * one f c.fn := by
  unfold inc_blocks
  skipb
  skipb
  refine Wp.bind ((prims_hashblocks hc).mono fun _ k _ hk => ?_)
  subst hk
  skipb
  refine Wp.ok ?_
  rw [Nat.mul_div_cancel_left _ hc.blk]
  omega

theorem prims_pad {p s : Bytes} {z1 z2 len : Nat} {y : BitVec 64} :
    Wp f (branch (len % c.blk < c.thr)
      (do let padded ← padTail c p (len % c.blk) z1 y; hashblocks c s padded c.blk)
      (do let padded ← padTail c p (len % c.blk) z2 y; hashblocks c s padded (2 * c.blk)))
      fun _ k => len / c.blk * one f c.fn + k = blocks c len * one f c.fn := by
  have hlt := Nat.mod_lt len hc.blk
  have h0 := hc.blk
  have h1 := hc.thr
  have h2 := hc.thr0
  have hd := Nat.div_add_mod len c.blk
  unfold blocks
  refine Wp.branch (fun h => ?_) (fun h => ?_)
  · skipb
    refine (prims_hashblocks hc).mono fun _ k _ hk => ?_
    subst hk
    rw [show (len + (c.blk - c.thr)) / c.blk = len / c.blk from
      Nat.div_eq_of_lt_le (by rw [Nat.mul_comm]; omega) (by rw [Nat.succ_mul, Nat.mul_comm]; omega),
      Nat.div_self hc.blk, Nat.add_mul]
    omega
  · skipb
    refine (prims_hashblocks hc).mono fun _ k _ hk => ?_
    subst hk
    rw [show (len + (c.blk - c.thr)) / c.blk = len / c.blk + 1 from
      Nat.div_eq_of_lt_le (by rw [Nat.succ_mul, Nat.mul_comm]; omega)
        (by rw [Nat.succ_mul, Nat.succ_mul, Nat.mul_comm]; omega),
      Nat.mul_div_cancel _ hc.blk, Nat.add_mul, Nat.add_mul]
    omega

theorem prims_inc_finalize {g : Nat → Nat → Byte} {o s i : Bytes} {len : Nat} :
    Wp f (inc_finalize c g o s i len) fun _ k => k = blocks c len * one f c.fn := by
  unfold inc_finalize
  skipb
  skipb
  refine Wp.bind ((prims_hashblocks hc).mono fun _ k _ hk => ?_)
  subst hk
  rw [hc.mask]
  skipb
  skipb
  skipb
  refine Wp.bind ((prims_pad hc).mono fun _ k _ hk => ?_)
  skipb
  refine Wp.ok ?_
  omega

theorem prims_sha {g : Nat → Nat → Byte} {o i : Bytes} {len : Nat} :
    Wp f (sha c g o i len) fun _ k => k = blocks c len * one f c.fn := by
  unfold sha
  skipb
  refine Wp.bind ((prims_inc_finalize hc).mono fun a k _ hk => ?_)
  subst hk
  obtain ⟨o, s⟩ := a
  exact Wp.ok (by omega)

theorem prims_mgfStep {g : Nat → Nat → Byte} {o l : Nat} {st : Nat × Bytes × Bytes} (h : st.1 ≤ o / c.hb) :
    Wp f (mgfStep c g o l st) fun x k =>
      (∀ t, x = .inl t → t.1 ≤ o / c.hb ∧ k + (o / c.hb - t.1) * (blocks c (l + 4) * one f c.fn) =
        (o / c.hb - st.1) * (blocks c (l + 4) * one f c.fn)) ∧
      ∀ t, x = .inr t → t.1 = o / c.hb ∧ k = (o / c.hb - st.1) * (blocks c (l + 4) * one f c.fn) := by
  obtain ⟨i, out, inbuf⟩ := st
  dsimp only at h
  unfold mgfStep
  dsimp only
  refine Wp.branch (fun hb => ?_) (fun hb => ?_)
  · have hi : i + 1 ≤ o / c.hb := (Nat.le_div_iff_mul_le hc.hb).2 hb
    refine Wp.bind (Wp.free (by free) fun a _ => ?_)
    obtain ⟨inbuf, _⟩ := a
    dsimp only
    refine Wp.bind (Wp.withSub fun p => Wp.bind ((prims_sha hc).mono fun b k _ hk => ?_))
    subst hk
    refine Wp.ok ?_
    refine Wp.ok ⟨fun t e => ?_, fun t e => (nomatch e)⟩
    cases e
    refine ⟨hi, ?_⟩
    dsimp only
    rw [show o / c.hb - i = (o / c.hb - (i + 1)) + 1 by omega, Nat.succ_mul]
    omega
  · have hi : ¬ i + 1 ≤ o / c.hb := fun h => hb ((Nat.le_div_iff_mul_le hc.hb).1 h)
    refine Wp.ok ⟨fun t e => (nomatch e), fun t e => ?_⟩
    cases e
    have hi : i = o / c.hb := by omega
    refine ⟨hi, ?_⟩
    rw [hi, Nat.sub_self, Nat.zero_mul]

theorem prims_mgf1 {g : Nat → Nat → Byte} {out i : Bytes} {o l : Nat} :
    Wp f (mgf1 c g out o i l) fun _ k => k = (o + c.hb - 1) / c.hb * (blocks c (l + 4) * one f c.fn) := by
  have h0 := hc.hb
  have hd := Nat.div_add_mod o c.hb
  have hlt := Nat.mod_lt o hc.hb
  unfold mgf1
  skipb
  skipb
  refine Wp.bind (Wp.loop (fun t => t.1 ≤ o / c.hb) (fun t => t.1 = o / c.hb)
    (fun t => (o / c.hb - t.1) * (blocks c (l + 4) * one f c.fn)) (Nat.zero_le _) (fun t ht => prims_mgfStep hc ht)
    fun a ha => ?_)
  obtain ⟨j, out, inbuf⟩ := a
  dsimp only at ha ⊢
  subst ha
  refine Wp.branch (fun h => ?_) (fun h => ?_)
  · refine Wp.bind (Wp.free (by free) fun a _ => ?_)
    obtain ⟨inbuf, _⟩ := a
    dsimp only
    refine Wp.bind ((prims_sha hc).mono fun b k _ hk => ?_)
    subst hk
    skipb
    skip1
    rw [show (o + c.hb - 1) / c.hb = o / c.hb + 1 from
      Nat.div_eq_of_lt_le (by rw [Nat.succ_mul]; omega) (by rw [Nat.succ_mul, Nat.succ_mul, Nat.mul_comm]; omega),
      Nat.succ_mul, Nat.sub_zero]
    omega
  · refine Wp.ok ?_
    rw [show (o + c.hb - 1) / c.hb = o / c.hb from
      Nat.div_eq_of_lt_le (by rw [Nat.mul_comm] at h ⊢; omega) (by rw [Nat.mul_comm] at h; rw [Nat.succ_mul, Nat.mul_comm]; omega),
      Nat.sub_zero]
    omega

theorem blocks_add (k len : Nat) : blocks c (k * c.blk + len) = k + blocks c len := by
  unfold blocks
  rw [Nat.add_assoc, Nat.mul_comm, Nat.mul_add_div hc.blk]
  omega

theorem prims_gen_message_random_X {P : Params} {g : Nat → Nat → Byte} {s o m : Bytes} {ctx : Ctx} (hn : P.n ≤ c.blk) :
    Wp f (gen_message_random_X P g c s o m ctx) fun _ k =>
      k = (blocks c (c.blk + (P.n + m.length)) + blocks c (c.blk + c.hb)) * one f c.fn := by
  unfold gen_message_random_X
  skipb
  skipb
  skipb
  refine Wp.bind ((prims_inc_blocks hc).mono fun s1 k _ hk => ?_)
  subst hk
  skipb
  skipb
  refine Wp.bind (Wp.mono (Q := fun _ k => k = blocks c (P.n + m.length) * one f c.fn)
    (Wp.branch (fun h => ?_) fun h => ?_) fun a k _ hk => ?_)
  · skipb
    skipb
    refine Wp.withSub fun p => (prims_inc_finalize hc).mono fun a k _ hk => ?_
    subst hk
    rw [Nat.add_comm P.n]
    omega
  · skipb
    skipb
    refine Wp.bind ((prims_inc_blocks hc).mono fun s2 k _ hk => ?_)
    subst hk
    skipb
    refine Wp.withSub fun p => (prims_inc_finalize hc).mono fun a k _ hk => ?_
    subst hk
    rw [show P.n + m.length = 1 * c.blk + (m.length - (c.blk - P.n)) by omega, blocks_add hc, Nat.add_mul]
    omega
  subst hk
  obtain ⟨buf, _⟩ := a
  dsimp only
  skipb
  skipb
  refine Wp.bind ((prims_sha hc).mono fun b k _ hk => ?_)
  subst hk
  skip1
  have := blocks_add hc 1 (P.n + m.length)
  rw [Nat.one_mul] at this
  rw [this, Nat.add_mul, Nat.add_mul]
  omega

theorem prims_hash_message_X {P : Params} {g : Nat → Nat → Byte} {R pk m : Bytes} {ctx : Ctx} :
    Wp f (hash_message_X P g c R pk m ctx) fun _ k =>
      k = (blocks c (3 * P.n + m.length) +
        (P.dgstBytes + c.hb - 1) / c.hb * blocks c (2 * P.n + c.hb + 4)) * one f c.fn := by
  have hpk : P.pkBytes = 2 * P.n := rfl
  have hnb : P.n + P.pkBytes ≤ INBLOCKS P c.toCfg * c.blk := by
    unfold INBLOCKS
    dsimp only
    have h0 := hc.blk
    have hd := Nat.div_add_mod (P.n + P.pkBytes + c.blk - 1) c.blk
    have hlt := Nat.mod_lt (P.n + P.pkBytes + c.blk - 1) hc.blk
    rw [show P.n + P.pkBytes + c.blk - 1 - (P.n + P.pkBytes + c.blk - 1) % c.blk =
      c.blk * ((P.n + P.pkBytes + c.blk - 1) / c.blk) by omega, Nat.mul_div_cancel_left _ hc.blk, Nat.mul_comm]
    omega
  unfold hash_message_X
  dsimp only
  generalize INBLOCKS P c.toCfg = nb at *
  skipb
  skipb
  skipb
  skipb
  skipb
  refine Wp.bind (Wp.mono (Q := fun _ k => k = blocks c (3 * P.n + m.length) * one f c.fn)
    (Wp.branch (fun h => ?_) fun h => ?_) fun a k _ hk => ?_)
  · skipb
    skipb
    refine Wp.withSub fun p => (prims_inc_finalize hc).mono fun a k _ hk => ?_
    subst hk
    rw [show 3 * P.n + m.length = P.n + P.pkBytes + m.length by omega]
    omega
  · skipb
    skipb
    refine Wp.bind ((prims_inc_blocks hc).mono fun s2 k _ hk => ?_)
    subst hk
    skipb
    refine Wp.withSub fun p => (prims_inc_finalize hc).mono fun a k _ hk => ?_
    subst hk
    rw [show 3 * P.n + m.length = nb * c.blk + (m.length - (nb * c.blk - P.n - P.pkBytes)) by omega, blocks_add hc,
      Nat.add_mul]
    omega
  subst hk
  obtain ⟨seed, _⟩ := a
  dsimp only
  skipb
  skipb
  skipb
  skipb
  refine Wp.bind ((prims_mgf1 hc).mono fun b k _ hk => ?_)
  subst hk
  skip1
  rw [Nat.add_mul, Nat.mul_assoc]
  omega

theorem prims_thash_simple_X {P : Params} {g : Nat → Nat → Byte} {i s : Bytes} {b : Nat} {a : Addr} :
    Wp f (thash_simple_X P g c i b s a) fun _ k => k = blocks c (22 + b * P.n) * one f c.fn := by
  unfold thash_simple_X
  skipb
  skipb
  skipb
  skipb
  skipb
  refine Wp.bind ((prims_inc_finalize hc).mono fun x k _ hk => ?_)
  subst hk
  obtain ⟨o, s⟩ := x
  dsimp only
  skip1
  rw [show SPX_SHA256_ADDR_BYTES = 22 from rfl]
  omega

theorem prims_thash_robust_X {P : Params} {g : Nat → Nat → Byte} {i s p : Bytes} {e b : Nat} {a : Addr} :
    Wp f (thash_robust_X P g c e i b s p a) fun _ k =>
      k = (b * P.n + c.hb - 1) / c.hb * (blocks c (P.n + 22 + 4) * one f c.fn) + blocks c (22 + b * P.n) * one f c.fn := by
  unfold thash_robust_X
  skipb
  skipb
  skipb
  skipb
  refine Wp.bind ((prims_mgf1 hc).mono fun x k _ hk => ?_)
  subst hk
  skipb
  skipb
  skipb
  refine Wp.bind ((prims_inc_finalize hc).mono fun x k _ hk => ?_)
  subst hk
  obtain ⟨o, s⟩ := x
  dsimp only
  skip1
  rw [show SPX_SHA256_ADDR_BYTES = 22 from rfl]
  omega

end

theorem weigh_sha256 {f : Fn} (len : Nat) : weigh (one f) (Spec.sha false len) = blocks cfg256 len * one f .sha256 := by
  show weigh (one f) [((len + 8) / 64 + 1, .sha256)] = ((len + (64 - 56)) / 64 + 1) * one f .sha256
  rw [weigh_cons, weigh_nil, Nat.add_zero]

theorem weigh_sha512 {f : Fn} (len : Nat) : weigh (one f) (Spec.sha true len) = blocks cfg512 len * one f .sha512 := by
  show weigh (one f) [((len + 16) / 128 + 1, .sha512)] = ((len + (128 - 112)) / 128 + 1) * one f .sha512
  rw [weigh_cons, weigh_nil, Nat.add_zero]

theorem weigh_mgf256 {f : Fn} (i o : Nat) : weigh (one f) (mgf false i o) =
    (o + 32 - 1) / 32 * (blocks cfg256 (i + 4) * one f .sha256) := by
  unfold mgf
  rw [weigh_times, weigh_sha256]
  rfl

theorem weigh_mgf512 {f : Fn} (i o : Nat) : weigh (one f) (mgf true i o) =
    (o + 64 - 1) / 64 * (blocks cfg512 (i + 4) * one f .sha512) := by
  unfold mgf
  rw [weigh_times, weigh_sha512]
  rfl

theorem sha2_cost (f : Fn) (P : Params) (hn : P.n ≤ 64) (h5 : P.sha512 = decide (24 ≤ P.n)) (g : Nat → Nat → Byte)
    (ml : Nat) :
    HashCost f (Sha2.impl P g) (fun h => weigh (one f) (sha2Prims P.toSpec P.robust ml h)) ml where
  init ctx := by
    show Wp f (seed_state P g ctx) fun _ k => k = weigh (one f) ((1, .sha256) :: if 24 ≤ P.n then [(1, .sha512)] else [])
    unfold seed_state
    skipb
    skipb
    skipb
    refine Wp.bind ((prims_inc_blocks count256).mono fun _ k _ hk => ?_)
    subst hk
    rw [h5]
    by_cases h : 24 ≤ P.n
    · rw [if_pos (by exact decide_eq_true h), if_pos h, weigh_cons, weigh_cons, weigh_nil]
      skipb
      refine Wp.bind ((prims_inc_blocks count512).mono fun _ k _ hk => ?_)
      subst hk
      refine Wp.ok ?_
      show _ + (_ + (_ + (_ + (_ + (_ + 0))))) = _
      rw [show cfg256.fn = .sha256 from rfl, show cfg512.fn = .sha512 from rfl]
      omega
    · rw [if_neg (by simpa using h), if_neg h, weigh_cons, weigh_nil]
      refine Wp.ok ?_
      rw [show cfg256.fn = .sha256 from rfl]
      omega
  prf c a := by
    show Wp f (prf_addr P g c a) fun _ k => k = weigh (one f) (Spec.sha false (22 + P.n))
    rw [weigh_sha256]
    unfold prf_addr
    skipb
    skipb
    skipb
    skipb
    skipb
    refine Wp.bind ((prims_inc_finalize count256).mono fun x k _ hk => ?_)
    subst hk
    obtain ⟨o, s⟩ := x
    dsimp only
    skip1
    rw [show SPX_SHA256_ADDR_BYTES = 22 from rfl, show cfg256.fn = .sha256 from rfl]
    omega
  thash i b c a := by
    show Wp f ((if P.robust then thash_robust P g else thash_simple P g) i b c a) fun _ k =>
      k = weigh (one f) ((if P.robust then mgf (decide (24 ≤ P.n ∧ 1 < b)) (P.n + 22) (b * P.n) else []) ++
        Spec.sha (decide (24 ≤ P.n ∧ 1 < b)) (22 + b * P.n))
    rw [weigh_append]
    cases P.robust
    · simp only [Bool.false_eq_true, if_false, weigh_nil, Nat.zero_add]
      unfold thash_simple
      rw [h5]
      refine Wp.branch (fun h => ?_) (fun h => ?_)
      · rw [decide_eq_true (by simpa using h), weigh_sha512]
        exact prims_thash_simple_X count512
      · rw [decide_eq_false (by simpa using h), weigh_sha256]
        exact prims_thash_simple_X count256
    · simp only [if_true]
      unfold thash_robust
      rw [h5]
      refine Wp.branch (fun h => ?_) (fun h => ?_)
      · rw [decide_eq_true (by simpa using h), weigh_sha512, weigh_mgf512]
        exact prims_thash_robust_X count512
      · rw [decide_eq_false (by simpa using h), weigh_sha256, weigh_mgf256]
        exact prims_thash_robust_X count256
  rand s o m c hm := by
    subst hm
    show Wp f (gen_message_random P g s o m c) fun _ k => k = weigh (one f) (hmac (decide (24 ≤ P.n)) (P.n + m.length))
    unfold gen_message_random hmac
    by_cases h : 24 ≤ P.n
    · rw [if_pos h, if_pos (decide_eq_true h), weigh_append, weigh_sha512, weigh_sha512, ← Nat.add_mul]
      exact prims_gen_message_random_X count512 (show P.n ≤ 128 by omega)
    · rw [if_neg h, if_neg (by simpa using h), weigh_append, weigh_sha256, weigh_sha256, ← Nat.add_mul]
      exact prims_gen_message_random_X count256 hn
  msg R pk m c hm := by
    subst hm
    show Wp f (hash_message P g R pk m c) fun _ k =>
      k = weigh (one f) (Spec.sha (decide (24 ≤ P.n)) (3 * P.n + m.length) ++
      mgf (decide (24 ≤ P.n)) (2 * P.n + if 24 ≤ P.n then 64 else 32) (digestBytes P.toSpec))
    rw [show digestBytes P.toSpec = P.dgstBytes by
      unfold digestBytes Params.dgstBytes; rw [toSpec_mdBytes, toSpec_treeBytes, toSpec_leafBytes]]
    unfold hash_message
    by_cases h : 24 ≤ P.n
    · rw [if_pos h, if_pos h, decide_eq_true h, weigh_append, weigh_sha512, weigh_mgf512, ← Nat.mul_assoc, ← Nat.add_mul]
      exact prims_hash_message_X count512
    · rw [if_neg h, if_neg h, decide_eq_false h, weigh_append, weigh_sha256, weigh_mgf256, ← Nat.mul_assoc, ← Nat.add_mul]
      exact prims_hash_message_X count256

end Spx.Leak.Sha2
