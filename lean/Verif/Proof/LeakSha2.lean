import Verif.Proof.LeakLow
import Verif.Model.LeakSha2
/-! # Two runs of the SHA-2 hash functions leave the same trace -/

namespace Spx.Leak

theorem low_load_bigendian_32 {x y : Bytes} (h : Len x y) :
    Rel (fun _ _ => True) (load_bigendian_32 x) (load_bigendian_32 y) := by
  unfold load_bigendian_32; low

theorem low_load_bigendian_64 {x y : Bytes} (h : Len x y) :
    Rel (fun _ _ => True) (load_bigendian_64 x) (load_bigendian_64 y) := by
  unfold load_bigendian_64; low
macro_rules | `(tactic| low_leaf) => `(tactic| (with_reducible apply low_load_bigendian_64) <;> low_side)

theorem low_store_bigendian_32 {x y : Bytes} {u v : BitVec 64} (h : Len x y) :
    Rel (fun a b => a.length = x.length ∧ b.length = x.length) (store_bigendian_32 x u) (store_bigendian_32 y v) := by
  unfold store_bigendian_32; low

theorem low_store_bigendian_64 {x y : Bytes} {u v : BitVec 64} (h : Len x y) :
    Rel (fun a b => a.length = x.length ∧ b.length = x.length) (store_bigendian_64 x u) (store_bigendian_64 y v) := by
  unfold store_bigendian_64; low
macro_rules | `(tactic| low_leaf) => `(tactic| (with_reducible apply low_store_bigendian_64) <;> low_side)

namespace Sha2
open Spx.Sha2

/-- `load_bigendian` and `store_bigendian` leave the same trace. -/
structure Cfg.Low {wb : Nat} (c : Cfg wb) : Prop where
  load : ∀ x y, Len x y → Rel (fun _ _ => True) (c.loadL x) (c.loadL y)
  store : ∀ x y u v, Len x y → Rel (fun a b => a.length = x.length ∧ b.length = x.length) (c.storeL x u) (c.storeL y v)

theorem low256 : cfg256.Low :=
  ⟨fun _ _ h => low_load_bigendian_32 h, fun _ _ _ _ h => low_store_bigendian_32 h⟩

theorem low512 : cfg512.Low :=
  ⟨fun _ _ h => low_load_bigendian_64 h, fun _ _ _ _ h => low_store_bigendian_64 h⟩

section
variable {wb : Nat} {c : Cfg wb} (hc : c.Low)
include hc

theorem low_loadWords {x y : Bytes} {k : Nat} (h : Len x y) :
    Rel (fun _ _ => True) (loadWords c x k) (loadWords c y k) := by
  unfold loadWords
  refine Rel.forAny rfl fun i s s' _ => ?_
  refine Rel.bind (Rel.sub_len h rfl) fun _ _ h' => ?_
  exact Rel.bind (hc.load _ _ (h'.1.trans h'.2.symm)) fun _ _ _ => Rel.ok trivial

theorem low_blockStep {x y : Bytes × Nat × Vars wb × Vars wb} (h : Len x.1 y.1 ∧ x.2.1 = y.2.1) :
    Rel (SumRel (fun (x y : Bytes × Nat × Vars wb × Vars wb) => Len x.1 y.1 ∧ x.2.1 = y.2.1) (fun _ _ => True))
      (blockStep c x) (blockStep c y) := by
  obtain ⟨i, k, v, s⟩ := x
  obtain ⟨i', k', v', s'⟩ := y
  obtain ⟨h1, h2⟩ := h
  dsimp only at h1 h2
  subst h2
  unfold blockStep
  dsimp only
  refine Rel.branch Iff.rfl (fun _ => ?_) (fun _ => Rel.ok_inr trivial)
  refine Rel.prim (Rel.bind (low_loadWords hc h1) fun _ _ _ => ?_)
  low

theorem low_hashblocks {s s' i i' : Bytes} {k k' : Nat} (hs : Len s s') (hi : Len i i') (hk : k = k') :
    Rel (fun a b => a.length = s.length ∧ b.length = s.length) (hashblocks c s i k) (hashblocks c s' i' k') := by
  subst hk
  unfold hashblocks
  refine Rel.bind (low_loadWords hc hs) fun _ _ _ => ?_
  refine Rel.bind (Rel.loop _ (fun _ _ => True) rfl ⟨hi, rfl⟩ fun _ _ => low_blockStep hc) ?_
  rintro ⟨_, st⟩ ⟨_, st'⟩ _
  dsimp only
  refine Rel.forLen rfl hs fun j b b' _ h1 h2 => ?_
  refine Rel.bind (Rel.withSub_unit (h1.trans h2.symm) rfl fun p p' h3 h4 => ?_) ?_
  · refine Rel.bind (Rel.rd1 rfl rfl) fun _ _ _ => ?_
    refine Rel.bind (hc.store _ _ _ _ (h3.trans h4.symm)) ?_
    low
  · low

omit hc in
theorem low_inc_init {s s' : Bytes} (hs : Len s s') :
    Rel (fun a b => a.length = s.length ∧ b.length = s.length) (inc_init c s) (inc_init c s') := by
  unfold inc_init; low

theorem low_inc_blocks {s s' i i' : Bytes} {k : Nat} (hs : Len s s') (hi : Len i i') :
    Rel (fun a b => a.length = s.length ∧ b.length = s.length) (inc_blocks c s i k) (inc_blocks c s' i' k) := by
  unfold inc_blocks
  refine Rel.bind (Rel.sub_len hs rfl) ?_
  low_intro
  refine Rel.bind (low_load_bigendian_64 (by low_side)) fun _ _ _ => ?_
  refine Rel.bind (low_hashblocks hc hs hi rfl) ?_
  low

omit hc in
theorem low_padTail {p p' : Bytes} {i z : Nat} {b b' : BitVec 64} (h : Len p p') :
    Rel (fun x y => x.length = p.length ∧ y.length = p.length) (padTail c p i z b) (padTail c p' i z b') := by
  unfold padTail; low

theorem low_inc_finalize {g g' : Nat → Nat → Byte} {o o' s s' i i' : Bytes} {k k' : Nat} (ho : Len o o')
    (hs : Len s s') (hi : Len i i') (hk : k = k') :
    Rel (fun x y => x.1.length = o.length ∧ y.1.length = o.length)
      (inc_finalize c g o s i k) (inc_finalize c g' o' s' i' k') := by
  subst hk
  unfold inc_finalize
  refine Rel.bind (Rel.sub_len hs rfl) ?_
  low_intro
  refine Rel.bind (low_load_bigendian_64 (by low_side)) fun _ _ _ => ?_
  refine Rel.bind (low_hashblocks hc hs hi rfl) ?_
  low_intro
  refine Rel.bind (Rel.sub_len hi rfl) ?_
  low_intro
  refine Rel.bind (R := fun x y => x.length = 2 * c.blk ∧ y.length = 2 * c.blk) (by low) ?_
  rintro p p' ⟨hp, hp'⟩
  refine Rel.bind (R := fun x y => x.length = 2 * c.blk ∧ y.length = 2 * c.blk) (by low) ?_
  rintro q q' ⟨hq, hq'⟩
  refine Rel.bind (R := fun x y => Len x y) (Rel.branch Iff.rfl (fun _ => ?_) (fun _ => ?_)) ?_
  · refine Rel.bind (low_padTail (hq.trans hq'.symm)) ?_
    low_intro
    refine (low_hashblocks hc (by low_side) (by low_side) rfl).weaken ?_
    low
  · refine Rel.bind (low_padTail (hq.trans hq'.symm)) ?_
    low_intro
    refine (low_hashblocks hc (by low_side) (by low_side) rfl).weaken ?_
    low
  · intro t t' ht
    low

theorem low_sha {g g' : Nat → Nat → Byte} {o o' i i' : Bytes} {k : Nat} (ho : Len o o') (hi : Len i i') :
    Rel (fun x y => x.length = o.length ∧ y.length = o.length) (sha c g o i k) (sha c g' o' i' k) := by
  unfold sha
  refine Rel.bind (low_inc_init (by low_side)) ?_
  low_intro
  refine Rel.bind (low_inc_finalize hc ho (by low_side) hi rfl) ?_
  low

/-- Two states of the loop of `mgf1`. -/
def MgfRel (n k : Nat) (x y : Nat × Bytes × Bytes) : Prop :=
  x.1 = y.1 ∧ (x.2.1.length = n ∧ y.2.1.length = n) ∧ (x.2.2.length = k ∧ y.2.2.length = k)

theorem low_mgfStep {g g' : Nat → Nat → Byte} {ol il n k : Nat} {x y : Nat × Bytes × Bytes} (h : MgfRel n k x y) :
    Rel (SumRel (MgfRel n k) (MgfRel n k)) (mgfStep c g ol il x) (mgfStep c g' ol il y) := by
  obtain ⟨i, o, b⟩ := x
  obtain ⟨i', o', b'⟩ := y
  obtain ⟨h1, ⟨h2, h3⟩, h4, h5⟩ := h
  dsimp only at h1 h2 h3 h4 h5
  subst h1
  unfold mgfStep
  dsimp only
  refine Rel.branch Iff.rfl (fun _ => ?_) (fun _ => Rel.ok_inr ⟨rfl, ⟨h2, h3⟩, h4, h5⟩)
  refine Rel.bind (R := fun x y => x.1.length = k ∧ y.1.length = k) (by low) ?_
  rintro ⟨b, _⟩ ⟨b', _⟩ ⟨h6, h7⟩
  dsimp only at h6 h7 ⊢
  refine Rel.bind (Rel.withSub_unit (h2.trans h3.symm) rfl fun p p' h3 h4 => ?_) ?_
  · refine Rel.bind (low_sha hc (h3.trans h4.symm) (h6.trans h7.symm)) ?_
    low
  · rintro ⟨q, _⟩ ⟨q', _⟩ ⟨h8, h9⟩
    exact Rel.ok_inl ⟨rfl, ⟨h8.trans h2, h9.trans h2⟩, h6, h7⟩

theorem low_mgf1 {g g' : Nat → Nat → Byte} {o o' i i' : Bytes} {ol il : Nat} (ho : Len o o') (hi : Len i i') :
    Rel (fun x y => x.length = o.length ∧ y.length = o.length) (mgf1 c g o ol i il) (mgf1 c g' o' ol i' il) := by
  unfold mgf1
  refine Rel.bind (Rel.rd hi rfl rfl) ?_
  rintro b b' ⟨hb, hb'⟩
  refine Rel.bind (R := fun x y => x.length = il + 4 ∧ y.length = il + 4) (by low) ?_
  rintro d d' ⟨hd, hd'⟩
  refine Rel.bind (Rel.loop (MgfRel o.length (il + 4)) (MgfRel o.length (il + 4)) rfl
    ⟨rfl, ⟨rfl, ho.symm⟩, hd, hd'⟩ fun _ _ => low_mgfStep hc) ?_
  rintro ⟨k, o, b⟩ ⟨k', o', b'⟩ ⟨h1, ⟨h2, h3⟩, h4, h5⟩
  dsimp only at h1 h2 h3 h4 h5 ⊢
  subst h1
  refine Rel.branch Iff.rfl (fun _ => ?_) (fun _ => Rel.ok ⟨h2, h3⟩)
  refine Rel.bind (R := fun x y => Len x.1 y.1) (by low) ?_
  rintro ⟨b, _⟩ ⟨b', _⟩ h6
  dsimp only at h6 ⊢
  refine Rel.bind (low_sha hc (by rw [Len, len_uninit, len_uninit]) h6) ?_
  low

end

section
variable {P : Params} {g g' : Nat → Nat → Byte}

theorem low_initialize {c c' : Ctx} (h : CtxLow c c') :
    Rel (CtxKeep c) (initialize_hash_function P g c) (initialize_hash_function P g' c') := by
  obtain ⟨h1, h2, h3, h4, h5, h6, h7⟩ := h
  unfold initialize_hash_function seed_state
  refine Rel.bind (R := fun x y => x.length = 128 ∧ y.length = 128) (by low) ?_
  low_intro
  refine Rel.bind (R := fun x y => x.length = 128 ∧ y.length = 128) (by low) ?_
  low_intro
  refine Rel.bind (low_inc_init h3) ?_
  low_intro
  refine Rel.bind (low_inc_blocks low256 (by low_side) (by low_side)) ?_
  low_intro
  refine Rel.ite (fun _ => ?_) (fun _ => Rel.ok ⟨⟨h1, h2, by low_side, h4, h5, h6, h7⟩, rfl, rfl, by low_side, rfl, rfl, rfl, rfl⟩)
  refine Rel.bind (low_inc_init h4) ?_
  low_intro
  refine Rel.bind (low_inc_blocks low512 (by low_side) (by low_side)) ?_
  low_intro
  exact Rel.ok ⟨⟨h1, h2, by low_side, by low_side, h5, h6, h7⟩, rfl, rfl, by low_side, by low_side, rfl, rfl, rfl⟩

theorem low_prf_addr {c c' : Ctx} {a a' : Addr} (hc : CtxLow c c') (ha : Len a a') :
    Rel (fun x y => x.length = P.n ∧ y.length = P.n) (prf_addr P g c a) (prf_addr P g' c' a') := by
  obtain ⟨h1, h2, h3, h4, h5, h6, h7⟩ := hc
  unfold prf_addr
  refine Rel.bind (Rel.rd h3 rfl rfl) ?_
  low_intro
  refine Rel.bind (Rel.rd ha rfl rfl) ?_
  low_intro
  refine Rel.bind (R := fun x y => Len x y) (by low) ?_
  low_intro
  refine Rel.bind (Rel.rd h2 rfl rfl) ?_
  low_intro
  refine Rel.bind (R := fun x y => Len x y) (by low) ?_
  low_intro
  refine Rel.bind (low_inc_finalize low256 (by low_side) (by low_side) (by assumption) rfl) ?_
  low

section
variable {wb : Nat} {c : Cfg wb} (hc : c.Low)
include hc

theorem low_gen_message_random_X {k k' o o' m m' : Bytes} {x x' : Ctx} (hk : Len k k') (ho : Len o o')
    (hm : Len m m') :
    Rel (fun x y => x.length = P.n ∧ y.length = P.n) (gen_message_random_X P g c k o m x)
      (gen_message_random_X P g' c k' o' m' x') := by
  unfold gen_message_random_X
  dsimp only
  rw [← hm]
  refine Rel.bind (R := fun x y => x.length = c.blk + c.hb ∧ y.length = c.blk + c.hb) (by low) ?_
  low_intro
  refine Rel.bind (R := fun x y => x.length = c.blk + c.hb ∧ y.length = c.blk + c.hb) (by low) ?_
  low_intro
  refine Rel.bind (low_inc_init (by low_side)) ?_
  low_intro
  refine Rel.bind (low_inc_blocks hc (by low_side) (by low_side)) ?_
  low_intro
  refine Rel.bind (Rel.rd ho rfl rfl) ?_
  low_intro
  refine Rel.bind (R := fun x y => x.length = c.blk + c.hb ∧ y.length = c.blk + c.hb) (by low) ?_
  rintro b b' ⟨hb, hb'⟩
  refine Rel.bind (R := fun x y => x.1.length = c.blk + c.hb ∧ y.1.length = c.blk + c.hb)
    (Rel.branch Iff.rfl (fun _ => ?_) (fun _ => ?_)) ?_
  · refine Rel.bind (Rel.rd hm rfl rfl) ?_
    low_intro
    refine Rel.bind (R := fun x y => x.length = c.blk + c.hb ∧ y.length = c.blk + c.hb) (by low) ?_
    rintro d d' ⟨hd, hd'⟩
    refine (Rel.withSub (R := fun _ _ => True) (hd.trans hd'.symm) rfl fun p p' h3 h4 =>
      (low_inc_finalize hc (h3.trans h4.symm) (by low_side) (hd.trans hd'.symm) rfl).weaken ?_).weaken ?_
    · rintro _ _ ⟨h5, h6⟩; exact ⟨⟨h5.trans h3, h6.trans h3⟩, trivial⟩
    · rintro _ _ ⟨⟨h5, h6⟩, _⟩; exact ⟨h5.trans hd, h6.trans hd⟩
  · refine Rel.bind (Rel.rd hm rfl rfl) ?_
    low_intro
    refine Rel.bind (R := fun x y => x.length = c.blk + c.hb ∧ y.length = c.blk + c.hb) (by low) ?_
    rintro d d' ⟨hd, hd'⟩
    refine Rel.bind (low_inc_blocks hc (by low_side) (hd.trans hd'.symm)) ?_
    low_intro
    refine Rel.bind (Rel.sub_len hm rfl) ?_
    low_intro
    refine (Rel.withSub (R := fun _ _ => True) (hd.trans hd'.symm) rfl fun p p' h3 h4 =>
      (low_inc_finalize hc (h3.trans h4.symm) (by low_side) (by low_side) rfl).weaken ?_).weaken ?_
    · rintro _ _ ⟨h5, h6⟩; exact ⟨⟨h5.trans h3, h6.trans h3⟩, trivial⟩
    · rintro _ _ ⟨⟨h5, h6⟩, _⟩; exact ⟨h5.trans hd, h6.trans hd⟩
  · rintro ⟨e, _⟩ ⟨e', _⟩ ⟨he, he'⟩
    dsimp only at he he' ⊢
    refine Rel.bind (R := fun x y => x.length = c.blk + c.hb ∧ y.length = c.blk + c.hb) (by low) ?_
    low_intro
    refine Rel.bind (R := fun x y => x.length = c.blk + c.hb ∧ y.length = c.blk + c.hb) (by low) ?_
    low_intro
    refine Rel.bind (low_sha hc (by low_side) (by low_side)) ?_
    low

theorem low_hash_message_X {R R' pk pk' m m' : Bytes} {x x' : Ctx} (hR : Len R R') (hp : Len pk pk')
    (hm : Len m m') :
    Rel (fun x y => x.1.length = P.forsMsgBytes ∧ y.1.length = P.forsMsgBytes) (hash_message_X P g c R pk m x)
      (hash_message_X P g' c R' pk' m' x') := by
  unfold hash_message_X
  dsimp only
  rw [← hm]
  refine Rel.bind (low_inc_init (by low_side)) ?_
  low_intro
  refine Rel.bind (Rel.rd hR rfl rfl) ?_
  low_intro
  refine Rel.bind (R := fun x y => Len x y) (by low) ?_
  low_intro
  refine Rel.bind (Rel.rd hp rfl rfl) ?_
  low_intro
  refine Rel.bind (R := fun x y => Len x y) (by low) ?_
  intro b b' hb
  refine Rel.bind (R := fun x y => x.1.length = 2 * P.n + c.hb ∧ y.1.length = 2 * P.n + c.hb)
    (Rel.branch Iff.rfl (fun _ => ?_) (fun _ => ?_)) ?_
  · refine Rel.bind (Rel.rd hm rfl rfl) ?_
    low_intro
    refine Rel.bind (R := fun x y => Len x y) (by low) ?_
    intro d d' hd
    refine (Rel.withSub (R := fun _ _ => True) (by low_side) rfl fun p p' h3 h4 =>
      (low_inc_finalize hc (h3.trans h4.symm) (by low_side) hd rfl).weaken ?_).weaken ?_
    · rintro _ _ ⟨h5, h6⟩; exact ⟨⟨h5.trans h3, h6.trans h3⟩, trivial⟩
    · rintro _ _ ⟨⟨h5, h6⟩, _⟩; rw [len_uninit] at h5 h6; exact ⟨h5, h6⟩
  · refine Rel.bind (Rel.rd hm rfl rfl) ?_
    low_intro
    refine Rel.bind (R := fun x y => Len x y) (by low) ?_
    intro d d' hd
    refine Rel.bind (low_inc_blocks hc (by low_side) hd) ?_
    low_intro
    refine Rel.bind (Rel.sub_len hm rfl) ?_
    low_intro
    refine (Rel.withSub (R := fun _ _ => True) (by low_side) rfl fun p p' h3 h4 =>
      (low_inc_finalize hc (h3.trans h4.symm) (by low_side) (by low_side) rfl).weaken ?_).weaken ?_
    · rintro _ _ ⟨h5, h6⟩; exact ⟨⟨h5.trans h3, h6.trans h3⟩, trivial⟩
    · rintro _ _ ⟨⟨h5, h6⟩, _⟩; rw [len_uninit] at h5 h6; exact ⟨h5, h6⟩
  · rintro ⟨e, _⟩ ⟨e', _⟩ ⟨he, he'⟩
    dsimp only at he he' ⊢
    refine Rel.bind (Rel.rd hR rfl rfl) ?_
    low_intro
    refine Rel.bind (R := fun x y => Len x y) (by low) ?_
    low_intro
    refine Rel.bind (Rel.rd hp rfl rfl) ?_
    low_intro
    refine Rel.bind (R := fun x y => Len x y) (by low) ?_
    intro u u' hu
    refine Rel.bind (low_mgf1 hc (by low_side) hu) ?_
    low

theorem low_thash_simple_X {i i' s s' : Bytes} {k : Nat} {a a' : Addr} (hi : Len i i') (hs : Len s s')
    (ha : Len a a') :
    Rel (fun x y => x.length = P.n ∧ y.length = P.n) (thash_simple_X P g c i k s a)
      (thash_simple_X P g' c i' k s' a') := by
  unfold thash_simple_X
  refine Rel.bind (Rel.rd hs rfl rfl) ?_
  low_intro
  refine Rel.bind (Rel.rd ha rfl rfl) ?_
  low_intro
  refine Rel.bind (R := fun x y => Len x y) (by low) ?_
  low_intro
  refine Rel.bind (Rel.rd hi rfl rfl) ?_
  low_intro
  refine Rel.bind (R := fun x y => Len x y) (by low) ?_
  intro u u' hu
  refine Rel.bind (low_inc_finalize hc (by low_side) (by low_side) hu rfl) ?_
  low

theorem low_thash_robust_X {e : Nat} {i i' s s' p p' : Bytes} {k : Nat} {a a' : Addr} (hi : Len i i') (hs : Len s s')
    (hp : Len p p') (ha : Len a a') :
    Rel (fun x y => x.length = P.n ∧ y.length = P.n) (thash_robust_X P g c e i k s p a)
      (thash_robust_X P g' c e i' k s' p' a') := by
  unfold thash_robust_X
  refine Rel.bind (Rel.rd hp rfl rfl) ?_
  low_intro
  refine Rel.bind (R := fun x y => Len x y) (by low) ?_
  low_intro
  refine Rel.bind (Rel.rd ha rfl rfl) ?_
  low_intro
  refine Rel.bind (R := fun x y => Len x y) (by low) ?_
  intro u u' hu
  refine Rel.bind (low_mgf1 hc (by low_side) hu) ?_
  low_intro
  refine Rel.bind (Rel.rd hs rfl rfl) ?_
  low_intro
  refine Rel.bind (R := fun x y => Len x y) (by low) ?_
  low_intro
  refine Rel.bind (Rel.sub_len (by assumption) rfl) ?_
  low_intro
  refine Rel.bind (low_inc_finalize hc (by low_side) (by low_side) (by low_side) rfl) ?_
  low

end

theorem low_impl (P : Params) (g g' : Nat → Nat → Byte) : HashLow P (impl P g) (impl P g') where
  init _ _ h := low_initialize h
  prf _ _ _ _ hc ha := low_prf_addr hc ha
  thash i i' k c c' a a' hi hc ha := by
    unfold impl
    dsimp only
    by_cases h : P.robust = true
    · rw [if_pos h, if_pos h]
      exact Rel.branch Iff.rfl (fun _ => low_thash_robust_X low512 hi hc.state_seeded_512 hc.pub_seed ha)
        (fun _ => low_thash_robust_X low256 hi hc.state_seeded hc.pub_seed ha)
    · rw [if_neg h, if_neg h]
      exact Rel.branch Iff.rfl (fun _ => low_thash_simple_X low512 hi hc.state_seeded_512 ha)
        (fun _ => low_thash_simple_X low256 hi hc.state_seeded ha)
  genR _ _ _ _ _ _ c c' hk ho hm _ :=
    Rel.ite (fun _ => low_gen_message_random_X low512 hk ho hm) (fun _ => low_gen_message_random_X low256 hk ho hm)
  hmsg _ _ _ _ _ _ c c' hR hp hm _ :=
    Rel.ite (fun _ => low_hash_message_X low512 hR hp hm) (fun _ => low_hash_message_X low256 hR hp hm)

end
end Sha2
end Spx.Leak
