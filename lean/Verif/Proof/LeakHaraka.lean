import Verif.Proof.LeakLow
import Verif.Model.LeakHaraka
/-! # Two runs of the Haraka hash functions leave the same trace -/

namespace Spx.Leak
namespace Haraka
open Spx.Haraka

attribute [local irreducible] br_aes_ct64_bitslice_Sbox br_aes_ct_bitslice_Sbox br_aes_ct64_ortho
  br_aes_ct_ortho mix64 mix32 shift_rows shift_rows32 mix_columns mix_columns32 add_round_key
  add_round_key32 br_aes_ct64_interleave_in haraka512_rc64

theorem len_enc (x : BitVec 32) : (br_enc32le x).length = 4 := rfl

theorem len_out (x y : BitVec 64) : (br_aes_ct64_interleave_out x y).length = 4 := rfl

theorem len_Q8 {w : Nat} (q : Q8 w) : q.toList.length = 8 := rfl

theorem low_Q8_load {w : Nat} {s s' : List (BitVec w)} {i : Nat} (h : Len s s') :
    Rel (fun _ _ => True) (Q8.load s i) (Q8.load s' i) := by
  unfold Q8.load
  repeat (refine Rel.bind (Rel.rd1 h rfl) fun _ _ _ => ?_)
  exact Rel.ok trivial

theorem low_br_dec32le {s s' : Bytes} (h : Len s s') : Rel (fun _ _ => True) (br_dec32le s) (br_dec32le s') := by
  unfold br_dec32le
  repeat (refine Rel.bind (Rel.rd1 h rfl) fun _ _ _ => ?_)
  exact Rel.ok trivial
macro_rules | `(tactic| low_leaf) => `(tactic| (with_reducible apply low_br_dec32le) <;> low_side)

theorem low_br_range_dec32le {n : Nat} {s s' : Bytes} (h : Len s s') :
    Rel (fun x y => x.length = n ∧ y.length = n) (br_range_dec32le n s) (br_range_dec32le n s') := by
  unfold br_range_dec32le
  refine Rel.forRangeI (R := fun i (x y : List (BitVec 32)) => x.length = i ∧ y.length = i) rfl ⟨rfl, rfl⟩ ?_
  rintro i x y _ ⟨hx, hy⟩
  refine Rel.bind (Rel.sub_len h rfl) fun _ _ h' => ?_
  refine Rel.bind (low_br_dec32le (h'.1.trans h'.2.symm)) fun _ _ _ => ?_
  refine Rel.ok ⟨?_, ?_⟩
  · rw [List.length_append, hx]; rfl
  · rw [List.length_append, hy]; rfl

theorem low_br_range_enc32le {n : Nat} {v v' : List (BitVec 32)} (h : Len v v') :
    Rel (fun x y => x.length = 4 * n ∧ y.length = 4 * n) (br_range_enc32le n v) (br_range_enc32le n v') := by
  unfold br_range_enc32le
  refine Rel.forRangeI (R := fun i (x y : Bytes) => x.length = 4 * i ∧ y.length = 4 * i) rfl ⟨rfl, rfl⟩ ?_
  rintro i x y _ ⟨hx, hy⟩
  refine Rel.bind (Rel.rd1 h rfl) fun _ _ _ => ?_
  refine Rel.ok ⟨?_, ?_⟩
  · rw [List.length_append, hx]; rfl
  · rw [List.length_append, hy]; rfl

theorem low_slice64 {s s' : Bytes} (h : Len s s') : Rel (fun _ _ => True) (slice64 s) (slice64 s') := by
  unfold slice64
  refine Rel.bind (low_br_range_dec32le h) fun w w' hw => ?_
  have hl : Len w w' := hw.1.trans hw.2.symm
  have hi : ∀ i, Rel (fun _ _ => True)
      (do
        let w0 ← rd1 w (4 * i)
        let w1 ← rd1 w (4 * i + 1)
        let w2 ← rd1 w (4 * i + 2)
        let w3 ← rd1 w (4 * i + 3)
        .ok (br_aes_ct64_interleave_in w0 w1 w2 w3) : L (BitVec 64 × BitVec 64))
      (do
        let w0 ← rd1 w' (4 * i)
        let w1 ← rd1 w' (4 * i + 1)
        let w2 ← rd1 w' (4 * i + 2)
        let w3 ← rd1 w' (4 * i + 3)
        .ok (br_aes_ct64_interleave_in w0 w1 w2 w3) : L (BitVec 64 × BitVec 64)) := by
    intro i
    repeat (refine Rel.bind (Rel.rd1 hl rfl) fun _ _ _ => ?_)
    exact Rel.ok trivial
  refine Rel.bind (hi 0) fun _ _ _ => ?_
  refine Rel.bind (hi 1) fun _ _ _ => ?_
  refine Rel.bind (hi 2) fun _ _ _ => ?_
  refine Rel.bind (hi 3) fun _ _ _ => ?_
  exact Rel.ok trivial

theorem low_slice32 {s s' : Bytes} (h : Len s s') : Rel (fun _ _ => True) (slice32 s) (slice32 s') := by
  unfold slice32
  low

theorem low_interleave_constant {o o' : List (BitVec 64)} {i : Nat} {s s' : Bytes} (ho : Len o o') (h : Len s s') :
    Rel (fun x y => x.length = o.length ∧ y.length = o.length) (interleave_constant o i s)
      (interleave_constant o' i s') := by
  unfold interleave_constant
  exact Rel.bind (low_slice64 h) fun _ _ _ => Rel.wr ho rfl ((len_Q8 _).trans (len_Q8 _).symm)

theorem low_interleave_constant32 {o o' : List (BitVec 32)} {i : Nat} {s s' : Bytes} (ho : Len o o') (h : Len s s') :
    Rel (fun x y => x.length = o.length ∧ y.length = o.length) (interleave_constant32 o i s)
      (interleave_constant32 o' i s') := by
  unfold interleave_constant32
  exact Rel.bind (low_slice32 h) fun _ _ _ => Rel.wr ho rfl ((len_Q8 _).trans (len_Q8 _).symm)

theorem low_haraka512_perm {s s' : Bytes} {c c' : Ctx} (h : Len s s') (hc : CtxLow c c') :
    Rel (fun x y => x.length = 64 ∧ y.length = 64) (haraka512_perm s c) (haraka512_perm s' c') := by
  unfold haraka512_perm
  refine Rel.prim (Rel.bind (low_slice64 h) fun _ _ _ => ?_)
  refine Rel.bind (Rel.forAny rfl fun i q q' _ => ?_) fun q q' _ => ?_
  · refine Rel.bind (Rel.forAny rfl fun j q q' _ => ?_) fun _ _ _ => Rel.ok trivial
    unfold aes64
    exact Rel.bind (low_Q8_load hc.rc64) fun _ _ _ => Rel.ok trivial
  · exact low_br_range_enc32le (by simp only [Len, List.length_append, len_out])
macro_rules | `(tactic| low_leaf) => `(tactic| (with_reducible apply low_haraka512_perm) <;> low_side)

theorem low_haraka512 {s s' : Bytes} {c c' : Ctx} (h : Len s s') (hc : CtxLow c c') :
    Rel (fun x y => x.length = 32 ∧ y.length = 32) (haraka512 s c) (haraka512 s' c') := by
  unfold haraka512
  low
macro_rules | `(tactic| low_leaf) => `(tactic| (with_reducible apply low_haraka512) <;> low_side)

theorem low_haraka256 {s s' : Bytes} {c c' : Ctx} (h : Len s s') (hc : CtxLow c c') :
    Rel (fun x y => x.length = 32 ∧ y.length = 32) (haraka256 s c) (haraka256 s' c') := by
  unfold haraka256
  refine Rel.prim (Rel.bind (low_slice32 h) fun _ _ _ => ?_)
  refine Rel.bind (Rel.forAny rfl fun i q q' _ => ?_) fun q q' _ => ?_
  · refine Rel.bind (Rel.forAny rfl fun j q q' _ => ?_) fun _ _ _ => Rel.ok trivial
    unfold aes32
    exact Rel.bind (low_Q8_load hc.rc32) fun _ _ _ => Rel.ok trivial
  · dsimp only
    have hl : ∀ q : Q8 32, (br_enc32le q.q0 ++ br_enc32le q.q2 ++ br_enc32le q.q4 ++ br_enc32le q.q6 ++
        br_enc32le q.q1 ++ br_enc32le q.q3 ++ br_enc32le q.q5 ++ br_enc32le q.q7).length = 32 := by
      intro q; simp only [List.length_append, len_enc]
    have hl1 := hl (br_aes_ct_ortho q)
    have hl2 := hl (br_aes_ct_ortho q')
    revert hl1 hl2
    generalize br_enc32le (br_aes_ct_ortho q).q0 ++ _ = x
    generalize br_enc32le (br_aes_ct_ortho q').q0 ++ _ = y
    intro hl1 hl2
    low
macro_rules | `(tactic| low_leaf) => `(tactic| (with_reducible apply low_haraka256) <;> low_side)

/-- Two incremental sponge states with the same counter. -/
def IncRel (s s' : Bytes) : Prop :=
  s.length = 65 ∧ s'.length = 65 ∧ ∃ c : Byte, s[64]? = some c ∧ s'[64]? = some c ∧ c.toNat < 32

theorem IncRel.len {s s' : Bytes} (h : IncRel s s') : Len s s' := h.1.trans h.2.1.symm

theorem IncRel.set64 {s s' : Bytes} (h : s.length = 65) (h' : s'.length = 65) (c : Byte)
    (hc : c.toNat < 32) : IncRel (s.set 64 c) (s'.set 64 c) := by
  refine ⟨by rw [List.length_set, h], by rw [List.length_set, h'], c, ?_, ?_, hc⟩
  · rw [List.getElem?_set_self (by omega)]
  · rw [List.getElem?_set_self (by omega)]

/-- Writing below the counter -/
theorem IncRel.set {s s' : Bytes} {k : Nat} (hk : k < 64) (h : IncRel s s') (b b' : Byte) :
    IncRel (s.set k b) (s'.set k b') ∧ (s.set k b)[64]? = s[64]? ∧ (s'.set k b')[64]? = s'[64]? := by
  obtain ⟨h1, h2, c, h3, h4, h5⟩ := h
  have hne : k ≠ 64 := by omega
  refine ⟨⟨by rw [List.length_set, h1], by rw [List.length_set, h2], c, ?_, ?_, h5⟩, ?_, ?_⟩
  · rw [List.getElem?_set_ne hne, h3]
  · rw [List.getElem?_set_ne hne, h4]
  · rw [List.getElem?_set_ne hne]
  · rw [List.getElem?_set_ne hne]

/-- Two versions of the permutation which leave the same trace. -/
def PermLow (perm perm' : Bytes → Ctx → L Bytes) : Prop :=
  ∀ s s' c c', Len s s' → CtxLow c c' → Rel (fun x y => x.length = 64 ∧ y.length = 64) (perm s c) (perm' s' c')

theorem PermLow.app {perm perm' : Bytes → Ctx → L Bytes} (hp : PermLow perm perm') {s s' : Bytes} {c c' : Ctx}
    (h : Len s s') (hc : CtxLow c c') :
    Rel (fun x y => x.length = 64 ∧ y.length = 64) (perm s c) (perm' s' c') := hp s s' c c' h hc
macro_rules | `(tactic| low_leaf) => `(tactic| (with_reducible refine PermLow.app (by assumption) ?_ ?_) <;> low_side)

theorem low_perm : PermLow haraka512_perm haraka512_perm := fun _ _ _ _ h hc => low_haraka512_perm h hc

section
variable {c c' : Ctx} (hc : CtxLow c c') {perm perm' : Bytes → Ctx → L Bytes} (hp : PermLow perm perm')
include hc hp

/-- Two states `(s, m, mlen)` of the absorbing loops. -/
def AbsRel (x y : Bytes × Bytes × Nat) : Prop := Len x.1 y.1 ∧ Len x.2.1 y.2.1 ∧ x.2.2 = y.2.2

theorem low_haraka_S_absorb_block {r : Nat} {x y : Bytes × Bytes × Nat} (h : AbsRel x y) :
    Rel (SumRel AbsRel AbsRel) (haraka_S_absorb_block perm r c x)
      (haraka_S_absorb_block perm' r c' y) := by
  obtain ⟨s, m, k⟩ := x
  obtain ⟨s', m', k'⟩ := y
  obtain ⟨h1, h2, h3⟩ := h
  dsimp only at h1 h2 h3
  subst h3
  unfold haraka_S_absorb_block AbsRel
  dsimp only
  low

theorem low_haraka_S_absorb {g g' : Nat → Byte} {s s' : Bytes} {r : Nat} {m m' : Bytes} {k : Nat}
    {p : Byte} (hs : Len s s') (hm : Len m m') :
    Rel (fun x y => Len x y) (haraka_S_absorb perm g s r m k p c)
      (haraka_S_absorb perm' g' s' r m' k p c') := by
  unfold haraka_S_absorb
  refine Rel.bind (Rel.loop AbsRel AbsRel rfl ⟨hs, hm, rfl⟩ fun _ _ => low_haraka_S_absorb_block hc hp) ?_
  rintro ⟨s, m, k⟩ ⟨s', m', k'⟩ ⟨h1, h2, h3⟩
  dsimp only at h1 h2 h3 ⊢
  subst h3
  low

theorem low_haraka_S_squeezeblocks {h h' : Bytes} {nb r : Nat} {s s' : Bytes} (hh : Len h h')
    (hs : Len s s') :
    Rel (fun x y => (x.1.length = h.length ∧ y.1.length = h.length) ∧ Len x.2 y.2)
      (haraka_S_squeezeblocks perm h nb s r c) (haraka_S_squeezeblocks perm' h' nb s' r c') := by
  unfold haraka_S_squeezeblocks
  refine Rel.bind (Rel.forRange (fun x y => (x.1.length = h.length ∧ y.1.length = h.length) ∧
    x.2.1 = y.2.1 ∧ Len x.2.2 y.2.2) rfl ⟨⟨rfl, hh.symm⟩, rfl, hs⟩ ?_) ?_
  all_goals low

theorem low_haraka_S {g g' : Nat → Nat → Byte} {o o' i i' : Bytes} {ol il : Nat} (ho : Len o o') (hi : Len i i') :
    Rel (fun x y => x.length = o.length ∧ y.length = o.length) (haraka_S perm g o ol i il c)
      (haraka_S perm' g' o' ol i' il c') := by
  unfold haraka_S
  refine Rel.bind (R := fun x y => Len x y) (by low) fun s s' hs => ?_
  refine Rel.bind (low_haraka_S_absorb hc hp hs hi) fun t t' ht => ?_
  refine Rel.bind (low_haraka_S_squeezeblocks hc hp ho ht) ?_
  rintro ⟨x, t⟩ ⟨x', t'⟩ ⟨⟨h1, h2⟩, h3⟩
  dsimp only at h1 h2 h3 ⊢
  refine Rel.branch Iff.rfl (fun _ => ?_) (fun _ => Rel.ok ⟨h1, h2⟩)
  refine Rel.bind (low_haraka_S_squeezeblocks hc hp (by low_side) h3) ?_
  low

omit hc hp in
theorem low_inc_init {s s' : Bytes} (h : s.length = 65) (h' : s'.length = 65) :
    Rel IncRel (haraka_S_inc_init s) (haraka_S_inc_init s') := by
  unfold haraka_S_inc_init
  refine Rel.bind (R := fun x y => x.length = 65 ∧ y.length = 65) (by low) ?_
  rintro s s' ⟨h1, h2⟩
  refine (Rel.wr1 (h1.trans h2.symm) rfl).weaken ?_
  rintro _ _ ⟨rfl, rfl⟩
  exact IncRel.set64 h1 h2 0#8 (by decide)

omit hc hp in
theorem low_inc_xor {s s' : Bytes} {m m' : Bytes} {len : Nat} (h : IncRel s s')
    (hm : Len m m') (hl : ∀ c, s[64]? = some c → c.toNat + len ≤ 32) :
    Rel (fun x y => IncRel x y ∧ x[64]? = s[64]? ∧ y[64]? = s'[64]?) (haraka_S_inc_xor s m len)
      (haraka_S_inc_xor s' m' len) := by
  have h0 := h
  obtain ⟨h1, h2, c, h3, h4, h5⟩ := h
  unfold haraka_S_inc_xor
  refine Rel.bind (Rel.rd1 (h1.trans h2.symm) rfl) ?_
  rintro c1 c2 ⟨e1, e2⟩
  rw [h3] at e1; rw [h4] at e2
  cases e1; cases e2
  have := hl c h3
  refine Rel.forRange (fun x y => IncRel x y ∧ x[64]? = s[64]? ∧ y[64]? = s'[64]?) rfl ⟨h0, rfl, rfl⟩ ?_
  rintro i x y hi ⟨hx, e1, e2⟩
  refine Rel.bind (Rel.rd1 hx.len rfl) fun _ _ _ => ?_
  refine Rel.bind (Rel.rd1 hm rfl) fun _ _ _ => ?_
  refine (Rel.wr1 hx.len rfl).weaken ?_
  rintro _ _ ⟨rfl, rfl⟩
  obtain ⟨p, q, r⟩ := hx.set (show c.toNat + i < 64 by omega) _ _
  exact ⟨p, q.trans e1, r.trans e2⟩

/-- Two states of the incremental absorbing loop. -/
def IncAbs (x y : Bytes × Bytes × Nat) : Prop :=
  IncRel x.1 y.1 ∧ Len x.2.1 y.2.1 ∧ x.2.2 = y.2.2

/-- ... and after it. -/
def IncAbsEnd (x y : Bytes × Bytes × Nat) : Prop :=
  IncAbs x y ∧ ∀ c, x.1[64]? = some c → c.toNat + x.2.2 < 32

omit hc hp in
theorem wr64 {b d x : Bytes} (hd : d.length = 64) (h : (Leak.wr b 0 d).res = .ok x) : x[64]? = b[64]? := by
  have h : Spx.wr b 0 d = .ok x := h
  unfold Spx.wr at h
  split at h
  · cases h
    rw [List.take_zero, List.nil_append, List.getElem?_append_right (by omega), List.getElem?_drop]
    congr 1; omega
  · cases h

omit hc hp in
theorem low_inc_wr {s s' d d' : Bytes} (h : IncRel s s') (hd : d.length = 64) (hd' : d'.length = 64) :
    Rel IncRel (wr s 0 d) (wr s' 0 d') := by
  obtain ⟨p1, p2, c, p3, p4, p5⟩ := id h
  refine (Rel.wr h.len rfl (hd.trans hd'.symm)).mono fun x y hx hy hl => ?_
  exact ⟨hl.1.trans p1, hl.2.trans p1, c, (wr64 hd hx).trans p3, (wr64 hd' hy).trans p4, p5⟩

theorem low_inc_absorb_block {x y : Bytes × Bytes × Nat} (h : IncAbs x y) :
    Rel (SumRel IncAbs IncAbsEnd) (haraka_S_inc_absorb_block perm c x)
      (haraka_S_inc_absorb_block perm' c' y) := by
  obtain ⟨s, m, k⟩ := x
  obtain ⟨s', m', k'⟩ := y
  obtain ⟨h1, h2, h3⟩ := h
  dsimp only at h1 h2 h3
  subst h3
  unfold haraka_S_inc_absorb_block
  dsimp only
  refine Rel.bind (Rel.rd1 h1.len rfl) ?_
  rintro d d' ⟨e1, e2⟩
  obtain ⟨p1, p2, c0, p3, p4, p5⟩ := id h1
  rw [p3] at e1; rw [p4] at e2
  cases e1; cases e2
  refine Rel.branch Iff.rfl (fun hk => ?_) (fun hk => ?_)
  · refine Rel.bind (low_inc_xor h1 h2 (fun c1 hc1 => by
      rw [p3] at hc1; cases hc1; show d.toNat + (32 - d.toNat) ≤ 32; omega)) ?_
    rintro t t' ⟨q1, _, _⟩
    refine Rel.bind (Rel.sub_len h2 rfl) ?_
    rintro m m' ⟨l1, l2⟩
    refine Rel.bind (Rel.wr1 q1.len rfl) ?_
    rintro _ _ ⟨rfl, rfl⟩
    have hz := IncRel.set64 q1.1 q1.2.1 0#8 (by decide)
    refine Rel.bind (hp.app hz.len hc) fun u u' hu => ?_
    refine Rel.bind (low_inc_wr hz hu.1 hu.2) fun v v' hv => ?_
    exact Rel.ok_inl ⟨hv, l1.trans l2.symm, rfl⟩
  · refine Rel.ok_inr ⟨⟨h1, h2, rfl⟩, fun c1 hc1 => ?_⟩
    dsimp only at hc1 ⊢
    have hk : ¬(k + d.toNat ≥ 32) := hk
    rw [p3] at hc1; cases hc1; omega

theorem low_inc_absorb {s s' : Bytes} {m m' : Bytes} {k : Nat} (h : IncRel s s') (hm : Len m m') :
    Rel IncRel (haraka_S_inc_absorb perm s m k c) (haraka_S_inc_absorb perm' s' m' k c') := by
  unfold haraka_S_inc_absorb
  refine Rel.bind (Rel.loop IncAbs IncAbsEnd rfl ⟨h, hm, rfl⟩ fun _ _ => low_inc_absorb_block hc hp) ?_
  rintro ⟨s, m, k⟩ ⟨s', m', k'⟩ ⟨⟨h1, h2, h3⟩, h4⟩
  dsimp only at h1 h2 h3 h4 ⊢
  subst h3
  refine Rel.bind (low_inc_xor h1 h2 (fun c hc => by have := h4 c hc; omega)) ?_
  rintro t t' ⟨q1, q2, q3⟩
  refine Rel.bind (Rel.rd1 q1.len rfl) ?_
  rintro d d' ⟨e1, e2⟩
  obtain ⟨p1, p2, c0, p3, p4, p5⟩ := id q1
  rw [p3] at e1; rw [p4] at e2
  cases e1; cases e2
  refine (Rel.wr1 q1.len rfl).weaken ?_
  rintro _ _ ⟨rfl, rfl⟩
  refine IncRel.set64 p1 p2 _ ?_
  have := h4 _ (q2.symm.trans p3)
  rw [BitVec.toNat_add, BitVec.toNat_ofNat]
  omega

omit hc hp in
theorem low_inc_finalize {s s' : Bytes} (h : IncRel s s') :
    Rel IncRel (haraka_S_inc_finalize s) (haraka_S_inc_finalize s') := by
  unfold haraka_S_inc_finalize
  refine Rel.bind (Rel.rd1 h.len rfl) ?_
  rintro d d' ⟨e1, e2⟩
  obtain ⟨p1, p2, c0, p3, p4, p5⟩ := id h
  rw [p3] at e1; rw [p4] at e2
  cases e1; cases e2
  refine Rel.bind (Rel.rd1 h.len rfl) fun _ _ _ => ?_
  refine Rel.bind (Rel.wr1 h.len rfl) ?_
  rintro _ _ ⟨rfl, rfl⟩
  have h1 := fun b b' => (h.set (show d.toNat < 64 by omega) b b').1
  refine Rel.bind (Rel.rd1 (h1 _ _).len rfl) fun _ _ _ => ?_
  refine Rel.bind (Rel.wr1 (h1 _ _).len rfl) ?_
  rintro _ _ ⟨rfl, rfl⟩
  have h2 := fun a a' b b' => ((h1 a a').set (show HARAKAS_RATE - 1 < 64 by decide) b b').1
  refine (Rel.wr1 (h2 _ _ _ _).len rfl).weaken ?_
  rintro _ _ ⟨rfl, rfl⟩
  exact IncRel.set64 (by rw [List.length_set, List.length_set, p1]) (by rw [List.length_set, List.length_set, p2]) 0#8
    (by decide)

theorem low_inc_squeeze {h h' : Bytes} {k : Nat} {s s' : Bytes} (hh : Len h h') (hs : IncRel s s') :
    Rel (fun x y => x.1.length = h.length ∧ y.1.length = h.length)
      (haraka_S_inc_squeeze perm h k s c) (haraka_S_inc_squeeze perm' h' k s' c') := by
  unfold haraka_S_inc_squeeze
  refine Rel.bind (Rel.rd1 hs.len rfl) ?_
  rintro d d' ⟨e1, e2⟩
  obtain ⟨p1, p2, c0, p3, p4, p5⟩ := id hs
  rw [p3] at e1; rw [p4] at e2
  cases e1; cases e2
  have hsl := hs.len
  clear hs
  dsimp only
  refine Rel.bind (R := fun x y => x.length = h.length ∧ y.length = h.length) (by low) ?_
  rintro o o' ⟨ho, ho'⟩
  refine Rel.bind (Rel.rd1 hsl rfl) fun _ _ _ => ?_
  refine Rel.bind (Rel.wr1_len hsl rfl) ?_
  rintro t t' ⟨ht, ht'⟩
  refine Rel.loop (fun x y => (x.1.length = h.length ∧ y.1.length = h.length) ∧ x.2.1 = y.2.1 ∧
    x.2.2.1 = y.2.2.1 ∧ Len x.2.2.2 y.2.2.2) _ rfl ⟨⟨ho, ho'⟩, rfl, rfl, ht.trans ht'.symm⟩ ?_
  rintro ⟨o, off, ol, s⟩ ⟨o', off', ol', s'⟩ ⟨⟨h1, h2⟩, h3, h4, h5⟩
  dsimp only at h1 h2 h3 h4 h5
  subst h3 h4
  unfold haraka_S_inc_squeeze_block
  dsimp only
  low

end

theorem low_tweak_constants {g g' : Nat → Nat → Byte} {n : Nat} {c c' : Ctx} (hc : CtxLow c c') :
    Rel (CtxKeep c) (tweak_constants g n c) (tweak_constants g' n c') := by
  obtain ⟨h1, h2, h3, h4, h5, h6, h7⟩ := id hc
  unfold tweak_constants
  refine Rel.bind (Rel.wr h5 rfl rfl) ?_
  rintro r r' ⟨hr, hr'⟩
  have hc1 : CtxLow { c with tweaked512_rc64 := r } { c' with tweaked512_rc64 := r' } :=
    ⟨h1, h2, h3, h4, hr.trans hr'.symm, h6, h7⟩
  refine Rel.bind (low_haraka_S hc1 low_perm (by rw [Len, len_uninit, len_uninit]) h1) ?_
  rintro b b' ⟨hb, hb'⟩
  refine Rel.forRange (CtxKeep c) rfl ⟨hc1, rfl, rfl, rfl, rfl, hr, rfl, rfl⟩ fun i d d' _ ⟨hd, hk⟩ => ?_
  refine Rel.bind (Rel.sub_len (hb.trans hb'.symm) rfl) ?_
  rintro p p' ⟨hp, hp'⟩
  refine Rel.bind (low_interleave_constant32 hd.rc32 (hp.trans hp'.symm)) ?_
  rintro u u' ⟨hu, hu'⟩
  refine Rel.bind (Rel.sub_len (hb.trans hb'.symm) rfl) ?_
  rintro q q' ⟨hq, hq'⟩
  refine Rel.bind (low_interleave_constant hd.rc64 (hq.trans hq'.symm)) ?_
  rintro v v' ⟨hv, hv'⟩
  exact Rel.ok ⟨⟨hd.pub_seed, hd.sk_seed, hd.state_seeded, hd.state_seeded_512, hv.trans hv'.symm,
    hu.trans hu'.symm, hd.rc⟩, hk.pub_seed, hk.sk_seed, hk.state_seeded, hk.state_seeded_512, hv.trans hk.rc64,
    hu.trans hk.rc32, hk.rc⟩

/-- Two versions of haraka.c which leave the same traces. -/
structure LibLow (K K' : Lib) : Prop where
  perm : PermLow K.haraka512_perm K'.haraka512_perm
  h512 : ∀ s s' c c', Len s s' → CtxLow c c' →
    Rel (fun x y => x.length = 32 ∧ y.length = 32) (K.haraka512 s c) (K'.haraka512 s' c')
  h256 : ∀ s s' c c', Len s s' → CtxLow c c' →
    Rel (fun x y => x.length = 32 ∧ y.length = 32) (K.haraka256 s c) (K'.haraka256 s' c')
  hS : ∀ g g' o o' ol i i' il c c', Len o o' → Len i i' → CtxLow c c' →
    Rel (fun x y => x.length = o.length ∧ y.length = o.length) (K.haraka_S g o ol i il c)
      (K'.haraka_S g' o' ol i' il c')
  tweak : ∀ g g' n c c', CtxLow c c' → Rel (CtxKeep c) (K.tweak_constants g n c) (K'.tweak_constants g' n c')

theorem low_refLib : LibLow refLib refLib where
  perm := low_perm
  h512 _ _ _ _ h hc := low_haraka512 h hc
  h256 _ _ _ _ h hc := low_haraka256 h hc
  hS _ _ _ _ _ _ _ _ _ _ ho hi hc := low_haraka_S hc low_perm ho hi
  tweak _ _ _ _ _ hc := low_tweak_constants hc

section
variable {K K' : Lib} (hK : LibLow K K') {s s' : Bytes} {c c' : Ctx}
include hK

theorem LibLow.app512 (h : Len s s') (hc : CtxLow c c') :
    Rel (fun x y => x.length = 32 ∧ y.length = 32) (K.haraka512 s c) (K'.haraka512 s' c') := hK.h512 _ _ _ _ h hc
macro_rules | `(tactic| low_leaf) => `(tactic| (with_reducible refine LibLow.app512 (by assumption) ?_ ?_) <;> low_side)

theorem LibLow.app256 (h : Len s s') (hc : CtxLow c c') :
    Rel (fun x y => x.length = 32 ∧ y.length = 32) (K.haraka256 s c) (K'.haraka256 s' c') := hK.h256 _ _ _ _ h hc
macro_rules | `(tactic| low_leaf) => `(tactic| (with_reducible refine LibLow.app256 (by assumption) ?_ ?_) <;> low_side)

end

section
variable {c c' : Ctx} (hc : CtxLow c c') {K K' : Lib} (hK : LibLow K K')
include hc hK
variable {P : Params} {g g' : Nat → Nat → Byte}

theorem low_initialize :
    Rel (CtxKeep c) (initialize_hash_function K P g c) (initialize_hash_function K' P g' c') :=
  hK.tweak _ _ _ _ _ hc

theorem low_prf_addr {a a' : Addr} (ha : Len a a') :
    Rel (fun x y => x.length = P.n ∧ y.length = P.n) (prf_addr K P c a) (prf_addr K' P c' a') := by
  have h2 := hc.sk_seed
  unfold prf_addr
  low

theorem low_thash_simple {i i' : Bytes} {k : Nat} {a a' : Addr} (hi : Len i i') (ha : Len a a') :
    Rel (fun x y => x.length = P.n ∧ y.length = P.n) (thash_simple K P g i k c a) (thash_simple K' P g' i' k c' a') := by
  unfold thash_simple
  refine Rel.branch Iff.rfl (fun _ => ?_) (fun _ => ?_)
  · low
  · refine Rel.bind (Rel.rd ha rfl rfl) ?_
    rintro x x' ⟨hx, hx'⟩
    refine Rel.bind (R := fun x y => Len x y) (by low) fun y y' hy => ?_
    refine Rel.bind (Rel.rd hi rfl rfl) ?_
    rintro z z' ⟨hz, hz'⟩
    refine Rel.bind (R := fun x y => Len x y) (by low) fun u u' hu => ?_
    refine (hK.hS _ _ _ _ _ _ _ _ _ _ (by low_side) hu hc).weaken ?_
    low

theorem low_thash_robust {i i' : Bytes} {k : Nat} {a a' : Addr} (hi : Len i i') (ha : Len a a') :
    Rel (fun x y => x.length = P.n ∧ y.length = P.n) (thash_robust K P g i k c a) (thash_robust K' P g' i' k c' a') := by
  unfold thash_robust
  refine Rel.branch Iff.rfl (fun _ => ?_) (fun _ => ?_)
  · low
  · refine Rel.bind (Rel.rd ha rfl rfl) ?_
    rintro x x' ⟨hx, hx'⟩
    refine Rel.bind (R := fun x y => Len x y) (by low) fun y y' hy => ?_
    refine Rel.bind (hK.hS _ _ _ _ _ _ _ _ _ _ (by low_side) hy hc) ?_
    rintro z z' ⟨hz, hz'⟩
    refine Rel.bind (R := fun x y => Len x y) (by low) fun u u' hu => ?_
    refine (hK.hS _ _ _ _ _ _ _ _ _ _ (by low_side) hu hc).weaken ?_
    low

theorem low_gen_message_random {k k' o o' m m' : Bytes} (hk : Len k k') (ho : Len o o') (hm : Len m m') :
    Rel (fun x y => x.length = P.n ∧ y.length = P.n) (gen_message_random K P g k o m c)
      (gen_message_random K' P g' k' o' m' c') := by
  unfold gen_message_random
  refine Rel.bind (low_inc_init (len_uninit _ _) (len_uninit _ _)) fun _ _ h => ?_
  refine Rel.bind (low_inc_absorb hc hK.perm h hk) fun _ _ h => ?_
  refine Rel.bind (low_inc_absorb hc hK.perm h ho) fun _ _ h => ?_
  rw [← hm]
  refine Rel.bind (low_inc_absorb hc hK.perm h hm) fun _ _ h => ?_
  refine Rel.bind (low_inc_finalize h) fun _ _ h => ?_
  refine Rel.bind (low_inc_squeeze hc hK.perm (by rw [Len, len_uninit, len_uninit]) h) ?_
  rintro ⟨x, _⟩ ⟨y, _⟩ ⟨h1, h2⟩
  rw [len_uninit] at h1 h2
  exact Rel.ok ⟨h1, h2⟩

theorem low_hash_message {R R' pk pk' m m' : Bytes} (hR : Len R R') (hp : Len pk pk') (hm : Len m m') :
    Rel (fun x y => x.1.length = P.forsMsgBytes ∧ y.1.length = P.forsMsgBytes) (hash_message K P g R pk m c)
      (hash_message K' P g' R' pk' m' c') := by
  unfold hash_message
  refine Rel.bind (low_inc_init (len_uninit _ _) (len_uninit _ _)) fun _ _ h => ?_
  refine Rel.bind (low_inc_absorb hc hK.perm h hR) fun _ _ h => ?_
  refine Rel.bind (Rel.sub_len hp rfl) fun _ _ hq => ?_
  refine Rel.bind (low_inc_absorb hc hK.perm h (hq.1.trans hq.2.symm)) fun _ _ h => ?_
  rw [← hm]
  refine Rel.bind (low_inc_absorb hc hK.perm h hm) fun _ _ h => ?_
  refine Rel.bind (low_inc_finalize h) fun _ _ h => ?_
  refine Rel.bind (low_inc_squeeze hc hK.perm (by rw [Len, len_uninit, len_uninit]) h) ?_
  rintro ⟨x, _⟩ ⟨y, _⟩ ⟨h1, h2⟩
  exact low_hash_message_split (h1.trans h2.symm)

end

theorem low_implWith {K K' : Lib} (hK : LibLow K K') (P : Params) (g g' : Nat → Nat → Byte) :
    HashLow P (implWith K P g) (implWith K' P g') where
  init _ _ h := low_initialize h hK
  prf _ _ _ _ hc ha := low_prf_addr hc hK ha
  thash i i' k c c' a a' hi hc ha := by
    unfold implWith
    dsimp only
    by_cases h : P.robust = true
    · rw [if_pos h, if_pos h]; exact low_thash_robust hc hK hi ha
    · rw [if_neg h, if_neg h]; exact low_thash_simple hc hK hi ha
  genR _ _ _ _ _ _ _ _ hk ho hm hc := low_gen_message_random hc hK hk ho hm
  hmsg _ _ _ _ _ _ _ _ hR hp hm hc := low_hash_message hc hK hR hp hm

theorem low_impl (P : Params) (g g' : Nat → Nat → Byte) : HashLow P (impl P g) (impl P g') :=
  low_implWith low_refLib P g g'

end Haraka
end Spx.Leak
