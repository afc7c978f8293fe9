import Verif.Proof.LeakLow
import Verif.Model.LeakShake
/-! # Two runs of the SHAKE hash functions leave the same trace -/

namespace Spx.Leak

theorem low_load64 {x y : Bytes} (h : Len x y) : Rel (fun _ _ => True) (load64 x) (load64 y) := by
  unfold load64
  refine Rel.forAny rfl ?_
  low
macro_rules | `(tactic| low_leaf) => `(tactic| (with_reducible apply low_load64) <;> low_side)

theorem low_store64 {x y : Bytes} {u v : BitVec 64} (h : Len x y) :
    Rel (fun a b => a.length = x.length ∧ b.length = x.length) (store64 x u) (store64 y v) := by
  unfold store64
  low
macro_rules | `(tactic| low_leaf) => `(tactic| (with_reducible apply low_store64) <;> low_side)

theorem low_Lanes_load {x y : List (BitVec 64)} (h : Len x y) :
    Rel (fun _ _ => True) (Lanes.load x) (Lanes.load y) := by
  unfold Lanes.load
  repeat (refine Rel.bind (Rel.rd1 h rfl) fun _ _ _ => ?_)
  exact Rel.ok trivial
macro_rules | `(tactic| low_leaf) => `(tactic| (with_reducible apply low_Lanes_load) <;> low_side)

theorem low_keccak_loop_body {i : Nat} {x y : Lanes} :
    Rel (fun _ _ => True) (keccak_loop_body i x) (keccak_loop_body i y) := by
  unfold keccak_loop_body
  refine Rel.bind (Rel.rd1 rfl rfl) fun _ _ _ => Rel.bind (Rel.rd1 rfl rfl) fun _ _ _ => Rel.ok trivial

/-- The result of writing to the front of a buffer. -/
theorem Rel.wr0 {α β : Type} {b d : List α} {b' d' : List β} (h : Len b b') (hd : Len d d') :
    Rel (fun x y => (x.length = b.length ∧ y.length = b.length) ∧
        ∀ i, d.length ≤ i → x[i]? = b[i]? ∧ y[i]? = b'[i]?) (Leak.wr b 0 d) (Leak.wr b' 0 d') := by
  refine (Rel.wr h rfl hd).mono fun x y hx hy hl => ⟨hl, fun i hi => ?_⟩
  have aux : ∀ {γ : Type} (b d x : List γ), (Leak.wr b 0 d).res = .ok x → d.length ≤ i → x[i]? = b[i]? := by
    intro γ b d x h hi
    have h : Spx.wr b 0 d = .ok x := h
    unfold Spx.wr at h
    split at h
    · cases h
      rw [List.take_zero, List.nil_append, List.getElem?_append_right hi, List.getElem?_drop]
      congr 1; omega
    · cases h
  exact ⟨aux b d x hx hi, aux b' d' y hy (by rw [← hd]; exact hi)⟩

theorem low_StatePermute' {x y : List (BitVec 64)} (h : Len x y) :
    Rel (fun a b => (a.length = x.length ∧ b.length = x.length) ∧
        ∀ i, 25 ≤ i → a[i]? = x[i]? ∧ b[i]? = y[i]?)
      (KeccakF1600_StatePermute x) (KeccakF1600_StatePermute y) := by
  unfold KeccakF1600_StatePermute
  refine Rel.prim (Rel.bind (low_Lanes_load h) fun _ _ _ => ?_)
  refine Rel.bind (Rel.forAny rfl fun i s s' _ => low_keccak_loop_body) fun _ _ _ => ?_
  exact Rel.wr0 h rfl

theorem low_StatePermute {x y : List (BitVec 64)} (h : Len x y) :
    Rel (fun a b => a.length = x.length ∧ b.length = x.length)
      (KeccakF1600_StatePermute x) (KeccakF1600_StatePermute y) :=
  (low_StatePermute' h).weaken fun _ _ h => h.1
macro_rules | `(tactic| low_leaf) => `(tactic| (with_reducible apply low_StatePermute) <;> low_side)

/-- Two states `(s, m, mlen)` of the absorbing loops. -/
def AbsRel (x y : List (BitVec 64) × Bytes × Nat) : Prop :=
  Len x.1 y.1 ∧ Len x.2.1 y.2.1 ∧ x.2.2 = y.2.2

theorem low_keccak_absorb_block {r : Nat} {x y : List (BitVec 64) × Bytes × Nat} (h : AbsRel x y) :
    Rel (SumRel AbsRel AbsRel) (keccak_absorb_block r x) (keccak_absorb_block r y) := by
  obtain ⟨s, m, k⟩ := x
  obtain ⟨s', m', k'⟩ := y
  obtain ⟨h1, h2, h3⟩ := h
  dsimp only at h1 h2 h3
  subst h3
  unfold keccak_absorb_block AbsRel
  dsimp only
  low

theorem low_keccak_absorb {g g' : Nat → Byte} {s s' : List (BitVec 64)} {r : Nat} {m m' : Bytes} {k : Nat}
    {p : Byte} (hs : Len s s') (hm : Len m m') :
    Rel (fun x y => Len x y) (keccak_absorb g s r m k p) (keccak_absorb g' s' r m' k p) := by
  unfold keccak_absorb
  refine Rel.bind (R := fun x y => Len x y) (by low) fun s s' hs => ?_
  refine Rel.bind (Rel.loop AbsRel AbsRel rfl ⟨hs, hm, rfl⟩ fun _ _ => low_keccak_absorb_block) ?_
  rintro ⟨s, m, k⟩ ⟨s', m', k'⟩ ⟨h1, h2, h3⟩
  dsimp only at h1 h2 h3 ⊢
  subst h3
  low
macro_rules | `(tactic| low_leaf) => `(tactic| (with_reducible apply low_keccak_absorb) <;> low_side)

theorem low_keccak_squeezeblocks {h h' : Bytes} {nb r : Nat} {s s' : List (BitVec 64)} (hh : Len h h')
    (hs : Len s s') :
    Rel (fun x y => (x.1.length = h.length ∧ y.1.length = h.length) ∧ Len x.2 y.2)
      (keccak_squeezeblocks h nb s r) (keccak_squeezeblocks h' nb s' r) := by
  unfold keccak_squeezeblocks
  refine Rel.bind (Rel.forRange (fun x y => (x.1.length = h.length ∧ y.1.length = h.length) ∧
    x.2.1 = y.2.1 ∧ Len x.2.2 y.2.2) rfl ⟨⟨rfl, hh.symm⟩, rfl, hs⟩ ?_) ?_
  all_goals low
macro_rules | `(tactic| low_leaf) => `(tactic| (with_reducible apply low_keccak_squeezeblocks) <;> low_side)

theorem low_shake256 {g g' : Nat → Nat → Byte} {o o' i i' : Bytes} {ol il ol' il' : Nat} (ho : Len o o') (hi : Len i i')
    (hol : ol = ol') (hil : il = il') :
    Rel (fun x y => x.length = o.length ∧ y.length = o.length) (shake256 g o ol i il) (shake256 g' o' ol' i' il') := by
  subst hol hil
  unfold shake256 shake256_absorb shake256_squeezeblocks
  low
macro_rules | `(tactic| low_leaf) => `(tactic| (with_reducible apply low_shake256) <;> low_side)

/-- Two incremental sponge states with the same counter. -/
def IncRel (s s' : List (BitVec 64)) : Prop :=
  s.length = 26 ∧ s'.length = 26 ∧ ∃ c : BitVec 64, s[25]? = some c ∧ s'[25]? = some c ∧ c.toNat < 136

theorem low_keccak_inc_init {s s' : List (BitVec 64)} (h : s.length = 26) (h' : s'.length = 26) :
    Rel IncRel (keccak_inc_init s) (keccak_inc_init s') := by
  unfold keccak_inc_init
  refine Rel.bind (R := fun x y => x.length = 26 ∧ y.length = 26) (by low) ?_
  rintro s s' ⟨h1, h2⟩
  refine (Rel.wr1 (h1.trans h2.symm) rfl).weaken ?_
  rintro _ _ ⟨rfl, rfl⟩
  refine ⟨by rw [List.length_set, h1], by rw [List.length_set, h2], 0#64, ?_, ?_, by decide⟩
  · rw [List.getElem?_set_self (by omega)]
  · rw [List.getElem?_set_self (by omega)]

/-- Writing below the counter -/
theorem low_keccak_xor_byte {s s' : List (BitVec 64)} {k : Nat} {b b' : Byte} (hk : k < 136) (h : IncRel s s') :
    Rel (fun x y => IncRel x y ∧ x[25]? = s[25]? ∧ y[25]? = s'[25]?) (keccak_xor_byte s k b)
      (keccak_xor_byte s' k b') := by
  obtain ⟨h1, h2, c, h3, h4, h5⟩ := h
  unfold keccak_xor_byte
  refine Rel.bind (Rel.rd1 (h1.trans h2.symm) rfl) fun _ _ _ => ?_
  refine (Rel.wr1 (h1.trans h2.symm) rfl).weaken ?_
  have hne : k >>> 3 ≠ 25 := by rw [Nat.shiftRight_eq_div_pow]; omega
  rintro _ _ ⟨rfl, rfl⟩
  refine ⟨⟨by rw [List.length_set, h1], by rw [List.length_set, h2], c, ?_, ?_, h5⟩, ?_, ?_⟩
  · rw [List.getElem?_set_ne hne, h3]
  · rw [List.getElem?_set_ne hne, h4]
  · rw [List.getElem?_set_ne hne]
  · rw [List.getElem?_set_ne hne]

theorem low_keccak_inc_xor {s s' : List (BitVec 64)} {m m' : Bytes} {len : Nat} (h : IncRel s s')
    (hm : Len m m') (hl : ∀ c, s[25]? = some c → c.toNat + len ≤ 136) :
    Rel (fun x y => IncRel x y ∧ x[25]? = s[25]? ∧ y[25]? = s'[25]?) (keccak_inc_xor s m len)
      (keccak_inc_xor s' m' len) := by
  have h0 := h
  obtain ⟨h1, h2, c, h3, h4, h5⟩ := h
  unfold keccak_inc_xor
  refine Rel.bind (Rel.rd1 (h1.trans h2.symm) rfl) ?_
  rintro c1 c2 ⟨e1, e2⟩
  rw [h3] at e1; rw [h4] at e2
  cases e1; cases e2
  have := hl c h3
  refine Rel.forRange (fun x y => IncRel x y ∧ x[25]? = s[25]? ∧ y[25]? = s'[25]?) rfl ⟨h0, rfl, rfl⟩ ?_
  rintro i x y hi ⟨hx, e1, e2⟩
  refine Rel.bind (Rel.rd1 hm rfl) fun _ _ _ => ?_
  refine (low_keccak_xor_byte (by omega) hx).weaken ?_
  rintro a b ⟨p, q, r⟩
  exact ⟨p, q.trans e1, r.trans e2⟩

/-- Two states of the incremental absorbing loop. -/
def IncAbs (x y : List (BitVec 64) × Bytes × Nat) : Prop :=
  IncRel x.1 y.1 ∧ Len x.2.1 y.2.1 ∧ x.2.2 = y.2.2

/-- ... and after it. -/
def IncAbsEnd (x y : List (BitVec 64) × Bytes × Nat) : Prop :=
  IncAbs x y ∧ ∀ c, x.1[25]? = some c → c.toNat + x.2.2 < 136

theorem IncRel.len {s s' : List (BitVec 64)} (h : IncRel s s') : Len s s' := h.1.trans h.2.1.symm

theorem IncRel.set25 {s s' : List (BitVec 64)} (h : s.length = 26) (h' : s'.length = 26) (c : BitVec 64)
    (hc : c.toNat < 136) : IncRel (s.set 25 c) (s'.set 25 c) := by
  refine ⟨by rw [List.length_set, h], by rw [List.length_set, h'], c, ?_, ?_, hc⟩
  · rw [List.getElem?_set_self (by omega)]
  · rw [List.getElem?_set_self (by omega)]

theorem low_inc_permute {s s' : List (BitVec 64)} (h : IncRel s s') :
    Rel IncRel (KeccakF1600_StatePermute s) (KeccakF1600_StatePermute s') := by
  refine (low_StatePermute' h.len).weaken ?_
  rintro a b ⟨⟨h1, h2⟩, h3⟩
  obtain ⟨p1, p2, c, p3, p4, p5⟩ := h
  exact ⟨h1.trans p1, h2.trans p1, c, (h3 25 (by omega)).1.trans p3, (h3 25 (by omega)).2.trans p4, p5⟩

theorem low_keccak_inc_absorb_block {x y : List (BitVec 64) × Bytes × Nat} (h : IncAbs x y) :
    Rel (SumRel IncAbs IncAbsEnd) (keccak_inc_absorb_block 136 x) (keccak_inc_absorb_block 136 y) := by
  obtain ⟨s, m, k⟩ := x
  obtain ⟨s', m', k'⟩ := y
  obtain ⟨h1, h2, h3⟩ := h
  dsimp only at h1 h2 h3
  subst h3
  unfold keccak_inc_absorb_block
  dsimp only
  refine Rel.bind (Rel.rd1 h1.len rfl) ?_
  rintro c c' ⟨e1, e2⟩
  obtain ⟨p1, p2, c0, p3, p4, p5⟩ := id h1
  rw [p3] at e1; rw [p4] at e2
  cases e1; cases e2
  refine Rel.branch Iff.rfl (fun hk => ?_) (fun hk => ?_)
  · refine Rel.bind (low_keccak_inc_xor h1 h2 (fun c1 hc1 => by rw [p3] at hc1; cases hc1; omega)) ?_
    rintro t t' ⟨q1, _, _⟩
    refine Rel.bind (Rel.sub_len h2 rfl) ?_
    rintro m m' ⟨l1, l2⟩
    refine Rel.bind (Rel.wr1 q1.len rfl) ?_
    rintro _ _ ⟨rfl, rfl⟩
    refine Rel.bind (low_inc_permute (IncRel.set25 q1.1 q1.2.1 0#64 (by decide))) fun u u' hu => ?_
    exact Rel.ok_inl ⟨hu, l1.trans l2.symm, rfl⟩
  · refine Rel.ok_inr ⟨⟨h1, h2, rfl⟩, fun c1 hc1 => ?_⟩
    dsimp only at hc1 ⊢
    rw [p3] at hc1; cases hc1; omega

theorem low_keccak_inc_absorb {s s' : List (BitVec 64)} {m m' : Bytes} {k : Nat} (h : IncRel s s')
    (hm : Len m m') :
    Rel IncRel (keccak_inc_absorb s 136 m k) (keccak_inc_absorb s' 136 m' k) := by
  unfold keccak_inc_absorb
  refine Rel.bind (Rel.loop IncAbs IncAbsEnd rfl ⟨h, hm, rfl⟩ fun _ _ => low_keccak_inc_absorb_block) ?_
  rintro ⟨s, m, k⟩ ⟨s', m', k'⟩ ⟨⟨h1, h2, h3⟩, h4⟩
  dsimp only at h1 h2 h3 h4 ⊢
  subst h3
  refine Rel.bind (low_keccak_inc_xor h1 h2 (fun c hc => by have := h4 c hc; omega)) ?_
  rintro t t' ⟨q1, q2, q3⟩
  refine Rel.bind (Rel.rd1 q1.len rfl) ?_
  rintro c c' ⟨e1, e2⟩
  obtain ⟨p1, p2, c0, p3, p4, p5⟩ := id q1
  rw [p3] at e1; rw [p4] at e2
  cases e1; cases e2
  refine (Rel.wr1 q1.len rfl).weaken ?_
  rintro _ _ ⟨rfl, rfl⟩
  refine IncRel.set25 p1 p2 _ ?_
  have := h4 _ (q2.symm.trans p3)
  rw [BitVec.toNat_add, BitVec.toNat_ofNat]
  omega

theorem low_keccak_inc_finalize {s s' : List (BitVec 64)} {p : Byte} (h : IncRel s s') :
    Rel IncRel (keccak_inc_finalize s 136 p) (keccak_inc_finalize s' 136 p) := by
  unfold keccak_inc_finalize
  refine Rel.bind (Rel.rd1 h.len rfl) ?_
  rintro c c' ⟨e1, e2⟩
  obtain ⟨p1, p2, c0, p3, p4, p5⟩ := id h
  rw [p3] at e1; rw [p4] at e2
  cases e1; cases e2
  refine Rel.bind (low_keccak_xor_byte p5 h) ?_
  rintro t t' ⟨q1, _, _⟩
  refine Rel.bind (low_keccak_xor_byte (by omega) q1) ?_
  rintro u u' ⟨q2, _, _⟩
  refine (Rel.wr1 q2.len rfl).weaken ?_
  rintro _ _ ⟨rfl, rfl⟩
  exact IncRel.set25 q2.1 q2.2.1 0#64 (by decide)

theorem low_keccak_get_byte {s s' : List (BitVec 64)} {k : Nat} (h : Len s s') :
    Rel (fun _ _ => True) (keccak_get_byte s k) (keccak_get_byte s' k) := by
  unfold keccak_get_byte
  low
macro_rules | `(tactic| low_leaf) => `(tactic| (with_reducible apply low_keccak_get_byte) <;> low_side)

theorem low_keccak_inc_squeeze {h h' : Bytes} {k : Nat} {s s' : List (BitVec 64)} (hh : Len h h')
    (hs : IncRel s s') :
    Rel (fun x y => x.1.length = h.length ∧ y.1.length = h.length)
      (keccak_inc_squeeze h k s 136) (keccak_inc_squeeze h' k s' 136) := by
  unfold keccak_inc_squeeze
  refine Rel.bind (Rel.rd1 hs.len rfl) ?_
  rintro c c' ⟨e1, e2⟩
  obtain ⟨p1, p2, c0, p3, p4, p5⟩ := id hs
  rw [p3] at e1; rw [p4] at e2
  cases e1; cases e2
  have hsl := hs.len
  clear hs
  dsimp only
  refine Rel.bind (R := fun x y => x.length = h.length ∧ y.length = h.length) (by low) ?_
  rintro o o' ⟨ho, ho'⟩
  refine Rel.bind (Rel.rd1 hsl rfl) fun _ _ _ => ?_
  refine Rel.bind (Rel.wr1_len hsl rfl) ?_
  rintro t t' ⟨ht, ht'⟩
  refine Rel.loop (fun x y => (x.1.length = h.length ∧ y.1.length = h.length) ∧ x.2.1 = y.2.1 ∧
    x.2.2.1 = y.2.2.1 ∧ Len x.2.2.2 y.2.2.2) _ rfl ⟨⟨ho, ho'⟩, rfl, rfl, ht.trans ht'.symm⟩ ?_
  rintro ⟨o, off, ol, s⟩ ⟨o', off', ol', s'⟩ ⟨⟨h1, h2⟩, h3, h4, h5⟩
  dsimp only at h1 h2 h3 h4 h5
  subst h3 h4
  unfold keccak_inc_squeeze_block
  dsimp only
  low

namespace Shake

variable {P : Params} {g g' : Nat → Nat → Byte} {c c' : Ctx}

theorem low_prf_addr {a a' : Addr} (hc : CtxLow c c') (ha : Len a a') :
    Rel (fun x y => x.length = P.n ∧ y.length = P.n) (prf_addr P g c a) (prf_addr P g' c' a') := by
  obtain ⟨h1, h2, _, _, _, _, _⟩ := hc
  unfold prf_addr
  low

theorem low_thash_simple {i i' : Bytes} {k : Nat} {a a' : Addr} (hi : Len i i') (hc : CtxLow c c')
    (ha : Len a a') :
    Rel (fun x y => x.length = P.n ∧ y.length = P.n) (thash_simple P g i k c a) (thash_simple P g' i' k c' a') := by
  obtain ⟨h1, h2, _, _, _, _, _⟩ := hc
  unfold thash_simple
  low

theorem low_thash_robust {i i' : Bytes} {k : Nat} {a a' : Addr} (hi : Len i i') (hc : CtxLow c c')
    (ha : Len a a') :
    Rel (fun x y => x.length = P.n ∧ y.length = P.n) (thash_robust P g i k c a) (thash_robust P g' i' k c' a') := by
  obtain ⟨h1, h2, _, _, _, _, _⟩ := hc
  unfold thash_robust
  low

theorem low_gen_message_random {k k' o o' m m' : Bytes} (hk : Len k k') (ho : Len o o') (hm : Len m m') :
    Rel (fun x y => x.length = P.n ∧ y.length = P.n) (gen_message_random P g k o m c)
      (gen_message_random P g' k' o' m' c') := by
  unfold gen_message_random
  refine Rel.bind (low_keccak_inc_init (len_uninit _ _) (len_uninit _ _)) fun _ _ h => ?_
  refine Rel.bind (low_keccak_inc_absorb h hk) fun _ _ h => ?_
  refine Rel.bind (low_keccak_inc_absorb h ho) fun _ _ h => ?_
  rw [← hm]
  refine Rel.bind (low_keccak_inc_absorb h hm) fun _ _ h => ?_
  refine Rel.bind (low_keccak_inc_finalize h) fun _ _ h => ?_
  refine Rel.bind (low_keccak_inc_squeeze (by rw [Len, len_uninit, len_uninit]) h) ?_
  rintro ⟨x, _⟩ ⟨y, _⟩ ⟨h1, h2⟩
  rw [len_uninit] at h1 h2
  exact Rel.ok ⟨h1, h2⟩

theorem low_hash_message {R R' pk pk' m m' : Bytes} (hR : Len R R') (hp : Len pk pk') (hm : Len m m') :
    Rel (fun x y => x.1.length = P.forsMsgBytes ∧ y.1.length = P.forsMsgBytes) (hash_message P g R pk m c)
      (hash_message P g' R' pk' m' c') := by
  unfold hash_message
  refine Rel.bind (low_keccak_inc_init (len_uninit _ _) (len_uninit _ _)) fun _ _ h => ?_
  refine Rel.bind (low_keccak_inc_absorb h hR) fun _ _ h => ?_
  refine Rel.bind (low_keccak_inc_absorb h hp) fun _ _ h => ?_
  rw [← hm]
  refine Rel.bind (low_keccak_inc_absorb h hm) fun _ _ h => ?_
  refine Rel.bind (low_keccak_inc_finalize h) fun _ _ h => ?_
  refine Rel.bind (low_keccak_inc_squeeze (by rw [Len, len_uninit, len_uninit]) h) ?_
  rintro ⟨x, _⟩ ⟨y, _⟩ ⟨h1, h2⟩
  exact low_hash_message_split (h1.trans h2.symm)

theorem low_impl (P : Params) (g g' : Nat → Nat → Byte) : HashLow P (impl P g) (impl P g') where
  init _ _ h := Rel.ok ⟨h, rfl, rfl, rfl, rfl, rfl, rfl, rfl⟩
  prf _ _ _ _ hc ha := low_prf_addr hc ha
  thash i i' k c c' a a' hi hc ha := by
    unfold impl
    dsimp only
    by_cases h : P.robust = true
    · rw [if_pos h, if_pos h]; exact low_thash_robust hi hc ha
    · rw [if_neg h, if_neg h]; exact low_thash_simple hi hc ha
  genR _ _ _ _ _ _ c c' hk ho hm _ := low_gen_message_random (c := c) (c' := c') hk ho hm
  hmsg _ _ _ _ _ _ c c' hR hp hm _ := low_hash_message (c := c) (c' := c') hR hp hm

end Shake

end Spx.Leak
