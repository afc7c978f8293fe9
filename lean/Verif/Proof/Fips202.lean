import Verif.Proof.Keccak
/-! The incremental and the one-shot functions of ref/fips202.c. -/

namespace Spx
open Spec Spec.Keccak

attribute [local irreducible] keccakF

theorem wordsB_get {s : List (BitVec 64)} {j : Nat} (h : j < 8 * s.length) :
    (wordsB s)[j]? = some (byteOf (s.getD (j / 8) 0) (j % 8)) := by
  simp [wordsB, h]

theorem wordsB_getD {s : List (BitVec 64)} {j : Nat} (h : j < 8 * s.length) :
    (wordsB s).getD j 0 = byteOf (s.getD (j / 8) 0) (j % 8) := by
  rw [List.getD, wordsB_get h]; rfl

theorem byteOf_xor (a b : BitVec 64) (c : Nat) : byteOf (a ^^^ b) c = byteOf a c ^^^ byteOf b c := by
  apply BitVec.eq_of_getLsbD_eq
  intro i hi
  simp [byteOf, hi]

theorem byteOf_shl (b : Byte) (a c : Nat) (ha : a < 8) (hc : c < 8) :
    byteOf (b.zeroExtend 64 <<< (8 * a)) c = if c = a then b else 0 := by
  apply BitVec.eq_of_getLsbD_eq
  intro i hi
  simp only [byteOf, BitVec.truncate_eq_setWidth, BitVec.getLsbD_setWidth, BitVec.getLsbD_ushiftRight,
    BitVec.getLsbD_shiftLeft, hi]
  by_cases h : c = a
  · subst h
    simp [hi, show 8 * c + i < 64 by omega, show ¬ 8 * c + i < 8 * c by omega, show i < 64 by omega]
  · simp only [if_neg h]
    rcases Nat.lt_or_gt_of_ne h with h | h
    · simp [show 8 * c + i < 8 * a by omega]
    · simp [BitVec.getLsbD_of_ge b (8 * c + i - 8 * a) (by omega)]

theorem set_append_left' {α : Type} {l t : List α} {i : Nat} {x : α} (h : i < l.length) :
    (l ++ t).set i x = l.set i x ++ t := by
  rw [List.set_append, if_pos h]

theorem getD_set {α : Type} {l : List α} {i j : Nat} {x d : α} (hi : i < l.length) :
    (l.set i x).getD j d = if i = j then x else l.getD j d := by
  simp only [List.getD, List.getElem?_set]
  split
  · next h => subst h; simp
  · rfl

/-- The effect of setting one word to itself plus something. -/
theorem wordsB_set_xor {t : List (BitVec 64)} {i : Nat} (hi : i < t.length) (v : BitVec 64) :
    wordsB (t.set i (t.getD i 0 ^^^ v)) =
      (List.range (8 * t.length)).map fun j =>
        byteOf (t.getD (j / 8) 0) (j % 8) ^^^ (if j / 8 = i then byteOf v (j % 8) else 0) := by
  simp only [wordsB, List.length_set]
  apply List.map_congr_left
  intro j hj
  rw [getD_set hi]
  by_cases h : i = j / 8
  · subst h; simp [byteOf_xor]
  · simp [h, Ne.symm h]

theorem keccak_xor_byte_spec {t u : List (BitVec 64)} (ht : t.length = 25) {k : Nat} (hk : k < 200)
    (b : Byte) : ∃ t', keccak_xor_byte (t ++ u) k b = .ok (t' ++ u) ∧ t'.length = 25 ∧
      wordsB t' = (wordsB t).modify k (· ^^^ b) := by
  have h8 : k >>> 3 = k / 8 := by rw [Nat.shiftRight_eq_div_pow]
  have h7 : k &&& 7 = k % 8 := Nat.and_two_pow_sub_one_eq_mod k 3
  have hlt : k / 8 < t.length := by omega
  refine ⟨t.set (k / 8) (t.getD (k / 8) 0 ^^^ (b.zeroExtend 64 <<< (8 * (k % 8)))), ?_, by simpa using ht, ?_⟩
  · unfold keccak_xor_byte
    rw [h8, h7, rd1_ok (by simp; omega), ok_bind, wr1_ok (by simp; omega), set_append_left' hlt,
      List.getElem_append_left hlt, getD_lt hlt]
  · rw [wordsB_set_xor hlt]
    apply List.ext_getElem?
    intro j
    rw [List.getElem?_modify]
    by_cases hj : j < 8 * t.length
    · rw [wordsB_get hj]
      simp only [List.getElem?_map, List.getElem?_range hj, Option.map_some, Option.map_eq_map,
        Option.some.injEq]
      rw [byteOf_shl _ _ _ (by omega) (by omega)]
      by_cases h : k = j
      · subst h; simp
      · rw [if_neg h]
        by_cases h' : j / 8 = k / 8
        · rw [if_pos h', if_neg (by omega)]; simp
        · rw [if_neg h']; simp
    · rw [List.getElem?_eq_none (by simp; omega), List.getElem?_eq_none (by simp; omega)]
      split <;> rfl

/-- The words `s` hold the state `x.1` and the counter `x.2`. -/
def Rep (s : List (BitVec 64)) (x : Bytes × Nat) : Prop :=
  ∃ t, s = t ++ [BitVec.ofNat 64 x.2] ∧ t.length = 25 ∧ wordsB t = x.1

theorem rd25 {t : List (BitVec 64)} (ht : t.length = 25) (w : BitVec 64) :
    rd1 (t ++ [w]) 25 = .ok w := by
  rw [rd1_ok (by simp; omega), List.getElem_append_right (by omega)]
  simp [ht]

theorem wr25 {t : List (BitVec 64)} (ht : t.length = 25) (w v : BitVec 64) :
    wr1 (t ++ [w]) 25 v = .ok (t ++ [v]) := by
  rw [wr1_ok (by simp; omega), List.set_append, if_neg (by omega)]
  simp [ht]

theorem take_succ_get {α : Type} {l : List α} {i : Nat} (h : i < l.length) :
    l.take (i + 1) = l.take i ++ [l[i]] := by
  rw [List.take_add_one]; simp [h]

theorem keccak_inc_xor_spec {s : List (BitVec 64)} {st : Bytes} {c : Nat} (h : Rep s (st, c))
    {m : Bytes} {len : Nat} (hm : len ≤ m.length) (hc : c + len ≤ 200) :
    ∃ s', keccak_inc_xor s m len = .ok s' ∧ Rep s' (xorAt st c (m.take len), c) := by
  obtain ⟨t, rfl, ht, hw⟩ := h
  have hcn : (BitVec.ofNat 64 c).toNat = c := by simp; omega
  unfold keccak_inc_xor
  simp only [rd25 ht, ok_bind, hcn]
  apply forRange_inv (fun i s => Rep s (xorAt st c (m.take i), c))
  · exact ⟨t, rfl, ht, by simpa [xorAt] using hw⟩
  · rintro i s hi ⟨t, rfl, ht, hw⟩
    obtain ⟨t', e, ht', hw'⟩ := keccak_xor_byte_spec (u := [BitVec.ofNat 64 c]) ht
      (k := c + i) (by omega) (m[i])
    refine ⟨_, ?_, t', rfl, ht', ?_⟩
    · rw [rd1_ok (by omega), ok_bind, e]
    · simp only at hw ⊢
      rw [hw', hw, take_succ_get (by omega), xorAt_snoc]
      simp [show min i m.length = i by omega]

theorem KeccakF1600_rep {s : List (BitVec 64)} {st : Bytes} {c : Nat} (h : Rep s (st, c)) :
    ∃ s', KeccakF1600_StatePermute s = .ok s' ∧ Rep s' (keccakF st, c) := by
  obtain ⟨t, rfl, ht, hw⟩ := h
  obtain ⟨t', e, ht', hw'⟩ := KeccakF1600_spec (s := t ++ [BitVec.ofNat 64 c]) (by simp; omega)
  refine ⟨_, e, t', ?_, ht', ?_⟩
  · rw [← ht, List.drop_left]
  · rw [hw', ← ht, List.take_left, hw]

theorem inc_absorb_loop {r : Nat} (hr : r ≤ 200) : ∀ (fuel : Nat) (s : List (BitVec 64)) (st : Bytes) (c : Nat)
    (m : Bytes) (mlen : Nat), Rep s (st, c) → c < r → mlen ≤ m.length → mlen < fuel →
    ∃ s' m' len' y, loop fuel (keccak_inc_absorb_block r) (s, m, mlen) = .ok (s', m', len') ∧
      Rep s' y ∧ y.2 + len' < r ∧ len' ≤ m'.length ∧ len' ≤ mlen ∧
      (m'.take len').foldl (absB keccakF r) y = (m.take mlen).foldl (absB keccakF r) (st, c) := by
  intro fuel
  induction fuel with
  | zero => intro s st c m mlen _ _ _ h; omega
  | succ fuel ih =>
    intro s st c m mlen hs hc hm hf
    have hs0 := hs
    obtain ⟨t, rfl, ht, hw⟩ := hs
    have hcn : (BitVec.ofNat 64 c).toNat = c := by simp; omega
    rw [loop_succ]
    by_cases hlt : mlen + c ≥ r
    · obtain ⟨s1, e1, t1, rfl, ht1, hw1⟩ := keccak_inc_xor_spec hs0 (m := m) (len := r - c)
        (by omega) (by omega)
      have hr0 : Rep (t1 ++ [BitVec.ofNat 64 0]) (xorAt st c (m.take (r - c)), 0) := ⟨t1, rfl, ht1, hw1⟩
      obtain ⟨s2, e2, hs2⟩ := KeccakF1600_rep hr0
      have hb : keccak_inc_absorb_block r (t ++ [BitVec.ofNat 64 c], m, mlen) =
          .ok (.inl (s2, m.drop (r - c), mlen - (r - c))) := by
        unfold keccak_inc_absorb_block
        simp only [rd25 ht, ok_bind, hcn, if_pos hlt, e1, sub_ok (show r - c ≤ m.length by omega), wr25 ht1]
        rw [e2]; rfl
      rw [hb]
      simp only [ok_bind]
      obtain ⟨s', m', len', y, h1, h2, h3, h4, h5, h6⟩ := ih s2 _ 0 (m.drop (r - c)) (mlen - (r - c)) hs2
        (by omega) (by simp; omega) (by omega)
      refine ⟨s', m', len', y, h1, h2, h3, h4, by omega, ?_⟩
      rw [h6]
      have e : m.take mlen = m.take (r - c) ++ (m.drop (r - c)).take (mlen - (r - c)) := by
        rw [← List.take_add]; congr 1; omega
      rw [e, List.foldl_append, foldl_absB_eq keccakF r st c _ hc (by simp; omega)]
    · have hb : keccak_inc_absorb_block r (t ++ [BitVec.ofNat 64 c], m, mlen) =
          .ok (.inr (t ++ [BitVec.ofNat 64 c], m, mlen)) := by
        unfold keccak_inc_absorb_block
        simp only [rd25 ht, ok_bind, hcn, if_neg hlt]
      rw [hb]
      exact ⟨_, _, _, (st, c), rfl, hs0, by simp; omega, hm, Nat.le_refl _, rfl⟩

theorem keccak_inc_absorb_spec {r : Nat} (hr : r ≤ 200) {s : List (BitVec 64)} {x : Bytes × Nat}
    (h : Rep s x) (hc : x.2 < r) {m : Bytes} {mlen : Nat} (hm : mlen ≤ m.length) :
    ∃ s', keccak_inc_absorb s r m mlen = .ok s' ∧
      Rep s' ((m.take mlen).foldl (absB keccakF r) x) := by
  obtain ⟨st, c⟩ := x
  obtain ⟨s1, m1, len1, ⟨st1, c1⟩, e, hR, hlt, hml, _, hfold⟩ :=
    inc_absorb_loop hr (mlen + 2) s st c m mlen h hc hm (by omega)
  simp only at hlt
  obtain ⟨s2, e2, t2, rfl, ht2, hw2⟩ := keccak_inc_xor_spec hR hml (by omega)
  refine ⟨t2 ++ [BitVec.ofNat 64 (c1 + len1)], ?_, ?_⟩
  · unfold keccak_inc_absorb
    rw [e]
    simp only [ok_bind, e2, rd25 ht2, wr25 ht2, BitVec.ofNat_add]
  · rw [← hfold, foldl_absB_lt _ _ _ _ _ (by simp; omega)]
    refine ⟨t2, ?_, ht2, hw2⟩
    simp [show min len1 m1.length = len1 by omega]

theorem keccak_inc_init_spec {s : List (BitVec 64)} (h : s.length = 26) :
    ∃ s', keccak_inc_init s = .ok s' ∧ Rep s' (List.replicate 200 0#8, 0) := by
  have e : forRange 25 (fun i (s : List (BitVec 64)) => wr1 s i 0#64) s =
      .ok (List.replicate 25 0#64 ++ s.drop 25) := by
    refine forRange_eq' (fun i => List.replicate i 0#64 ++ s.drop i) (by simp) rfl ?_
    intro i hi
    rw [wr1_ok (by simp; omega), List.set_append, if_neg (by simp)]
    simp only [List.length_replicate, Nat.sub_self]
    rw [List.drop_eq_getElem_cons (by omega), List.set_cons_zero, List.replicate_succ', List.append_assoc]
    rfl
  refine ⟨List.replicate 25 0#64 ++ [0#64], ?_, List.replicate 25 0#64, rfl, by simp, by decide +kernel⟩
  unfold keccak_inc_init
  rw [e, ok_bind]
  obtain ⟨w, hw⟩ : ∃ w, s.drop 25 = [w] := List.length_eq_one_iff.1 (by simp; omega)
  rw [hw, wr25 (by simp)]

theorem keccak_inc_finalize_spec {r : Nat} (hr0 : 0 < r) (hr : r ≤ 200) {s : List (BitVec 64)} {x : Bytes × Nat}
    (h : Rep s x) (hc : x.2 < r) (p : Byte) :
    ∃ s', keccak_inc_finalize s r p = .ok s' ∧ Rep s' (padState r p x, 0) := by
  obtain ⟨st, c⟩ := x
  simp only at hc
  obtain ⟨t, rfl, ht, hw⟩ := h
  have hcn : (BitVec.ofNat 64 c).toNat = c := by simp; omega
  obtain ⟨t1, e1, ht1, hw1⟩ := keccak_xor_byte_spec (u := [BitVec.ofNat 64 c]) ht (k := c) (by omega) p
  obtain ⟨t2, e2, ht2, hw2⟩ := keccak_xor_byte_spec (u := [BitVec.ofNat 64 c]) ht1 (k := r - 1) (by omega) 128#8
  refine ⟨t2 ++ [0#64], ?_, t2, rfl, ht2, ?_⟩
  · unfold keccak_inc_finalize
    simp only [rd25 ht, ok_bind, hcn, e1, e2, wr25 ht2]
  · rw [hw2, hw1, hw]; rfl

theorem keccak_get_byte_spec {t u : List (BitVec 64)} (ht : t.length = 25) {k : Nat} (hk : k < 200) :
    keccak_get_byte (t ++ u) k = .ok ((wordsB t).getD k 0) := by
  have h8 : k >>> 3 = k / 8 := by rw [Nat.shiftRight_eq_div_pow]
  have h7 : k &&& 7 = k % 8 := Nat.and_two_pow_sub_one_eq_mod k 3
  have hlt : k / 8 < t.length := by omega
  unfold keccak_get_byte
  rw [h8, h7, rd1_ok (by simp; omega), ok_bind, wordsB_getD (by omega), List.getElem_append_left hlt, byteOf,
    getD_lt hlt]

/-- Filling a buffer from the left, one element at a time. -/
theorem wr1_fill {α : Type} {h : List α} {g : Nat → α} {p : Nat} (hp : p < h.length) :
    wr1 ((List.range p).map g ++ h.drop p) p (g p) =
      .ok ((List.range (p + 1)).map g ++ h.drop (p + 1)) := by
  rw [wr1_ok (by simp; omega), List.set_append, if_neg (by simp)]
  simp only [List.length_map, List.length_range, Nat.sub_self]
  rw [List.drop_eq_getElem_cons hp, List.set_cons_zero, List.range_succ, List.map_append, List.append_assoc]
  rfl

/-- `s` is the state after `K` bytes have been squeezed, starting from the padded state `fin`. -/
def Sq (r : Nat) (fin : Bytes) (K : Nat) (s : List (BitVec 64)) : Prop :=
  ∃ q c, Rep s (iter keccakF q fin, c) ∧ K + c = r * q ∧ c < r

theorem stream_eq {r K c q i : Nat} {fin : Bytes} (hK : K + c = r * q) (hc : c ≤ r) (hi : i < c) :
    stream keccakF r fin (K + i) = (iter keccakF q fin).getD (r - c + i) 0 := by
  obtain ⟨q, rfl⟩ : ∃ q', q = q' + 1 := ⟨q - 1, by
    cases q with
    | zero => simp at hK; omega
    | succ q => simp⟩
  have hK' : K + i = r * q + (r - c + i) := by rw [Nat.mul_succ] at hK; omega
  have hd : (K + i) / r = q := by
    rw [hK', Nat.mul_add_div (by omega), Nat.div_eq_of_lt (by omega)]; rfl
  have hm : (K + i) % r = r - c + i := by
    rw [hK', Nat.mul_add_mod, Nat.mod_eq_of_lt (by omega)]
  rw [stream, hd, hm]

theorem inc_squeeze_loop {r : Nat} (hr0 : 0 < r) (hr : r ≤ 200) (fin h0 : Bytes) (k : Nat) :
    ∀ (fuel off outlen : Nat) (s : List (BitVec 64)), Sq r fin (k + off) s →
    (0 < outlen → ∃ q, k + off = r * q ∧ Rep s (iter keccakF q fin, 0)) →
    off + outlen ≤ h0.length → outlen < fuel →
    ∃ s', loop fuel (keccak_inc_squeeze_block r)
        ((List.range off).map (fun i => stream keccakF r fin (k + i)) ++ h0.drop off, off, outlen, s) =
      .ok ((List.range (off + outlen)).map (fun i => stream keccakF r fin (k + i)) ++
        h0.drop (off + outlen), s') ∧ Sq r fin (k + off + outlen) s' := by
  intro fuel
  induction fuel with
  | zero => intro off outlen s _ _ _ h; omega
  | succ fuel ih =>
    intro off outlen s hs h0s hlen hf
    rw [loop_succ]
    by_cases ho : outlen > 0
    · obtain ⟨q, hq, hrep⟩ := h0s ho
      obtain ⟨s1, e1, t1, rfl, ht1, hw1⟩ := KeccakF1600_rep hrep
      simp only at hw1
      have hfor : forRange (min outlen r) (fun i (h : Bytes) => do
            wr1 h (off + i) (← keccak_get_byte (t1 ++ [BitVec.ofNat 64 0]) i))
          ((List.range off).map (fun i => stream keccakF r fin (k + i)) ++ h0.drop off) =
          .ok ((List.range (off + min outlen r)).map (fun i => stream keccakF r fin (k + i)) ++
            h0.drop (off + min outlen r)) := by
        refine forRange_eq' (fun i => (List.range (off + i)).map
          (fun i => stream keccakF r fin (k + i)) ++ h0.drop (off + i)) rfl rfl ?_
        intro i hi
        have hir : i < r := by omega
        rw [keccak_get_byte_spec ht1 (by omega), ok_bind, hw1]
        have := stream_eq (r := r) (K := k + off) (c := r) (q := q + 1) (i := i) (fin := fin)
          (by rw [Nat.mul_succ]; omega) (Nat.le_refl _) hir
        rw [iter, Nat.sub_self, Nat.zero_add, Nat.add_assoc] at this
        rw [← this]
        exact wr1_fill (g := fun i => stream keccakF r fin (k + i)) (by omega)
      have hb : keccak_inc_squeeze_block r
          ((List.range off).map (fun i => stream keccakF r fin (k + i)) ++ h0.drop off, off, outlen, s) =
          .ok (.inl ((List.range (off + min outlen r)).map (fun i => stream keccakF r fin (k + i)) ++
            h0.drop (off + min outlen r), off + min outlen r, outlen - min outlen r,
            t1 ++ [BitVec.ofNat 64 (r - min outlen r)])) := by
        unfold keccak_inc_squeeze_block
        simp only [if_pos ho, e1, ok_bind, hfor, wr25 ht1]
      rw [hb]
      simp only [ok_bind]
      have hR : Rep (t1 ++ [BitVec.ofNat 64 (r - min outlen r)])
          (iter keccakF (q + 1) fin, r - min outlen r) := ⟨t1, rfl, ht1, hw1⟩
      obtain ⟨s', e', hs'⟩ := ih (off + min outlen r) (outlen - min outlen r)
        (t1 ++ [BitVec.ofNat 64 (r - min outlen r)])
        ⟨q + 1, r - min outlen r, hR, by rw [Nat.mul_succ]; omega, by omega⟩
        (by
          intro hpos
          have hmin : min outlen r = r := by omega
          refine ⟨q + 1, by rw [Nat.mul_succ]; omega, ?_⟩
          rw [hmin, Nat.sub_self] at hR ⊢
          exact hR)
        (by omega) (by omega)
      rw [show off + min outlen r + (outlen - min outlen r) = off + outlen by omega] at e'
      exact ⟨s', e', by rw [show k + off + outlen =
        k + (off + min outlen r) + (outlen - min outlen r) by omega]; exact hs'⟩
    · have ho' : outlen = 0 := by omega
      subst ho'
      refine ⟨s, ?_, hs⟩
      unfold keccak_inc_squeeze_block
      simp

theorem keccak_inc_squeeze_spec {r : Nat} (hr0 : 0 < r) (hr : r ≤ 200) {fin h : Bytes} {k outlen : Nat}
    {s : List (BitVec 64)} (hs : Sq r fin k s) (hl : outlen ≤ h.length) :
    ∃ s', keccak_inc_squeeze h outlen s r =
      .ok ((List.range outlen).map (fun i => stream keccakF r fin (k + i)) ++ h.drop outlen, s') ∧
      Sq r fin (k + outlen) s' := by
  obtain ⟨q, c, ⟨t, rfl, ht, hw⟩, hK, hc⟩ := hs
  simp only at hw
  have hcn : (BitVec.ofNat 64 c).toNat = c := by simp; omega
  have hfor : forRange (min outlen c) (fun i (h : Bytes) => do
        wr1 h i (← keccak_get_byte (t ++ [BitVec.ofNat 64 c]) (r - c + i))) h =
      .ok ((List.range (min outlen c)).map (fun i => stream keccakF r fin (k + i)) ++
        h.drop (min outlen c)) := by
    refine forRange_eq' (fun i => (List.range i).map
      (fun i => stream keccakF r fin (k + i)) ++ h.drop i) (by simp) rfl ?_
    intro i hi
    rw [keccak_get_byte_spec ht (by omega), ok_bind, hw, ← stream_eq hK (by omega) (by omega)]
    exact wr1_fill (g := fun i => stream keccakF r fin (k + i)) (by omega)
  have hsub : BitVec.ofNat 64 c - BitVec.ofNat 64 (min outlen c) = BitVec.ofNat 64 (c - min outlen c) := by
    apply BitVec.eq_of_toNat_eq
    simp only [BitVec.toNat_sub, BitVec.toNat_ofNat]
    omega
  have hR : Rep (t ++ [BitVec.ofNat 64 (c - min outlen c)]) (iter keccakF q fin, c - min outlen c) :=
    ⟨t, rfl, ht, hw⟩
  obtain ⟨s', e', hs'⟩ := inc_squeeze_loop hr0 hr fin h k (outlen + 1) (min outlen c) (outlen - min outlen c)
    (t ++ [BitVec.ofNat 64 (c - min outlen c)]) ⟨q, c - min outlen c, hR, by omega, by omega⟩
    (by
      intro hpos
      have hmin : min outlen c = c := by omega
      refine ⟨q, by omega, ?_⟩
      rw [hmin, Nat.sub_self] at hR ⊢
      exact hR) (by omega) (by omega)
  rw [show min outlen c + (outlen - min outlen c) = outlen by omega] at e'
  refine ⟨s', ?_, by rw [show k + outlen = k + min outlen c + (outlen - min outlen c) by omega]; exact hs'⟩
  unfold keccak_inc_squeeze
  simp only [rd25 ht, ok_bind, hcn, hfor, wr25 ht, hsub]
  exact e'

end Spx
