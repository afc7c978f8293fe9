import Verif.Proof.HarakaSlice
import Verif.Spec.Haraka
/-! The bitsliced permutations compute π_512 and π_256. -/

namespace Spx.Haraka
open Spec

theorem cat_getD {k n : Nat} {f : Nat → Bytes} (hn : 0 < n) (h : ∀ i, i < k → (f i).length = n) {p : Nat}
    (hp : p < k * n) : (cat k f).getD p 0#8 = (f (p / n)).getD (p % n) 0#8 := by
  have hi : p / n < k := (Nat.div_lt_iff_lt_mul hn).2 hp
  have hc := cat_chunk h hi []
  rw [List.append_nil] at hc
  rw [← hc]
  simp only [List.getD, List.getElem?_take, List.getElem?_drop, if_pos (Nat.mod_lt p hn)]
  rw [Nat.mul_comm, Nat.div_add_mod]

theorem chunk_getD {n i j : Nat} {s : Bytes} (hj : j < n) : (chunk n s i).getD j 0#8 = s.getD (i * n + j) 0#8 := by
  simp [chunk, List.getD, List.getElem?_drop, hj]

theorem map_range_getD {n i : Nat} (f : Nat → Byte) (h : i < n) : ((List.range n).map f).getD i 0#8 = f i := by
  simp [List.getD, h]

theorem map_getD {f : Byte → Byte} {s : Bytes} {i : Nat} (h : i < s.length) :
    (s.map f).getD i 0#8 = f (s.getD i 0#8) := by
  simp [List.getD, h]

theorem xorBytes_getD {a b : Bytes} {i : Nat} (ha : i < a.length) (hb : i < b.length) :
    (xorBytes a b).getD i 0#8 = a.getD i 0#8 ^^^ b.getD i 0#8 := by
  simp [xorBytes, List.getD, ha, hb]

/-- Source of row `t = (p + j) % 4` of the column of byte `p` under ShiftRows. -/
def srcIdx (p j : Nat) : Nat := 16 * (p / 16) + 4 * ((p / 4 + (p + j) % 4) % 4) + (p + j) % 4

theorem round_length {k s : Bytes} (hk : k.length = 16) : (Aes.round k s).length = 16 := by
  simp [Aes.round, xorBytes, Aes.mixColumns, hk]

theorem round_getD {k s : Bytes} (hk : k.length = 16) (hs : s.length = 16) {p : Nat} (hp : p < 16) :
    (Aes.round k s).getD p 0#8 =
      Aes.gmul 2#8 (Aes.sbox (s.getD (srcIdx p 0) 0#8)) ^^^ Aes.gmul 3#8 (Aes.sbox (s.getD (srcIdx p 1) 0#8)) ^^^
      Aes.sbox (s.getD (srcIdx p 2) 0#8) ^^^ Aes.sbox (s.getD (srcIdx p 3) 0#8) ^^^ k.getD p 0#8 := by
  have hsr : ∀ j, (Aes.shiftRows (Aes.subBytes s)).getD (4 * (p / 4) + (p % 4 + j) % 4) 0#8 =
      Aes.sbox (s.getD (srcIdx p j) 0#8) := by
    intro j
    unfold Aes.shiftRows Aes.subBytes
    rw [map_range_getD _ (by omega), map_getD (by omega)]
    congr 2
    unfold srcIdx; omega
  unfold Aes.round
  rw [xorBytes_getD (by simp [Aes.mixColumns, hp]) (by omega)]
  unfold Aes.mixColumns
  rw [map_range_getD _ hp]
  simp only [hsr]

theorem aesLayer_length {b j : Nat} {rc s : Bytes} (hrc : 16 * (b * (j + 1)) ≤ rc.length) :
    (Spec.Haraka.aesLayer b rc j s).length = b * 16 := by
  unfold Spec.Haraka.aesLayer
  refine cat_length fun i hi => round_length (chunk_length ?_)
  rw [Nat.mul_succ] at hrc
  omega

theorem aesLayer_getD {b j : Nat} {rc s : Bytes} (hrc : 16 * (b * (j + 1)) ≤ rc.length) (hs : s.length = b * 16)
    {p : Nat} (hp : p < b * 16) : (Spec.Haraka.aesLayer b rc j s).getD p 0#8 =
      Aes.gmul 2#8 (Aes.sbox (s.getD (srcIdx p 0) 0#8)) ^^^ Aes.gmul 3#8 (Aes.sbox (s.getD (srcIdx p 1) 0#8)) ^^^
      Aes.sbox (s.getD (srcIdx p 2) 0#8) ^^^ Aes.sbox (s.getD (srcIdx p 3) 0#8) ^^^
      (chunk (b * 16) rc j).getD p 0#8 := by
  rw [Nat.mul_succ] at hrc
  have hsrc : ∀ t, (chunk 16 s (p / 16)).getD (srcIdx (p % 16) t) 0#8 = s.getD (srcIdx p t) 0#8 := by
    intro t
    rw [chunk_getD (by unfold srcIdx; omega)]
    congr 1
    unfold srcIdx; omega
  unfold Spec.Haraka.aesLayer
  rw [cat_getD (by omega) (fun i hi => round_length (chunk_length (by omega))) hp,
    round_getD (chunk_length (by omega)) (chunk_length (by omega)) (by omega)]
  simp only [hsrc]
  rw [chunk_getD (by omega), chunk_getD hp]
  congr 2
  rw [Nat.add_mul, Nat.mul_comm b j, Nat.mul_assoc]
  omega

/-- The bitsliced state `q` holds the 64 bytes `s`. -/
def Rel64 (q : Q8 64) (s : Bytes) : Prop := s.length = 64 ∧ ∀ p, p < 64 → byteAt q (pi64 p) = s.getD p 0#8

/-- The bitsliced state `q` holds the 32 bytes `s`. -/
def Rel32 (q : Q8 32) (s : Bytes) : Prop := s.length = 32 ∧ ∀ p, p < 32 → byteAt q (pi32 p) = s.getD p 0#8

theorem aes64_rel {q k : Q8 64} {s rc : Bytes} {j : Nat} (hq : Rel64 q s) (hk : Rel64 k (chunk 64 rc j))
    (hrc : 64 * (j + 1) ≤ rc.length) :
    Rel64 (add_round_key (mix_columns (shift_rows (br_aes_ct64_bitslice_Sbox q))) k)
      (Spec.Haraka.aesLayer 4 rc j s) := by
  refine ⟨aesLayer_length (by omega), ?_⟩
  intro p hp
  have key : ∀ p < 64, pi64 p < 64 ∧ ∀ t < 4, sig64 ((pi64 p + 16 * t) % 64) = pi64 (srcIdx p t) ∧
      srcIdx p t < 64 := by decide +kernel
  obtain ⟨hpi, ht⟩ := key p hp
  have h0 := ht 0 (by omega)
  rw [Nat.mul_zero, Nat.add_zero, Nat.mod_eq_of_lt hpi] at h0
  have hsb : ∀ t, srcIdx p t < 64 → byteAt (br_aes_ct64_bitslice_Sbox q) (pi64 (srcIdx p t)) =
      Aes.sbox (s.getD (srcIdx p t) 0#8) := by
    intro t ht
    rw [byteAt_Sbox64 _ (key _ ht).1, hq.2 _ ht]
  rw [byteAt_add_round_key, byteAt_mix_columns _ hpi, byteAt_shift_rows _ hpi, byteAt_shift_rows _ (by omega),
    byteAt_shift_rows _ (by omega), byteAt_shift_rows _ (by omega), h0.1, (ht 1 (by omega)).1, (ht 2 (by omega)).1,
    (ht 3 (by omega)).1, hsb _ h0.2, hsb _ (ht 1 (by omega)).2, hsb _ (ht 2 (by omega)).2, hsb _ (ht 3 (by omega)).2,
    hk.2 _ hp, aesLayer_getD (by omega) hq.1 (by omega)]

theorem aes32_rel {q k : Q8 32} {s rc : Bytes} {j : Nat} (hq : Rel32 q s) (hk : Rel32 k (chunk 32 rc j))
    (hrc : 32 * (j + 1) ≤ rc.length) :
    Rel32 (add_round_key32 (mix_columns32 (shift_rows32 (br_aes_ct_bitslice_Sbox q))) k)
      (Spec.Haraka.aesLayer 2 rc j s) := by
  refine ⟨aesLayer_length (by omega), ?_⟩
  intro p hp
  have key : ∀ p < 32, pi32 p < 32 ∧ ∀ t < 4, sig32 ((pi32 p + 8 * t) % 32) = pi32 (srcIdx p t) ∧
      srcIdx p t < 32 := by decide +kernel
  obtain ⟨hpi, ht⟩ := key p hp
  have h0 := ht 0 (by omega)
  rw [Nat.mul_zero, Nat.add_zero, Nat.mod_eq_of_lt hpi] at h0
  have hsb : ∀ t, srcIdx p t < 32 → byteAt (br_aes_ct_bitslice_Sbox q) (pi32 (srcIdx p t)) =
      Aes.sbox (s.getD (srcIdx p t) 0#8) := by
    intro t ht
    rw [byteAt_Sbox32 _ (key _ ht).1, hq.2 _ ht]
  rw [byteAt_add_round_key32, byteAt_mix_columns32 _ hpi, byteAt_shift_rows32 _ hpi, byteAt_shift_rows32 _ (by omega),
    byteAt_shift_rows32 _ (by omega), byteAt_shift_rows32 _ (by omega), h0.1, (ht 1 (by omega)).1,
    (ht 2 (by omega)).1, (ht 3 (by omega)).1, hsb _ h0.2, hsb _ (ht 1 (by omega)).2, hsb _ (ht 2 (by omega)).2,
    hsb _ (ht 3 (by omega)).2, hk.2 _ hp, aesLayer_getD (by omega) hq.1 (by omega)]

theorem chunk_map {α β : Type} (f : α → β) (n i : Nat) (l : List α) : chunk n (l.map f) i = (chunk n l i).map f := by
  simp [chunk]

theorem mix4_map {α β : Type} (f : α → β) (l : List α) :
    Spec.Haraka.mix4 (l.map f) = (Spec.Haraka.mix4 l).map f := by
  simp only [Spec.Haraka.mix4, Spec.Haraka.unpackLo, Spec.Haraka.unpackHi, chunk_map, ← List.map_append]

theorem mix2_map {α β : Type} (f : α → β) (l : List α) :
    Spec.Haraka.mix2 (l.map f) = (Spec.Haraka.mix2 l).map f := by
  simp only [Spec.Haraka.mix2, Spec.Haraka.unpackLo, Spec.Haraka.unpackHi, chunk_map, ← List.map_append]

theorem self_map {s : Bytes} {n : Nat} (h : s.length = n) : s = (List.range n).map (fun i => s.getD i 0#8) := by
  apply List.ext_getElem (by simp [h])
  intro i h1 h2
  simp [h1]

theorem mix64_rel {q : Q8 64} {s : Bytes} (hq : Rel64 q s) : Rel64 (q.map mix64) (Spec.Haraka.mix4 s) := by
  have hm : Spec.Haraka.mix4 s = (Spec.Haraka.mix4 (List.range 64)).map (fun i => s.getD i 0#8) := by
    conv => lhs; rw [self_map hq.1]
    exact mix4_map _ _
  have key : (Spec.Haraka.mix4 (List.range 64)).length = 64 ∧ ∀ p < 64, pi64 p < 64 ∧
      mu64 (pi64 p) = pi64 ((Spec.Haraka.mix4 (List.range 64)).getD p 0) ∧
      (Spec.Haraka.mix4 (List.range 64)).getD p 0 < 64 := by decide +kernel
  refine ⟨by rw [hm, List.length_map, key.1], ?_⟩
  intro p hp
  obtain ⟨h1, h2, h3⟩ := key.2 p hp
  rw [byteAt_mix64 _ h1, h2, hq.2 _ h3, hm]
  have hl : p < (Spec.Haraka.mix4 (List.range 64)).length := by rw [key.1]; exact hp
  simp only [List.getD, List.getElem?_map, List.getElem?_eq_getElem hl, Option.map_some, Option.getD_some]

theorem mix32_rel {q : Q8 32} {s : Bytes} (hq : Rel32 q s) : Rel32 (q.map mix32) (Spec.Haraka.mix2 s) := by
  have hm : Spec.Haraka.mix2 s = (Spec.Haraka.mix2 (List.range 32)).map (fun i => s.getD i 0#8) := by
    conv => lhs; rw [self_map hq.1]
    exact mix2_map _ _
  have key : (Spec.Haraka.mix2 (List.range 32)).length = 32 ∧ ∀ p < 32, pi32 p < 32 ∧
      mu32 (pi32 p) = pi32 ((Spec.Haraka.mix2 (List.range 32)).getD p 0) ∧
      (Spec.Haraka.mix2 (List.range 32)).getD p 0 < 32 := by decide +kernel
  refine ⟨by rw [hm, List.length_map, key.1], ?_⟩
  intro p hp
  obtain ⟨h1, h2, h3⟩ := key.2 p hp
  rw [byteAt_mix32 _ h1, h2, hq.2 _ h3, hm]
  have hl : p < (Spec.Haraka.mix2 (List.range 32)).length := by rw [key.1]; exact hp
  simp only [List.getD, List.getElem?_map, List.getElem?_eq_getElem hl, Option.map_some, Option.getD_some]

/-- The constants in the context are the bitsliced form of the byte string `rcb`. -/
def Rc64 (rc : List (BitVec 64)) (rcb : Bytes) : Prop :=
  rcb.length = 640 ∧ ∀ k, k < 10 → ∃ q, Q8.load rc k = .ok q ∧ Rel64 q (chunk 64 rcb k)

/-- The 32-bit constants are the bitsliced form of the first 320 bytes of `rcb`. -/
def Rc32 (rc : List (BitVec 32)) (rcb : Bytes) : Prop :=
  320 ≤ rcb.length ∧ ∀ k, k < 10 → ∃ q, Q8.load rc k = .ok q ∧ Rel32 q (chunk 32 rcb k)

theorem aes64_spec {rc : List (BitVec 64)} {rcb : Bytes} (hrc : Rc64 rc rcb) {q : Q8 64} {s : Bytes} (hq : Rel64 q s)
    {k : Nat} (hk : k < 10) : ∃ q', aes64 rc k q = .ok q' ∧ Rel64 q' (Spec.Haraka.aesLayer 4 rcb k s) := by
  obtain ⟨kq, e, hkq⟩ := hrc.2 k hk
  unfold aes64
  simp only [e, ok_bind]
  exact ⟨_, rfl, aes64_rel hq hkq (by rw [hrc.1]; omega)⟩

theorem aes32_spec {rc : List (BitVec 32)} {rcb : Bytes} (hrc : Rc32 rc rcb) {q : Q8 32} {s : Bytes} (hq : Rel32 q s)
    {k : Nat} (hk : k < 10) : ∃ q', aes32 rc k q = .ok q' ∧ Rel32 q' (Spec.Haraka.aesLayer 2 rcb k s) := by
  obtain ⟨kq, e, hkq⟩ := hrc.2 k hk
  unfold aes32
  simp only [e, ok_bind]
  exact ⟨_, rfl, aes32_rel hq hkq (by have := hrc.1; omega)⟩

theorem forRange_two {σ : Type} (f : Nat → σ → C σ) (s : σ) : forRange 2 f s = (f 0 s >>= f 1) := by
  simp only [forRange, ok_bind]

theorem perm512_length {rcb s : Bytes} (hrc : rcb.length = 640) (hs : s.length = 64) :
    (Spec.Haraka.perm512 rcb s).length = 64 := by
  unfold Spec.Haraka.perm512
  have : ∀ k, k ≤ 5 → (Spec.Haraka.rounds 4 Spec.Haraka.mix4 rcb k s).length = 64 := by
    intro k
    induction k with
    | zero => intro _; exact hs
    | succ k _ =>
      intro hk
      rw [Spec.Haraka.rounds, self_map (aesLayer_length (b := 4) (j := 2 * k + 1) (by omega)), mix4_map, List.length_map]
      rfl
  exact this 5 (by omega)

theorem haraka512_perm_spec {ctx : Ctx} {rcb : Bytes} (hrc : Rc64 ctx.tweaked512_rc64 rcb) {inp : Bytes}
    (hi : 64 ≤ inp.length) :
    haraka512_perm inp ctx = .ok (Spec.Haraka.perm512 rcb (inp.take 64)) := by
  obtain ⟨q0, e0, h0⟩ := slice64_spec hi
  have hR0 : Rel64 q0 (inp.take 64) := by
    refine ⟨by simp; omega, fun p hp => ?_⟩
    rw [h0 p hp]
    simp [List.getD, hp]
  obtain ⟨q1, e1, h1⟩ := forRange_inv (n := 5) (s := q0)
    (body := fun i q => do
      let q ← forRange 2 (fun j q => aes64 ctx.tweaked512_rc64 (2 * i + j) q) q
      .ok (q.map mix64))
    (fun k q => Rel64 q (Spec.Haraka.rounds 4 Spec.Haraka.mix4 rcb k (inp.take 64))) hR0 (by
      intro i q hi hq
      obtain ⟨q1, e1, h1⟩ := aes64_spec hrc hq (k := 2 * i) (by omega)
      obtain ⟨q2, e2, h2⟩ := aes64_spec hrc h1 (k := 2 * i + 1) (by omega)
      refine ⟨q2.map mix64, ?_, mix64_rel h2⟩
      rw [forRange_two]
      simp only [Nat.add_zero, e1, ok_bind, e2])
  have hfin : (List.range 64).map (fun p => byteAt q1 (pi64 p)) = Spec.Haraka.perm512 rcb (inp.take 64) := by
    rw [Spec.Haraka.perm512, self_map h1.1]
    apply List.map_congr_left
    intro p hp
    exact h1.2 p (List.mem_range.1 hp)
  unfold haraka512_perm
  simp only [e0, ok_bind, e1]
  exact (unslice64_spec q1).trans (by rw [hfin])

theorem feed_forward {n : Nat} {out inp : Bytes} (ho : out.length = n) (hi : n ≤ inp.length) :
    forRange n (fun i out => do wr1 out i ((← rd1 out i) ^^^ (← rd1 inp i))) out =
      .ok (xorBytes out (inp.take n)) := by
  have hxl : (xorBytes out (inp.take n)).length = n := by simp [xorBytes]; omega
  refine forRange_eq' (fun i => (xorBytes out (inp.take n)).take i ++ out.drop i) (by simp)
    (by rw [List.take_of_length_le (l := xorBytes _ _) (by omega), List.drop_of_length_le (by omega),
      List.append_nil]) ?_
  intro i hii
  have hl : ((xorBytes out (inp.take n)).take i).length = i := by simp; omega
  have h1 : i < ((xorBytes out (inp.take n)).take i ++ out.drop i).length := by simp; omega
  have hg : ((xorBytes out (inp.take n)).take i ++ out.drop i)[i] = out[i] := by
    rw [List.getElem_append_right (by omega)]
    simp only [hl, Nat.sub_self, List.getElem_drop, Nat.add_zero]
  have hx : (xorBytes out (inp.take n))[i] = out[i] ^^^ inp[i] := by simp [xorBytes]
  rw [rd1_ok h1, ok_bind, rd1_ok (by omega), ok_bind, wr1_ok h1, hg, ← hx, List.set_append, if_neg (by omega), hl,
    Nat.sub_self, List.drop_eq_getElem_cons (by omega), List.set_cons_zero]
  rw [List.take_add_one (l := xorBytes _ _), List.getElem?_eq_getElem (l := xorBytes _ _) (by omega),
    Option.toList_some, List.append_assoc, List.singleton_append]

theorem haraka512_spec {ctx : Ctx} {rcb : Bytes} (hrc : Rc64 ctx.tweaked512_rc64 rcb) {inp : Bytes}
    (hi : 64 ≤ inp.length) : haraka512 inp ctx = .ok (Spec.Haraka.haraka512 rcb (inp.take 64)) := by
  have hl := perm512_length hrc.1 (s := inp.take 64) (by simp; omega)
  unfold haraka512
  rw [haraka512_perm_spec hrc hi, ok_bind, feed_forward hl hi, ok_bind]
  have hx : (xorBytes (Spec.Haraka.perm512 rcb (inp.take 64)) (inp.take 64)).length = 64 := by
    simp [xorBytes, hl]; omega
  rw [rd_ok (by omega), ok_bind, rd_ok (by omega), ok_bind, rd_ok (by omega), ok_bind, rd_ok (by omega), ok_bind]
  rfl

theorem haraka256_spec {ctx : Ctx} {rcb : Bytes} (hrc : Rc32 ctx.tweaked256_rc32 rcb) {inp : Bytes}
    (hi : 32 ≤ inp.length) : haraka256 inp ctx = .ok (Spec.Haraka.haraka256 rcb (inp.take 32)) := by
  obtain ⟨q0, e0, h0⟩ := slice32_spec hi
  have hR0 : Rel32 q0 (inp.take 32) := by
    refine ⟨by simp; omega, fun p hp => ?_⟩
    rw [h0 p hp]
    simp [List.getD, hp]
  obtain ⟨q1, e1, h1⟩ := forRange_inv (n := 5) (s := q0)
    (body := fun i q => do
      let q ← forRange 2 (fun j q => aes32 ctx.tweaked256_rc32 (2 * i + j) q) q
      .ok (q.map mix32))
    (fun k q => Rel32 q (Spec.Haraka.rounds 2 Spec.Haraka.mix2 rcb k (inp.take 32))) hR0 (by
      intro i q hi hq
      obtain ⟨q1, e1, h1⟩ := aes32_spec hrc hq (k := 2 * i) (by omega)
      obtain ⟨q2, e2, h2⟩ := aes32_spec hrc h1 (k := 2 * i + 1) (by omega)
      refine ⟨q2.map mix32, ?_, mix32_rel h2⟩
      rw [forRange_two]
      simp only [Nat.add_zero, e1, ok_bind, e2])
  have hfin : (List.range 32).map (fun p => byteAt q1 (pi32 p)) = Spec.Haraka.perm256 rcb (inp.take 32) := by
    rw [Spec.Haraka.perm256, self_map h1.1]
    apply List.map_congr_left
    intro p hp
    exact h1.2 p (List.mem_range.1 hp)
  have hu := unslice32_spec q1
  rw [hfin] at hu
  unfold haraka256
  simp only [e0, ok_bind, e1]
  simp only at hu
  rw [hu, feed_forward (by rw [← hfin]; simp) hi]
  rfl

end Spx.Haraka
