import Verif.Proof.HarakaPerm
import Verif.Proof.Shake
/-! Haraka-S: one-shot and incremental interface compute the specification. -/

namespace Spx.Haraka
open Spec

attribute [local irreducible] Spec.Haraka.perm512

theorem stream_at {f : Bytes → Bytes} {r K c q i : Nat} {fin : Bytes} (hK : K + c = r * q) (hc : c ≤ r) (hi : i < c) :
    stream f r fin (K + i) = (iter f q fin).getD (r - c + i) 0 := by
  obtain ⟨q, rfl⟩ : ∃ q', q = q' + 1 := ⟨q - 1, by
    cases q with
    | zero => simp at hK; omega
    | succ q => simp⟩
  have hK' : K + i = r * q + (r - c + i) := by rw [Nat.mul_succ] at hK; omega
  have hd : (K + i) / r = q := by
    rw [hK', Nat.mul_add_div (by omega), Nat.div_eq_of_lt (by omega)]; rfl
  have hm : (K + i) % r = r - c + i := by
    rw [hK', Nat.mul_add_mod, Nat.mod_eq_of_lt (by omega)]
  rw [stream, hd, hm]

theorem set_xor {l : Bytes} {k : Nat} (hk : k < l.length) (b : Byte) :
    l.set k (l[k] ^^^ b) = l.modify k (· ^^^ b) := by
  apply List.ext_getElem?
  intro j
  rw [List.getElem?_modify, List.getElem?_set]
  by_cases hj : k = j
  · subst hj; simp [hk]
  · simp [hj]

/-- `s[c + i] ^= m[i]` for `i < len`. -/
theorem xor_run {st rest m : Bytes} {c len : Nat} (hm : len ≤ m.length) (hc : c + len ≤ st.length) :
    forRange len (fun i (s : Bytes) => do wr1 s (c + i) ((← rd1 s (c + i)) ^^^ (← rd1 m i))) (st ++ rest) =
      .ok (xorAt st c (m.take len) ++ rest) := by
  refine forRange_eq' (fun i => xorAt st c (m.take i) ++ rest) (by simp [xorAt]) rfl ?_
  intro i hi
  have h1 : c + i < (xorAt st c (m.take i)).length := by rw [xorAt_length]; omega
  have hb : c + i < (xorAt st c (m.take i) ++ rest).length := by simp; omega
  rw [rd1_ok hb, ok_bind, rd1_ok (by omega), ok_bind, wr1_ok hb, List.getElem_append_left h1, set_append_left' h1,
    set_xor h1, take_succ_get (by omega), xorAt_snoc]
  simp [show min i m.length = i by omega]

theorem xor_run0 {st rest m : Bytes} {len : Nat} (hm : len ≤ m.length) (hc : len ≤ st.length) :
    forRange len (fun i (s : Bytes) => do wr1 s i ((← rd1 s i) ^^^ (← rd1 m i))) (st ++ rest) =
      .ok (xorAt st 0 (m.take len) ++ rest) := by
  have := xor_run (st := st) (rest := rest) (c := 0) hm (by omega)
  simpa only [Nat.zero_add] using this

/-- `perm` applied to the context `ctx` is the permutation of the specification with the round constants
`rcb`. -/
def PermIs (perm : Bytes → Ctx → C Bytes) (ctx : Ctx) (rcb : Bytes) : Prop :=
  rcb.length = 640 ∧ ∀ inp : Bytes, 64 ≤ inp.length → perm inp ctx = .ok (Spec.Haraka.perm512 rcb (inp.take 64))

theorem permIs_ref {ctx : Ctx} {rcb : Bytes} (h : Rc64 ctx.tweaked512_rc64 rcb) : PermIs haraka512_perm ctx rcb :=
  ⟨h.1, fun _ hi => haraka512_perm_spec h hi⟩

section
variable {perm : Bytes → Ctx → C Bytes} {ctx : Ctx} {rcb : Bytes} (hrc : PermIs perm ctx rcb)
include hrc

theorem perm_len : ∀ s : Bytes, s.length = 64 → (Spec.Haraka.perm512 rcb s).length = 64 :=
  fun _ hs => perm512_length hrc.1 hs

/-- `haraka512_perm(s, s, ctx)` on a state with something behind it. -/
theorem perm_wr {s rest : Bytes} (hs : s.length = 64) :
    (do wr (s ++ rest) 0 (← perm (s ++ rest) ctx)) = .ok (Spec.Haraka.perm512 rcb s ++ rest) := by
  have e := hrc.2 (s ++ rest) (by simp; omega)
  rw [List.take_left' hs] at e
  have hl := perm_len hrc s hs
  rw [e, ok_bind, wr_ok (by simp; omega)]
  simp only [List.take_zero, List.nil_append, Nat.zero_add, hl]
  rw [List.drop_left' hs]

theorem perm_wr0 {s : Bytes} (hs : s.length = 64) :
    (do wr s 0 (← perm s ctx)) = .ok (Spec.Haraka.perm512 rcb s) := by
  have := perm_wr hrc (rest := []) hs
  simpa only [List.append_nil] using this

theorem haraka_S_absorb_loop {r : Nat} (hr0 : 0 < r) (hr : r ≤ 64) : ∀ (fuel : Nat) (s m : Bytes) (mlen : Nat),
    s.length = 64 → mlen ≤ m.length → mlen < fuel →
    ∃ s' m' len', loop fuel (haraka_S_absorb_block perm r ctx) (s, m, mlen) = .ok (s', m', len') ∧
      s'.length = 64 ∧ len' < r ∧ len' ≤ m'.length ∧
      (m'.take len').foldl (absB (Spec.Haraka.perm512 rcb) r) (s', 0) =
        (m.take mlen).foldl (absB (Spec.Haraka.perm512 rcb) r) (s, 0) := by
  intro fuel
  induction fuel with
  | zero => intro s m mlen _ _ h; omega
  | succ fuel ih =>
    intro s m mlen hs hm hf
    rw [loop_succ]
    by_cases hlt : mlen ≥ r
    · have e1 := xor_run0 (st := s) (rest := []) (m := m) (len := r) (by omega) (by omega)
      simp only [List.append_nil] at e1
      have hx : (xorAt s 0 (m.take r)).length = 64 := by rw [xorAt_length, hs]
      have hb : haraka_S_absorb_block perm r ctx (s, m, mlen) =
          .ok (.inl (Spec.Haraka.perm512 rcb (xorAt s 0 (m.take r)), m.drop r, mlen - r)) := by
        have e2 := perm_wr0 hrc hx
        unfold haraka_S_absorb_block
        simp only [if_pos hlt, e1, ok_bind]
        simp only [← bind_assoc, e2, ok_bind, sub_ok (show r ≤ m.length by omega)]
      rw [hb]
      simp only [ok_bind]
      obtain ⟨s', m', len', h1, h2, h3, h4, h5⟩ := ih _ (m.drop r) (mlen - r) (perm_len hrc _ hx) (by simp; omega)
        (by omega)
      refine ⟨s', m', len', h1, h2, h3, h4, ?_⟩
      have e : m.take mlen = m.take r ++ (m.drop r).take (mlen - r) := by
        rw [← List.take_add]; congr 1; omega
      rw [h5, e, List.foldl_append, foldl_absB_eq _ r s 0 (m.take r) hr0 (by simp; omega)]
    · have hb : haraka_S_absorb_block perm r ctx (s, m, mlen) = .ok (.inr (s, m, mlen)) := by
        unfold haraka_S_absorb_block
        simp only [if_neg hlt]
      rw [hb]
      exact ⟨s, m, mlen, rfl, hs, by omega, hm, rfl⟩

theorem haraka_S_absorb_spec {r : Nat} (hr0 : 0 < r) (hr : r ≤ 64) (g : Nat → Byte)
    {s : Bytes} (hs : s.length = 64) {m : Bytes} {mlen : Nat} (hm : mlen ≤ m.length) {p : Byte}
    (hp : p ||| 128#8 = p ^^^ 128#8) :
    haraka_S_absorb perm g s r m mlen p ctx =
      .ok (padState r p ((m.take mlen).foldl (absB (Spec.Haraka.perm512 rcb) r) (s, 0))) := by
  obtain ⟨s1, m1, len1, e1, hs1, hl1, hm1, hf⟩ := haraka_S_absorb_loop hrc hr0 hr (mlen + 1) s m mlen hs hm (by omega)
  have hT2 : forRange len1 (fun i (t : Bytes) => do wr1 t i (← rd1 m1 i))
      (List.replicate r 0#8 ++ (uninit g r).drop r) =
      .ok (m1.take len1 ++ (List.replicate (r - len1) 0#8 ++ (uninit g r).drop r)) := by
    rw [copy_loop _ _ _ hm1 (by simp; omega), List.drop_append_of_le_length (by simp; omega)]
    simp
  have hlen1 : (m1.take len1).length = len1 := by simp; omega
  have hT3 : wr1 (m1.take len1 ++ (List.replicate (r - len1) 0#8 ++ (uninit g r).drop r)) len1 p =
      .ok (m1.take len1 ++ (p :: List.replicate (r - len1 - 1) 0#8) ++ (uninit g r).drop r) := by
    rw [wr1_ok (by simp; omega), List.set_append, if_neg (by omega), hlen1, Nat.sub_self]
    obtain ⟨k, hk⟩ : ∃ k, r - len1 = k + 1 := ⟨r - len1 - 1, by omega⟩
    rw [hk, List.replicate_succ]
    simp
  have hblk : (m1.take len1 ++ (p :: List.replicate (r - len1 - 1) 0#8)).length = r := by
    simp; omega
  have hx : (m1.take len1 ++ (p :: List.replicate (r - len1 - 1) 0#8)).getD (r - 1) 0#8 ||| 128#8 =
      (m1.take len1 ++ (p :: List.replicate (r - len1 - 1) 0#8)).getD (r - 1) 0#8 ^^^ 128#8 := by
    rw [getD_append_right (by omega), hlen1]
    by_cases h : r - 1 = len1
    · rw [h, Nat.sub_self]; exact hp
    · obtain ⟨k, hk⟩ : ∃ k, r - 1 - len1 = k + 1 := ⟨r - 1 - len1 - 1, by omega⟩
      rw [hk, List.getD_cons_succ]
      have : (List.replicate (r - len1 - 1) 0#8).getD k 0#8 = 0#8 := by
        simp only [List.getD, List.getElem?_replicate]
        split <;> rfl
      rw [this]; rfl
  obtain ⟨e3, e4⟩ := or_last (rest := (uninit g r).drop r) hr0 hblk hx
  have e5 := xor_run0 (st := s1) (rest := []) (len := r)
    (m := (m1.take len1 ++ (p :: List.replicate (r - len1 - 1) 0#8)).modify (r - 1) (· ^^^ 128#8) ++
      (uninit g r).drop r) (by rw [List.length_append, List.length_modify, hblk]; omega) (by omega)
  simp only [List.append_nil] at e5
  unfold haraka_S_absorb
  rw [e1]
  simp only [ok_bind]
  rw [fill_zero _ _ _ (by simp), ok_bind, hT2, ok_bind, hT3, ok_bind, e3, ok_bind, e4, ok_bind, e5]
  congr 1
  rw [List.take_left' (by rw [List.length_modify, hblk]), xorAt_modify _ _ (by omega), xorAt_append,
    xorAt, xorAt_zero, ← hf, foldl_absB_lt _ _ _ _ _ (by omega)]
  rfl

theorem iter_len {s : Bytes} (hs : s.length = 64) (k : Nat) : (iter (Spec.Haraka.perm512 rcb) k s).length = 64 := by
  induction k with
  | zero => exact hs
  | succ k ih => exact perm_len hrc _ ih

theorem haraka_S_squeezeblocks_spec {s : Bytes} (hs : s.length = 64) {h : Bytes} {nb : Nat} (hl : nb * 32 ≤ h.length) :
    haraka_S_squeezeblocks perm h nb s 32 ctx =
      .ok ((List.range (nb * 32)).map (stream (Spec.Haraka.perm512 rcb) 32 s) ++ h.drop (nb * 32),
        iter (Spec.Haraka.perm512 rcb) nb s) := by
  unfold haraka_S_squeezeblocks HARAKAS_RATE
  have e : forRange nb (fun _ (st : Bytes × Nat × Bytes) => do
      let (h, off, s) := st
      let s ← wr s 0 (← perm s ctx)
      let h ← wr h off (← rd s 0 32)
      .ok (h, off + 32, s)) (h, 0, s) =
      .ok ((List.range (nb * 32)).map (stream (Spec.Haraka.perm512 rcb) 32 s) ++ h.drop (nb * 32), nb * 32,
        iter (Spec.Haraka.perm512 rcb) nb s) := by
    refine forRange_eq' (fun j => ((List.range (j * 32)).map (stream (Spec.Haraka.perm512 rcb) 32 s) ++
      h.drop (j * 32), j * 32, iter (Spec.Haraka.perm512 rcb) j s)) (by simp [iter]) rfl ?_
    intro j hj
    have hlj := iter_len hrc hs j
    have hlj' := iter_len hrc hs (j + 1)
    have e2 := perm_wr0 hrc hlj
    have hs2 : (iter (Spec.Haraka.perm512 rcb) (j + 1) s).take 32 = (List.range 32).map
        (fun i => stream (Spec.Haraka.perm512 rcb) 32 s (j * 32 + i)) := by
      apply List.ext_getElem (by simp [hlj'])
      intro i h1 h2
      have hi : i < 32 := by simpa using h2
      have := stream_at (f := Spec.Haraka.perm512 rcb) (r := 32) (K := j * 32) (c := 32) (q := j + 1) (i := i) (fin := s)
        (by omega) (Nat.le_refl _) hi
      simp only [List.getElem_map, List.getElem_range, List.getElem_take]
      rw [this, Nat.sub_self, Nat.zero_add, getD_lt (by omega)]
    simp only [← bind_assoc, e2, ok_bind]
    rw [show Spec.Haraka.perm512 rcb (iter (Spec.Haraka.perm512 rcb) j s) =
      iter (Spec.Haraka.perm512 rcb) (j + 1) s from rfl, rd_ok (by omega), ok_bind, List.drop_zero, hs2,
      wr_ok (by simp; omega), ok_bind]
    congr 2
    · rw [List.take_left' (by simp), List.drop_append, List.drop_of_length_le (by simp), List.nil_append,
        List.drop_drop, Nat.succ_mul, List.range_add, List.map_append, List.map_map]
      simp only [List.length_map, List.length_range, Nat.add_sub_cancel_left]
      rfl
    · rw [Nat.succ_mul]
  rw [e]
  rfl

theorem harakaS_bytes (m : Bytes) (n : Nat) : Spec.Haraka.harakaS rcb m n =
    (List.range n).map (stream (Spec.Haraka.perm512 rcb) 32
      (padState 32 0x1F#8 (m.foldl (absB (Spec.Haraka.perm512 rcb) 32) (List.replicate 64 0#8, 0)))) :=
  sponge_eq (perm_len hrc) (by decide) (by decide) m n

theorem padState_len (m : Bytes) : (padState 32 0x1F#8
    (m.foldl (absB (Spec.Haraka.perm512 rcb) 32) (List.replicate 64 0#8, 0))).length = 64 := by
  rw [padState, List.length_modify, List.length_modify]
  exact foldl_absB_length (perm_len hrc) m (by simp)

/-- `haraka_S` writes exactly the Haraka-S output. -/
theorem haraka_S_spec (g : Nat → Nat → Byte) {out inp : Bytes} {outlen inlen : Nat}
    (ho : outlen ≤ out.length) (hi : inlen ≤ inp.length) :
    haraka_S perm g out outlen inp inlen ctx =
      .ok (Spec.Haraka.harakaS rcb (inp.take inlen) outlen ++ out.drop outlen) := by
  have e0 := fill_zero 0#8 64 (uninit (g 41) 64) (by simp)
  rw [List.drop_of_length_le (by simp), List.append_nil] at e0
  have e1 := haraka_S_absorb_spec hrc (r := 32) (by decide) (by decide) (g 40) (s := List.replicate 64 0#8) (by simp)
    hi (p := 0x1F#8) (by decide)
  have hs1 := padState_len hrc (inp.take inlen)
  rw [harakaS_bytes hrc]
  generalize padState 32 0x1F#8 ((inp.take inlen).foldl (absB (Spec.Haraka.perm512 rcb) 32)
    (List.replicate 64 0#8, 0)) = s1 at *
  have e2 := haraka_S_squeezeblocks_spec hrc hs1 (h := out) (nb := outlen / 32) (by omega)
  have e3 := haraka_S_squeezeblocks_spec hrc (iter_len hrc hs1 (outlen / 32)) (h := uninit (g 42) 32) (nb := 1) (by simp)
  unfold haraka_S
  simp only [e0, e1, ok_bind, e2]
  by_cases h0 : outlen % 32 ≠ 0
  · rw [if_pos h0, e3]
    simp only [ok_bind]
    refine forRange_eq' (fun i => (List.range (outlen / 32 * 32 + i)).map (stream (Spec.Haraka.perm512 rcb) 32 s1) ++
      out.drop (outlen / 32 * 32 + i)) rfl
      (by rw [show outlen / 32 * 32 + outlen % 32 = outlen by omega]) ?_
    intro i hi
    have hst : stream (Spec.Haraka.perm512 rcb) 32 (iter (Spec.Haraka.perm512 rcb) (outlen / 32) s1) i =
        stream (Spec.Haraka.perm512 rcb) 32 s1 (outlen / 32 * 32 + i) := by
      rw [stream, stream, show i / 32 = 0 by omega,
        show (outlen / 32 * 32 + i) / 32 = outlen / 32 by omega,
        show (outlen / 32 * 32 + i) % 32 = i % 32 by omega]
      rfl
    rw [rd1_ok (by simp; omega), ok_bind, List.getElem_append_left (by simp; omega)]
    simp only [List.getElem_map, List.getElem_range]
    rw [hst]
    exact wr1_fill (g := stream (Spec.Haraka.perm512 rcb) 32 s1) (by omega)
  · rw [if_neg h0, show outlen / 32 * 32 = outlen by omega]

end

/-! ## Incremental interface -/

/-- The buffer `s_inc` holds the state `x.1` and the counter `x.2`. -/
def RepI (s : Bytes) (x : Bytes × Nat) : Prop := s = x.1 ++ [BitVec.ofNat 8 x.2] ∧ x.1.length = 64

theorem rd64 {t : Bytes} (ht : t.length = 64) (w : Byte) : rd1 (t ++ [w]) 64 = .ok w := by
  rw [rd1_ok (by simp; omega), List.getElem_append_right (by omega)]
  simp [ht]

theorem wr64 {t : Bytes} (ht : t.length = 64) (w v : Byte) : wr1 (t ++ [w]) 64 v = .ok (t ++ [v]) := by
  rw [wr1_ok (by simp; omega), List.set_append, if_neg (by omega)]
  simp [ht]

theorem haraka_S_inc_xor_spec {st : Bytes} {c : Nat} (ht : st.length = 64) (hc' : c < 256)
    {m : Bytes} {len : Nat} (hm : len ≤ m.length) (hc : c + len ≤ 64) :
    haraka_S_inc_xor (st ++ [BitVec.ofNat 8 c]) m len = .ok (xorAt st c (m.take len) ++ [BitVec.ofNat 8 c]) := by
  have hcn : (BitVec.ofNat 8 c).toNat = c := by simp; omega
  unfold haraka_S_inc_xor
  rw [rd64 ht, ok_bind]
  simp only [hcn]
  exact xor_run hm (by omega)

theorem xor_one {st rest : Bytes} {k : Nat} (hk : k < st.length) (b : Byte) :
    (do wr1 (st ++ rest) k ((← rd1 (st ++ rest) k) ^^^ b)) = .ok (st.modify k (· ^^^ b) ++ rest) := by
  rw [rd1_ok (by simp; omega), ok_bind, wr1_ok (by simp; omega), List.getElem_append_left hk, set_append_left' hk,
    set_xor hk]

theorem haraka_S_inc_init_spec {s : Bytes} (h : s.length = 65) :
    haraka_S_inc_init s = .ok (List.replicate 64 0#8 ++ [0#8]) := by
  unfold haraka_S_inc_init
  rw [fill_zero _ _ _ (by omega), ok_bind]
  obtain ⟨w, hw⟩ : ∃ w, s.drop 64 = [w] := List.length_eq_one_iff.1 (by simp; omega)
  rw [hw, wr64 (by simp)]

theorem haraka_S_inc_finalize_spec {st : Bytes} {c : Nat} (ht : st.length = 64) (hc : c < 32) :
    haraka_S_inc_finalize (st ++ [BitVec.ofNat 8 c]) = .ok (padState 32 0x1F#8 (st, c) ++ [0#8]) := by
  have hcn : (BitVec.ofNat 8 c).toNat = c := by simp; omega
  have e1 := xor_one (st := st) (rest := [BitVec.ofNat 8 c]) (k := c) (by omega) 0x1F#8
  have e2 := xor_one (st := st.modify c (· ^^^ 0x1F#8)) (rest := [BitVec.ofNat 8 c]) (k := 31) (by simp; omega) 128#8
  unfold haraka_S_inc_finalize HARAKAS_RATE
  rw [rd64 ht, ok_bind]
  simp only [hcn, ← bind_assoc, e1, ok_bind, e2, Nat.add_one_sub_one]
  rw [wr64 (by simp; omega)]
  rfl

section
variable {perm : Bytes → Ctx → C Bytes} {ctx : Ctx} {rcb : Bytes} (hrc : PermIs perm ctx rcb)
include hrc

theorem haraka_inc_absorb_loop : ∀ (fuel : Nat) (s st : Bytes) (c : Nat)
    (m : Bytes) (mlen : Nat), RepI s (st, c) → c < 32 → mlen ≤ m.length → mlen < fuel →
    ∃ s' m' len' y, loop fuel (haraka_S_inc_absorb_block perm ctx) (s, m, mlen) = .ok (s', m', len') ∧
      RepI s' y ∧ y.2 + len' < 32 ∧ len' ≤ m'.length ∧
      (m'.take len').foldl (absB (Spec.Haraka.perm512 rcb) 32) y =
        (m.take mlen).foldl (absB (Spec.Haraka.perm512 rcb) 32) (st, c) := by
  intro fuel
  induction fuel with
  | zero => intro s st c m mlen _ _ _ h; omega
  | succ fuel ih =>
    intro s st c m mlen hs hc hm hf
    obtain ⟨rfl, ht⟩ := hs
    simp only at ht
    have hcn : (BitVec.ofNat 8 c).toNat = c := by simp; omega
    rw [loop_succ]
    by_cases hlt : mlen + c ≥ 32
    · have e1 := haraka_S_inc_xor_spec (c := c) ht (by omega) (m := m) (len := 32 - c) (by omega) (by omega)
      have hx : (xorAt st c (m.take (32 - c))).length = 64 := by rw [xorAt_length, ht]
      have e2 := perm_wr hrc (rest := [0#8]) hx
      have hb : haraka_S_inc_absorb_block perm ctx (st ++ [BitVec.ofNat 8 c], m, mlen) =
          .ok (.inl (Spec.Haraka.perm512 rcb (xorAt st c (m.take (32 - c))) ++ [0#8], m.drop (32 - c),
            mlen - (32 - c))) := by
        unfold haraka_S_inc_absorb_block HARAKAS_RATE
        simp only [rd64 ht, ok_bind, hcn, if_pos hlt, e1, sub_ok (show 32 - c ≤ m.length by omega), wr64 hx]
        simp only [← bind_assoc, e2, ok_bind]
      rw [hb]
      simp only [ok_bind]
      obtain ⟨s', m', len', y, h1, h2, h3, h4, h6⟩ := ih _ _ 0 (m.drop (32 - c)) (mlen - (32 - c))
        ⟨rfl, perm_len hrc _ hx⟩ (by omega) (by simp; omega) (by omega)
      refine ⟨s', m', len', y, h1, h2, h3, h4, ?_⟩
      rw [h6]
      have e : m.take mlen = m.take (32 - c) ++ (m.drop (32 - c)).take (mlen - (32 - c)) := by
        rw [← List.take_add]; congr 1; omega
      rw [e, List.foldl_append, foldl_absB_eq _ 32 st c _ hc (by simp; omega)]
    · have hb : haraka_S_inc_absorb_block perm ctx (st ++ [BitVec.ofNat 8 c], m, mlen) =
          .ok (.inr (st ++ [BitVec.ofNat 8 c], m, mlen)) := by
        unfold haraka_S_inc_absorb_block HARAKAS_RATE
        simp only [rd64 ht, ok_bind, hcn, if_neg hlt]
      rw [hb]
      exact ⟨_, _, _, (st, c), rfl, ⟨rfl, ht⟩, by simp; omega, hm, rfl⟩

theorem haraka_inc_absorb_rep {s : Bytes} {x : Bytes × Nat}
    (h : RepI s x) (hc : x.2 < 32) {m : Bytes} {mlen : Nat} (hm : mlen ≤ m.length) :
    ∃ s', haraka_S_inc_absorb perm s m mlen ctx = .ok s' ∧
      RepI s' ((m.take mlen).foldl (absB (Spec.Haraka.perm512 rcb) 32) x) := by
  obtain ⟨st, c⟩ := x
  obtain ⟨s1, m1, len1, ⟨st1, c1⟩, e, ⟨rfl, ht1⟩, hlt, hml, hfold⟩ :=
    haraka_inc_absorb_loop hrc (mlen + 2) s st c m mlen h hc hm (by omega)
  simp only at hlt ht1
  have e2 := haraka_S_inc_xor_spec (c := c1) ht1 (by omega) hml (by omega)
  have hx : (xorAt st1 c1 (m1.take len1)).length = 64 := by rw [xorAt_length, ht1]
  refine ⟨xorAt st1 c1 (m1.take len1) ++ [BitVec.ofNat 8 (c1 + len1)], ?_, ?_⟩
  · unfold haraka_S_inc_absorb
    rw [e]
    simp only [ok_bind, e2, rd64 hx, wr64 hx, BitVec.ofNat_add]
  · rw [← hfold, foldl_absB_lt _ _ _ _ _ (by simp; omega)]
    refine ⟨?_, hx⟩
    simp [show min len1 m1.length = len1 by omega]

/-- `s` is the state after `K` bytes have been squeezed, starting from the padded state `fin`. -/
def SqI (rcb fin : Bytes) (K : Nat) (s : Bytes) : Prop :=
  ∃ q c, RepI s (iter (Spec.Haraka.perm512 rcb) q fin, c) ∧ K + c = 32 * q ∧ c < 32

theorem haraka_inc_squeeze_loop (fin h0 : Bytes) (k : Nat) :
    ∀ (fuel off outlen : Nat) (s : Bytes), SqI rcb fin (k + off) s →
    (0 < outlen → ∃ q, k + off = 32 * q ∧ RepI s (iter (Spec.Haraka.perm512 rcb) q fin, 0)) →
    off + outlen ≤ h0.length → outlen < fuel →
    ∃ s', loop fuel (haraka_S_inc_squeeze_block perm ctx)
        ((List.range off).map (fun i => stream (Spec.Haraka.perm512 rcb) 32 fin (k + i)) ++ h0.drop off, off,
          outlen, s) =
      .ok ((List.range (off + outlen)).map (fun i => stream (Spec.Haraka.perm512 rcb) 32 fin (k + i)) ++
        h0.drop (off + outlen), s') ∧ SqI rcb fin (k + off + outlen) s' := by
  intro fuel
  induction fuel with
  | zero => intro off outlen s _ _ _ h; omega
  | succ fuel ih =>
    intro off outlen s hs h0s hlen hf
    rw [loop_succ]
    by_cases ho : outlen > 0
    · obtain ⟨q, hq, rfl, hrep⟩ := h0s ho
      simp only at hrep
      have e1 := perm_wr hrc (rest := [BitVec.ofNat 8 0]) hrep
      have hl1 := perm_len hrc _ hrep
      have hfor : forRange (min outlen 32) (fun i (h : Bytes) => do
            wr1 h (off + i) (← rd1 (Spec.Haraka.perm512 rcb (iter (Spec.Haraka.perm512 rcb) q fin) ++
              [BitVec.ofNat 8 0]) i))
          ((List.range off).map (fun i => stream (Spec.Haraka.perm512 rcb) 32 fin (k + i)) ++ h0.drop off) =
          .ok ((List.range (off + min outlen 32)).map
            (fun i => stream (Spec.Haraka.perm512 rcb) 32 fin (k + i)) ++ h0.drop (off + min outlen 32)) := by
        refine forRange_eq' (fun i => (List.range (off + i)).map
          (fun i => stream (Spec.Haraka.perm512 rcb) 32 fin (k + i)) ++ h0.drop (off + i)) rfl rfl ?_
        intro i hi
        have hir : i < 32 := by omega
        have := stream_at (f := Spec.Haraka.perm512 rcb) (r := 32) (K := k + off) (c := 32) (q := q + 1) (i := i)
          (fin := fin) (by omega) (Nat.le_refl _) hir
        rw [iter, Nat.sub_self, Nat.zero_add, Nat.add_assoc, getD_lt (by omega)] at this
        rw [rd1_ok (by simp; omega), ok_bind, List.getElem_append_left (by omega), ← this]
        exact wr1_fill (g := fun i => stream (Spec.Haraka.perm512 rcb) 32 fin (k + i)) (by omega)
      have hb : haraka_S_inc_squeeze_block perm ctx
          ((List.range off).map (fun i => stream (Spec.Haraka.perm512 rcb) 32 fin (k + i)) ++ h0.drop off, off,
            outlen, iter (Spec.Haraka.perm512 rcb) q fin ++ [BitVec.ofNat 8 0]) =
          .ok (.inl ((List.range (off + min outlen 32)).map
              (fun i => stream (Spec.Haraka.perm512 rcb) 32 fin (k + i)) ++ h0.drop (off + min outlen 32),
            off + min outlen 32, outlen - min outlen 32,
            iter (Spec.Haraka.perm512 rcb) (q + 1) fin ++ [BitVec.ofNat 8 (32 - min outlen 32)])) := by
        unfold haraka_S_inc_squeeze_block HARAKAS_RATE
        simp only [if_pos ho, ← bind_assoc, e1, ok_bind]
        simp only [hfor, ok_bind, wr64 hl1]
        rfl
      simp only at hb ⊢
      rw [hb]
      simp only [ok_bind]
      obtain ⟨s', e', hs'⟩ := ih (off + min outlen 32) (outlen - min outlen 32)
        (iter (Spec.Haraka.perm512 rcb) (q + 1) fin ++ [BitVec.ofNat 8 (32 - min outlen 32)])
        ⟨q + 1, 32 - min outlen 32, ⟨rfl, hl1⟩, by omega, by omega⟩
        (by
          intro hpos
          have hmin : min outlen 32 = 32 := by omega
          refine ⟨q + 1, by omega, ?_⟩
          rw [hmin, Nat.sub_self]
          exact ⟨rfl, hl1⟩)
        (by omega) (by omega)
      rw [show off + min outlen 32 + (outlen - min outlen 32) = off + outlen by omega] at e'
      exact ⟨s', e', by rw [show k + off + outlen =
        k + (off + min outlen 32) + (outlen - min outlen 32) by omega]; exact hs'⟩
    · have ho' : outlen = 0 := by omega
      subst ho'
      refine ⟨s, ?_, hs⟩
      unfold haraka_S_inc_squeeze_block
      simp

theorem haraka_inc_squeeze_rep {fin h : Bytes} {k outlen : Nat}
    {s : Bytes} (hs : SqI rcb fin k s) (hl : outlen ≤ h.length) :
    ∃ s', haraka_S_inc_squeeze perm h outlen s ctx =
      .ok ((List.range outlen).map (fun i => stream (Spec.Haraka.perm512 rcb) 32 fin (k + i)) ++ h.drop outlen, s') ∧
      SqI rcb fin (k + outlen) s' := by
  obtain ⟨q, c, ⟨rfl, ht⟩, hK, hc⟩ := hs
  simp only at ht ⊢
  have hcn : (BitVec.ofNat 8 c).toNat = c := by simp; omega
  have hfor : forRange (min outlen c) (fun i (h : Bytes) => do
        wr1 h i (← rd1 (iter (Spec.Haraka.perm512 rcb) q fin ++ [BitVec.ofNat 8 c]) (32 - c + i))) h =
      .ok ((List.range (min outlen c)).map (fun i => stream (Spec.Haraka.perm512 rcb) 32 fin (k + i)) ++
        h.drop (min outlen c)) := by
    refine forRange_eq' (fun i => (List.range i).map
      (fun i => stream (Spec.Haraka.perm512 rcb) 32 fin (k + i)) ++ h.drop i) (by simp) rfl ?_
    intro i hi
    have := stream_at (f := Spec.Haraka.perm512 rcb) (r := 32) (i := i) (fin := fin) hK (by omega) (by omega)
    rw [getD_lt (by omega)] at this
    rw [rd1_ok (by simp; omega), ok_bind, List.getElem_append_left (by omega), ← this]
    exact wr1_fill (g := fun i => stream (Spec.Haraka.perm512 rcb) 32 fin (k + i)) (by omega)
  have hsub : BitVec.ofNat 8 c - BitVec.ofNat 8 (min outlen c) = BitVec.ofNat 8 (c - min outlen c) := by
    apply BitVec.eq_of_toNat_eq
    rw [BitVec.toNat_sub_of_le (by rw [BitVec.le_def]; simp; omega)]
    simp; omega
  obtain ⟨s', e', hs'⟩ := haraka_inc_squeeze_loop hrc fin h k (outlen + 1) (min outlen c) (outlen - min outlen c)
    (iter (Spec.Haraka.perm512 rcb) q fin ++ [BitVec.ofNat 8 (c - min outlen c)])
    ⟨q, c - min outlen c, ⟨rfl, ht⟩, by omega, by omega⟩
    (by
      intro hpos
      have hmin : min outlen c = c := by omega
      refine ⟨q, by omega, ?_⟩
      rw [hmin, Nat.sub_self]
      exact ⟨rfl, ht⟩)
    (by omega) (by omega)
  rw [show min outlen c + (outlen - min outlen c) = outlen by omega] at e'
  refine ⟨s', ?_, by rw [show k + outlen = k + min outlen c + (outlen - min outlen c) by omega]; exact hs'⟩
  unfold haraka_S_inc_squeeze HARAKAS_RATE
  simp only [rd64 ht, ok_bind, hcn, hfor, wr64 ht, hsub]
  exact e'

end

/-- Absorbing state of the incremental interface: the bytes absorbed so far. -/
def HarAbs (rcb : Bytes) (s m : Bytes) : Prop :=
  RepI s (m.foldl (absB (Spec.Haraka.perm512 rcb) 32) (List.replicate 64 0#8, 0))

/-- Squeezing state of the incremental interface: message and number of bytes squeezed so far. -/
def HarSq (rcb : Bytes) (s m : Bytes) (k : Nat) : Prop :=
  SqI rcb (padState 32 0x1F#8 (m.foldl (absB (Spec.Haraka.perm512 rcb) 32) (List.replicate 64 0#8, 0))) k s

theorem haraka_inc_init_abs (rcb : Bytes) {s : Bytes} (h : s.length = 65) :
    ∃ s', haraka_S_inc_init s = .ok s' ∧ HarAbs rcb s' [] :=
  ⟨_, haraka_S_inc_init_spec h, rfl, by simp⟩

theorem haraka_inc_absorb_abs {perm : Bytes → Ctx → C Bytes} {ctx : Ctx} {rcb : Bytes}
    (hrc : PermIs perm ctx rcb) {s m x : Bytes} {len : Nat}
    (h : HarAbs rcb s m) (hl : len ≤ x.length) :
    ∃ s', haraka_S_inc_absorb perm s x len ctx = .ok s' ∧ HarAbs rcb s' (m ++ x.take len) := by
  obtain ⟨s', e, hR⟩ := haraka_inc_absorb_rep hrc h (foldl_absB_snd _ m (by decide)) hl
  exact ⟨s', e, by rw [HarAbs, List.foldl_append]; exact hR⟩

theorem haraka_inc_finalize_abs {perm : Bytes → Ctx → C Bytes} {ctx : Ctx} {rcb : Bytes}
    (hrc : PermIs perm ctx rcb) {s m : Bytes}
    (h : HarAbs rcb s m) : ∃ s', haraka_S_inc_finalize s = .ok s' ∧ HarSq rcb s' m 0 := by
  obtain ⟨rfl, ht⟩ := h
  exact ⟨_, haraka_S_inc_finalize_spec ht (foldl_absB_snd _ m (by decide)), 0, 0,
    ⟨rfl, padState_len hrc m⟩, rfl, by decide⟩

theorem haraka_inc_squeeze_abs {perm : Bytes → Ctx → C Bytes} {ctx : Ctx} {rcb : Bytes}
    (hrc : PermIs perm ctx rcb) {s m h : Bytes} {k n : Nat}
    (hs : HarSq rcb s m k) (hl : n ≤ h.length) :
    ∃ s', haraka_S_inc_squeeze perm h n s ctx =
        .ok ((Spec.Haraka.harakaS rcb m (k + n)).drop k ++ h.drop n, s') ∧ HarSq rcb s' m (k + n) := by
  obtain ⟨s', e, hS⟩ := haraka_inc_squeeze_rep hrc hs hl
  refine ⟨s', ?_, hS⟩
  rw [harakaS_bytes hrc, List.range_add, List.map_append, List.drop_append, List.drop_of_length_le (by simp),
    List.nil_append, List.length_map, List.length_range, Nat.sub_self, List.drop_zero, List.map_map]
  exact e

end Spx.Haraka
