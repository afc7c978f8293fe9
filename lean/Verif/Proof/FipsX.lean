import Verif.Proof.KeccakX
import Verif.Proof.Shake
import Verif.Proof.Lanes
import Verif.Model.HashShakeX
/-! The multi-lane SHAKE256 computes SHAKE256 in every lane. -/

namespace Spx
open Spec Spec.Keccak

attribute [local irreducible] keccakF

/-- The 25 words of lane `j`. -/
def laneW (F : Nat → VReg) (j : Nat) : List (BitVec 64) := (List.range 25).map fun i => F i j

@[simp] theorem laneW_length (F : Nat → VReg) (j : Nat) : (laneW F j).length = 25 := by simp [laneW]

theorem laneW_getD (F : Nat → VReg) (j : Nat) {i : Nat} (hi : i < 25) : (laneW F j).getD i 0 = F i j := by
  rw [getD_lt (by simpa using hi)]
  simp [laneW]

/-- The permutation on the bytes of a lane. -/
theorem kf_bytes (F : Nat → VReg) (j : Nat) :
    wordsB (laneW (fun i j => kf (fun k => F k j) i) j) = keccakF (wordsB (laneW F j)) := by
  rw [wordsB_cat, laneW_length, keccakF, toBytes]
  apply cat_congr
  intro i hi
  rw [laneW_getD _ _ hi]
  refine congrArg (fun w : BitVec 64 => toLE 8 w.toNat) ?_
  refine f1600_congr ?_ _ _ (by omega) (by omega)
  intro x y hx hy
  rw [ofBytes_wordsB (laneW_length F j) x y hx hy]
  exact (laneW_getD F j (by omega)).symm

/-- The little-endian word at position `8 i`. -/
def ldW (m : Bytes) (i : Nat) : BitVec 64 := BitVec.ofNat 64 (leNat (chunk 8 m i))

theorem load64_ldW {m : Bytes} {i : Nat} (h : 8 * i + 8 ≤ m.length) : load64 (m.drop (8 * i)) = .ok (ldW m i) := by
  obtain ⟨v, hv, hb⟩ := load64_spec (x := m.drop (8 * i)) (by simp; omega)
  rw [hv]
  congr 1
  have hc : toLE 8 v.toNat = chunk 8 m i := by
    rw [toLE8_eq]
    apply List.ext_getElem?
    intro c
    rw [chunk, List.getElem?_take, Nat.mul_comm]
    by_cases hc : c < 8
    · rw [if_pos hc, List.getElem?_map, List.getElem?_range hc, Option.map_some, hb c hc, getD_lt (by simp; omega),
        List.getElem?_eq_getElem]
    · rw [if_neg hc, List.getElem?_eq_none (by simp; omega)]
  rw [ldW, ← hc, leNat_toLE, Nat.mod_eq_of_lt (by have := v.isLt; omega)]
  simp

theorem toLE_ldW {m : Bytes} {i : Nat} (h : 8 * i + 8 ≤ m.length) : toLE 8 (ldW m i).toNat = chunk 8 m i := by
  have hl : (chunk 8 m i).length = 8 := chunk_length (by omega)
  have hlt := leNat_lt (chunk 8 m i)
  rw [hl] at hlt
  rw [ldW, BitVec.toNat_ofNat, Nat.mod_eq_of_lt (by omega)]
  have := toLE_leNat (chunk 8 m i)
  rwa [hl] at this

theorem rd1_map {α : Type} {L j : Nat} (m : Nat → α) (hj : j < L) : rd1 ((List.range L).map m) j = .ok (m j) := by
  rw [rd1_ok (by simpa using hj)]
  simp

theorem map_getD {α : Type} {L : Nat} (m : Nat → α) (d : α) (j : Nat) :
    ((List.range L).map m).getD j d = if j < L then m j else d := by
  by_cases h : j < L
  · simp [List.getD, h]
  · simp [List.getD, h]

theorem ldLanes_ok {L i : Nat} {m : Nat → Bytes} (h : ∀ j, j < L → 8 * i + 8 ≤ (m j).length) :
    ldLanes L ((List.range L).map m) i = .ok fun j => if j < L then ldW (m j) i else 0 := by
  unfold ldLanes
  rw [tabulate_ok (g := fun j => ldW (m j) i) (fun j hj => by
    rw [rd1_map m hj, ok_bind, sub_ok (by have := h j hj; omega), ok_bind, load64_ldW (h j hj)]), ok_bind]
  congr 1
  funext j
  exact map_getD _ _ _

/-- Word `i` after adding the first `k` words of `m`. -/
theorem xor_words_closed {k : Nat} (hk : k ≤ 25) {f : Nat → BitVec 64} {m : Bytes} (hm : 8 * k ≤ m.length) :
    forRange k (fun i s => do wr1 s i ((← rd1 s i) ^^^ (← load64 (← sub m (8 * i))))) ((List.range 25).map f) =
      .ok ((List.range 25).map fun i => if i < k then f i ^^^ ldW m i else f i) := by
  refine forRange_eq' (fun k => (List.range 25).map fun i => if i < k then f i ^^^ ldW m i else f i)
    (by simp) rfl ?_
  intro i hi
  rw [rd1_map _ (by omega), ok_bind, sub_ok (by omega), ok_bind, load64_ldW (by omega), ok_bind,
    wr1_ok (by simp; omega), map_range_set]
  congr 1
  apply List.map_congr_left
  intro t _
  by_cases h1 : t = i
  · subst h1; simp
  · by_cases h2 : t < i
    · rw [if_neg h1, if_pos h2, if_pos (by omega)]
    · rw [if_neg h1, if_neg h2, if_neg (by omega)]

theorem xorLanes_ok {L : Nat} (hL : 0 < L) {r : Nat} (hr : r ≤ 200) (h8 : r % 8 = 0) (F : Nat → VReg)
    {m : Nat → Bytes} (hm : ∀ j, j < L → r ≤ (m j).length) :
    ∃ F', xorLanes L r (inter L F) ((List.range L).map m) = .ok (inter L F') ∧
      ∀ j, j < L → wordsB (laneW F' j) = xorAt (wordsB (laneW F j)) 0 ((m j).take r) := by
  refine ⟨fun i j => if i < r / 8 then F i j ^^^ ldW (m j) i else F i j, ?_, ?_⟩
  · refine forRange_eq' (fun k => inter L fun i j => if i < k then F i j ^^^ ldW (m j) i else F i j)
      (by simp) rfl ?_
    intro i hi
    rw [ldLanes_ok (fun j hj => by have := hm j hj; omega), ok_bind, getw_inter hL _ (by omega), ok_bind,
      setw_inter hL _ (by omega)]
    congr 1
    apply inter_congr
    intro t j _ hj
    unfold upd
    by_cases h1 : t = i
    · subst h1; simp [hj]
    · simp only [if_neg h1]
      by_cases h2 : t < i
      · rw [if_pos h2, if_pos (by omega)]
      · rw [if_neg h2, if_neg (by omega)]
  · intro j hj
    obtain ⟨t', e, -, hw⟩ := xor_words hr h8 (laneW_length F j) (hm j hj)
    have e' := xor_words_closed (k := r / 8) (by omega) (f := fun i => F i j) (m := m j)
      (by have := hm j hj; omega)
    unfold laneW at e
    rw [e'] at e
    cases e
    exact hw

section
variable {L : Nat} (hL : 0 < L) {perm : List (BitVec 64) → C (List (BitVec 64))} (hp : PermOK L perm)
include hL hp

theorem absorbx_loop {r : Nat} (hr0 : 0 < r) (hr : r ≤ 200) (h8 : r % 8 = 0) :
    ∀ (fuel : Nat) (F : Nat → VReg) (m : Nat → Bytes) (mlen : Nat), (∀ j, j < L → mlen ≤ (m j).length) →
    mlen < fuel → ∃ F' m' len', loop fuel (keccak_absorbx_block L perm r) (inter L F, (List.range L).map m, mlen) =
        .ok (inter L F', (List.range L).map m', len') ∧ len' < r ∧ ∀ j, j < L → len' ≤ (m' j).length ∧
      ((m' j).take len').foldl (absB keccakF r) (wordsB (laneW F' j), 0) =
        ((m j).take mlen).foldl (absB keccakF r) (wordsB (laneW F j), 0) := by
  intro fuel
  induction fuel with
  | zero => intro F m mlen _ h; omega
  | succ fuel ih =>
    intro F m mlen hm hf
    rw [loop_succ]
    by_cases hlt : mlen ≥ r
    · obtain ⟨F1, e1, hw1⟩ := xorLanes_ok hL hr h8 F (m := m) (fun j hj => Nat.le_trans hlt (hm j hj))
      have hb : keccak_absorbx_block L perm r (inter L F, (List.range L).map m, mlen) =
          .ok (.inl (inter L (fun i j => kf (fun k => F1 k j) i), (List.range L).map fun j => (m j).drop r, mlen - r)) := by
        unfold keccak_absorbx_block
        simp only [if_pos hlt, e1, ok_bind, hp F1]
        rw [tabulate_ok (g := fun j => (m j).drop r) (fun j hj => by
          rw [rd1_map m hj, ok_bind, sub_ok (by have := hm j hj; omega)]), ok_bind]
      rw [hb]
      simp only [ok_bind]
      obtain ⟨F', m', len', h1, h2, h3⟩ := ih (fun i j => kf (fun k => F1 k j) i) (fun j => (m j).drop r) (mlen - r)
        (fun j hj => by have := hm j hj; simp; omega) (by omega)
      refine ⟨F', m', len', h1, h2, fun j hj => ⟨(h3 j hj).1, ?_⟩⟩
      have e : (m j).take mlen = (m j).take r ++ ((m j).drop r).take (mlen - r) := by
        rw [← List.take_add]; congr 1; omega
      rw [(h3 j hj).2, e, List.foldl_append,
        foldl_absB_eq keccakF r (wordsB (laneW F j)) 0 ((m j).take r) hr0 (by have := hm j hj; simp; omega),
        kf_bytes, hw1 j hj]
    · have hb : keccak_absorbx_block L perm r (inter L F, (List.range L).map m, mlen) =
          .ok (.inr (inter L F, (List.range L).map m, mlen)) := by
        unfold keccak_absorbx_block
        simp only [if_neg hlt]
      rw [hb]
      exact ⟨F, m, mlen, rfl, by omega, fun j hj => ⟨hm j hj, rfl⟩⟩

omit hL hp in
theorem absorbx_last {r : Nat} (hr0 : 0 < r) (hr : r ≤ 200) (g : Nat → Byte) {m1 : Bytes} {len1 : Nat}
    (hl1 : len1 < r) (hm1 : len1 ≤ m1.length) {p : Byte} (hp : p ||| 128#8 = p ^^^ 128#8) :
    ∃ t, keccak_absorbx_last g r m1 len1 p = .ok t ∧ r ≤ t.length ∧
      ∀ S : Bytes, xorAt S 0 (t.take r) = padState r p ((m1.take len1).foldl (absB keccakF r) (S, 0)) := by
  have hT2 : forRange len1 (fun i (t : Bytes) => do wr1 t i (← rd1 m1 i))
      (List.replicate r 0#8 ++ (uninit g 200).drop r) =
      .ok (m1.take len1 ++ (List.replicate (r - len1) 0#8 ++ (uninit g 200).drop r)) := by
    rw [copy_loop _ _ _ hm1 (by simp; omega), List.drop_append_of_le_length (by simp; omega)]
    simp
  have hlen1 : (m1.take len1).length = len1 := by simp; omega
  have hT3 : wr1 (m1.take len1 ++ (List.replicate (r - len1) 0#8 ++ (uninit g 200).drop r)) len1 p =
      .ok (m1.take len1 ++ (p :: List.replicate (r - len1 - 1) 0#8) ++ (uninit g 200).drop r) := by
    rw [wr1_ok (by simp; omega), List.set_append, if_neg (by omega), hlen1, Nat.sub_self]
    obtain ⟨k, hk⟩ : ∃ k, r - len1 = k + 1 := ⟨r - len1 - 1, by omega⟩
    rw [hk, List.replicate_succ]
    simp
  have hblk : (m1.take len1 ++ (p :: List.replicate (r - len1 - 1) 0#8)).length = r := by
    simp; omega
  have hx : (m1.take len1 ++ (p :: List.replicate (r - len1 - 1) 0#8)).getD (r - 1) 0#8 ||| 128#8 =
      (m1.take len1 ++ (p :: List.replicate (r - len1 - 1) 0#8)).getD (r - 1) 0#8 ^^^ 128#8 := by
    rw [getD_append_right (by omega), hlen1]
    by_cases h : r - 1 = len1
    · rw [h, Nat.sub_self]; exact hp
    · obtain ⟨k, hk⟩ : ∃ k, r - 1 - len1 = k + 1 := ⟨r - 1 - len1 - 1, by omega⟩
      rw [hk, List.getD_cons_succ]
      have : (List.replicate (r - len1 - 1) 0#8).getD k 0#8 = 0#8 := by
        simp only [List.getD, List.getElem?_replicate]
        split <;> rfl
      rw [this]; rfl
  obtain ⟨e3, e4⟩ := or_last (rest := (uninit g 200).drop r) hr0 hblk hx
  refine ⟨(m1.take len1 ++ (p :: List.replicate (r - len1 - 1) 0#8)).modify (r - 1) (· ^^^ 128#8) ++ (uninit g 200).drop r,
    ?_, ?_, ?_⟩
  · unfold keccak_absorbx_last
    rw [fill_zero _ _ _ (by simp; omega), ok_bind, hT2, ok_bind, hT3, ok_bind, e3, ok_bind, e4]
  · rw [List.length_append, List.length_modify, hblk]; omega
  · intro S
    rw [List.take_left' (by rw [List.length_modify, hblk]), xorAt_modify _ _ (by omega), xorAt_append,
      xorAt, xorAt_zero, foldl_absB_lt _ _ _ _ _ (by omega)]
    rfl

theorem absorbx_spec {r : Nat} (hr0 : 0 < r) (hr : r ≤ 200) (h8 : r % 8 = 0) (g : Nat → Nat → Byte)
    {F : Nat → VReg} {m : Nat → Bytes} {mlen : Nat} (hm : ∀ j, j < L → mlen ≤ (m j).length) {p : Byte}
    (hpp : p ||| 128#8 = p ^^^ 128#8) :
    ∃ F', keccak_absorbx L perm g (inter L F) r ((List.range L).map m) mlen p = .ok (inter L F') ∧
      ∀ j, j < L → wordsB (laneW F' j) =
        padState r p (((m j).take mlen).foldl (absB keccakF r) (wordsB (laneW F j), 0)) := by
  obtain ⟨F1, m1, len1, e1, hl1, h1⟩ := absorbx_loop hL hp hr0 hr h8 (mlen + 1) F m mlen hm (by omega)
  have hlast : ∀ j, ∃ t, j < L → keccak_absorbx_last (g j) r (m1 j) len1 p = .ok t ∧ r ≤ t.length ∧
      ∀ S : Bytes, xorAt S 0 (t.take r) = padState r p (((m1 j).take len1).foldl (absB keccakF r) (S, 0)) := by
    intro j
    by_cases hj : j < L
    · obtain ⟨t, ht⟩ := absorbx_last hr0 hr (g j) hl1 (h1 j hj).1 hpp
      exact ⟨t, fun _ => ht⟩
    · exact ⟨[], fun h => absurd h hj⟩
  obtain ⟨t, ht⟩ := Classical.axiomOfChoice hlast
  obtain ⟨F', e2, hw2⟩ := xorLanes_ok hL hr h8 F1 (m := t) (fun j hj => (ht j hj).2.1)
  refine ⟨F', ?_, fun j hj => ?_⟩
  · unfold keccak_absorbx
    rw [e1]
    simp only [ok_bind]
    rw [tabulate_ok (g := t) (fun j hj => by rw [rd1_map m1 hj, ok_bind, (ht j hj).1]), ok_bind, e2]
  · rw [hw2 j hj, (ht j hj).2.2, (h1 j hj).2]

omit hp in
theorem storeLane_ok (F : Nat → VReg) {j k : Nat} (hj : j < L) (hk : k ≤ 25) {h : Bytes} (hl : 8 * k ≤ h.length) :
    storeLane L (inter L F) j k h = .ok ((wordsB (laneW F j)).take (8 * k) ++ h.drop (8 * k)) := by
  have hlw : (wordsB (laneW F j)).length = 200 := by simp
  unfold storeLane
  have hmap : ∀ k, k ≤ 25 → (wordsB (laneW F j)).take (8 * k) =
      (List.range (8 * k)).map fun c => byteOf (F (c / 8) j) (c % 8) := by
    intro k hk
    rw [wordsB, laneW_length, ← List.map_take, List.take_range, Nat.min_eq_left (by omega)]
    apply List.map_congr_left
    intro c hc
    have hc : c < 8 * k := List.mem_range.1 hc
    rw [laneW_getD _ _ (by omega)]
  rw [hmap k hk]
  refine forRange_eq' (fun i => (List.range (8 * i)).map (fun c => byteOf (F (c / 8) j) (c % 8)) ++ h.drop (8 * i))
    (by simp) rfl ?_
  intro i hi
  have hw := withSub_fill (l := h) (g := fun c => byteOf (F (c / 8) j) (c % 8)) (p := 8 * i) (q := 8)
    (f := fun x => do .ok (← store64 x (F i j), ())) (x := ()) (by
      rw [store64_spec (by simp; omega), ok_bind, List.drop_drop]
      congr 2
      congr 1
      apply List.map_congr_left
      intro c hc
      have hc : c < 8 := List.mem_range.1 hc
      rw [show (8 * i + c) / 8 = i by omega, show (8 * i + c) % 8 = c by omega])
  rw [getw_inter hL F (by omega), ok_bind]
  simp only [if_pos hj, hw, ok_bind, Nat.mul_succ]

theorem squeezex_spec {r : Nat} (hr0 : 0 < r) (hr : r ≤ 200) (h8 : r % 8 = 0) (F : Nat → VReg)
    {h : Nat → Bytes} {nb : Nat} (hl : ∀ j, j < L → nb * r ≤ (h j).length) :
    ∃ F', keccak_squeezeblocksx L perm ((List.range L).map h) nb (inter L F) r =
      .ok ((List.range L).map fun j => (List.range (nb * r)).map (stream keccakF r (wordsB (laneW F j))) ++
        (h j).drop (nb * r), inter L F') ∧
      ∀ j, j < L → wordsB (laneW F' j) = iter keccakF nb (wordsB (laneW F j)) := by
  have h3 : r >>> 3 = r / 8 := by rw [Nat.shiftRight_eq_div_pow]
  unfold keccak_squeezeblocksx
  rw [h3]
  obtain ⟨⟨h', off', s'⟩, e, e1, e2, F', e3, e4⟩ := forRange_inv (n := nb)
    (s := ((List.range L).map h, 0, inter L F))
    (body := fun _ (st : List Bytes × Nat × List (BitVec 64)) => do
      let (hs, off, s) := st
      let s ← perm s
      let hs ← tabulate L fun j => do
        let (h, _) ← withSub (← rd1 hs j) off (fun hh => do .ok (← storeLane L s j (r / 8) hh, ()))
        .ok h
      .ok (hs, off + r, s))
    (fun k st => st.1 = ((List.range L).map fun j => (List.range (k * r)).map (stream keccakF r (wordsB (laneW F j))) ++
        (h j).drop (k * r)) ∧
      st.2.1 = k * r ∧ ∃ F', st.2.2 = inter L F' ∧
        ∀ j, j < L → wordsB (laneW F' j) = iter keccakF k (wordsB (laneW F j)))
    ⟨by simp, by simp, F, rfl, fun _ _ => rfl⟩ (by
      rintro k ⟨h1, off, s1⟩ hk ⟨rfl, rfl, F1, hs1, hw1⟩
      simp only at hs1
      subst hs1
      have hkr : ∀ j, j < L → k * r + r ≤ (h j).length := fun j hj => by
        have := Nat.le_trans (Nat.mul_le_mul_right r hk) (hl j hj)
        rw [Nat.succ_mul] at this
        exact this
      have e2 := hp F1
      generalize hF2 : (fun i j => kf (fun k => F1 k j) i) = F2 at e2
      have hw2 : ∀ j, j < L → wordsB (laneW F2 j) = iter keccakF (k + 1) (wordsB (laneW F j)) := by
        intro j hj
        rw [← hF2, kf_bytes, hw1 j hj]
        rfl
      have lane : ∀ j, j < L → withSub
          ((List.range (k * r)).map (stream keccakF r (wordsB (laneW F j))) ++ (h j).drop (k * r)) (k * r)
          (fun hh => do .ok (← storeLane L (inter L F2) j (r / 8) hh, ())) =
          .ok ((List.range (k * r + r)).map (stream keccakF r (wordsB (laneW F j))) ++ (h j).drop (k * r + r), ()) := by
        intro j hj
        refine withSub_fill ?_
        rw [storeLane_ok hL F2 hj (by omega) (by have := hkr j hj; simp; omega), ok_bind, List.drop_drop,
          show 8 * (r / 8) = r by omega]
        congr 2
        congr 1
        apply List.ext_getElem?
        intro i
        rw [List.getElem?_take]
        by_cases hi : i < r
        · have hlen : (wordsB (laneW F2 j)).length = 200 := by simp
          rw [if_pos hi, List.getElem?_map, List.getElem?_range hi, Option.map_some,
            stream_eq (r := r) (K := k * r) (c := r) (q := k + 1) (i := i) (by rw [Nat.mul_succ, Nat.mul_comm])
              (Nat.le_refl _) hi, Nat.sub_self, Nat.zero_add, ← hw2 j hj, getD_lt (by omega),
            List.getElem?_eq_getElem (by omega)]
        · rw [if_neg hi, List.getElem?_eq_none (by simp; omega)]
      refine ⟨((List.range L).map fun j => (List.range (k * r + r)).map (stream keccakF r (wordsB (laneW F j))) ++
        (h j).drop (k * r + r), k * r + r, inter L F2), ?_, by simp only [Nat.succ_mul], by rw [Nat.succ_mul],
        F2, rfl, hw2⟩
      simp only [e2, ok_bind]
      rw [tabulate_ok (g := fun j => (List.range (k * r + r)).map (stream keccakF r (wordsB (laneW F j))) ++
        (h j).drop (k * r + r)) (fun j hj => by
          rw [rd1_map (L := L) (fun j => (List.range (k * r)).map (stream keccakF r (wordsB (laneW F j))) ++
            (h j).drop (k * r)) hj, ok_bind, lane j hj]
          rfl), ok_bind])
  simp only at e1 e2 e3 e4
  rw [e]
  exact ⟨F', by simp only [ok_bind, e1, e3], e4⟩

omit hL hp in
theorem laneW_zero (j : Nat) : wordsB (laneW (fun _ _ => 0#64) j) = List.replicate 200 0#8 := by
  have : laneW (fun _ _ => 0#64) j = List.replicate 25 0#64 := rfl
  rw [this]
  decide +kernel

/-- Every lane of the multi-lane function is SHAKE256. -/
theorem shake256x_spec (g : Nat → Nat → Byte) {out inp : Nat → Bytes} {outlen inlen : Nat}
    (ho : ∀ j, j < L → outlen ≤ (out j).length) (hi : ∀ j, j < L → inlen ≤ (inp j).length) :
    shake256x L perm g (inter L fun _ _ => 0#64) ((List.range L).map out) outlen ((List.range L).map inp) inlen =
      .ok ((List.range L).map fun j => Keccak.shake256 ((inp j).take inlen) outlen ++ (out j).drop outlen) := by
  obtain ⟨F1, e1, hw1⟩ := absorbx_spec hL hp (r := 136) (by decide) (by decide) (by decide) (fun j => g (30 + j))
    (F := fun _ _ => 0#64) hi (p := 0x1F#8) (by decide)
  have hq : outlen / 136 * 136 ≤ outlen := Nat.div_mul_le_self _ _
  obtain ⟨F2, e2, hw2⟩ := squeezex_spec hL hp (r := 136) (by decide) (by decide) (by decide) F1
    (h := out) (nb := outlen / 136) (fun j hj => Nat.le_trans hq (ho j hj))
  obtain ⟨F3, e3, hw3⟩ := squeezex_spec hL hp (r := 136) (by decide) (by decide) (by decide) F2
    (h := fun j => uninit (g (40 + j)) 136) (nb := 1) (by simp)
  have hb : ∀ j, j < L → Keccak.shake256 ((inp j).take inlen) outlen =
      (List.range outlen).map (stream keccakF 136 (wordsB (laneW F1 j))) := by
    intro j hj
    rw [shake256_bytes, hw1 j hj, laneW_zero]
  unfold shake256x SHAKE256_RATE
  rw [e1]
  simp only [ok_bind, e2]
  by_cases h0 : outlen % 136 ≠ 0
  · rw [if_pos h0, e3]
    simp only [ok_bind]
    refine tabulate_ok fun j hj => ?_
    rw [rd1_map (L := L) (fun j => (List.range (1 * 136)).map (stream keccakF 136 (wordsB (laneW F2 j))) ++
      (uninit (g (40 + j)) 136).drop (1 * 136)) hj, ok_bind, rd1_map (L := L) (fun j =>
      (List.range (outlen / 136 * 136)).map (stream keccakF 136 (wordsB (laneW F1 j))) ++ (out j).drop (outlen / 136 * 136)) hj,
      ok_bind, hb j hj]
    have hol := ho j hj
    refine forRange_eq' (fun i => (List.range (outlen / 136 * 136 + i)).map (stream keccakF 136 (wordsB (laneW F1 j))) ++
      (out j).drop (outlen / 136 * 136 + i)) rfl
      (by rw [show outlen / 136 * 136 + outlen % 136 = outlen by omega]) ?_
    intro i hi
    have hst : stream keccakF 136 (wordsB (laneW F2 j)) i =
        stream keccakF 136 (wordsB (laneW F1 j)) (outlen / 136 * 136 + i) := by
      rw [stream, stream, hw2 j hj, show i / 136 = 0 by omega,
        show (outlen / 136 * 136 + i) / 136 = outlen / 136 by omega,
        show (outlen / 136 * 136 + i) % 136 = i % 136 by omega]
      rfl
    rw [rd1_ok (by simp; omega), ok_bind, List.getElem_append_left (by simp; omega)]
    simp only [List.getElem_map, List.getElem_range]
    rw [hst]
    exact wr1_fill (g := stream keccakF 136 (wordsB (laneW F1 j))) (by omega)
  · rw [if_neg h0, show outlen / 136 * 136 = outlen by omega]
    congr 1
    apply List.map_congr_left
    intro j hj
    rw [hb j (List.mem_range.1 hj)]

end
end Spx
