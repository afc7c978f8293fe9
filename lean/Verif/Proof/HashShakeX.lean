import Verif.Proof.KeccakX4
import Verif.Proof.FipsX
import Verif.Proof.HashShake
/-! The two-lane and four-lane SHAKE hash functions compute the specified functions in every lane. -/

namespace Spx
open Spec Spec.Keccak

attribute [local irreducible] keccakF

/-! ### Words of byte strings -/

theorem byteOf_ldW {m : Bytes} {i c : Nat} (h : 8 * i + 8 ≤ m.length) (hc : c < 8) :
    byteOf (ldW m i) c = m.getD (8 * i + c) 0 := by
  obtain ⟨v, hv, hb⟩ := load64_spec (x := m.drop (8 * i)) (by simp; omega)
  rw [load64_ldW h] at hv
  cases hv
  rw [hb c hc]
  simp [List.getD]

theorem ldW_eq {m : Bytes} {i : Nat} {w : BitVec 64} (h : 8 * i + 8 ≤ m.length)
    (hw : ∀ c, c < 8 → byteOf w c = m.getD (8 * i + c) 0) : ldW m i = w :=
  word_ext fun c hc => by rw [byteOf_ldW h hc, hw c hc]

theorem ldW_append_left {a b : Bytes} {i : Nat} (h : 8 * i + 8 ≤ a.length) : ldW (a ++ b) i = ldW a i :=
  ldW_eq (by simp; omega) fun c hc => by rw [byteOf_ldW h hc, getD_append_left (by omega)]

theorem ldW_append_right {a b : Bytes} {i k : Nat} (ha : a.length = 8 * k) (hk : k ≤ i)
    (h : 8 * (i - k) + 8 ≤ b.length) : ldW (a ++ b) i = ldW b (i - k) :=
  ldW_eq (by simp; omega) fun c hc => by
    rw [byteOf_ldW h hc, getD_append_right (by omega), show 8 * i + c - a.length = 8 * (i - k) + c by omega]

theorem ldW_take {m : Bytes} {i t : Nat} (ht : 8 * i + 8 ≤ t) (h : 8 * i + 8 ≤ m.length) :
    ldW (m.take t) i = ldW m i :=
  ldW_eq (by simp; omega) fun c hc => by
    rw [byteOf_ldW h hc]
    simp [List.getD, show 8 * i + c < t by omega]

theorem ldW_xor {a b : Bytes} {i : Nat} (ha : 8 * i + 8 ≤ a.length) (hb : 8 * i + 8 ≤ b.length) :
    ldW (xorBytes a b) i = ldW a i ^^^ ldW b i :=
  ldW_eq (by simp [xorBytes]; omega) fun c hc => by
    rw [byteOf_xor, byteOf_ldW ha hc, byteOf_ldW hb hc, getD_lt (by omega), getD_lt (by omega),
      getD_lt (by simp [xorBytes]; omega)]
    simp [xorBytes]

theorem ldW_wordsB {l : List (BitVec 64)} {i : Nat} (h : i < l.length) : ldW (wordsB l) i = l.getD i 0 := by
  refine ldW_eq (by simp; omega) fun c hc => ?_
  rw [wordsB_getD (by omega), show (8 * i + c) / 8 = i by omega, show (8 * i + c) % 8 = c by omega]

/-! ### One block -/

/-- Word `i` of the padded block of a message of `q` words. -/
def blkW (m : Bytes) (q i : Nat) : BitVec 64 :=
  if i < q then ldW m i else (if i = q then 0x1f#64 else 0) ^^^ (if i = 16 then 0x80#64 <<< 56 else 0)

theorem byteOf_1f {c : Nat} (hc : c < 8) : byteOf 0x1f#64 c = if c = 0 then 0x1f#8 else 0 := by
  have : ∀ c : Fin 8, byteOf 0x1f#64 c = if (c : Nat) = 0 then 0x1f#8 else 0 := by decide
  exact this ⟨c, hc⟩

theorem byteOf_80 {c : Nat} (hc : c < 8) : byteOf (0x80#64 <<< 56) c = if c = 7 then 0x80#8 else 0 := by
  have : ∀ c : Fin 8, byteOf (0x80#64 <<< 56) c = if (c : Nat) = 7 then 0x80#8 else 0 := by decide
  exact this ⟨c, hc⟩

theorem byteOf_0 (c : Nat) : byteOf 0#64 c = 0#8 := by simp [byteOf]

theorem block_words {F : Nat → VReg} {m : Bytes} {q j : Nat} (hm : m.length = 8 * q) (hq : q ≤ 16)
    (hF : ∀ i, i < 25 → F i j = blkW m q i) :
    wordsB (laneW F j) = padState 136 0x1F#8 (m.foldl (absB keccakF 136) (List.replicate 200 0#8, 0)) := by
  rw [foldl_absB_lt _ _ _ _ _ (by omega), padState]
  apply List.ext_getElem?
  intro c
  simp only [List.getElem?_modify, xorAt_get, Nat.zero_le, if_true, Nat.sub_zero, Nat.zero_add, hm]
  by_cases hc : c < 200
  · rw [wordsB_get (by rw [laneW_length]; omega), laneW_getD _ _ (by omega), hF _ (by omega),
      List.getElem?_replicate, if_pos hc]
    have h8 : c % 8 < 8 := Nat.mod_lt _ (by decide)
    unfold blkW
    by_cases h1 : c / 8 < q
    · rw [if_pos h1, byteOf_ldW (by omega) h8, show 8 * (c / 8) + c % 8 = c by omega]
      have e1 : ¬ 136 - 1 = c := by omega
      have e2 : ¬ 8 * q = c := by omega
      simp [e1, e2]
    · have hg : m.getD c 0#8 = 0#8 := getD_ge (by omega)
      rw [if_neg h1, byteOf_xor, hg]
      have e1 : byteOf (if c / 8 = q then 0x1f#64 else 0) (c % 8) = if 8 * q = c then 0x1f#8 else 0 := by
        by_cases h : c / 8 = q
        · rw [if_pos h, byteOf_1f h8]
          by_cases h' : c % 8 = 0
          · rw [if_pos h', if_pos (by omega)]
          · rw [if_neg h', if_neg (by omega)]
        · rw [if_neg h, if_neg (by omega)]; exact byteOf_0 _
      have e2 : byteOf (if c / 8 = 16 then 0x80#64 <<< 56 else 0) (c % 8) = if 136 - 1 = c then 0x80#8 else 0 := by
        by_cases h : c / 8 = 16
        · rw [if_pos h, byteOf_80 h8]
          by_cases h' : c % 8 = 7
          · rw [if_pos h', if_pos (by omega)]
          · rw [if_neg h', if_neg (by omega)]
        · rw [if_neg h, if_neg (by omega)]; exact byteOf_0 _
      rw [e1, e2]
      by_cases h1 : 8 * q = c <;> by_cases h2 : 136 - 1 = c <;> simp [h1, h2]
  · rw [List.getElem?_eq_none (by simp; omega), List.getElem?_replicate, if_neg hc]
    simp

theorem shake256_one {m : Bytes} {n : Nat} (hn : n ≤ 136) : Keccak.shake256 m n =
    (keccakF (padState 136 0x1F#8 (m.foldl (absB keccakF 136) (List.replicate 200 0#8, 0)))).take n := by
  rw [shake256_bytes]
  generalize padState 136 0x1F#8 (m.foldl (absB keccakF 136) (List.replicate 200 0#8, 0)) = S
  have hl : (keccakF S).length = 200 := keccakF_length S
  apply List.ext_getElem?
  intro c
  rw [List.getElem?_take]
  by_cases hc : c < n
  · rw [if_pos hc, List.getElem?_map, List.getElem?_range hc, Option.map_some, stream,
      show c / 136 = 0 by omega, Nat.mod_eq_of_lt (by omega)]
    show some ((keccakF S).getD c 0) = _
    rw [getD_lt (by omega), List.getElem?_eq_getElem]
  · rw [if_neg hc, List.getElem?_eq_none (by simp; omega)]

/-! ### States built by hand -/

/-- Words `a … a+k-1` replaced by `v 0 … v (k-1)`. -/
def lanePut (F : Nat → VReg) (a k : Nat) (v : Nat → VReg) : Nat → VReg :=
  fun i j => if a ≤ i ∧ i < a + k then v (i - a) j else F i j

theorem put_loop {L : Nat} (hL : 0 < L) {F : Nat → VReg} {a k : Nat} (hk : a + k ≤ 25) {v : Nat → VReg}
    {body : Nat → List (BitVec 64) → C (List (BitVec 64))} (hb : ∀ i s, i < k → body i s = setw L s (a + i) (v i)) :
    forRange k body (inter L F) = .ok (inter L (lanePut F a k v)) := by
  refine forRange_eq' (fun t => inter L (lanePut F a t v)) ?_ rfl ?_
  · refine inter_congr fun i j _ _ => ?_
    simp only [lanePut]
    rw [if_neg (by omega)]
  · intro i hi
    rw [hb i _ hi, setw_inter hL _ (by omega)]
    congr 1
    refine inter_congr fun t j _ _ => ?_
    unfold upd lanePut
    by_cases h1 : t = a + i
    · subst h1
      simp only [if_true]
      rw [if_pos (by omega), show a + i - a = i by omega]
    · simp only [if_neg h1]
      by_cases h2 : a ≤ t ∧ t < a + i
      · rw [if_pos h2, if_pos (by omega)]
      · rw [if_neg h2, if_neg (by omega)]

section
variable {L : Nat} (hL : 0 < L)
include hL

theorem seedLanes_ok {F : Nat → VReg} {n at0 : Nat} (ha : at0 + n / 8 ≤ 25) {seed : Bytes} (hs : n ≤ seed.length) :
    seedLanes L n at0 seed (inter L F) = .ok (inter L (lanePut F at0 (n / 8) fun i _ => ldW seed i)) := by
  refine put_loop hL ha fun i s hi => ?_
  rw [sub_ok (by omega), ok_bind, load64_ldW (by omega), ok_bind]
  rfl

theorem zeroWords_ok {F : Nat → VReg} {a b : Nat} (hb : b ≤ 25) (ha : a ≤ 25) :
    zeroWords L a b (inter L F) = .ok (inter L (lanePut F a (b - a) fun _ _ => 0)) :=
  put_loop hL (by omega) fun _ _ _ => rfl

theorem xorWord_ok {F : Nat → VReg} {i : Nat} (hi : i < 25) (w : BitVec 64) :
    xorWord L (inter L F) i w = .ok (inter L (upd F i fun j => F i j ^^^ w)) := by
  unfold xorWord
  rw [getw_inter hL F hi, ok_bind, setw_inter hL F hi]
  congr 1
  refine inter_congr fun t j _ hj => ?_
  unfold upd
  by_cases h : t = i
  · simp [h, vxor, vdup, hj]
  · simp [h]

omit hL in
theorem addrWord_ok {ad : Addr} {k : Nat} (h : 4 * k + 4 ≤ ad.length) :
    ∃ v, addrWord ad k = .ok v ∧ ∀ c, c < 4 → (v >>> (8 * c)).truncate 8 = ad.getD (4 * k + c) 0 := by
  unfold addrWord
  obtain ⟨v, hv, hI⟩ := forRange_inv (n := 4) (s := 0#32)
    (body := fun i r => do .ok (r ||| ((← rd1 ad (4 * k + i)).zeroExtend 32 <<< (8 * i))))
    (fun i v => ∀ c, c < 4 → (v >>> (8 * c)).truncate 8 = if c < i then ad.getD (4 * k + c) 0 else 0)
    (by intro c _; simp) (by
      intro i r hi hr
      refine ⟨_, by rw [rd1_ok (by omega)]; rfl, ?_⟩
      intro c hc
      have e : ((ad[4 * k + i]'(by omega)).zeroExtend 32 <<< (8 * i) >>> (8 * c)).truncate 8 =
          if c = i then ad[4 * k + i]'(by omega) else 0#8 := by
        generalize ad[4 * k + i]'(by omega) = b
        apply BitVec.eq_of_getLsbD_eq
        intro t ht
        simp only [BitVec.truncate_eq_setWidth, BitVec.getLsbD_setWidth, BitVec.getLsbD_ushiftRight,
          BitVec.getLsbD_shiftLeft, ht]
        by_cases h : c = i
        · subst h
          simp [show 8 * c + t < 32 by omega, show t < 32 by omega, show ¬ 8 * c + t < 8 * c by omega]
        · simp only [h, if_false]
          by_cases h2 : c < i
          · simp [show 8 * c + t < 8 * i by omega]
          · have : b.getLsbD (8 * c + t - 8 * i) = false := BitVec.getLsbD_of_ge _ _ (by omega)
            simp [this]
      rw [BitVec.ushiftRight_or_distrib, BitVec.truncate_eq_setWidth, BitVec.setWidth_or, ← BitVec.truncate_eq_setWidth,
        hr c hc, ← BitVec.truncate_eq_setWidth, e]
      by_cases h1 : c = i
      · subst h1; simp [show 4 * k + c < ad.length by omega]
      · by_cases h2 : c < i
        · simp [h1, h2, show c < i + 1 by omega]
        · simp [h1, h2, show ¬ c < i + 1 by omega])
  exact ⟨v, hv, fun c hc => by rw [hI c hc, if_pos hc]⟩

omit hL in
theorem addrLane_ok {ad : Addr} {i : Nat} (h : 8 * i + 8 ≤ ad.length) :
    (do let hi ← addrWord ad (1 + 2 * i)
        let lo ← addrWord ad (2 * i)
        .ok ((hi.zeroExtend 64 <<< 32) ||| lo.zeroExtend 64) : C (BitVec 64)) = .ok (ldW ad i) := by
  obtain ⟨hi, e1, h1⟩ := addrWord_ok (ad := ad) (k := 1 + 2 * i) (by omega)
  obtain ⟨lo, e2, h2⟩ := addrWord_ok (ad := ad) (k := 2 * i) (by omega)
  rw [e1, ok_bind, e2, ok_bind]
  congr 1
  symm
  refine ldW_eq h fun c hc => ?_
  rw [byteOf_or]
  by_cases h4 : c < 4
  · have e : byteOf (hi.zeroExtend 64 <<< 32) c = 0#8 := by
      apply BitVec.eq_of_getLsbD_eq
      intro t ht
      simp [byteOf, show 8 * c + t < 32 by omega]
    have e' : byteOf (lo.zeroExtend 64) c = (lo >>> (8 * c)).truncate 8 := by
      apply BitVec.eq_of_getLsbD_eq
      intro t ht
      simp [byteOf, ht, show 8 * c + t < 64 by omega]
    rw [e, e', h2 c h4, show 4 * (2 * i) + c = 8 * i + c by omega]
    simp
  · have e : byteOf (hi.zeroExtend 64 <<< 32) c = (hi >>> (8 * (c - 4))).truncate 8 := by
      apply BitVec.eq_of_getLsbD_eq
      intro t ht
      simp [byteOf, ht, show ¬ 8 * c + t < 32 by omega, show 8 * c + t < 64 by omega,
        show 8 * c + t - 32 = 8 * (c - 4) + t by omega]
    have e' : byteOf (lo.zeroExtend 64) c = 0#8 := by
      apply BitVec.eq_of_getLsbD_eq
      intro t ht
      have : lo.getLsbD (8 * c + t) = false := BitVec.getLsbD_of_ge _ _ (by omega)
      simp [byteOf, this]
    rw [e, e', h1 (c - 4) (by omega), show 4 * (1 + 2 * i) + (c - 4) = 8 * i + c by omega]
    simp

theorem putAddrs_ok {F : Nat → VReg} {at0 : Nat} (ha : at0 + 4 ≤ 25) {ad : Nat → Addr}
    (hl : ∀ j, j < L → (ad j).length = 32) :
    putAddrs L at0 ((List.range L).map ad) (inter L F) =
      .ok (inter L (lanePut F at0 4 fun i j => if j < L then ldW (ad j) i else 0)) := by
  refine put_loop hL ha fun i s hi => ?_
  unfold addrLanes
  rw [tabulate_ok (g := fun j => ldW (ad j) i) (fun j hj => by
    rw [rd1_map ad hj, ok_bind, addrLane_ok (by rw [hl j hj]; omega)]), ok_bind, ok_bind]
  congr 1
  funext j
  exact map_getD _ _ _

theorem outLanes_ok {F : Nat → VReg} {n : Nat} (h8 : n % 8 = 0) (hn : n ≤ 200) (g : Nat → Nat → Byte) :
    outLanes L n g (inter L F) = .ok ((List.range L).map fun j => (wordsB (laneW F j)).take n) := by
  refine tabulate_ok fun j hj => ?_
  rw [storeLane_ok hL F hj (by omega) (by simp; omega), List.drop_of_length_le (by simp; omega),
    show 8 * (n / 8) = n by omega]
  simp

variable {perm : List (BitVec 64) → C (List (BitVec 64))} (hp : PermOK L perm)
include hp

omit hL in
/-- The state after the permutation, when the state before was a padded block in each lane. -/
theorem perm_block {F : Nat → VReg} {m : Nat → Bytes} {q : Nat} (hq : q ≤ 16)
    (hm : ∀ j, j < L → (m j).length = 8 * q) (hF : ∀ i j, i < 25 → j < L → F i j = blkW (m j) q i) :
    ∃ F', perm (inter L F) = .ok (inter L F') ∧
      ∀ j, j < L → ∀ n, n ≤ 136 → (wordsB (laneW F' j)).take n = Keccak.shake256 (m j) n := by
  refine ⟨_, hp F, fun j hj n hn => ?_⟩
  rw [kf_bytes, block_words (hm j hj) hq (fun i hi => hF i j hi hj), shake256_one hn]

theorem perm_out {F : Nat → VReg} {m : Nat → Bytes} {q : Nat} (hq : q ≤ 16)
    (hm : ∀ j, j < L → (m j).length = 8 * q) (hF : ∀ i j, i < 25 → j < L → F i j = blkW (m j) q i)
    {n : Nat} (h8 : n % 8 = 0) (hn : n ≤ 136) (g : Nat → Nat → Byte) :
    (do outLanes L n g (← perm (inter L F))) = .ok ((List.range L).map fun j => Keccak.shake256 (m j) n) := by
  obtain ⟨F', e, h⟩ := perm_block hp hq hm hF
  rw [e, ok_bind, outLanes_ok hL h8 (by omega)]
  congr 1
  exact List.map_congr_left fun j hj => h j (List.mem_range.1 hj) n hn

/-! ### The messages -/

omit hL hp in
/-- Words of `PK.seed ‖ address ‖ data`. -/
theorem msg_word {pub ad x : Bytes} {N : Nat} (h1 : pub.length = 8 * N) (h2 : ad.length = 32) {i : Nat}
    (hi : 8 * i + 8 ≤ 8 * N + 32 + x.length) : ldW (pub ++ ad ++ x) i =
      if i < N then ldW pub i else if i < N + 4 then ldW ad (i - N) else ldW x (i - (N + 4)) := by
  by_cases a : i < N
  · rw [if_pos a, ldW_append_left (by simp; omega), ldW_append_left (by omega)]
  · rw [if_neg a]
    by_cases b : i < N + 4
    · rw [if_pos b, ldW_append_left (by simp; omega), ldW_append_right h1 (by omega) (by omega)]
    · rw [if_neg b, ldW_append_right (k := N + 4) (by simp; omega) (by omega) (by omega)]

omit hL hp in
theorem msg_word0 {pub ad : Bytes} {N : Nat} (h1 : pub.length = 8 * N) (h2 : ad.length = 32) {i : Nat}
    (hi : i < N + 4) : ldW (pub ++ ad) i = if i < N then ldW pub i else ldW ad (i - N) := by
  have := msg_word (x := []) h1 h2 (i := i) (by simp; omega)
  rw [List.append_nil, if_pos hi] at this
  exact this

/-- Decide the comparisons of `i` with constants. -/
macro "ifs" : tactic => `(tactic| simp (disch := omega) only [if_pos, if_neg])

end
end Spx
