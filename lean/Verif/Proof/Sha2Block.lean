import Verif.Proof.Sha2Word
/-! The block function of SHA-2. -/

namespace Spx
open Spec Spec.Sha2

section
variable {A : Alg}

theorem schedule_length (M : Nat → BitVec A.w) (n : Nat) : (schedule A M n).length = n := by
  induction n with
  | zero => rfl
  | succ n ih => simp [schedule, ih]

/-- Word `t` of the schedule. -/
def wd (A : Alg) (M : Nat → BitVec A.w) (t : Nat) : BitVec A.w := (schedule A M (t + 1)).getD t 0

theorem schedule_getD (M : Nat → BitVec A.w) {n t : Nat} (h : t < n) : (schedule A M n).getD t 0 = wd A M t := by
  induction n with
  | zero => omega
  | succ n ih =>
    by_cases ht : t = n
    · subst ht; rfl
    · rw [schedule, getD_append_left (by rw [schedule_length]; omega), ih (by omega)]

theorem wd_lt (M : Nat → BitVec A.w) {t : Nat} (h : t < 16) : wd A M t = M t := by
  rw [wd, schedule, getD_append_right (by rw [schedule_length]; omega), schedule_length, Nat.sub_self]
  simp [h]

theorem wd_ge (M : Nat → BitVec A.w) {t : Nat} (h : 16 ≤ t) :
    wd A M t = rot2 A A.s1 (wd A M (t - 2)) + wd A M (t - 7) + rot2 A A.s0 (wd A M (t - 15)) +
      wd A M (t - 16) := by
  rw [wd, schedule, getD_append_right (by rw [schedule_length]; omega), schedule_length, Nat.sub_self]
  simp only [if_neg (show ¬ t < 16 by omega), List.getD_cons_zero]
  rw [schedule_getD M (by omega), schedule_getD M (by omega), schedule_getD M (by omega),
    schedule_getD M (by omega)]

theorem sha_rounds_congr {W W' : Nat → BitVec A.w} (v : Vars A) (n : Nat) (h : ∀ t, t < n → W t = W' t) :
    rounds A W v n = rounds A W' v n := by
  induction n with
  | zero => rfl
  | succ n ih => rw [rounds, rounds, ih (fun t ht => h t (by omega)), h n (by omega)]

theorem expandRows_get (i : Nat) (h : i < 16) :
    Sha2.expandRows[i]? = some (i, (i + 14) % 16, (i + 9) % 16, (i + 1) % 16) := by
  revert i; decide

variable {c : Sha2.Cfg A.wb} {mx : Nat} (ok : CfgOK A c mx)
include ok

theorem expand_prefix (M : Nat → BitVec A.w) (j : Nat) {w : List (BitVec A.w)} (hl : w.length = 16)
    (hw : ∀ i, i < 16 → w.getD i 0 = wd A M (16 * j + i)) (k : Nat) (hk : k ≤ 16) :
    ((Sha2.expandRows.take k).foldl (Sha2.M c) w).length = 16 ∧
    ∀ i, i < 16 → ((Sha2.expandRows.take k).foldl (Sha2.M c) w).getD i 0 =
      wd A M (if i < k then 16 * (j + 1) + i else 16 * j + i) := by
  induction k with
  | zero => exact ⟨hl, fun i hi => by simpa using hw i hi⟩
  | succ k ih =>
    obtain ⟨h1, h2⟩ := ih (by omega)
    rw [List.take_add_one, expandRows_get k (by omega), Option.toList_some, List.foldl_append]
    simp only [List.foldl_cons, List.foldl_nil]
    generalize (Sha2.expandRows.take k).foldl (Sha2.M c) w = x at h1 h2
    refine ⟨by simp [Sha2.M, h1], ?_⟩
    intro i hi
    simp only [Sha2.M]
    by_cases hik : i = k
    · subst hik
      rw [List.getD_eq_getElem?_getD, List.getElem?_set_self (by omega), Option.getD_some,
        h2 _ (Nat.mod_lt _ (by omega)), h2 _ (Nat.mod_lt _ (by omega)), h2 _ (Nat.mod_lt _ (by omega)), h2 _ hi,
        ok.sigma0, ok.sigma1, if_pos (show i < i + 1 by omega), wd_ge _ (by omega : 16 ≤ 16 * (j + 1) + i)]
      have e1 : (if (i + 14) % 16 < i then 16 * (j + 1) + (i + 14) % 16 else 16 * j + (i + 14) % 16) =
          16 * (j + 1) + i - 2 := by split <;> omega
      have e2 : (if (i + 9) % 16 < i then 16 * (j + 1) + (i + 9) % 16 else 16 * j + (i + 9) % 16) =
          16 * (j + 1) + i - 7 := by split <;> omega
      have e3 : (if (i + 1) % 16 < i then 16 * (j + 1) + (i + 1) % 16 else 16 * j + (i + 1) % 16) =
          16 * (j + 1) + i - 15 := by split <;> omega
      have e4 : (if i < i then 16 * (j + 1) + i else 16 * j + i) = 16 * (j + 1) + i - 16 := by
        split <;> omega
      rw [e1, e2, e3, e4]
    · rw [List.getD_eq_getElem?_getD, List.getElem?_set_ne (Ne.symm hik), ← List.getD_eq_getElem?_getD, h2 i hi]
      congr 1
      split <;> split <;> omega

theorem EXPAND_spec (M : Nat → BitVec A.w) (j : Nat) {w : List (BitVec A.w)} (hl : w.length = 16)
    (hw : ∀ i, i < 16 → w.getD i 0 = wd A M (16 * j + i)) :
    (Sha2.EXPAND c w).length = 16 ∧
    ∀ i, i < 16 → (Sha2.EXPAND c w).getD i 0 = wd A M (16 * (j + 1) + i) := by
  obtain ⟨h1, h2⟩ := expand_prefix ok M j hl hw 16 (by omega)
  have e : Sha2.expandRows.take 16 = Sha2.expandRows := by decide
  rw [e] at h1 h2
  refine ⟨h1, fun i hi => ?_⟩
  have := h2 i hi
  rwa [if_pos hi] at this

omit ok in
/-- The working variables of the code as those of the specification. -/
def cv (v : Sha2.Vars A.wb) : Vars A := ⟨v.a, v.b, v.c, v.d, v.e, v.f, v.g, v.h⟩

theorem F_spec (w k : BitVec A.w) (v : Sha2.Vars A.wb) : cv (Sha2.F c w k v) = round A k w (cv v) := by
  simp only [cv, Sha2.F, round, ok.Sigma0, ok.Sigma1]
  rfl

theorem F16_spec {W : Nat → BitVec A.w} {i : Nat} {w : List (BitVec A.w)} (hi : 16 * i + 16 ≤ A.rounds)
    (hw : ∀ j, j < 16 → w.getD j 0 = W (16 * i + j)) {v : Sha2.Vars A.wb} {v0 : Vars A}
    (hv : cv v = rounds A W v0 (16 * i)) :
    cv (Sha2.F16 c w v i) = rounds A W v0 (16 * (i + 1)) := by
  have h : ∀ j, j ≤ 16 → cv ((List.range j).foldl
      (fun v j => Sha2.F c (w.getD j 0) (c.K.getD (16 * i + j) 0) v) v) = rounds A W v0 (16 * i + j) := by
    intro j hj
    induction j with
    | zero => simpa using hv
    | succ j ih =>
      rw [List.range_succ, List.foldl_append]
      simp only [List.foldl_cons, List.foldl_nil]
      rw [F_spec ok, ih (by omega), hw j (by omega), ok.K _ (by omega)]
      rfl
  exact h 16 (Nat.le_refl _)

theorem groups_spec (M : Nat → BitVec A.w) {w : List (BitVec A.w)} (hl : w.length = 16)
    (hw : ∀ i, i < 16 → w.getD i 0 = M i) (v : Sha2.Vars A.wb) (k : Nat) (hk : 16 * k ≤ A.rounds) :
    (Sha2.groups c w v k).1.length = 16 ∧
    (∀ i, i < 16 → (Sha2.groups c w v k).1.getD i 0 = wd A M (16 * (k - 1) + i)) ∧
    cv (Sha2.groups c w v k).2 = rounds A (wd A M) (cv v) (16 * k) := by
  induction k with
  | zero =>
    refine ⟨hl, fun i hi => ?_, rfl⟩
    rw [Nat.zero_sub, Nat.mul_zero, Nat.zero_add, wd_lt _ hi]; exact hw i hi
  | succ k ih =>
    obtain ⟨h1, h2, h3⟩ := ih (by omega)
    simp only [Sha2.groups]
    generalize Sha2.groups c w v k = p at h1 h2 h3
    obtain ⟨w1, v1⟩ := p
    by_cases h0 : k = 0
    · subst h0
      simp only [if_true]
      exact ⟨h1, h2, F16_spec ok hk h2 h3⟩
    · simp only [if_neg h0]
      obtain ⟨h4, h5⟩ := EXPAND_spec ok M (k - 1) h1 h2
      rw [show k - 1 + 1 = k by omega] at h5
      exact ⟨h4, h5, F16_spec ok hk h5 h3⟩

omit ok in
/-- Eight words as working variables. -/
def vars (H : List (BitVec A.w)) : Sha2.Vars A.wb :=
  ⟨H.getD 0 0, H.getD 1 0, H.getD 2 0, H.getD 3 0, H.getD 4 0, H.getD 5 0, H.getD 6 0, H.getD 7 0⟩

theorem step_spec {H : List (BitVec A.w)} (hH : H.length = 8) {w : List (BitVec A.w)} (hl : w.length = 16)
    {b : Bytes} (hw : ∀ i, i < 16 → w.getD i 0 = word A b i) :
    (Sha2.groups c w (vars H) c.groups).2.add (vars H) = vars (compress A H b) := by
  obtain ⟨_, _, h3⟩ := groups_spec ok (word A b) hl hw (vars H) c.groups (by rw [ok.rounds]; omega)
  have hc : cv (vars H) = ofList A H := rfl
  rw [ok.rounds, hc] at h3
  have hr : rounds A (fun t => (schedule A (word A b) A.rounds).getD t 0) (ofList A H) A.rounds =
      rounds A (wd A (word A b)) (ofList A H) A.rounds := sha_rounds_congr _ _ (fun t ht => schedule_getD _ ht)
  unfold compress
  simp only []
  rw [hr, ← h3]
  generalize (Sha2.groups c w (vars H) c.groups).2 = v
  match H, hH with
  | [h0, h1, h2, h3, h4, h5, h6, h7], _ => rfl

omit ok in
theorem compress_length {H : List (BitVec A.w)} (hH : H.length = 8) (b : Bytes) : (compress A H b).length = 8 := by
  simp [compress, toList, hH]

omit ok in
theorem blocks_length {H : List (BitVec A.w)} (hH : H.length = 8) (m : Bytes) (k : Nat) :
    (blocks A H m k).length = 8 := by
  induction k with
  | zero => exact hH
  | succ k ih => exact compress_length ih _

theorem loadWords_spec {x : Bytes} {k : Nat} (h : k * A.wb ≤ x.length) :
    Sha2.loadWords c x k = .ok ((List.range k).map (word A x)) := by
  unfold Sha2.loadWords
  refine forRange_eq' (fun i => (List.range i).map (word A x)) rfl rfl ?_
  intro i hi
  have h2 : (i + 1) * A.wb ≤ x.length := Nat.le_trans (Nat.mul_le_mul_right _ hi) h
  rw [Nat.succ_mul, Nat.mul_comm] at h2
  rw [sub_ok (by omega), ok_bind, ok.load _ (by simp; omega), ok_bind, List.range_succ, List.map_append]
  simp only [List.map_cons, List.map_nil, word, chunk, Nat.mul_comm A.wb i]

omit ok in
theorem word_take (x : Bytes) {i n : Nat} (h : (i + 1) * A.wb ≤ n) : word A (x.take n) i = word A x i := by
  rw [Nat.succ_mul] at h
  unfold word chunk
  rw [List.drop_take, List.take_take, Nat.min_eq_left (by omega)]

omit ok in
theorem wordsBE_length (H : List (BitVec A.w)) : (wordsBE A H).length = H.length * A.wb :=
  cat_length (fun _ _ => by simp)

omit ok in
theorem two_pow_w : 256 ^ A.wb = 2 ^ A.w := by rw [show (256 : Nat) = 2 ^ 8 from rfl, ← Nat.pow_mul]

omit ok in
theorem word_wordsBE (H : List (BitVec A.w)) (rest : Bytes) {i : Nat} (hi : i < H.length) :
    word A (wordsBE A H ++ rest) i = H.getD i 0 := by
  unfold word chunk wordsBE
  rw [cat_chunk (fun _ _ => by simp) hi, beNat_toBE, two_pow_w]
  simp

omit ok in
theorem map_word_wordsBE {H : List (BitVec A.w)} (hH : H.length = 8) (rest : Bytes) :
    (List.range 8).map (word A (wordsBE A H ++ rest)) = H := by
  apply List.ext_getElem?
  intro i
  by_cases hi : i < 8
  · rw [List.getElem?_map, List.getElem?_range hi, Option.map_some, word_wordsBE H rest (by omega),
      getD_lt (by omega), List.getElem?_eq_getElem (by omega)]
  · rw [List.getElem?_eq_none (by simp; omega), List.getElem?_eq_none (by omega)]

omit ok in
/-- Writing piece `i` of a sequence of pieces through a pointer. -/
theorem withSub_cat {α β : Type} {f : Nat → List α} {n i : Nat} {b : List α} {x : β}
    {F : List α → C (List α × β)} (hl : ∀ j, j < i → (f j).length = n)
    (hF : F (b.drop (i * n)) = .ok (f i ++ b.drop ((i + 1) * n), x)) :
    withSub (cat i f ++ b.drop (i * n)) (i * n) F = .ok (cat (i + 1) f ++ b.drop ((i + 1) * n), x) := by
  have h1 : (cat i f).length = i * n := cat_length hl
  rw [withSub_ok (d := f i ++ b.drop ((i + 1) * n)) (x := x) (by simp; omega)
    (by rw [List.drop_left' h1, hF]), List.take_left' h1, cat, List.append_assoc]

/-- The block function of the code processes all complete blocks of the input. -/
theorem hashblocks_spec {H : List (BitVec A.w)} (hH : H.length = 8) {rest inp : Bytes} {inlen : Nat}
    (hi : inlen ≤ inp.length) :
    Sha2.hashblocks c (wordsBE A H ++ rest) inp inlen =
      .ok (wordsBE A (blocks A H inp (inlen / (16 * A.wb))) ++ rest) := by
  have hpos := ok.wb_pos
  have hlen := wordsBE_length H
  have e1 : Sha2.loadWords c (wordsBE A H ++ rest) 8 = .ok H := by
    rw [loadWords_spec ok (by rw [List.length_append, hlen, hH]; omega), map_word_wordsBE hH]
  have e2 : loop (inlen / c.blk + 1) (Sha2.blockStep c) (inp, inlen, vars H, vars H) =
      .ok (inlen - inlen / (16 * A.wb) * (16 * A.wb), vars (blocks A H inp (inlen / (16 * A.wb)))) := by
    refine Eq.trans (congrArg _ ?_) (loop_eq (fun i => (inp.drop (i * (16 * A.wb)), inlen - i * (16 * A.wb),
      vars (blocks A H inp i), vars (blocks A H inp i))) (inlen / (16 * A.wb)) ?_ ?_ ?_)
    · simp [blocks]
    · intro i hii
      have hmul : (i + 1) * (16 * A.wb) ≤ inlen :=
        Nat.le_trans (Nat.mul_le_mul_right _ hii) (Nat.div_mul_le_self _ _)
      have hmul' := hmul
      rw [Nat.succ_mul] at hmul'
      unfold Sha2.blockStep
      simp only []
      rw [ok.blk, if_pos (by omega), loadWords_spec ok (by simp; omega), ok_bind, sub_ok (by simp; omega), ok_bind,
        step_spec ok (blocks_length hH inp i) (by simp) (b := chunk (16 * A.wb) inp i) (by
          intro j hj
          rw [getD_lt (by simpa using hj)]
          simp only [List.getElem_map, List.getElem_range, chunk]
          rw [word_take]
          exact Nat.mul_le_mul_right _ hj)]
      simp only [List.drop_drop, blocks, Alg.blk, Nat.sub_sub, Nat.succ_mul]
    · unfold Sha2.blockStep
      simp only []
      rw [ok.blk, if_neg]
      have h1 := Nat.div_add_mod inlen (16 * A.wb)
      have h2 := Nat.mod_lt inlen (show 16 * A.wb > 0 by omega)
      rw [Nat.mul_comm (16 * A.wb)] at h1
      omega
    · rw [ok.blk]; omega
  unfold Sha2.hashblocks
  rw [e1, ok_bind]
  simp only []
  change (loop (inlen / c.blk + 1) (Sha2.blockStep c) (inp, inlen, vars H, vars H) >>= _) = _
  rw [e2, ok_bind]
  generalize hB : blocks A H inp (inlen / (16 * A.wb)) = B
  have hBl : B.length = 8 := by rw [← hB]; exact blocks_length hH _ _
  have hv : [(vars B).a, (vars B).b, (vars B).c, (vars B).d, (vars B).e, (vars B).f, (vars B).g, (vars B).h] = B := by
    match B, hBl with
    | [h0, h1, h2, h3, h4, h5, h6, h7], _ => rfl
  simp only [hv]
  refine forRange_eq' (fun i => cat i (fun j => toBE A.wb (B.getD j 0).toNat) ++
    (wordsBE A H ++ rest).drop (i * A.wb)) (by simp [cat]) ?_ ?_
  · rw [List.drop_left' (by rw [hlen, hH])]
    simp only [wordsBE, hBl]
  · intro i hi8
    have hb : (i + 1) * A.wb ≤ (wordsBE A H ++ rest).length := by
      rw [List.length_append, hlen, hH]
      exact Nat.le_trans (Nat.mul_le_mul_right _ (show i + 1 ≤ 8 by omega)) (by omega)
    rw [Nat.mul_comm A.wb i, withSub_cat (x := ()) (n := A.wb) (fun _ _ => by simp) (by
      rw [rd1_ok (by omega), ok_bind, ok.store _ _ (by rw [Nat.succ_mul] at hb; simp only [List.length_drop]; omega),
        ok_bind, List.drop_drop, getD_lt (show i < B.length by omega)]
      simp only [Nat.succ_mul]), ok_bind]

end
end Spx
