import Verif.Proof.KatText
import Verif.Proof.Rng
/-! `ReadHex` reads a hexadecimal field. -/

namespace Spx.Kat
open Spec Spec.Kat

/-- Shift a byte string by four bits to the left and put `d` at its end. -/
def nibIn (A : Bytes) (d : Byte) : Bytes :=
  List.zipWith (fun (a b : Byte) => (a <<< 4) ||| (b >>> 4)) A (A.tail ++ [d <<< 4])

theorem nib_or (a b : Byte) : ((a <<< 4) ||| (b >>> 4)).toNat = a.toNat * 16 % 256 + b.toNat / 16 := by
  rw [BitVec.toNat_or, BitVec.toNat_shiftLeft, BitVec.toNat_ushiftRight, Nat.shiftLeft_eq, Nat.shiftRight_eq_div_pow]
  have hb := b.isLt
  exact or_shift_add (k := 4) (by omega) (by omega)

theorem nibIn_length (A : Bytes) (d : Byte) : (nibIn A d).length = A.length := by
  unfold nibIn
  cases A with
  | nil => rfl
  | cons a A => simp

theorem beNat_nibIn (d : Byte) (hd : d.toNat < 16) : ∀ (A : Bytes), A ≠ [] →
    beNat (nibIn A d) = (beNat A * 16 + d.toNat) % 256 ^ A.length := by
  have hdd : (d <<< 4).toNat / 16 = d.toNat := by
    rw [BitVec.toNat_shiftLeft, Nat.shiftLeft_eq]; omega
  intro A
  induction A with
  | nil => intro h; exact absurd rfl h
  | cons a A ih =>
    intro _
    cases A with
    | nil =>
      show 0 * 256 + ((a <<< 4) ||| ((d <<< 4) >>> 4)).toNat = ((0 * 256 + a.toNat) * 16 + d.toNat) % 256 ^ 1
      rw [nib_or, hdd]
      omega
    | cons b A =>
      have e : nibIn (a :: b :: A) d = ((a <<< 4) ||| (b >>> 4)) :: nibIn (b :: A) d := rfl
      have hb := b.isLt
      rw [e, beNat_cons, nibIn_length, ih (by simp), nib_or, beNat_cons a (b :: A), List.length_cons (a := a)]
      have hq : (beNat (b :: A) * 16 + d.toNat) / 256 ^ (b :: A).length = b.toNat / 16 := by
        rw [beNat_cons, List.length_cons, Nat.pow_succ]
        have hA := beNat_lt A
        generalize 256 ^ A.length = N at *
        have h16 : b.toNat * N * 16 = N * (b.toNat * 16) := by rw [Nat.mul_comm b.toNat N, Nat.mul_assoc]
        rw [show (b.toNat * N + beNat A) * 16 + d.toNat = (beNat A * 16 + d.toNat) + N * (b.toNat * 16) by
              rw [Nat.add_mul, h16]; omega,
          ← Nat.div_div_eq_div_mul, Nat.add_mul_div_left _ _ (by omega)]
        have : (beNat A * 16 + d.toNat) / N < 16 := by
          rw [Nat.div_lt_iff_lt_mul (by omega)]; omega
        generalize (beNat A * 16 + d.toNat) / N = x at *
        omega
      have hdm := Nat.div_add_mod (beNat (b :: A) * 16 + d.toNat) (256 ^ (b :: A).length)
      rw [hq] at hdm
      have hlt := Nat.mod_lt (beNat (b :: A) * 16 + d.toNat) (show 0 < 256 ^ (b :: A).length by exact Nat.pow_pos (by decide))
      rw [Nat.pow_succ]
      generalize (beNat (b :: A) * 16 + d.toNat) % 256 ^ (b :: A).length = r at *
      generalize 256 ^ (b :: A).length = N at *
      have hsplit : (a.toNat * N + beNat (b :: A)) * 16 + d.toNat = (a.toNat * 16 + b.toNat / 16) * N + r := by
        rw [Nat.add_mul, Nat.add_assoc, ← hdm, Nat.add_mul]
        have : a.toNat * N * 16 = a.toNat * 16 * N := by rw [Nat.mul_assoc, Nat.mul_comm N, ← Nat.mul_assoc]
        rw [this, Nat.mul_comm N (b.toNat / 16)]
        omega
      rw [hsplit, Nat.mod_mul, Nat.mul_add_mod_self_right, Nat.mod_eq_of_lt hlt, Nat.add_comm ((a.toNat * 16 + b.toNat / 16) * N) r,
        Nat.add_mul_div_right _ _ (by omega), Nat.div_eq_of_lt hlt, Nat.zero_add,
        show (a.toNat * 16 + b.toNat / 16) % 256 = a.toNat * 16 % 256 + b.toNat / 16 by omega, Nat.mul_comm N]
      omega

theorem rd1_mid {pre t : Bytes} {x : Byte} {i : Nat} (h : pre.length = i) : rd1 (pre ++ x :: t) i = .ok x := by
  subst h
  unfold rd1
  simp

theorem wr1_mid {pre t : Bytes} {x y : Byte} {i : Nat} (h : pre.length = i) :
    wr1 (pre ++ x :: t) i y = .ok (pre ++ y :: t) := by
  subst h
  rw [wr1_ok (by simp)]
  simp

/-- One step of `ReadHex` on the array. -/
theorem hex_step {A B : Bytes} {L : Nat} (hL : A.length = L) (h0 : 0 < L) {d : Byte} (hd : d.toNat < 16) :
    (forRange (L - 1) (fun i (A : Bytes) => do
      wr1 A i (((← rd1 A i) <<< 4) ||| ((← rd1 A (i + 1)) >>> 4))) (A ++ B) >>= fun A => do
      wr1 A (L - 1) (((← rd1 A (L - 1)) <<< 4) ||| d)) = .ok (nibIn A d ++ B) := by
  have hnl := nibIn_length A d
  have hget : ∀ i (h : i + 1 < L), (nibIn A d)[i]'(by omega) = ((A[i]'(by omega)) <<< 4) ||| ((A[i + 1]'(by omega)) >>> 4) := by
    intro i h
    unfold nibIn
    rw [List.getElem_zipWith, List.getElem_append_left (by simp; omega), List.getElem_tail]
  have hlast : (nibIn A d)[L - 1]'(by omega) = ((A[L - 1]'(by omega)) <<< 4) ||| d := by
    unfold nibIn
    rw [List.getElem_zipWith, List.getElem_append_right (by simp; omega)]
    simp only [List.length_tail, hL, Nat.sub_self, List.getElem_singleton]
    congr 1
    apply BitVec.eq_of_toNat_eq
    rw [BitVec.toNat_ushiftRight, BitVec.toNat_shiftLeft, Nat.shiftLeft_eq, Nat.shiftRight_eq_div_pow]
    omega
  rw [forRange_eq' (fun i => (nibIn A d).take i ++ (A.drop i ++ B)) (t := (nibIn A d).take (L - 1) ++ (A.drop (L - 1) ++ B))
    (by simp) rfl ?_]
  · have hl : ((nibIn A d).take (L - 1)).length = L - 1 := by simp; omega
    rw [ok_bind, List.drop_eq_getElem_cons (by omega : L - 1 < A.length), List.cons_append, rd1_mid hl, ok_bind, wr1_mid hl,
      ← hlast, show L - 1 + 1 = A.length by omega, List.drop_length, List.nil_append]
    congr 1
    rw [show nibIn A d ++ B = ((nibIn A d).take (L - 1) ++ (nibIn A d).drop (L - 1)) ++ B by rw [List.take_append_drop],
      List.drop_eq_getElem_cons (by omega : L - 1 < (nibIn A d).length), show L - 1 + 1 = (nibIn A d).length by omega,
      List.drop_length, List.append_assoc]
    rfl
  · intro i hi
    have hl : ((nibIn A d).take i).length = i := by simp; omega
    have hl' : ((nibIn A d).take i ++ [A[i]'(by omega)]).length = i + 1 := by simp; omega
    have e2 : rd1 ((nibIn A d).take i ++ (A[i]'(by omega) :: (A[i + 1]'(by omega) :: (A.drop (i + 1 + 1) ++ B)))) (i + 1) =
        .ok (A[i + 1]'(by omega)) := by
      have := rd1_mid hl' (x := A[i + 1]'(by omega)) (t := A.drop (i + 1 + 1) ++ B)
      rwa [List.append_assoc] at this
    rw [List.drop_eq_getElem_cons (by omega : i < A.length), List.cons_append, rd1_mid hl, ok_bind,
      List.drop_eq_getElem_cons (by omega : i + 1 < A.length), List.cons_append, e2, ok_bind, wr1_mid hl,
      List.take_add_one, List.getElem?_eq_getElem (by omega : i < (nibIn A d).length), hget i (by omega)]
    simp

theorem isxdigit_eq (c : Byte) : isxdigit c = isHex c := by
  unfold isxdigit isHex hexVal
  have : ∀ n, n < 256 → decide ((48 ≤ n ∧ n ≤ 57) ∨ (65 ≤ n ∧ n ≤ 70) ∨ (97 ≤ n ∧ n ≤ 102)) =
      (if 48 ≤ n ∧ n ≤ 57 then some (n - 48) else if 65 ≤ n ∧ n ≤ 70 then some (n - 55)
        else if 97 ≤ n ∧ n ≤ 102 then some (n - 87) else none).isSome := by decide +kernel
  exact this c.toNat c.isLt

theorem hex_ich_val {c : Byte} (h : isHex c = true) : (hex_ich c).toNat = (hexVal c).getD 0 ∧ (hexVal c).getD 0 < 16 := by
  unfold isHex at h
  unfold hex_ich
  unfold hexVal at h ⊢
  split <;> rename_i h1
  · rw [BitVec.toNat_ofNat]; simp only [Option.getD_some]; omega
  · rw [if_neg h1] at h
    split <;> rename_i h2
    · rw [BitVec.toNat_ofNat]; simp only [Option.getD_some]; omega
    · rw [if_neg h2] at h
      split <;> rename_i h3
      · rw [BitVec.toNat_ofNat]; simp only [Option.getD_some]; omega
      · rw [if_neg h3] at h; simp at h

/-- The loop of `ReadHex` after the first digit. -/
theorem hex_loop_started {L : Nat} (h0 : 0 < L) (B : Bytes) : ∀ (s A : Bytes), A.length = L →
    loop (s.length + 1) (hex_body L) (s, A ++ B, true) =
      .ok (toBE L ((s.takeWhile isHex).foldl (fun v c => 16 * v + (hexVal c).getD 0) (beNat A)) ++ B,
        (s.dropWhile isHex).drop 1) := by
  intro s
  induction s with
  | nil =>
    intro A hA
    rw [loop_succ]
    show Except.ok (A ++ B, []) = _
    rw [← hA]
    simp [toBE_beNat]
  | cons c s ih =>
    intro A hA
    rw [loop_succ]
    by_cases hc : isHex c = true
    · obtain ⟨hv, hlt⟩ := hex_ich_val hc
      have hb : hex_body L (c :: s, A ++ B, true) = .ok (.inl (s, nibIn A (hex_ich c) ++ B, true)) := by
        unfold hex_body
        simp only [fgetc]
        rw [if_neg (by rw [isxdigit_eq, hc]; decide)]
        have := congrArg (· >>= fun A => (Except.ok (.inl (s, A, true)) : C ((Bytes × Bytes × Bool) ⊕ (Bytes × Bytes))))
          (hex_step (B := B) hA h0 (d := hex_ich c) (by omega))
        simp only [bind_assoc, ok_bind] at this
        exact this
      rw [hb]
      simp only [ok_bind]
      rw [List.length_cons, ih _ (by rw [nibIn_length, hA]), List.takeWhile_cons_of_pos hc, List.dropWhile_cons_of_pos hc, List.foldl_cons,
        beNat_nibIn _ (by omega) _ (by rintro rfl; simp at hA; omega), hv, hA]
      have hmod : ∀ (ds : Bytes) (v w : Nat), v % 256 ^ L = w % 256 ^ L →
          toBE L (ds.foldl (fun v c => 16 * v + (hexVal c).getD 0) v) =
            toBE L (ds.foldl (fun v c => 16 * v + (hexVal c).getD 0) w) := by
        intro ds
        induction ds with
        | nil => intro v w h; rw [List.foldl_nil, List.foldl_nil, ← Rng.toBE_mod L v, h, Rng.toBE_mod]
        | cons x ds ih' =>
          intro v w h
          rw [List.foldl_cons, List.foldl_cons]
          apply ih'
          rw [Nat.add_mod, Nat.mul_mod, h, ← Nat.mul_mod, ← Nat.add_mod]
      rw [hmod _ _ (16 * beNat A + (hexVal c).getD 0) (by rw [Nat.mod_mod, Nat.mul_comm])]
    · have hcf : isHex c = false := by simpa using hc
      have hb : hex_body L (c :: s, A ++ B, true) = .ok (.inr (A ++ B, s)) := by
        unfold hex_body
        simp only [fgetc]
        rw [if_pos (by rw [isxdigit_eq, hcf]), if_neg (by decide)]
      rw [hb, List.takeWhile_cons_of_neg hc, List.dropWhile_cons_of_neg hc]
      simp only [ok_bind, List.foldl_nil, List.drop_succ_cons, List.drop_zero]
      rw [← hA, toBE_beNat]

/-- The loop of `ReadHex`. -/
theorem hex_loop {L : Nat} (h0 : 0 < L) (B : Bytes) : ∀ (s : Bytes),
    loop (s.length + 1) (hex_body L) (s, List.replicate L 0#8 ++ B, false) =
      .ok (toBE L (hexNat (hexField s).1) ++ B, (hexField s).2) := by
  have hz : beNat (List.replicate L 0#8) = 0 := by
    have hz : ∀ k, beNat (List.replicate k 0#8) = 0 := by
      intro k
      induction k with
      | zero => rfl
      | succ k ih => rw [List.replicate_succ, beNat_cons, ih]; simp
    exact hz L
  have hz2 : toBE L 0 = List.replicate L 0#8 := by
    have := toBE_beNat (List.replicate L 0#8)
    rwa [hz, List.length_replicate] at this
  intro s
  induction s with
  | nil =>
    rw [loop_succ]
    show Except.ok (List.replicate L 0#8 ++ B, []) = Except.ok (toBE L 0 ++ B, [])
    rw [hz2]
  | cons c s ih =>
    by_cases hc : isHex c = true
    · have e := hex_loop_started h0 B (c :: s) (List.replicate L 0#8) (by simp)
      have hf : hexField (c :: s) = ((c :: s).takeWhile isHex, ((c :: s).dropWhile isHex).drop 1) := by
        unfold hexField
        rw [List.dropWhile_cons_of_neg (by simp [hc])]
      have hbs : hex_body L (c :: s, List.replicate L 0#8 ++ B, false) = hex_body L (c :: s, List.replicate L 0#8 ++ B, true) := by
        unfold hex_body
        simp only [fgetc]
        rw [if_neg (by rw [isxdigit_eq, hc]; decide), if_neg (by rw [isxdigit_eq, hc]; decide)]
      rw [hf, hexNat, loop_succ, hbs, ← loop_succ, e, hz]
    · have hcf : isHex c = false := by simpa using hc
      rw [loop_succ]
      by_cases hn : c = 10#8
      · subst hn
        have hf : hexField (10#8 :: s) = ([], s) := by
          unfold hexField
          rw [List.dropWhile_cons_of_neg (by simp)]
          dsimp only
          rw [List.takeWhile_cons_of_neg hc, List.dropWhile_cons_of_neg hc]
          rfl
        rw [hf]
        show Except.ok (List.replicate L 0#8 ++ B, s) = Except.ok (toBE L 0 ++ B, s)
        rw [hz2]
      · have hb : hex_body L (c :: s, List.replicate L 0#8 ++ B, false) = .ok (.inl (s, List.replicate L 0#8 ++ B, false)) := by
          unfold hex_body
          simp only [fgetc]
          rw [if_pos (by rw [isxdigit_eq, hcf]), if_pos trivial, if_neg hn]
        have hf : hexField (c :: s) = hexField s := by
          unfold hexField
          rw [List.dropWhile_cons_of_pos (by simp [hcf, hn])]
        rw [hb, hf]
        simp only [ok_bind, List.length_cons]
        exact ih

/-- `ReadHex` for a positive length. -/
theorem ReadHex_ok (g : Nat → Byte) (infile : Bytes) {A str : Bytes} {L : Nat} (hL : L ≤ A.length) (h0 : 0 < L)
    (hlt : L < 2 ^ 64) (hs : 0#8 ∉ str) :
    ReadHex g infile A L str = .ok (match afterFirst (str.take 49) infile with
      | some r => (1, toBE L (hexNat (hexField r).1) ++ A.drop L, (hexField r).2)
      | none => (0, List.replicate L 0#8 ++ A.drop L, [])) := by
  unfold ReadHex
  rw [if_neg (by omega), show ((L : Int) % (2 : Int) ^ 64).toNat = L by omega, wr_ok (by simpa using hL)]
  simp only [ok_bind, List.take_zero, List.nil_append, Nat.zero_add, List.length_replicate]
  rw [FindMarker_ok g infile hs]
  cases afterFirst (str.take 49) infile with
  | none => rfl
  | some r =>
    simp only [ok_bind]
    rw [if_pos (by decide), Int.toNat_natCast, hex_loop h0]
    rfl

/-- Printing and reading are inverse. -/
theorem hexNat_print (b : Bytes) : (∀ c ∈ b.flatMap pct_02X, isHex c = true) ∧ hexNat (b.flatMap pct_02X) = beNat b := by
  have hd : ∀ d, d < 16 → hexVal (pct_X1 d) = some d := by decide
  have hh : ∀ d, d < 16 → isHex (pct_X1 d) = true := fun d h => by unfold isHex; rw [hd d h]; rfl
  constructor
  · intro c hc
    obtain ⟨x, _, hx⟩ := List.mem_flatMap.1 hc
    have := x.isLt
    unfold pct_02X at hx
    rcases List.mem_cons.1 hx with rfl | hx
    · exact hh _ (by omega)
    · rw [List.mem_singleton.1 hx]; exact hh _ (by omega)
  · suffices h : ∀ v, (b.flatMap pct_02X).foldl (fun v c => 16 * v + (hexVal c).getD 0) v =
        b.foldl (fun a b => a * 256 + b.toNat) v from h 0
    intro v
    induction b generalizing v with
    | nil => rfl
    | cons x b ih =>
      have := x.isLt
      have e : (pct_02X x).foldl (fun v c => 16 * v + (hexVal c).getD 0) v = v * 256 + x.toNat := by
        show 16 * (16 * v + (hexVal (pct_X1 (x.toNat / 16))).getD 0) + (hexVal (pct_X1 (x.toNat % 16))).getD 0 = _
        rw [hd _ (by omega), hd _ (by omega)]
        simp only [Option.getD_some]
        omega
      rw [List.flatMap_cons, List.foldl_append, List.foldl_cons, e]
      exact ih _

theorem hexField_print {b : Bytes} (hb : b ≠ []) {c : Byte} (hc : isHex c = false) (rest : Bytes) :
    hexField (b.flatMap pct_02X ++ c :: rest) = (b.flatMap pct_02X, rest) := by
  obtain ⟨h, -⟩ := hexNat_print b
  have hne : b.flatMap pct_02X ≠ [] := by
    cases b with
    | nil => exact absurd rfl hb
    | cons x b => simp [pct_02X]
  generalize b.flatMap pct_02X = ds at *
  unfold hexField
  have h1 : (ds ++ c :: rest).dropWhile (fun c => !isHex c && c ≠ 10#8) = ds ++ c :: rest := by
    cases ds with
    | nil => exact absurd rfl hne
    | cons d ds => rw [List.cons_append, List.dropWhile_cons_of_neg (by simp [h d List.mem_cons_self])]
  rw [h1]
  dsimp only
  rw [List.takeWhile_append_of_pos h, List.dropWhile_append_of_pos h, List.takeWhile_cons_of_neg (by simp [hc]),
    List.dropWhile_cons_of_neg (by simp [hc])]
  simp

end Spx.Kat
