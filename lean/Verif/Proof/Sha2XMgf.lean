import Verif.Proof.Sha2XRun
/-! # The lane-parallel MGF1 functions -/

namespace Spx.Sha2X
open Spec Spec.Sha2 Spx.Sha2

/-- Writing the same part of every lane. -/
theorem wr_part {L n o m : Nat} {F x : Nat → Bytes} (hF : ∀ j, j < L → (F j).length = n)
    (hx : ∀ j, j < L → (x j).length = m) (ho : o + m ≤ n) {body : Nat → Bytes → C Bytes}
    (hb : ∀ j b, j < L → body j b = wr b (o + j * n) (x j)) :
    forRange L body (cat L F) = .ok (cat L fun j => (F j).take o ++ x j ++ (F j).drop (o + m)) := by
  refine forRange_eq' (fun t => cat L fun j => if j < t then (F j).take o ++ x j ++ (F j).drop (o + m) else F j)
    ?_ ?_ ?_
  · simp only [Nat.not_lt_zero, if_false]
  · exact cat_congr fun j hj => by rw [if_pos hj]
  · intro t ht
    rw [hb _ _ ht, wr_cat_part (n := n) (j := t) (o := o)
      (fun j hj => by
        have := hF j hj
        have := hx j hj
        split
        · simp only [List.length_append, List.length_take, List.length_drop]; omega
        · exact hF j hj) ht (by rw [Nat.mul_comm, Nat.add_comm]) (by rw [hx t ht]; exact ho)]
    refine congrArg Except.ok (cat_fill_step (G := fun j => (F j).take o ++ x j ++ (F j).drop (o + m)) (F := F) ?_)
    rw [if_neg (by omega), hx t ht]

theorem part_step {M O x : Bytes} {o m n : Nat} (hM : M.length = n) (hO : O.length = n) (ho : o + m ≤ n)
    (hx : x = (M.drop o).take m) :
    (M.take o ++ O.drop o).take o ++ x ++ (M.take o ++ O.drop o).drop (o + m) = M.take (o + m) ++ O.drop (o + m) := by
  have h1 : (M.take o).length = o := by simp; omega
  rw [List.take_left' h1, hx, ← List.take_add, ← List.drop_drop, List.drop_left' h1, List.drop_drop]

section
variable {A : Alg}

/-- A part of one block of MGF1. -/
theorem mgf_part (seed : Bytes) {len i m : Nat} (hw : 0 < A.wb) (hm : m ≤ 8 * A.wb) (hl : i * (8 * A.wb) + m ≤ len) :
    ((mgf1 A seed len).drop (i * (8 * A.wb))).take m = (Sha2.hash A (seed ++ toBE 4 i)).take m := by
  by_cases h0 : m = 0
  · subst h0; rw [List.take_zero, List.take_zero]
  · have hk : i < (len + A.out - 1) / A.out := by
      apply (Nat.le_div_iff_mul_le (by unfold Alg.out; omega)).2
      rw [Nat.succ_mul]
      unfold Alg.out
      omega
    unfold Spec.Sha2.mgf1
    rw [List.drop_take, List.take_take, Nat.min_eq_left (by omega),
      cat_at hk, List.drop_left' (show _ = i * (8 * A.wb) from cat_length fun t _ => hash_length _),
      List.take_append_of_le_length (by rw [hash_length]; exact hm)]

variable {c : XCfg A.wb} (ok : XOK A c)
include ok

omit ok in
theorem toBE_mod (i : Nat) : toBE 4 (i % 2 ^ 32) = toBE 4 i := by
  apply beNat_inj (by simp)
  rw [beNat_toBE, beNat_toBE]
  exact Nat.mod_mod _ _

omit ok in
theorem setCounter_spec {x y : Nat → Bytes} {inlen : Nat} (hx : ∀ j, j < c.L → (x j).length = inlen)
    (hy : ∀ j, j < c.L → (y j).length = 4) (i : Nat) :
    setCounter c (cat c.L fun j => x j ++ y j) inlen i = .ok (cat c.L fun j => x j ++ toBE 4 i) := by
  refine forRange_eq' (fun t => cat c.L fun j => if j < t then x j ++ toBE 4 i else x j ++ y j) ?_ ?_ ?_
  · simp only [Nat.not_lt_zero, if_false]
  · exact cat_congr fun j hj => by rw [if_pos hj]
  · intro t ht
    have hG : ∀ j, j < c.L → (if j < t then x j ++ toBE 4 i else x j ++ y j).length = inlen + 4 := by
      intro j hj
      split
      · simp [hx j hj]
      · simp [hx j hj, hy j hj]
    have hcl := cat_length hG
    have hle : t * (inlen + 4) + (inlen + 4) ≤ c.L * (inlen + 4) := by
      have := Nat.mul_le_mul_right (inlen + 4) ht
      rwa [Nat.succ_mul] at this
    have e := wr_cat_part (n := inlen + 4) (j := t) (o := inlen) (x := toBE 4 i) (off := inlen + t * (inlen + 4))
      hG ht (by rw [Nat.mul_comm, Nat.add_comm]) (by simp)
    rw [wr_ok (by simp; omega)] at e
    rw [withSub_ok (d := toBE 4 i ++ _) (x := ()) (by omega) (by
      rw [u32_to_bytes_spec _ _ (by simp; omega), ok_bind, toBE_mod]), ok_bind]
    simp only [toBE_length] at e
    simp only []
    rw [List.drop_drop, ← List.append_assoc, e]
    refine congrArg Except.ok (cat_fill_step (G := fun j => x j ++ toBE 4 i) (F := fun j => x j ++ y j) ?_)
    rw [if_neg (by omega), List.take_left' (hx t ht), List.drop_of_length_le (by simp [hx t ht, hy t ht]),
      List.append_nil]

theorem counterHash (g : Nat → Nat → Byte) {x : Nat → Bytes} {inlen : Nat} (hx : ∀ j, j < c.L → (x j).length = inlen)
    (hb : inlen + 4 < 2 ^ c.ibits) (hl : 8 * (inlen + 4) < 2 ^ 64) (i : Nat) :
    ∃ d, subLanes c.L (cat c.L fun j => x j ++ toBE 4 i) 0 (inlen + 4) = .ok d ∧
      hashx c g d (inlen + 4) = .ok ((List.range c.L).map fun j => Sha2.hash A (x j ++ toBE 4 i)) := by
  have hG : ∀ j, j < c.L → (x j ++ toBE 4 i).length = inlen + 4 := fun j hj => by simp [hx j hj]
  have hcl := cat_length hG
  have hle : ∀ j, j < c.L → j * (inlen + 4) + (inlen + 4) ≤ c.L * (inlen + 4) := fun j hj => by
    have := Nat.mul_le_mul_right (inlen + 4) hj
    rwa [Nat.succ_mul] at this
  refine ⟨_, subLanes_ok fun j hj => by have := hle j hj; omega, ?_⟩
  rw [hashx_spec ok g (fun j hj => by have := hle j hj; rw [List.length_drop]; omega) hb hl]
  refine congrArg Except.ok (List.map_congr_left fun l hl' => ?_)
  have := cat_chunk hG (List.mem_range.1 hl') []
  rw [List.append_nil] at this
  rw [Nat.zero_add, this]

omit ok in
/-- The copies of the seeds. -/
theorem seed_copy (U : Bytes) {inlen : Nat} (hU : U.length = c.L * (inlen + 4)) {ins : Nat → Bytes}
    (hi : ∀ j, j < c.L → inlen ≤ (ins j).length) :
    ∃ y : Nat → Bytes, (∀ j, j < c.L → (y j).length = 4) ∧
      forRange c.L (fun j b => do wr b (j * (inlen + 4)) (← rd (← rd1 ((List.range c.L).map ins) j) 0 inlen)) U =
        .ok (cat c.L fun j => (ins j).take inlen ++ y j) := by
  have hcl : ∀ j, j < c.L → (chunk (inlen + 4) U j).length = inlen + 4 := fun j hj =>
    chunk_length (by rw [hU]; exact Nat.mul_le_mul_right _ hj)
  refine ⟨fun j => (chunk (inlen + 4) U j).drop inlen, fun j hj => by rw [List.length_drop, hcl j hj]; omega, ?_⟩
  have hUc : U = cat c.L (chunk (inlen + 4) U) := by
    rw [cat_chunks _ _ _ (by omega), List.take_of_length_le (by omega)]
  have := wr_part (o := 0) (m := inlen) (x := fun j => (ins j).take inlen) hcl
    (fun j hj => by have := hi j hj; simp; omega) (by omega)
    (body := fun j b => do wr b (j * (inlen + 4)) (← rd (← rd1 ((List.range c.L).map ins) j) 0 inlen))
    (fun j b hj => by
      rw [rd1_range _ hj, ok_bind, rd_ok (by have := hi j hj; omega), ok_bind, List.drop_zero, Nat.zero_add])
  rw [← hUc] at this
  rw [this]
  refine congrArg Except.ok (cat_congr fun j _ => ?_)
  rw [List.take_zero, List.nil_append, Nat.zero_add]

end

/-- The steps of MGF1 with eight SHA-256 lanes. -/
theorem counter8 (g : Nat → Nat → Byte) {x y : Nat → Bytes} {inlen : Nat} (hx : ∀ j, j < 8 → (x j).length = inlen)
    (hy : ∀ j, j < 8 → (y j).length = 4) (hl : 8 * (inlen + 4) < 2 ^ 64) (i : Nat) :
    setCounter x256 (cat 8 fun j => x j ++ y j) inlen i = .ok (cat 8 fun j => x j ++ toBE 4 i) ∧
    ∃ d, subLanes 8 (cat 8 fun j => x j ++ toBE 4 i) 0 (inlen + 4) = .ok d ∧
      hashx x256 g d (inlen + 4) = .ok ((List.range 8).map fun j => Sha2.hash alg256 (x j ++ toBE 4 i)) :=
  ⟨setCounter_spec (A := alg256) (c := x256) hx hy i, counterHash x256_ok g hx (show inlen + 4 < 2 ^ 64 by omega) hl i⟩

/-- The steps of MGF1 with four SHA-512 lanes. -/
theorem counter4 (g : Nat → Nat → Byte) {x y : Nat → Bytes} {inlen : Nat} (hx : ∀ j, j < 4 → (x j).length = inlen)
    (hy : ∀ j, j < 4 → (y j).length = 4) (hl : inlen + 4 < 2 ^ 32) (i : Nat) :
    setCounter x512 (cat 4 fun j => x j ++ y j) inlen i = .ok (cat 4 fun j => x j ++ toBE 4 i) ∧
    ∃ d, subLanes 4 (cat 4 fun j => x j ++ toBE 4 i) 0 (inlen + 4) = .ok d ∧
      hashx x512 g d (inlen + 4) = .ok ((List.range 4).map fun j => Sha2.hash alg512 (x j ++ toBE 4 i)) :=
  ⟨setCounter_spec (A := alg512) (c := x512) hx hy i, counterHash x512_ok g hx (show inlen + 4 < 2 ^ 32 by omega) (by omega) i⟩

theorem seed_copy8 (U : Bytes) {inlen : Nat} (hU : U.length = 8 * (inlen + 4)) {ins : Nat → Bytes}
    (hi : ∀ j, j < 8 → inlen ≤ (ins j).length) :
    ∃ y : Nat → Bytes, (∀ j, j < 8 → (y j).length = 4) ∧
      forRange 8 (fun j b => do wr b (j * (inlen + 4)) (← rd (← rd1 ((List.range 8).map ins) j) 0 inlen)) U =
        .ok (cat 8 fun j => (ins j).take inlen ++ y j) := seed_copy (A := alg256) (c := x256) U hU hi

theorem seed_copy4 (U : Bytes) {inlen : Nat} (hU : U.length = 4 * (inlen + 4)) {ins : Nat → Bytes}
    (hi : ∀ j, j < 4 → inlen ≤ (ins j).length) :
    ∃ y : Nat → Bytes, (∀ j, j < 4 → (y j).length = 4) ∧
      forRange 4 (fun j b => do wr b (j * (inlen + 4)) (← rd (← rd1 ((List.range 4).map ins) j) 0 inlen)) U =
        .ok (cat 4 fun j => (ins j).take inlen ++ y j) := seed_copy (A := alg512) (c := x512) U hU hi

theorem hash256_length (m : Bytes) : (Sha2.hash alg256 m).length = 32 := hash_length m
theorem hash512_length (m : Bytes) : (Sha2.hash alg512 m).length = 64 := hash_length m
theorem mgf256_length (m : Bytes) (n : Nat) : (Spec.Sha2.mgf1 alg256 m n).length = n := mgf1_length _ _ (by decide)
theorem mgf512_length (m : Bytes) (n : Nat) : (Spec.Sha2.mgf1 alg512 m n).length = n := mgf1_length _ _ (by decide)
theorem mgf_part256 (seed : Bytes) {len i m : Nat} (hm : m ≤ 32) (hl : i * 32 + m ≤ len) :
    (Sha2.hash alg256 (seed ++ toBE 4 i)).take m = ((Spec.Sha2.mgf1 alg256 seed len).drop (i * 32)).take m :=
  (mgf_part (A := alg256) _ (by decide) hm hl).symm
theorem mgf_part512 (seed : Bytes) {len i m : Nat} (hm : m ≤ 64) (hl : i * 64 + m ≤ len) :
    (Sha2.hash alg512 (seed ++ toBE 4 i)).take m = ((Spec.Sha2.mgf1 alg512 seed len).drop (i * 64)).take m :=
  (mgf_part (A := alg512) _ (by decide) hm hl).symm

attribute [local irreducible] Spec.Sha2.hash Spec.Sha2.mgf1 hashx setCounter

section
variable {L n : Nat} {M O : Nat → Bytes} (hM : ∀ j, (M j).length = n) (hO : ∀ j, j < L → (O j).length = n)
include hM hO

/-- Writing the next part of the result of every lane. -/
theorem fill_part {o m : Nat} (ho : o + m ≤ n) {body : Nat → Bytes → C Bytes}
    (hb : ∀ j b, j < L → body j b = wr b (o + j * n) (((M j).drop o).take m)) :
    forRange L body (cat L fun j => (M j).take o ++ (O j).drop o) =
      .ok (cat L fun j => (M j).take (o + m) ++ (O j).drop (o + m)) := by
  rw [wr_part (n := n) (o := o) (m := m) (x := fun j => ((M j).drop o).take m)
    (fun j hj => by
      have := hM j
      have := hO j hj
      simp only [List.length_append, List.length_take, List.length_drop]
      omega)
    (fun j hj => by
      have := hM j
      simp only [List.length_take, List.length_drop]
      omega) ho hb]
  exact congrArg Except.ok (cat_congr fun j hj => part_step (hM j) (hO j hj) ho rfl)

end

theorem mgfStep8_more (g : Nat → Nat → Byte) {outlen inlen i : Nat} {x y M O : Nat → Bytes}
    (hx : ∀ j, j < 8 → (x j).length = inlen) (hy : ∀ j, j < 8 → (y j).length = 4) (hl : 8 * (inlen + 4) < 2 ^ 64)
    (hM : M = fun j => Spec.Sha2.mgf1 alg256 (x j) outlen) (hO : ∀ j, j < 8 → (O j).length = outlen)
    (hi : (i + 1) * 32 ≤ outlen) :
    mgfStep8 g outlen inlen (i, cat 8 (fun j => (M j).take (32 * i) ++ (O j).drop (32 * i)), cat 8 fun j => x j ++ y j) =
      .ok (.inl (i + 1, cat 8 (fun j => (M j).take (32 * (i + 1)) ++ (O j).drop (32 * (i + 1))),
        cat 8 fun j => x j ++ toBE 4 i)) := by
  obtain ⟨e1, d, e2, e3⟩ := counter8 g hx hy hl i
  have e4 : wrLanes 8 (cat 8 fun j => (M j).take (32 * i) ++ (O j).drop (32 * i)) (32 * i) outlen
      ((List.range 8).map fun j => Sha2.hash alg256 (x j ++ toBE 4 i)) =
      .ok (cat 8 fun j => (M j).take (32 * i + 32) ++ (O j).drop (32 * i + 32)) :=
    fill_part (fun j => by rw [hM]; exact mgf256_length _ _) hO (by omega) (fun j b hj => by
      rw [rd1_range _ hj, ok_bind, hM]
      simp only []
      rw [Nat.mul_comm 32 i, ← mgf_part256 _ (by omega) (by omega), List.take_of_length_le (Nat.le_of_eq (hash256_length _))])
  unfold mgfStep8
  simp only []
  rw [if_pos hi, e1, ok_bind, e2, ok_bind, e3, ok_bind, e4, ok_bind, show 32 * i + 32 = 32 * (i + 1) by omega]

/-- `mgf1x8` writes MGF1 of every lane. -/
theorem mgf1x8_spec (g : Nat → Nat → Byte) {out : Bytes} {outlen : Nat} (ho : out.length = 8 * outlen)
    {ins : Nat → Bytes} {inlen : Nat} (hi : ∀ j, j < 8 → inlen ≤ (ins j).length) (hl : 8 * (inlen + 4) < 2 ^ 64) :
    mgf1x8 g out outlen ((List.range 8).map ins) inlen =
      .ok (cat 8 fun j => Spec.Sha2.mgf1 alg256 ((ins j).take inlen) outlen) := by
  obtain ⟨y0, hy0, e1⟩ := seed_copy8 (uninit (g 91) (8 * (inlen + 4))) (inlen := inlen) (by simp) hi
  have hx : ∀ j, j < 8 → ((ins j).take inlen).length = inlen := fun j hj => by have := hi j hj; simp; omega
  have hOc : out = cat 8 (chunk outlen out) := by
    rw [cat_chunks _ _ _ (by omega), List.take_of_length_le (by omega)]
  have hO : ∀ j, j < 8 → (chunk outlen out j).length = outlen := fun j hj =>
    chunk_length (by rw [ho]; exact Nat.mul_le_mul_right _ hj)
  obtain ⟨M, hM⟩ : ∃ M : Nat → Bytes, M = fun j => Spec.Sha2.mgf1 alg256 ((ins j).take inlen) outlen := ⟨_, rfl⟩
  generalize chunk outlen out = O at hOc hO
  have hdm := Nat.div_add_mod outlen 32
  have hml := Nat.mod_lt outlen (show 32 > 0 by omega)
  obtain ⟨r, e2, y, hy, rfl⟩ := loop_inv (body := mgfStep8 g outlen inlen)
    (fun i s => ∃ y : Nat → Bytes, (∀ j, j < 8 → (y j).length = 4) ∧
      s = (i, cat 8 (fun j => (M j).take (32 * i) ++ (O j).drop (32 * i)), cat 8 fun j => (ins j).take inlen ++ y j))
    (fun s => ∃ y : Nat → Bytes, (∀ j, j < 8 → (y j).length = 4) ∧
      s = (outlen / 32, cat 8 (fun j => (M j).take (32 * (outlen / 32)) ++ (O j).drop (32 * (outlen / 32))),
        cat 8 fun j => (ins j).take inlen ++ y j))
    (outlen / 32)
    (by
      rintro i s hik ⟨y, hy, rfl⟩
      exact ⟨_, mgfStep8_more g hx hy hl hM hO (by omega), fun _ => toBE 4 i, fun _ _ => by simp, rfl⟩)
    (by
      rintro s ⟨y, hy, rfl⟩
      refine ⟨_, ?_, y, hy, rfl⟩
      unfold mgfStep8
      simp only []
      rw [if_neg (by omega)])
    (fuel := outlen / 32 + 1) (by omega) (s := (0, out, cat 8 fun j => (ins j).take inlen ++ y0 j))
    ⟨y0, hy0, by
      rw [show out = cat 8 (fun j => (M j).take (32 * 0) ++ (O j).drop (32 * 0)) from hOc.trans (cat_congr fun j _ => by
        rw [Nat.mul_zero, List.take_zero, List.drop_zero, List.nil_append])]⟩
  generalize hk : outlen / 32 = k at e2 hdm
  obtain ⟨e3, d, e4, e5⟩ := counter8 g hx hy hl k
  have e6 := wrLanes_all (k := 8) (n := 32) (b := uninit (g 92) (8 * 32)) (by simp)
    (o := fun j => Sha2.hash alg256 ((ins j).take inlen ++ toBE 4 k)) (fun j _ => hash256_length _)
  have e7 : forRange 8 (fun j out => do wr out (32 * k + j * outlen) (← rd (cat 8 fun j =>
      Sha2.hash alg256 ((ins j).take inlen ++ toBE 4 k)) (j * 32) (outlen - k * 32)))
      (cat 8 fun j => (M j).take (32 * k) ++ (O j).drop (32 * k)) =
      .ok (cat 8 fun j => (M j).take (32 * k + (outlen - k * 32)) ++ (O j).drop (32 * k + (outlen - k * 32))) :=
    fill_part (fun j => by rw [hM]; exact mgf256_length _ _) hO (by omega) (fun j b hj => by
      rw [rd_cat_part (n := 32) (j := j) (o := 0) (fun j _ => hash256_length _) hj (by rw [Nat.mul_comm, Nat.add_zero])
        (by omega), ok_bind, List.drop_zero, hM]
      simp only []
      rw [Nat.mul_comm 32 k, ← mgf_part256 _ (by omega) (by omega)])
  unfold mgf1x8
  rw [hk]
  simp only []
  rw [e1, ok_bind, e2, ok_bind]
  simp only []
  rw [e3, ok_bind, e4, ok_bind, e5, ok_bind, e6, ok_bind, e7]
  refine congrArg Except.ok (cat_congr fun j hj => ?_)
  rw [show 32 * k + (outlen - k * 32) = outlen by omega, List.drop_of_length_le (by rw [hO j hj]; omega), List.append_nil,
    hM]
  exact List.take_of_length_le (Nat.le_of_eq (mgf256_length _ _))

theorem mgfStep4_more (g : Nat → Nat → Byte) {outlen inlen i m : Nat} {x y M O : Nat → Bytes} {ob : Bytes}
    (hx : ∀ j, j < 4 → (x j).length = inlen) (hy : ∀ j, j < 4 → (y j).length = 4) (hl : inlen + 4 < 2 ^ 32)
    (hM : M = fun j => Spec.Sha2.mgf1 alg512 (x j) outlen) (hO : ∀ j, j < 4 → (O j).length = outlen)
    (hob : ob.length = 4 * 64) (hi : 64 * i < outlen)
    (hm : m = if 64 > outlen - 64 * i then outlen - 64 * i else 64) :
    mgfStep4 g outlen inlen (i, outlen - 64 * i, 64 * i, cat 4 (fun j => (M j).take (64 * i) ++ (O j).drop (64 * i)),
        cat 4 (fun j => x j ++ y j), ob) =
      .ok (.inl (i + 1, outlen - 64 * i - m, 64 * i + m,
        cat 4 (fun j => (M j).take (64 * i + m) ++ (O j).drop (64 * i + m)),
        cat 4 (fun j => x j ++ toBE 4 i), cat 4 fun j => Sha2.hash alg512 (x j ++ toBE 4 i))) := by
  have hm64 : m ≤ 64 ∧ 64 * i + m ≤ outlen := by rw [hm]; split <;> omega
  obtain ⟨e1, d, e2, e3⟩ := counter4 g hx hy hl i
  have e4 := wrLanes_all (k := 4) (n := 64) (b := ob) hob
    (o := fun j => Sha2.hash alg512 (x j ++ toBE 4 i)) (fun j _ => hash512_length _)
  have e5 : forRange 4 (fun j out => do wr out (64 * i + j * outlen) (← rd (cat 4 fun j =>
      Sha2.hash alg512 (x j ++ toBE 4 i)) (j * 64) m)) (cat 4 fun j => (M j).take (64 * i) ++ (O j).drop (64 * i)) =
      .ok (cat 4 fun j => (M j).take (64 * i + m) ++ (O j).drop (64 * i + m)) :=
    fill_part (fun j => by rw [hM]; exact mgf512_length _ _) hO hm64.2 (fun j b hj => by
      rw [rd_cat_part (n := 64) (j := j) (o := 0) (fun j _ => hash512_length _) hj (by rw [Nat.mul_comm, Nat.add_zero])
        (by omega), ok_bind, List.drop_zero, hM]
      simp only []
      rw [Nat.mul_comm 64 i, ← mgf_part512 _ (by omega) (by omega)])
  unfold mgfStep4
  simp only []
  rw [if_pos (by omega), ← hm, e1, ok_bind, e2, ok_bind, e3, ok_bind, e4, ok_bind, e5, ok_bind]

/-- `mgf1x4_512` writes MGF1 of every lane. -/
theorem mgf1x4_spec (g : Nat → Nat → Byte) {out : Bytes} {outlen : Nat} (ho : out.length = 4 * outlen)
    {ins : Nat → Bytes} {inlen : Nat} (hi : ∀ j, j < 4 → inlen ≤ (ins j).length) (hl : inlen + 4 < 2 ^ 32) :
    mgf1x4_512 g out outlen ((List.range 4).map ins) inlen =
      .ok (cat 4 fun j => Spec.Sha2.mgf1 alg512 ((ins j).take inlen) outlen) := by
  obtain ⟨y0, hy0, e1⟩ := seed_copy4 (uninit (g 93) (4 * (inlen + 4))) (inlen := inlen) (by simp) hi
  have hx : ∀ j, j < 4 → ((ins j).take inlen).length = inlen := fun j hj => by have := hi j hj; simp; omega
  have hOc : out = cat 4 (chunk outlen out) := by
    rw [cat_chunks _ _ _ (by omega), List.take_of_length_le (by omega)]
  have hO : ∀ j, j < 4 → (chunk outlen out j).length = outlen := fun j hj =>
    chunk_length (by rw [ho]; exact Nat.mul_le_mul_right _ hj)
  obtain ⟨M, hM⟩ : ∃ M : Nat → Bytes, M = fun j => Spec.Sha2.mgf1 alg512 ((ins j).take inlen) outlen := ⟨_, rfl⟩
  generalize chunk outlen out = O at hOc hO
  -- number of iterations and position after `i` of them
  have hpos : ∀ i, i < (outlen + 63) / 64 → 64 * i < outlen := fun i h => by omega
  obtain ⟨r, e2, rfl⟩ := loop_inv (body := mgfStep4 g outlen inlen)
    (fun i s => ∃ (y : Nat → Bytes) (ob : Bytes), (∀ j, j < 4 → (y j).length = 4) ∧ ob.length = 4 * 64 ∧
      s = (i, outlen - min (64 * i) outlen, min (64 * i) outlen,
        cat 4 (fun j => (M j).take (min (64 * i) outlen) ++ (O j).drop (min (64 * i) outlen)),
        cat 4 (fun j => (ins j).take inlen ++ y j), ob))
    (fun s => s = cat 4 fun j => (M j).take outlen ++ (O j).drop outlen)
    ((outlen + 63) / 64)
    (by
      rintro i s hik ⟨y, ob, hy, hob, rfl⟩
      have hp := hpos i hik
      refine ⟨_, ?_, fun _ => toBE 4 i, cat 4 fun j => Sha2.hash alg512 ((ins j).take inlen ++ toBE 4 i),
        fun _ _ => by simp, cat_length fun _ _ => hash512_length _, rfl⟩
      rw [Nat.min_eq_left (show 64 * i ≤ outlen by omega), mgfStep4_more g hx hy hl hM hO hob hp rfl]
      have hmm : 64 * i + (if 64 > outlen - 64 * i then outlen - 64 * i else 64) = min (64 * (i + 1)) outlen := by
        split <;> omega
      rw [Nat.sub_sub, hmm])
    (by
      rintro s ⟨y, ob, hy, hob, rfl⟩
      refine ⟨_, ?_, rfl⟩
      rw [Nat.min_eq_right (show outlen ≤ 64 * ((outlen + 63) / 64) by omega)]
      unfold mgfStep4
      simp only []
      rw [if_neg (by omega)])
    (fuel := outlen / 64 + 2) (by omega)
    (s := (0, outlen, 0, out, cat 4 (fun j => (ins j).take inlen ++ y0 j), uninit (g 94) (4 * 64)))
    ⟨y0, uninit (g 94) (4 * 64), hy0, by simp, by
      rw [show min (64 * 0) outlen = 0 by omega, Nat.sub_zero,
        show out = cat 4 (fun j => (M j).take 0 ++ (O j).drop 0) from hOc.trans (cat_congr fun j _ => by
        rw [List.take_zero, List.drop_zero, List.nil_append])]⟩
  unfold mgf1x4_512
  simp only []
  rw [e1, ok_bind, e2]
  refine congrArg Except.ok (cat_congr fun j hj => ?_)
  rw [List.drop_of_length_le (by rw [hO j hj]; omega), List.append_nil, hM]
  exact List.take_of_length_le (Nat.le_of_eq (mgf512_length _ _))

end Spx.Sha2X
