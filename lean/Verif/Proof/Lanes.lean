import Verif.Proof.Refine
import Verif.Proof.Arith
import Verif.Proof.List
import Verif.Model.Parallel
/-! Lane operations of the parallel code. -/

namespace Spx
open Spec

theorem tabulate_ok {α : Type} {k : Nat} {f : Nat → C α} {g : Nat → α}
    (h : ∀ j, j < k → f j = .ok (g j)) : tabulate k f = .ok ((List.range k).map g) := by
  refine forRange_eq' (fun j => (List.range j).map g) rfl rfl ?_
  intro j hj
  simp only [h j hj, ok_bind]
  rw [List.range_succ, List.map_append]
  rfl

theorem map_range_set {α : Type} {L j : Nat} {A : Nat → α} {x : α} :
    ((List.range L).map A).set j x = (List.range L).map (fun i => if i = j then x else A i) := by
  apply List.ext_getElem?
  intro i
  rw [List.getElem?_set]
  by_cases hij : j = i
  · subst hij
    rw [if_pos rfl]
    by_cases hi : j < L
    · simp [hi]
    · simp [hi]
  · rw [if_neg hij]
    by_cases hi : i < L
    · simp [hi, Ne.symm hij]
    · simp [hi]

/-- A loop over the first `k` lanes. -/
theorem lanes_part {k L : Nat} {f : Nat → Addr → C Addr} {A B : Nat → Addr} (hk : k ≤ L)
    (h : ∀ j, j < k → f j (A j) = .ok (B j)) :
    lanes k f ((List.range L).map A) =
      .ok ((List.range L).map (fun j => if j < k then B j else A j)) := by
  refine forRange_eq' (fun t => (List.range L).map (fun j => if j < t then B j else A j)) (by simp) rfl ?_
  intro t ht
  have hb : ((List.range L).map (fun j => if j < t then B j else A j))[t]'(by simp; omega) = A t := by simp
  rw [rd1_ok (by simp; omega), hb]
  simp only [ok_bind]
  rw [h t ht]
  simp only [ok_bind]
  rw [wr1_ok (by simp; omega), map_range_set]
  congr 1
  apply List.map_congr_left
  intro i _
  by_cases h1 : i = t
  · subst h1; simp
  · by_cases h2 : i < t
    · rw [if_neg h1, if_pos h2, if_pos (by omega)]
    · rw [if_neg h1, if_neg h2, if_neg (by omega)]

theorem lanes_ok {L : Nat} {f : Nat → Addr → C Addr} {A B : Nat → Addr}
    (h : ∀ j, j < L → f j (A j) = .ok (B j)) :
    lanes L f ((List.range L).map A) = .ok ((List.range L).map B) := by
  rw [lanes_part (Nat.le_refl L) h]
  congr 1
  apply List.map_congr_left
  intro i hi
  rw [if_pos (List.mem_range.mp hi)]

theorem replicate_map {α : Type} (L : Nat) (x : α) : List.replicate L x = (List.range L).map fun _ => x := by
  apply List.ext_getElem?
  intro i
  by_cases hi : i < L
  · simp [hi]
  · simp [hi]

theorem subLanes_ok {k : Nat} {b : Bytes} {base stride : Nat}
    (h : ∀ j, j < k → base + j * stride ≤ b.length) :
    subLanes k b base stride = .ok ((List.range k).map fun j => b.drop (base + j * stride)) :=
  tabulate_ok fun j hj => sub_ok (h j hj)

/-- Writing lanes which are chunks of `b`. -/
theorem wrLanes_ok {k n : Nat} {b : Bytes} {base stride : Nat} {o : Nat → Bytes} {c : Nat → Nat}
    (hc : ∀ j, j < k → base + j * stride = c j * n) (hinj : ∀ i j, i < k → j < k → c i = c j → i = j)
    (hb : ∀ j, j < k → (c j + 1) * n ≤ b.length) (ho : ∀ j, j < k → (o j).length = n) :
    ∃ b', wrLanes k b base stride ((List.range k).map o) = .ok b' ∧ b'.length = b.length ∧
      (∀ j, j < k → chunk n b' (c j) = o j) ∧
      (∀ m, (∀ j, j < k → c j ≠ m) → chunk n b' m = chunk n b m) := by
  obtain ⟨b', h, h1, h2, h3⟩ := forRange_inv (n := k)
    (body := fun j b => (do wr b (base + j * stride) (← rd1 ((List.range k).map o) j) : C Bytes)) (s := b)
    (fun t b' => b'.length = b.length ∧ (∀ j, j < t → chunk n b' (c j) = o j) ∧
      (∀ m, (∀ j, j < t → c j ≠ m) → chunk n b' m = chunk n b m))
    ⟨rfl, fun j hj => by omega, fun _ _ => rfl⟩
    (by
      rintro t b1 ht ⟨h1, h2, h3⟩
      rw [rd1_ok (by simp; exact ht)]
      simp only [ok_bind, List.getElem_map, List.getElem_range]
      have hbt := hb t ht
      rw [hc t ht]
      obtain ⟨b2, hb2⟩ := wr_exists (b := b1) (d := o t) (off := c t * n) (by
        rw [ho t ht, h1]; rw [Nat.succ_mul] at hbt; exact hbt)
      refine ⟨b2, hb2, by rw [wr_length hb2, h1], ?_, ?_⟩
      · intro j hj
        by_cases he : j = t
        · subst he
          exact wr_chunk_same (ho j ht) (by rw [h1]; exact hbt) hb2
        · rw [wr_chunk_other (ho t ht) (fun hcc => he (hinj t j ht (by omega) hcc).symm) hb2, h2 j (by omega)]
      · intro m hm
        rw [wr_chunk_other (ho t ht) (hm t (by omega)) hb2]
        exact h3 m (fun j hj => hm j (by omega)))
  exact ⟨b', h, h1, h2, h3⟩

/-- Writing all lanes of a buffer consisting of the lanes. -/
theorem wrLanes_all {k n : Nat} {b : Bytes} {o : Nat → Bytes} (hb : b.length = k * n)
    (ho : ∀ j, j < k → (o j).length = n) :
    wrLanes k b 0 n ((List.range k).map o) = .ok (cat k o) := by
  obtain ⟨b', h, h1, h2, -⟩ := wrLanes_ok (k := k) (n := n) (b := b) (base := 0) (stride := n) (c := fun j => j)
    (fun j _ => by simp) (fun i j _ _ h => h)
    (fun j hj => by rw [hb]; exact Nat.mul_le_mul_right _ hj) ho
  rw [h, eq_cat_of_chunks (by rw [h1, hb]) h2]

/-! ### Bit masks -/

theorem testBit_mask {lg : Nat} (hlg : lg ≤ 32) (i : Nat) :
    (2 ^ 32 - 2 ^ lg : Nat).testBit i = (decide (lg ≤ i) && decide (i < 32)) := by
  have : (2 ^ 32 - 2 ^ lg : Nat) = (2 ^ (32 - lg) - 1) * 2 ^ lg := by
    rw [Nat.sub_mul, ← Nat.pow_add, Nat.sub_add_cancel hlg, Nat.one_mul]
  rw [this, Nat.testBit_mul_two_pow, Nat.testBit_two_pow_sub_one]
  by_cases h : lg ≤ i
  · congr 1
    rw [decide_eq_decide]; omega
  · simp [h]

/-- `x & ~(2^lg - 1)` in 32 bits. -/
theorem and_mask {lg x : Nat} (hlg : lg ≤ 32) (hx : x < 2 ^ 32) :
    x &&& (2 ^ 32 - 2 ^ lg) = x / 2 ^ lg * 2 ^ lg := by
  apply Nat.eq_of_testBit_eq
  intro i
  rw [Nat.testBit_and, testBit_mask hlg, Nat.testBit_mul_two_pow]
  by_cases h : lg ≤ i
  · rw [Nat.testBit_div_two_pow, Nat.sub_add_cancel h]
    by_cases h2 : i < 32
    · simp [h, h2]
    · have : x.testBit i = false :=
        Nat.testBit_lt_two_pow (Nat.lt_of_lt_of_le hx (Nat.pow_le_pow_right (by omega) (by omega)))
      simp [this]
  · simp [h]

theorem xor_mask_zero {lg x y : Nat} (hlg : lg ≤ 32) (hx : x < 2 ^ 32) (hy : y < 2 ^ 32) :
    (x ^^^ y) &&& (2 ^ 32 - 2 ^ lg) = 0 ↔ x / 2 ^ lg = y / 2 ^ lg := by
  rw [and_mask hlg (Nat.xor_lt_two_pow hx hy), Nat.mul_eq_zero]
  have hp := Nat.two_pow_pos lg
  have e : (x ^^^ y) / 2 ^ lg = x / 2 ^ lg ^^^ y / 2 ^ lg := by
    rw [← Nat.shiftRight_eq_div_pow, ← Nat.shiftRight_eq_div_pow, ← Nat.shiftRight_eq_div_pow,
      Nat.shiftRight_xor_distrib]
  rw [e]
  constructor
  · rintro (h | h)
    · have h4 := congrArg (· ^^^ y / 2 ^ lg) h
      simpa [Nat.xor_assoc] using h4
    · omega
  · intro h
    left
    rw [h, Nat.xor_self]

theorem and_low (x lg : Nat) : x &&& (2 ^ lg - 1) = x % 2 ^ lg := Nat.and_two_pow_sub_one_eq_mod x lg

theorem xor_one (x : Nat) : x ^^^ 1 = sibling x := by
  have h := (xor_eq_one_iff (x ^^^ 1) x).mp (by rw [Nat.xor_comm x 1, Nat.xor_assoc, Nat.xor_self]; rfl)
  exact h

/-- Lane hash code computing `L` hashes at once. -/
structure LaneRefines (E : EnvX) {S : Spec.Hash} (R : Refines E.P E.H S) : Prop where
  thashx : ∀ ctx (A : Nat → ADRS) (I : Nat → Bytes) blocks, R.CtxOK ctx → (∀ j, j < E.L → (A j).OK) →
    1 ≤ blocks → (∀ j, j < E.L → blocks * E.P.n ≤ (I j).length) → blocks * E.P.n < 2 ^ 31 →
    E.X.thashx ((List.range E.L).map I) blocks ctx ((List.range E.L).map fun j => enc E.P.fam (A j)) =
      .ok ((List.range E.L).map fun j => S.T ctx.pub_seed (A j) ((I j).take (blocks * E.P.n)))
  prf : ∀ ctx (A : Nat → ADRS), R.CtxOK ctx → (∀ j, j < E.L → (A j).OK) →
    E.X.prf_addrx ctx ((List.range E.L).map fun j => enc E.P.fam (A j)) =
      .ok ((List.range E.L).map fun j => S.PRF ctx.pub_seed ctx.sk_seed (A j))

end Spx
