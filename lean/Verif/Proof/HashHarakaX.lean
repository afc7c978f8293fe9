import Verif.Proof.AesNiSponge
import Verif.Model.HashHarakaX
import Verif.Proof.ShakeLanes
/-! The four-lane hash functions of haraka-aesni compute the Haraka functions of the specification. -/

namespace Spx.AesNi
open Spec

attribute [local irreducible] Spec.Haraka.perm512 Spec.Haraka.perm256 Spec.Haraka.harakaS Spec.Haraka.rcTweak
  Spec.Haraka.haraka512 Spec.Haraka.haraka256 zeroPad

theorem outs32_ok {P : Params} (hn : P.n ≤ 32) {O : Nat → Bytes} (hO : ∀ j, j < 4 → (O j).length = 32) :
    outs32 P (cat 4 O) = .ok ((List.range 4).map fun j => (O j).take P.n) := by
  unfold outs32
  refine tabulate_ok fun j hj => ?_
  rw [rd_cat_part hO hj (o := 0) (by omega) (by omega), List.drop_zero]

/-- `haraka512x4` of four padded inputs, shortened to `n` bytes each. -/
theorem F4_spec {P : Params} (hn : P.n ≤ 32) {ctx : Ctx} (h : ctx.rc.length = 640) {Z : Nat → Bytes}
    (hZ : ∀ j, j < 4 → (Z j).length = 64) :
    (do let outbuf ← haraka512x4 (cat 4 Z) ctx; outs32 P outbuf) =
      .ok ((List.range 4).map fun j => (Spec.Haraka.haraka512 ctx.rc (Z j)).take P.n) := by
  rw [haraka512x4_spec h (by rw [cat_length hZ]), ok_bind,
    cat_congr (g := fun j => Spec.Haraka.haraka512 ctx.rc (Z j)) (fun j hj => by rw [chunk_cat hZ hj])]
  exact outs32_ok hn fun j hj => Haraka.haraka512_length h (by rw [hZ j hj])

theorem zeros64 : (List.replicate (64 * 4) 0#8 : Bytes) = cat 4 fun _ => List.replicate 64 0#8 :=
  (cat_replicate 4 64 0#8).symm

theorem zeros32 : (List.replicate (64 * 4) 0#8 : Bytes) = cat 8 fun _ => List.replicate 32 0#8 :=
  (cat_replicate 8 32 0#8).symm

theorem pad_lane {a x : Bytes} (ha : a.length = 32) (hx : x.length ≤ 32) :
    (a ++ List.replicate 32 0#8).take 32 ++ x ++ (a ++ List.replicate 32 0#8).drop (32 + x.length) =
      zeroPad 64 (a ++ x) := by
  rw [List.take_left' ha, Haraka.zeroPad_eq, List.drop_append, List.drop_of_length_le (by omega), List.nil_append,
    List.drop_replicate, List.length_append, ha]
  congr 2
  omega

theorem addr_lane {a : Bytes} (ha : a.length = 32) :
    (List.replicate 64 0#8 : Bytes).take 0 ++ a ++ (List.replicate 64 0#8).drop (0 + a.length) =
      a ++ List.replicate 32 0#8 := by
  rw [List.take_zero, List.nil_append, List.drop_replicate, ha]

/-- The copies and clearings that spread the addresses from 32-byte to 64-byte lanes. -/
theorem spread {W : Nat → Bytes} (hW : ∀ j, j < 8 → (W j).length = 32) :
    (do
      let b ← wr (cat 8 W) 192 (← rd (cat 8 W) 96 32)
      let b ← wr b 128 (← rd b 64 32)
      let b ← wr b 64 (← rd b 32 32)
      let b ← wr b 32 (List.replicate 32 0#8)
      wr b 96 (List.replicate 32 0#8)) =
    .ok (cat 8 (put (put (put (put (put W 6 (W 3)) 4 (W 2)) 2 (W 1)) 1 (List.replicate 32 0#8)) 3
      (List.replicate 32 0#8))) := by
  have hr : (List.replicate 32 0#8 : Bytes).length = 32 := List.length_replicate
  have h1 := put_length (j := 6) hW (hW 3 (by decide))
  have h2 := put_length (j := 4) h1 (hW 2 (by decide))
  have h3 := put_length (j := 2) h2 (hW 1 (by decide))
  have h4 := put_length (j := 1) h3 hr
  rw [rd_cat_lane hW (j := 3) (by decide) rfl, ok_bind, wr_cat_lane hW (j := 6) (by decide) rfl (hW 3 (by decide)),
    ok_bind, rd_cat_lane h1 (j := 2) (by decide) rfl, ok_bind, put_other _ _ (by decide),
    wr_cat_lane h1 (j := 4) (by decide) rfl (hW 2 (by decide)), ok_bind,
    rd_cat_lane h2 (j := 1) (by decide) rfl, ok_bind, put_other _ _ (by decide), put_other _ _ (by decide),
    wr_cat_lane h2 (j := 2) (by decide) rfl (hW 1 (by decide)), ok_bind,
    wr_cat_lane h3 (j := 1) (by decide) rfl hr, ok_bind, wr_cat_lane h4 (j := 3) (by decide) rfl hr]

theorem spread_eq {A : Nat → Bytes} :
    cat 8 (put (put (put (put (put (fun j => if j < 4 then A j else List.replicate 32 0#8) 6 (A 3)) 4 (A 2)) 2 (A 1)) 1
      (List.replicate 32 0#8)) 3 (List.replicate 32 0#8)) = cat 4 fun j => A j ++ List.replicate 32 0#8 := by
  simp [cat, put]

/-- Lane after `i` steps of the loop that adds the bitmask. -/
def xlane (a D : Bytes) (i : Nat) : Bytes := a ++ (D.take i ++ List.replicate (32 - i) 0#8)

theorem xlane_length {a D : Bytes} {i : Nat} (ha : a.length = 32) (hi : i ≤ D.length) (hD : D.length ≤ 32) :
    (xlane a D i).length = 64 := by
  simp [xlane]; omega

theorem xlane_set {a D : Bytes} {i : Nat} (ha : a.length = 32) (hi : i < D.length) (hD : D.length ≤ 32) {v : Byte}
    (hv : v = D[i]) : (xlane a D i).set (32 + i) v = xlane a D (i + 1) := by
  have h1 : (D.take i).length = i := by simp; omega
  obtain ⟨k, hk⟩ : ∃ k, 32 - i = k + 1 := ⟨31 - i, by omega⟩
  unfold xlane
  rw [List.set_append, if_neg (by omega), ha, Nat.add_sub_cancel_left, List.set_append, if_neg (by omega), h1,
    Nat.sub_self, hk, List.replicate_succ, List.set_cons_zero, show 32 - (i + 1) = k by omega, take_succ_get hi, hv,
    List.append_assoc]
  rfl

theorem xlane_end {a D : Bytes} (ha : a.length = 32) : xlane a D D.length = zeroPad 64 (a ++ D) := by
  rw [xlane, Haraka.zeroPad_eq, List.take_length, List.length_append, ha, List.append_assoc]
  congr 3
  omega

/-- The loop that adds the bitmasks to the inputs. -/
theorem mask_loop {n : Nat} (hn : n ≤ 32) {A I M : Nat → Bytes} (hA : ∀ j, j < 4 → (A j).length = 32)
    (hI : ∀ j, j < 4 → n ≤ (I j).length) (hM : ∀ j, j < 4 → (M j).length = 32) :
    forRange n (fun i b => forRange 4 (fun j b => do
      wr1 b (32 + i + 64 * j) ((← rd1 (← rd1 ((List.range 4).map I) j) i) ^^^ (← rd1 (cat 4 M) (i + 32 * j)))) b)
      (cat 4 fun j => A j ++ List.replicate 32 0#8) =
    .ok (cat 4 fun j => zeroPad 64 (A j ++ xorBytes ((I j).take n) (M j))) := by
  have hD : ∀ j, j < 4 → (xorBytes ((I j).take n) (M j)).length = n := fun j hj => by
    have := hI j hj
    simp only [xorBytes, List.length_zipWith, List.length_take, hM j hj]; omega
  refine forRange_eq' (fun i => cat 4 fun j => xlane (A j) (xorBytes ((I j).take n) (M j)) i)
    (cat_congr fun j _ => by simp [xlane]) (cat_congr fun j hj => by rw [← xlane_end (hA j hj), hD j hj]) ?_
  intro i hi
  refine forRange_eq' (fun k => cat 4 fun j => if j < k then xlane (A j) (xorBytes ((I j).take n) (M j)) (i + 1)
    else xlane (A j) (xorBytes ((I j).take n) (M j)) i) (by simp only [Nat.not_lt_zero, if_false])
    (cat_congr fun j hj => by simp only [if_pos hj]) ?_
  intro k hk
  have hik := hI k hk
  have hmk := hM k hk
  have hF : ∀ t, t < 4 → ((fun j => if j < k then xlane (A j) (xorBytes ((I j).take n) (M j)) (i + 1)
      else xlane (A j) (xorBytes ((I j).take n) (M j)) i) t).length = 64 := fun t ht => by
    show List.length (if _ then _ else _) = _
    split <;> exact xlane_length (hA t ht) (by rw [hD t ht]; omega) (by rw [hD t ht]; omega)
  rw [rd1_map I hk, ok_bind, rd1_ok (by omega), ok_bind, rd1_cat hM hk (o := i) (by omega) (by omega) 0#8, ok_bind,
    wr1_cat hF hk (o := 32 + i) (by omega) (by omega)]
  simp only [Nat.lt_irrefl, if_false]
  rw [xlane_set (hA k hk) (by rw [hD k hk]; exact hi) (by rw [hD k hk]; exact hn), cat_fill_step rfl]
  simp only [xorBytes, List.getElem_zipWith, List.getElem_take]
  rw [getD_lt (by omega)]

section
variable {P : Params} (hn : P.n ≤ 32) (hn0 : 0 < P.n) (g : Nat → Nat → Byte) {ctx : Ctx} (h : ctx.rc.length = 640)
  {A : Nat → Bytes} (hA : ∀ j, j < 4 → (A j).length = 32)
include hn h hA

theorem prf_addrx4_spec (hs : ctx.sk_seed.length = P.n) :
    prf_addrx4 P ctx ((List.range 4).map A) = .ok ((List.range 4).map fun j =>
      (Spec.Haraka.haraka512 ctx.rc (zeroPad 64 (A j ++ ctx.sk_seed))).take P.n) := by
  have hZ : ∀ j, j < 4 → (zeroPad 64 (A j ++ ctx.sk_seed)).length = 64 := fun j hj =>
    Haraka.zeroPad_length (by rw [List.length_append, hA j hj]; omega)
  have e : forRange 4 (fun i bufx4 => do
      let bufx4 ← wr bufx4 (i * 64) (← rd (← rd1 ((List.range 4).map A) i) 0 SPX_ADDR_BYTES)
      wr bufx4 (i * 64 + SPX_ADDR_BYTES) (← rd ctx.sk_seed 0 P.n)) (List.replicate (4 * 64) 0#8) =
      .ok (cat 4 fun j => zeroPad 64 (A j ++ ctx.sk_seed)) := by
    refine forRange_eq' (fun i => cat 4 fun j => if j < i then zeroPad 64 (A j ++ ctx.sk_seed)
      else List.replicate 64 0#8) (zeros64.trans (by simp only [Nat.not_lt_zero, if_false])) (cat_congr fun j hj => by simp only [if_pos hj]) ?_
    intro i hi
    have ha := hA i hi
    have hF : ∀ t, t < 4 → ((fun j => if j < i then zeroPad 64 (A j ++ ctx.sk_seed)
        else List.replicate 64 0#8) t).length = 64 := fun t ht => by
      show List.length (if _ then _ else _) = _
      split
      · exact hZ t ht
      · simp
    unfold SPX_ADDR_BYTES
    rw [rd1_map A hi, ok_bind, rd_ok (by omega), ok_bind, List.drop_zero, List.take_of_length_le (by omega),
      wr_cat_part hF hi (o := 0) (by omega) (by omega), ok_bind]
    simp only [Nat.lt_irrefl, if_false]
    rw [addr_lane ha, rd_ok (by omega), ok_bind, List.drop_zero, List.take_of_length_le (l := ctx.sk_seed) (by omega)]
    rw [wr_cat_part (put_length hF (by simp; omega)) hi (o := 32) (by omega) (by omega), put_put, put_same,
      pad_lane ha (by omega), cat_fill_step rfl]
  unfold prf_addrx4
  simp only [e, ok_bind]
  exact F4_spec hn h hZ

include hn0

theorem thashx4_simple_spec {I : Nat → Bytes} {b : Nat} (hi : ∀ j, j < 4 → b * P.n ≤ (I j).length) :
    thashx4_simple P g ((List.range 4).map I) b ctx ((List.range 4).map A) = .ok ((List.range 4).map fun j =>
      if b = 1 then (Spec.Haraka.haraka512 ctx.rc (zeroPad 64 (A j ++ (I j).take (b * P.n)))).take P.n
      else Spec.Haraka.harakaS ctx.rc (A j ++ (I j).take (b * P.n)) P.n) := by
  unfold thashx4_simple SPX_ADDR_BYTES
  by_cases hb : b = 1
  · subst hb
    simp only [Nat.one_mul, if_true] at *
    have hl : ∀ j, j < 4 → ((I j).take P.n).length = P.n := fun j hj => by have := hi j hj; simp; omega
    have hZ : ∀ j, j < 4 → (zeroPad 64 (A j ++ (I j).take P.n)).length = 64 := fun j hj =>
      Haraka.zeroPad_length (by rw [List.length_append, hA j hj, hl j hj]; omega)
    have hB : ∀ j, j < 4 → (A j ++ List.replicate 32 0#8).length = 64 := fun j hj => by
      rw [List.length_append, hA j hj]; simp
    have e1 : forRange 4 (fun j b => do wr b (64 * j) (← rd (← rd1 ((List.range 4).map A) j) 0 32))
        (List.replicate (64 * 4) 0#8) = .ok (cat 4 fun j => A j ++ List.replicate 32 0#8) := by
      refine forRange_eq' (fun i => cat 4 fun j => if j < i then A j ++ List.replicate 32 0#8
        else List.replicate 64 0#8) (zeros64.trans (by simp only [Nat.not_lt_zero, if_false])) (cat_congr fun j hj => by simp only [if_pos hj]) ?_
      intro i hi
      have ha := hA i hi
      have hF : ∀ t, t < 4 → ((fun j => if j < i then A j ++ List.replicate 32 0#8
          else List.replicate 64 0#8) t).length = 64 := fun t ht => by
        show List.length (if _ then _ else _) = _
        split
        · exact hB t ht
        · simp
      rw [rd1_map A hi, ok_bind, rd_ok (by omega), ok_bind, List.drop_zero, List.take_of_length_le (by omega),
        wr_cat_part hF hi (o := 0) (by omega) (by omega)]
      simp only [Nat.lt_irrefl, if_false]
      rw [addr_lane ha, cat_fill_step rfl]
    have e2 : forRange 4 (fun j b => do wr b (32 + 64 * j) (← rd (← rd1 ((List.range 4).map I) j) 0 P.n))
        (cat 4 fun j => A j ++ List.replicate 32 0#8) = .ok (cat 4 fun j => zeroPad 64 (A j ++ (I j).take P.n)) := by
      refine forRange_eq' (fun i => cat 4 fun j => if j < i then zeroPad 64 (A j ++ (I j).take P.n)
        else A j ++ List.replicate 32 0#8) (by simp) (cat_congr fun j hj => by simp only [if_pos hj]) ?_
      intro i hi'
      have ha := hA i hi'
      have hi1 := hi i hi'
      have hF : ∀ t, t < 4 → ((fun j => if j < i then zeroPad 64 (A j ++ (I j).take P.n)
          else A j ++ List.replicate 32 0#8) t).length = 64 := fun t ht => by
        show List.length (if _ then _ else _) = _
        split
        · exact hZ t ht
        · exact hB t ht
      rw [rd1_map I hi', ok_bind, rd_ok (by omega), ok_bind, List.drop_zero,
        wr_cat_part hF hi' (o := 32) (by omega) (by rw [hl i hi']; omega)]
      simp only [Nat.lt_irrefl, if_false]
      rw [pad_lane ha (by rw [hl i hi']; omega), cat_fill_step rfl]
    simp only [e1, e2, ok_bind]
    exact F4_spec hn h hZ
  · have hl : ∀ j, j < 4 → (A j ++ (I j).take (b * P.n)).length = 32 + b * P.n := fun j hj => by
      have := hi j hj
      rw [List.length_append, hA j hj]; simp; omega
    simp only [if_neg hb]
    rw [tabulate_ok (g := fun j => A j ++ (I j).take (b * P.n)) (fun j hj => by
      have ha := hA j hj
      have hij := hi j hj
      rw [rd1_map A hj, ok_bind, rd_ok (by omega), ok_bind, List.drop_zero, List.take_of_length_le (by omega),
        wr_app0 (by simp; omega), ok_bind, rd1_map I hj, ok_bind, rd_ok (by omega), ok_bind, List.drop_zero,
        wr_app (by omega) (by simp; omega), List.drop_of_length_le (by simp; omega), List.append_nil]), ok_bind,
      haraka_Sx4_spec h g (out := fun j => uninit (g (74 + j)) P.n) (fun j _ => by simp)
        (fun j hj => by rw [hl j hj])]
    congr 1
    refine List.map_congr_left fun j hj => ?_
    rw [List.take_of_length_le (by rw [hl j (List.mem_range.1 hj)]),
      List.drop_of_length_le (by simp), List.append_nil]

omit hn0 in
theorem thashx4_robust_spec {I : Nat → Bytes} {b : Nat} (hi : ∀ j, j < 4 → b * P.n ≤ (I j).length) :
    thashx4_robust P g ((List.range 4).map I) b ctx ((List.range 4).map A) = .ok ((List.range 4).map fun j =>
      if b = 1 then (Spec.Haraka.haraka512 ctx.rc (zeroPad 64 (A j ++ xorBytes ((I j).take (b * P.n))
        (Spec.Haraka.haraka256 ctx.rc (A j))))).take P.n
      else Spec.Haraka.harakaS ctx.rc (A j ++ xorBytes ((I j).take (b * P.n))
        (Spec.Haraka.harakaS ctx.rc (A j) (b * P.n))) P.n) := by
  unfold thashx4_robust SPX_ADDR_BYTES
  by_cases hb : b = 1
  · subst hb
    simp only [Nat.one_mul, if_true] at *
    have hr : (List.replicate 32 0#8 : Bytes).length = 32 := List.length_replicate
    have hW : ∀ j, j < 8 → ((fun j => if j < 4 then A j else List.replicate 32 0#8) j).length = 32 := fun j _ => by
      show List.length (if _ then _ else _) = _
      split
      · exact hA j (by assumption)
      · exact hr
    have hM : ∀ j, j < 4 → (Spec.Haraka.haraka256 ctx.rc (A j)).length = 32 := fun j hj =>
      Haraka.haraka256_length h (hA j hj)
    have hZ : ∀ j, j < 4 → (zeroPad 64 (A j ++ xorBytes ((I j).take P.n)
        (Spec.Haraka.haraka256 ctx.rc (A j)))).length = 64 := fun j hj => Haraka.zeroPad_length (by
      have := hi j hj
      simp only [List.length_append, hA j hj, xorBytes, List.length_zipWith, List.length_take, hM j hj]; omega)
    have e1 : forRange 4 (fun j b => do wr b (32 * j) (← rd (← rd1 ((List.range 4).map A) j) 0 32))
        (List.replicate (64 * 4) 0#8) = .ok (cat 8 fun j => if j < 4 then A j else List.replicate 32 0#8) := by
      refine forRange_eq' (fun i => cat 8 fun j => if j < i then A j else List.replicate 32 0#8)
        (zeros32.trans (by simp only [Nat.not_lt_zero, if_false])) rfl ?_
      intro i hi
      have ha := hA i hi
      have hF : ∀ t, t < 8 → ((fun j => if j < i then A j else List.replicate 32 0#8) t).length = 32 := fun t ht => by
        show List.length (if _ then _ else _) = _
        split
        · exact hA t (by omega)
        · exact hr
      rw [rd1_map A hi, ok_bind, rd_ok (by omega), ok_bind, List.drop_zero, List.take_of_length_le (by omega),
        wr_cat_lane hF (by omega) rfl ha, cat_fill_step rfl]
    have e2 : haraka256x4 (cat 8 fun j => if j < 4 then A j else List.replicate 32 0#8) ctx =
        .ok (cat 4 fun j => Spec.Haraka.haraka256 ctx.rc (A j)) := by
      rw [haraka256x4_spec h (by rw [cat_length hW]; decide)]
      refine congrArg Except.ok (cat_congr fun j hj => ?_)
      rw [chunk_cat hW (by omega)]
      simp only [if_pos hj]
    have e3 := spread hW
    simp only [show (3 < 4) = True by decide, show (2 < 4) = True by decide, show (1 < 4) = True by decide, if_true] at e3
    rw [spread_eq] at e3
    rw [e1, ok_bind, e2, ok_bind]
    simp only [← bind_assoc] at e3 ⊢
    rw [e3, ok_bind]
    have e4 := mask_loop hn hA hi hM
    simp only [← bind_assoc] at e4
    rw [e4, ok_bind]
    exact F4_spec hn h hZ
  · have hlx : ∀ j, j < 4 → (xorBytes ((I j).take (b * P.n)) (Spec.Haraka.harakaS ctx.rc (A j) (b * P.n))).length =
        b * P.n := fun j hj => by
      have := hi j hj
      simp only [xorBytes, List.length_zipWith, List.length_take, Haraka.harakaS_length]; omega
    have hl : ∀ j, j < 4 → (A j ++ xorBytes ((I j).take (b * P.n))
        (Spec.Haraka.harakaS ctx.rc (A j) (b * P.n))).length = 32 + b * P.n := fun j hj => by
      rw [List.length_append, hA j hj, hlx j hj]
    simp only [if_neg hb]
    rw [tabulate_ok (g := fun j => A j ++ (uninit (g (70 + j)) (32 + b * P.n)).drop 32) (fun j hj => by
      have ha := hA j hj
      rw [rd1_map A hj, ok_bind, rd_ok (by omega), ok_bind, List.drop_zero, List.take_of_length_le (by omega),
        wr_app0 (by simp; omega), ha]), ok_bind,
      haraka_Sx4_spec h g (out := fun j => uninit (g (78 + j)) (b * P.n)) (fun j _ => by simp)
        (fun j hj => by rw [List.length_append, hA j hj]; omega), ok_bind,
      tabulate_ok (g := fun j => A j ++ xorBytes ((I j).take (b * P.n)) (Spec.Haraka.harakaS ctx.rc (A j) (b * P.n)))
        (fun j hj => by
          have ha := hA j hj
          have hij := hi j hj
          rw [rd1_map I hj, ok_bind, rd1_map _ hj, ok_bind, rd1_map _ hj, ok_bind, List.take_left' ha,
            List.drop_of_length_le (l := uninit (g (78 + j)) (b * P.n)) (by simp), List.append_nil,
            xor_loop ha.symm hij (Haraka.harakaS_length _ _ _).symm (by simp),
            List.drop_of_length_le (l := List.drop 32 _) (by simp), List.append_nil]), ok_bind,
      haraka_Sx4_spec h g (out := fun j => uninit (g (74 + j)) P.n) (fun j _ => by simp)
        (fun j hj => by rw [hl j hj])]
    congr 1
    refine List.map_congr_left fun j hj => ?_
    rw [List.take_of_length_le (by rw [hl j (List.mem_range.1 hj)]),
      List.drop_of_length_le (by simp), List.append_nil]

end

/-- A context as `initialize_hash_function` of haraka-aesni leaves it. -/
def CtxOK (P : Params) (ctx : Ctx) : Prop :=
  ctx.pub_seed.length = P.n ∧ ctx.sk_seed.length = P.n ∧ ctx.rc = Spec.Haraka.rcTweak ctx.pub_seed

theorem CtxOK.lib {P : Params} {ctx : Ctx} (h : CtxOK P ctx) : Haraka.CtxOK lib P ctx := by
  have hr : ctx.rc.length = 640 := by rw [h.2.2]; exact Haraka.rcTweak_length _
  refine ⟨h.1, h.2.1, ?_⟩
  rw [← h.2.2]
  exact libOK hr

end Spx.AesNi

namespace Spx
open Spec AesNi

attribute [local irreducible] Spec.Haraka.perm512 Spec.Haraka.perm256 Spec.Haraka.harakaS Spec.Haraka.rcTweak
  Spec.Haraka.haraka512 Spec.Haraka.haraka256 zeroPad

section
variable {P : Params} (hn : P.n ≤ 32) (hn0 : 0 < P.n) (hf : P.fam = .haraka) (g : Nat → Nat → Byte) {ctx : Ctx}
  (hc : AesNi.CtxOK P ctx) {A : Nat → ADRS} {as : Nat → Addr}
include hn hf hc

theorem AesNi.prfx_value (hA : ∀ j, j < 4 → Encodes P.fam (as j) (A j)) :
    (AesNi.lanes P g).prf_addrx ctx ((List.range 4).map as) =
    .ok ((List.range 4).map fun j => (harakaHash P.n P.robust).PRF ctx.pub_seed ctx.sk_seed (A j)) := by
  have hr : ctx.rc.length = 640 := by rw [hc.2.2]; exact Haraka.rcTweak_length _
  have he : ∀ j, j < 4 → as j = (A j).enc32 := fun j hj => (hA j hj).eq32 (by rw [hf]; decide)
  simp only [AesNi.lanes, harakaHash]
  rw [prf_addrx4_spec hn hr (fun j hj => (hA j hj).1) hc.2.1]
  exact congrArg Except.ok (List.map_congr_left fun j hj => by rw [he j (List.mem_range.1 hj), hc.2.2])

include hn0

theorem AesNi.thashx_value {I : Nat → Bytes} {b : Nat} (hi : ∀ j, j < 4 → b * P.n ≤ (I j).length)
    (hA : ∀ j, j < 4 → Encodes P.fam (as j) (A j)) :
    (AesNi.lanes P g).thashx ((List.range 4).map I) b ctx ((List.range 4).map as) =
      .ok ((List.range 4).map fun j => (harakaHash P.n P.robust).T ctx.pub_seed (A j) ((I j).take (b * P.n))) := by
  have hr : ctx.rc.length = 640 := by rw [hc.2.2]; exact Haraka.rcTweak_length _
  have ha : ∀ j, j < 4 → (as j).length = 32 := fun j hj => (hA j hj).1
  have he : ∀ j, j < 4 → as j = (A j).enc32 := fun j hj => (hA j hj).eq32 (by rw [hf]; decide)
  have hb1 : ∀ j, j < 4 → (((I j).take (b * P.n)).length = P.n ↔ b = 1) := fun j hj => by
    have := hi j hj
    rw [List.length_take, Nat.min_eq_left this]
    constructor
    · intro h
      exact Nat.eq_of_mul_eq_mul_right hn0 (by omega)
    · rintro rfl; omega
  simp only [AesNi.lanes, harakaHash]
  cases hrb : P.robust
  · simp only [Bool.false_eq_true, if_false]
    rw [thashx4_simple_spec hn hn0 g hr ha hi]
    refine congrArg Except.ok (List.map_congr_left fun j hj => ?_)
    simp only [hb1 j (List.mem_range.1 hj), he j (List.mem_range.1 hj), hc.2.2]
  · simp only [if_true]
    rw [thashx4_robust_spec hn g hr ha hi]
    refine congrArg Except.ok (List.map_congr_left fun j hj => ?_)
    have hl : ((I j).take (b * P.n)).length = b * P.n := by
      rw [List.length_take, Nat.min_eq_left (hi j (List.mem_range.1 hj))]
    simp only [hb1 j (List.mem_range.1 hj), he j (List.mem_range.1 hj), hc.2.2]
    rw [hl]

end

/-- The one-way functions of haraka-aesni implement the specification. -/
def aesniRefines {P : Params} (g : Nat → Nat → Byte) (hP : P.Valid) (hf : P.fam = .haraka) (hn : P.n ≤ 32) :
    Refines P (AesNi.impl P g) (harakaHash P.n P.robust) :=
  let R := harakaRefinesWith AesNi.tweakOK g hP hf hn
  { CtxOK := AesNi.CtxOK P
    T_len := R.T_len
    PRF_len := R.PRF_len
    PRFmsg_len := R.PRFmsg_len
    Hmsg_len := R.Hmsg_len
    init := fun _ h1 h2 _ _ _ _ h7 => ⟨_, tweak_constants_spec g h1 h7, ⟨h1, h2, rfl⟩, rfl, rfl⟩
    thash := fun ctx a inp blocks hc => R.thash ctx a inp blocks hc.lib
    prf := fun ctx a hc => R.prf ctx a hc.lib
    genR := fun ctx s o m hc => R.genR ctx s o m hc.lib
    hmsg := fun ctx r pk m hc => R.hmsg ctx r pk m hc.lib }

theorem aesniLaneRefines {P : Params} (g G : Nat → Nat → Byte) (hP : P.Valid) (hf : P.fam = .haraka) (hn : P.n ≤ 32) :
    LaneRefines (optBuild P (AesNi.impl P g) 2 (AesNi.lanes P g) G) (aesniRefines g hP hf hn) where
  thashx _ A _ _ hc _ _ hi _ := AesNi.thashx_value hn hP.n_pos hf g hc hi fun j _ => encodes_enc P.fam (A j)
  prf _ A hc _ := AesNi.prfx_value hn hf g hc fun j _ => encodes_enc P.fam (A j)

theorem specHash_haraka {P : Params} (hf : P.fam = .haraka) : specHash P = harakaHash P.n P.robust := by
  unfold specHash; rw [hf]

end Spx
