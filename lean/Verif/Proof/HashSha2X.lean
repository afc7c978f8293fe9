import Verif.Proof.Sha2XMgf
import Verif.Proof.HarakaPerm
import Verif.Proof.ShakeLanes
import Verif.Model.HashSha2X
/-! # The eight-lane SHA-2 hash functions equal the specification in every lane -/

namespace Spx.Sha2X
open Spec Spec.Sha2 Spx.Sha2

attribute [local irreducible] Spec.Sha2.hash Spec.Sha2.mgf1 hashx

theorem seeded8 (g : Nat → Nat → Byte) {st p : Bytes} (hst : ShaInc alg256 st p) (hp : p.length = 64)
    {ins : Nat → Bytes} {len : Nat} (hi : ∀ j, j < 8 → len ≤ (ins j).length) (hl : len < 2 ^ 32) :
    seeded x256 g st 512 ((List.range 8).map ins) len =
      .ok ((List.range 8).map fun l => Spec.Sha2.hash alg256 (p ++ (ins l).take len)) := by
  have h := seeded_spec x256_ok g hst (ins := ins) (inlen := len) hi (by show len < 2 ^ 64; omega) (by omega)
  rw [hp] at h
  exact h

theorem seeded4 (g : Nat → Nat → Byte) {st p : Bytes} (hst : ShaInc alg512 st p) (hp : p.length = 128)
    {ins : Nat → Bytes} {len : Nat} (hi : ∀ j, j < 4 → len ≤ (ins j).length) (hl : len < 2 ^ 32) :
    seeded x512 g st 1024 ((List.range 4).map ins) len =
      .ok ((List.range 4).map fun l => Spec.Sha2.hash alg512 (p ++ (ins l).take len)) := by
  have h := seeded_spec x512_ok g hst (ins := ins) (inlen := len) hi (by show len < 2 ^ 32; omega) (by omega)
  rw [hp] at h
  exact h

theorem range8_split {α : Type} (f : Nat → α) :
    (List.range 4).map f ++ (List.range 4).map (fun j => f (4 + j)) = (List.range 8).map f := rfl

/-- The pointers to the lanes of a buffer. -/
theorem subLanes_cat {k L l0 st base : Nat} {F : Nat → Bytes} (hF : ∀ j, j < L → (F j).length = st)
    (hk : l0 + k ≤ L) {len : Nat} (hb : base + len ≤ st) :
    ∃ ins : Nat → Bytes, subLanes k (cat L F) (base + l0 * st) st = .ok ((List.range k).map ins) ∧
      (∀ j, j < k → len ≤ (ins j).length) ∧ ∀ j, j < k → (ins j).take len = ((F (l0 + j)).drop base).take len := by
  have hlen : (cat L F).length = L * st := cat_length hF
  have hle : ∀ j, j < k → base + l0 * st + j * st + len ≤ L * st := fun j hj => by
    have := Nat.mul_le_mul_right st (show l0 + j + 1 ≤ L by omega)
    rw [Nat.add_mul, Nat.add_mul, Nat.one_mul] at this
    omega
  refine ⟨_, subLanes_ok fun j hj => by have := hle j hj; omega, fun j hj => ?_, fun j hj => ?_⟩
  · have := hle j hj
    rw [List.length_drop, hlen]; omega
  · have h1 := hle j hj
    have h2 := rd_cat_part hF (show l0 + j < L by omega) (o := base) (k := len) (off := base + l0 * st + j * st)
      (by rw [Nat.mul_add, Nat.mul_comm st, Nat.mul_comm st]; omega) hb
    rw [rd_ok (by omega)] at h2
    exact Except.ok.inj h2

section
variable {P : Params} (hn : P.n ≤ 32) (g : Nat → Nat → Byte)
include hn

omit hn in
theorem rd_outs {k m : Nat} {o : Nat → Bytes} (ho : ∀ j, j < k → (o j).length = m) (hm : P.n ≤ m) :
    (tabulate k fun j => rd (cat k o) (j * m) P.n) = .ok ((List.range k).map fun j => (o j).take P.n) :=
  tabulate_ok fun j hj => by
    rw [rd_cat_part ho hj (o := 0) (by rw [Nat.mul_comm]; rfl) (by omega), List.drop_zero]

theorem outs256_spec {st p : Bytes} (hst : ShaInc alg256 st p) (hp : p.length = 64) {F : Nat → Bytes}
    {base stride len : Nat} (hF : ∀ j, j < 8 → (F j).length = stride) (hb : base + len ≤ stride) (hl : len < 2 ^ 32) :
    outs256 P g st (cat 8 F) base stride len =
      .ok ((List.range 8).map fun j => (Spec.Sha2.hash alg256 (p ++ ((F j).drop base).take len)).take P.n) := by
  obtain ⟨ins, e, h1, h2⟩ := subLanes_cat (k := 8) (l0 := 0) hF (by decide) hb
  rw [Nat.zero_mul, Nat.add_zero] at e
  unfold outs256
  simp only []
  rw [e, ok_bind, seeded8 g hst hp h1 hl, ok_bind, wrLanes_all (by simp) (fun j _ => hash256_length _), ok_bind,
    rd_outs (fun j _ => hash256_length _) hn]
  refine congrArg Except.ok (List.map_congr_left fun j hj => ?_)
  rw [h2 j (List.mem_range.1 hj), Nat.zero_add]

theorem outs512_spec {st p : Bytes} (hst : ShaInc alg512 st p) (hp : p.length = 128) {F : Nat → Bytes}
    {base stride len : Nat} (hF : ∀ j, j < 8 → (F j).length = stride) (hb : base + len ≤ stride) (hl : len < 2 ^ 32) :
    outs512 P g st (cat 8 F) base stride len =
      .ok ((List.range 8).map fun j => (Spec.Sha2.hash alg512 (p ++ ((F j).drop base).take len)).take P.n) := by
  obtain ⟨ins, e, h1, h2⟩ := subLanes_cat (k := 4) (l0 := 0) hF (by decide) hb
  rw [Nat.zero_mul, Nat.add_zero] at e
  obtain ⟨ins', e', h1', h2'⟩ := subLanes_cat (k := 4) (l0 := 4) hF (by decide) hb
  unfold outs512
  simp only []
  rw [e, ok_bind, seeded4 g hst hp h1 hl, ok_bind, wrLanes_all (by simp) (fun j _ => hash512_length _), ok_bind,
    rd_outs (fun j _ => hash512_length _) (by omega), ok_bind, e', ok_bind, seeded4 g hst hp h1' hl, ok_bind,
    wrLanes_all (by rw [cat_length fun j _ => hash512_length _]) (fun j _ => hash512_length _), ok_bind,
    rd_outs (fun j _ => hash512_length _) (by omega), ok_bind, ← range8_split]
  refine congrArg Except.ok (congr (congrArg _ (List.map_congr_left fun j hj => ?_))
    (List.map_congr_left fun j hj => ?_))
  · rw [h2 j (List.mem_range.1 hj), Nat.zero_add]
  · rw [h2' j (List.mem_range.1 hj)]

end

/-- Two writes fill the front of a lane. -/
theorem two_writes {L st j o m : Nat} {F : Nat → Bytes} (hF : ∀ i, i < L → (F i).length = st) (hj : j < L)
    {x y : Bytes} (hx : x.length = o) (hy : y.length = m) (hm : o + m ≤ st) {o1 o2 : Nat} (h1 : o1 = j * st)
    (h2 : o2 = j * st + o) :
    (wr (cat L F) o1 x >>= fun b => wr b o2 y) = .ok (cat L (put F j (x ++ y ++ (F j).drop (o + m)))) := by
  have hj' := hF j hj
  have hl : (x ++ (F j).drop o).length = st := by simp; omega
  rw [wr_cat_part hF hj (o := 0) (x := x) (by rw [h1, Nat.mul_comm]; rfl) (by omega), ok_bind, List.take_zero,
    List.nil_append, Nat.zero_add, hx,
    wr_cat_part (put_length hF hl) hj (o := o) (x := y) (by rw [h2, Nat.mul_comm]) (by omega), put_put, put_same,
    List.take_left' hx, hy, ← List.drop_drop, List.drop_left' hx, List.drop_drop]

theorem fill_two {L st o m : Nat} {F x y : Nat → Bytes} (hF : ∀ i, i < L → (F i).length = st)
    (hx : ∀ j, j < L → (x j).length = o) (hy : ∀ j, j < L → (y j).length = m) (hm : o + m ≤ st) {o1 o2 : Nat → Nat}
    (h1 : ∀ j, o1 j = j * st) (h2 : ∀ j, o2 j = j * st + o) {body : Nat → Bytes → C Bytes}
    (hb : ∀ j b, j < L → body j b = (wr b (o1 j) (x j) >>= fun b => wr b (o2 j) (y j))) :
    forRange L body (cat L F) = .ok (cat L fun j => x j ++ y j ++ (F j).drop (o + m)) := by
  refine forRange_eq' (fun t => cat L fun j => if j < t then x j ++ y j ++ (F j).drop (o + m) else F j) ?_ ?_ ?_
  · simp only [Nat.not_lt_zero, if_false]
  · exact cat_congr fun j hj => by rw [if_pos hj]
  · intro t ht
    rw [hb _ _ ht, two_writes (st := st) (fun j hj => ?_) ht (hx t ht) (hy t ht) hm (h1 t) (h2 t)]
    · refine congrArg Except.ok (cat_fill_step (G := fun j => x j ++ y j ++ (F j).drop (o + m)) (F := F) ?_)
      rw [if_neg (by omega)]
    · have := hF j hj
      have := hx j hj
      have := hy j hj
      split
      · simp only [List.length_append, List.length_drop]; omega
      · exact hF j hj

/-- A buffer is the concatenation of its lanes. -/
theorem lanes_of {b : Bytes} {L st : Nat} (h : b.length = L * st) : ∃ F : Nat → Bytes, b = cat L F ∧
    ∀ j, j < L → (F j).length = st :=
  ⟨chunk st b, by rw [cat_chunks _ _ _ (by omega), List.take_of_length_le (by omega)], fun j hj => chunk_length (by
    rw [h]; exact Nat.mul_le_mul_right _ hj)⟩

section
variable {P : Params} (g : Nat → Nat → Byte) {ctx : Ctx} {as I : Nat → Bytes}
  (ha : ∀ j, j < 8 → (as j).length = 32)
include ha

theorem prf_addrx8_spec (hn : P.n ≤ 32) {p : Bytes} (hst : ShaInc alg256 ctx.state_seeded p) (hp : p.length = 64)
    (hs : ctx.sk_seed.length = P.n) :
    prf_addrx8 P g ctx ((List.range 8).map as) =
      .ok ((List.range 8).map fun j => (Spec.Sha2.hash alg256 (p ++ ((as j).take 22 ++ ctx.sk_seed))).take P.n) := by
  obtain ⟨F, e, hF⟩ := lanes_of (b := uninit (g 60) (8 * (P.n + 22))) (L := 8) (st := P.n + 22) (by simp)
  have hx : ∀ j, j < 8 → ((as j).take 22).length = 22 := fun j hj => by rw [List.length_take, ha j hj]; rfl
  have hf := fill_two (L := 8) (o1 := fun j => j * (P.n + 22)) (o2 := fun j => j * (P.n + 22) + 22) (m := P.n)
    (x := fun j => (as j).take 22) (y := fun _ => ctx.sk_seed) hF hx (fun _ _ => hs) (by omega) (fun _ => rfl)
    (fun _ => rfl) (body := fun j b => do
      let b ← wr b (j * (P.n + SPX_SHA256_ADDR_BYTES))
        (← rd (← rd1 ((List.range 8).map as) j) 0 SPX_SHA256_ADDR_BYTES)
      wr b (j * (P.n + SPX_SHA256_ADDR_BYTES) + SPX_SHA256_ADDR_BYTES) (← rd ctx.sk_seed 0 P.n)) (fun j b hj => by
      have := ha j hj
      rw [rd1_range as hj, ok_bind, rd_ok (by show 0 + 22 ≤ _; omega), ok_bind, rd_all hs]
      rfl)
  obtain ⟨ins, e2, h1, h2⟩ := subLanes_cat (k := 8) (L := 8) (l0 := 0) (base := 0) (st := 22 + P.n) (len := 22 + P.n)
    (F := fun j => (as j).take 22 ++ ctx.sk_seed ++ (F j).drop (22 + P.n)) (fun j hj => by
      have := hF j hj
      have := hx j hj
      simp only [List.length_append, List.length_drop]; omega) (by decide) (by omega)
  rw [Nat.zero_mul, Nat.add_zero] at e2
  unfold prf_addrx8
  simp only []
  rw [show uninit (g 60) (8 * (P.n + SPX_SHA256_ADDR_BYTES)) = _ from e, hf, ok_bind,
    show subLanes 8 _ 0 (SPX_SHA256_ADDR_BYTES + P.n) = _ from e2, ok_bind,
    seeded8 g hst hp (len := SPX_SHA256_ADDR_BYTES + P.n) h1 (by show 22 + P.n < _; omega), ok_bind,
    wrLanes_all (by simp) (fun j _ => hash256_length _), ok_bind, rd_outs (fun j _ => hash256_length _) hn]
  refine congrArg Except.ok (List.map_congr_left fun j hj => ?_)
  have h3 := hx j (List.mem_range.1 hj)
  have h4 := hF j (List.mem_range.1 hj)
  rw [show (ins j).take (SPX_SHA256_ADDR_BYTES + P.n) = _ from h2 j (List.mem_range.1 hj), Nat.zero_add,
    List.drop_of_length_le (l := F j) (by omega), List.append_nil, List.drop_zero,
    List.take_of_length_le (l := _ ++ _) (by simp only [List.length_append]; omega)]

theorem simpleBufs_spec {nb : Nat} (hi : ∀ j, j < 8 → nb * P.n ≤ (I j).length) :
    simpleBufs P g ((List.range 8).map I) nb ((List.range 8).map as) =
      .ok (cat 8 fun j => (as j).take 22 ++ (I j).take (nb * P.n)) := by
  obtain ⟨F, e, hF⟩ := lanes_of (b := uninit (g 62) (8 * (22 + nb * P.n))) (L := 8) (st := 22 + nb * P.n) (by simp)
  have hx : ∀ j, j < 8 → ((as j).take 22).length = 22 := fun j hj => by rw [List.length_take, ha j hj]; rfl
  have hy : ∀ j, j < 8 → ((I j).take (nb * P.n)).length = nb * P.n := fun j hj => by
    rw [List.length_take, Nat.min_eq_left (hi j hj)]
  unfold simpleBufs
  simp only []
  rw [show uninit (g 62) (8 * (SPX_SHA256_ADDR_BYTES + nb * P.n)) = _ from e,
    wr_part (o := 0) (m := 22) hF hx (by omega) (fun j b hj => by
      have := ha j hj
      rw [rd1_range as hj, ok_bind, rd_ok (by show 0 + 22 ≤ _; omega), ok_bind, List.drop_zero, Nat.zero_add]
      rfl), ok_bind]
  simp only [List.take_zero, List.nil_append, Nat.zero_add]
  rw [wr_part (n := 22 + nb * P.n) (o := 22) (m := nb * P.n) (fun j hj => by
      have := hF j hj
      have := hx j hj
      simp only [List.length_append, List.length_drop]; omega) hy (by omega) (fun j b hj => by
      have := hi j hj
      rw [rd1_range I hj, ok_bind, rd_ok (by omega), ok_bind, List.drop_zero]
      rfl)]
  refine congrArg Except.ok (cat_congr fun j hj => ?_)
  have h1 := hx j hj
  have h2 := hF j hj
  rw [List.take_left' h1, List.drop_of_length_le (l := _ ++ _) (by simp only [List.length_append, List.length_drop]; omega),
    List.append_nil]

theorem thashx8_simple_spec (hn : P.n ≤ 32) {p q : Bytes} (hst : ShaInc alg256 ctx.state_seeded p) (hp : p.length = 64)
    (hst' : P.sha512 = true → ShaInc alg512 ctx.state_seeded_512 q) (hq : q.length = 128) {nb : Nat}
    (hi : ∀ j, j < 8 → nb * P.n ≤ (I j).length) (hl : nb * P.n < 2 ^ 31) :
    thashx8_simple P g ((List.range 8).map I) nb ctx ((List.range 8).map as) =
      .ok ((List.range 8).map fun j => if P.sha512 = true ∧ nb > 1
        then (Spec.Sha2.hash alg512 (q ++ ((as j).take 22 ++ (I j).take (nb * P.n)))).take P.n
        else (Spec.Sha2.hash alg256 (p ++ ((as j).take 22 ++ (I j).take (nb * P.n)))).take P.n) := by
  have hL : ∀ j, j < 8 → ((as j).take 22 ++ (I j).take (nb * P.n)).length = 22 + nb * P.n := fun j hj => by
    have := ha j hj
    have := hi j hj
    simp only [List.length_append, List.length_take]; omega
  unfold thashx8_simple
  simp only []
  by_cases h : P.sha512 = true ∧ nb > 1
  · simp only [if_pos h]
    rw [simpleBufs_spec g ha hi, ok_bind,
      outs512_spec hn g (hst' h.1) hq (stride := SPX_SHA256_ADDR_BYTES + nb * P.n) hL (by omega)
        (by show 22 + _ < _; omega)]
    refine congrArg Except.ok (List.map_congr_left fun j hj => ?_)
    rw [List.drop_zero, List.take_of_length_le (l := _ ++ _) (by rw [hL j (List.mem_range.1 hj)]; exact Nat.le_refl _)]
  · simp only [if_neg h]
    rw [simpleBufs_spec g ha hi, ok_bind,
      outs256_spec hn g hst hp (stride := SPX_SHA256_ADDR_BYTES + nb * P.n) hL (by omega)
        (by show 22 + _ < _; omega)]
    refine congrArg Except.ok (List.map_congr_left fun j hj => ?_)
    rw [List.drop_zero, List.take_of_length_le (l := _ ++ _) (by rw [hL j (List.mem_range.1 hj)]; exact Nat.le_refl _)]

theorem robustBufs_spec (hs : ctx.pub_seed.length = P.n) (nb : Nat) :
    ∃ R : Nat → Bytes, (∀ j, j < 8 → (R j).length = nb * P.n) ∧
      robustBufs P g nb ctx ((List.range 8).map as) = .ok (cat 8 fun j => ctx.pub_seed ++ (as j).take 22 ++ R j) := by
  obtain ⟨F, e, hF⟩ := lanes_of (b := uninit (g 65) (8 * (P.n + 22 + nb * P.n))) (L := 8) (st := P.n + 22 + nb * P.n)
    (by simp)
  have hx : ∀ j, j < 8 → ((as j).take 22).length = 22 := fun j hj => by rw [List.length_take, ha j hj]; rfl
  refine ⟨fun j => (F j).drop (P.n + 22), fun j hj => by rw [List.length_drop, hF j hj]; omega, ?_⟩
  unfold robustBufs
  simp only []
  rw [show uninit (g 65) (8 * (P.n + SPX_SHA256_ADDR_BYTES + nb * P.n)) = _ from e]
  exact fill_two (L := 8) (o1 := fun j => j * (P.n + 22 + nb * P.n)) (o2 := fun j => P.n + j * (P.n + 22 + nb * P.n))
    (m := 22) (y := fun j => (as j).take 22) (x := fun _ => ctx.pub_seed) hF (fun _ _ => hs) hx (by omega) (fun _ => rfl)
    (fun _ => Nat.add_comm _ _) (fun j b hj => by
      have := ha j hj
      rw [rd_all hs, ok_bind, rd1_range as hj]
      simp only [ok_bind]
      rw [rd_ok (by show 0 + 22 ≤ _; omega)]
      rfl)

omit ha in
theorem maskBufs_spec {k l0 nb : Nat} (hk : l0 + k ≤ 8) {F pre R M : Nat → Bytes}
    (hF : ∀ j, j < 8 → (F j).length = P.n + 22 + nb * P.n)
    (hpre : ∀ j, j < 8 → (pre j).length = P.n + 22) (hR : ∀ j, j < 8 → (R j).length = nb * P.n)
    (hpr : ∀ j, l0 ≤ j → j < l0 + k → F j = pre j ++ R j)
    (hM : ∀ j, j < k → (M j).length = nb * P.n) (hi : ∀ j, j < 8 → nb * P.n ≤ (I j).length) :
    maskBufs P k l0 ((List.range 8).map I) nb (cat k M) (cat 8 F) =
      .ok (cat 8 fun j => if l0 ≤ j ∧ j < l0 + k then pre j ++ xorBytes ((I j).take (nb * P.n)) (M (j - l0)) else F j) := by
  obtain ⟨X, hX⟩ : ∃ X : Nat → Bytes, X = fun j => xorBytes ((I j).take (nb * P.n)) (M (j - l0)) := ⟨_, rfl⟩
  have hXl : ∀ j, l0 ≤ j → j < l0 + k → (X j).length = nb * P.n := fun j h1 h2 => by
    rw [hX]
    simp only [xorBytes, List.length_zipWith, List.length_take]
    rw [hM _ (by omega), Nat.min_eq_left (hi j (by omega)), Nat.min_self]
  have hS : ∀ i, i ≤ nb * P.n → ∀ j, j < 8 → l0 ≤ j → j < l0 + k →
      (pre j ++ ((X j).take i ++ (R j).drop i)).length = P.n + 22 + nb * P.n := fun i hi' j hj h1 h2 => by
    have := hpre j hj
    have := hR j hj
    have := hXl j h1 h2
    simp only [List.length_append, List.length_take, List.length_drop]; omega
  unfold maskBufs
  simp only []
  refine forRange_eq' (fun i => cat 8 fun j => if l0 ≤ j ∧ j < l0 + k then pre j ++ ((X j).take i ++ (R j).drop i) else F j)
    ?_ ?_ ?_
  · refine cat_congr fun j hj => ?_
    split
    · rename_i h; rw [hpr j h.1 h.2]; rfl
    · rfl
  · refine cat_congr fun j hj => ?_
    split
    · rename_i h
      rw [List.take_of_length_le (l := X j) (by rw [hXl j h.1 h.2]),
        List.drop_of_length_le (l := R j) (by rw [hR j hj]), List.append_nil, hX]
    · rfl
  · intro i hib
    refine forRange_eq' (fun t => cat 8 fun j => if l0 ≤ j ∧ j < l0 + t then pre j ++ ((X j).take (i + 1) ++ (R j).drop (i + 1))
      else if l0 ≤ j ∧ j < l0 + k then pre j ++ ((X j).take i ++ (R j).drop i) else F j) ?_ ?_ ?_
    · refine cat_congr fun j hj => ?_
      rw [if_neg (c := l0 ≤ j ∧ j < l0 + 0) (by omega)]
    · refine cat_congr fun j hj => ?_
      by_cases h : l0 ≤ j ∧ j < l0 + k
      · rw [if_pos h, if_pos h]
      · rw [if_neg h, if_neg h, if_neg h]
    · intro t ht
      have hl8 : l0 + t < 8 := by omega
      have h1 := hi _ hl8
      have h2 := hXl (l0 + t) (by omega) (by omega)
      have h3 := hR _ hl8
      have h4 := hpre _ hl8
      rw [rd1_range I hl8, ok_bind, rd1_ok (by omega), ok_bind, rd1_cat hM ht (o := i) (by rw [Nat.mul_comm]; omega) hib 0#8,
        ok_bind, wr1_cat (n := P.n + 22 + nb * P.n) (j := l0 + t) (o := P.n + 22 + i) (fun j hj => ?_) hl8
          (by rw [Nat.mul_comm (P.n + 22 + nb * P.n)]; show P.n + 22 + i + _ = _; exact Nat.add_comm _ _) (by omega)]
      · refine congrArg Except.ok (cat_congr fun j hj => ?_)
        unfold put
        by_cases hj' : j = l0 + t
        · subst hj'
          rw [if_pos rfl, if_neg (by omega), if_pos (by omega), if_pos (by omega), take_succ_get (by omega),
            List.drop_eq_getElem_cons (i := i) (by omega), ← List.append_assoc (pre _),
            set_mid (k := P.n + 22 + i) (by simp only [List.length_append, List.length_take]; omega)]
          have hv : (I (l0 + t))[i]'(by omega) ^^^ (M t).getD i 0#8 = (X (l0 + t))[i]'(by omega) := by
            simp only [hX, xorBytes, List.getElem_zipWith, List.getElem_take, Nat.add_sub_cancel_left]
            rw [getD_lt (by rw [hM t ht]; omega)]
          rw [hv]
          simp only [List.append_assoc, List.singleton_append]
        · rw [if_neg hj']
          show (if _ then _ else _) = _
          by_cases h : l0 ≤ j ∧ j < l0 + t
          · rw [if_pos h, if_pos (by omega)]
          · rw [if_neg h, if_neg (c := l0 ≤ j ∧ j < l0 + (t + 1)) (by omega)]
      · split
        · rename_i h; exact hS _ (by omega) j hj h.1 (by omega)
        · split
          · rename_i h; exact hS _ (by omega) j hj h.1 (by omega)
          · exact hF j hj

theorem thashx8_robust_spec (hn : P.n ≤ 32) (hs : ctx.pub_seed.length = P.n) {p q : Bytes}
    (hst : ShaInc alg256 ctx.state_seeded p) (hp : p.length = 64)
    (hst' : P.sha512 = true → ShaInc alg512 ctx.state_seeded_512 q) (hq : q.length = 128) {nb : Nat}
    (hi : ∀ j, j < 8 → nb * P.n ≤ (I j).length) (hl : nb * P.n < 2 ^ 31) :
    thashx8_robust P g ((List.range 8).map I) nb ctx ((List.range 8).map as) =
      .ok ((List.range 8).map fun j => if P.sha512 = true ∧ nb > 1
        then (Spec.Sha2.hash alg512 (q ++ ((as j).take 22 ++ xorBytes ((I j).take (nb * P.n))
          (Spec.Sha2.mgf1 alg512 (ctx.pub_seed ++ (as j).take 22) (nb * P.n))))).take P.n
        else (Spec.Sha2.hash alg256 (p ++ ((as j).take 22 ++ xorBytes ((I j).take (nb * P.n))
          (Spec.Sha2.mgf1 alg256 (ctx.pub_seed ++ (as j).take 22) (nb * P.n))))).take P.n) := by
  obtain ⟨R, hR, eR⟩ := robustBufs_spec (P := P) g ha hs nb
  have hx : ∀ j, j < 8 → ((as j).take 22).length = 22 := fun j hj => by rw [List.length_take, ha j hj]; rfl
  have hpre : ∀ j, j < 8 → (ctx.pub_seed ++ (as j).take 22).length = P.n + 22 := fun j hj => by
    rw [List.length_append, hs, hx j hj]
  have hF : ∀ j, j < 8 → (ctx.pub_seed ++ (as j).take 22 ++ R j).length = P.n + 22 + nb * P.n := fun j hj => by
    rw [List.length_append, hpre j hj, hR j hj]
  have hXl : ∀ j, j < 8 → ∀ M : Bytes, M.length = nb * P.n →
      (ctx.pub_seed ++ (as j).take 22 ++ xorBytes ((I j).take (nb * P.n)) M).length = P.n + 22 + nb * P.n :=
    fun j hj M hM => by
      rw [List.length_append, hpre j hj]
      simp only [xorBytes, List.length_zipWith, List.length_take]
      rw [hM, Nat.min_eq_left (hi j hj), Nat.min_self]
  have hfin : ∀ j, j < 8 → ∀ M : Bytes, M.length = nb * P.n →
      ((ctx.pub_seed ++ (as j).take 22 ++ xorBytes ((I j).take (nb * P.n)) M).drop P.n).take (22 + nb * P.n) =
        (as j).take 22 ++ xorBytes ((I j).take (nb * P.n)) M := fun j hj M hM => by
    have h := hXl j hj M hM
    rw [List.append_assoc, List.length_append, hs] at h
    rw [List.append_assoc, List.drop_left' hs, List.take_of_length_le (by omega)]
  unfold thashx8_robust
  simp only [show SPX_SHA256_ADDR_BYTES = 22 from rfl]
  by_cases h : P.sha512 = true ∧ nb > 1
  · simp only [if_pos h]
    have m4 : ∀ j, j < 4 → (Spec.Sha2.mgf1 alg512 (ctx.pub_seed ++ (as j).take 22) (nb * P.n)).length = nb * P.n :=
      fun j _ => mgf512_length _ _
    obtain ⟨ins, e, h1, h2⟩ := subLanes_cat (k := 4) (l0 := 0) (base := 0) (len := P.n + 22) hF (by decide) (by omega)
    rw [Nat.zero_mul, Nat.add_zero] at e
    have em : ∀ out : Bytes, out.length = 4 * (nb * P.n) → mgf1x4_512 g out (nb * P.n) ((List.range 4).map ins) (P.n + 22) =
        .ok (cat 4 fun j => Spec.Sha2.mgf1 alg512 (ctx.pub_seed ++ (as j).take 22) (nb * P.n)) := fun out ho => by
      rw [mgf1x4_spec g ho h1 (by omega)]
      refine congrArg Except.ok (cat_congr fun j hj => ?_)
      rw [h2 j hj, Nat.zero_add, List.drop_zero, List.take_left' (hpre j (by omega))]
    have k1 := maskBufs_spec (P := P) (k := 4) (l0 := 0) (nb := nb) (by decide) hF hpre hR (fun _ _ _ => rfl) m4 hi
    have hF2 : ∀ j, j < 8 → (if 0 ≤ j ∧ j < 0 + 4 then ctx.pub_seed ++ (as j).take 22 ++ xorBytes ((I j).take (nb * P.n))
        (Spec.Sha2.mgf1 alg512 (ctx.pub_seed ++ (as (j - 0)).take 22) (nb * P.n))
        else ctx.pub_seed ++ (as j).take 22 ++ R j).length = P.n + 22 + nb * P.n := fun j hj => by
      split
      · exact hXl j hj _ (mgf512_length _ _)
      · exact hF j hj
    obtain ⟨ins', e', h1', h2'⟩ := subLanes_cat (k := 4) (l0 := 4) (base := 0) (len := P.n + 22) hF2 (by decide) (by omega)
    rw [Nat.zero_add (4 * _)] at e'
    have em' : ∀ out : Bytes, out.length = 4 * (nb * P.n) → mgf1x4_512 g out (nb * P.n) ((List.range 4).map ins') (P.n + 22) =
        .ok (cat 4 fun j => Spec.Sha2.mgf1 alg512 (ctx.pub_seed ++ (as (4 + j)).take 22) (nb * P.n)) := fun out ho => by
      rw [mgf1x4_spec g ho h1' (by omega)]
      refine congrArg Except.ok (cat_congr fun j hj => ?_)
      rw [h2' j hj, List.drop_zero, if_neg (by omega), List.take_left' (hpre (4 + j) (by omega))]
    have k2 := maskBufs_spec (P := P) (k := 4) (l0 := 4) (nb := nb) (by decide) hF2 hpre hR
      (fun j h1 _ => if_neg (by omega)) (M := fun j => Spec.Sha2.mgf1 alg512 (ctx.pub_seed ++ (as (4 + j)).take 22) (nb * P.n))
      (fun j _ => mgf512_length _ _) hi
    have k3 : (cat 8 fun j => if 4 ≤ j ∧ j < 4 + 4 then ctx.pub_seed ++ (as j).take 22 ++ xorBytes ((I j).take (nb * P.n))
        (Spec.Sha2.mgf1 alg512 (ctx.pub_seed ++ (as (4 + (j - 4))).take 22) (nb * P.n)) else
        if 0 ≤ j ∧ j < 0 + 4 then ctx.pub_seed ++ (as j).take 22 ++ xorBytes ((I j).take (nb * P.n))
        (Spec.Sha2.mgf1 alg512 (ctx.pub_seed ++ (as (j - 0)).take 22) (nb * P.n))
        else ctx.pub_seed ++ (as j).take 22 ++ R j) = cat 8 fun j => ctx.pub_seed ++ (as j).take 22 ++
          xorBytes ((I j).take (nb * P.n)) (Spec.Sha2.mgf1 alg512 (ctx.pub_seed ++ (as j).take 22) (nb * P.n)) :=
      cat_congr fun j hj => by
        by_cases hj4 : j < 4
        · rw [if_neg (by omega), if_pos (by omega), Nat.sub_zero]
        · rw [if_pos (by omega), show 4 + (j - 4) = j by omega]
    rw [eR, ok_bind, e, ok_bind,
      em _ (by simp), ok_bind, k1, ok_bind,
      e',
      ok_bind, em' _ (cat_length m4), ok_bind, k2,
      ok_bind, k3, outs512_spec hn g (hst' h.1) hq (stride := P.n + 22 + nb * P.n)
        (fun j hj => hXl j hj _ (mgf512_length _ _)) (by show P.n + (22 + _) ≤ P.n + 22 + _; omega)
        (by show 22 + _ < _; omega)]
    refine congrArg Except.ok (List.map_congr_left fun j hj => ?_)
    rw [hfin j (List.mem_range.1 hj) _ (mgf512_length _ _)]
  · simp only [if_neg h]
    obtain ⟨ins, e, h1, h2⟩ := subLanes_cat (k := 8) (l0 := 0) (base := 0) (len := P.n + 22) hF (by decide) (by omega)
    rw [Nat.zero_mul, Nat.add_zero] at e
    have em : ∀ out : Bytes, out.length = 8 * (nb * P.n) → mgf1x8 g out (nb * P.n) ((List.range 8).map ins) (P.n + 22) =
        .ok (cat 8 fun j => Spec.Sha2.mgf1 alg256 (ctx.pub_seed ++ (as j).take 22) (nb * P.n)) := fun out ho => by
      rw [mgf1x8_spec g ho h1 (by omega)]
      refine congrArg Except.ok (cat_congr fun j hj => ?_)
      rw [h2 j hj, Nat.zero_add, List.drop_zero, List.take_left' (hpre j (by omega))]
    have k1 := maskBufs_spec (P := P) (k := 8) (l0 := 0) (nb := nb) (by decide) hF hpre hR (fun _ _ _ => rfl)
      (M := fun j => Spec.Sha2.mgf1 alg256 (ctx.pub_seed ++ (as j).take 22) (nb * P.n)) (fun j _ => mgf256_length _ _) hi
    have k3 : (cat 8 fun j => if 0 ≤ j ∧ j < 0 + 8 then ctx.pub_seed ++ (as j).take 22 ++ xorBytes ((I j).take (nb * P.n))
        (Spec.Sha2.mgf1 alg256 (ctx.pub_seed ++ (as (j - 0)).take 22) (nb * P.n))
        else ctx.pub_seed ++ (as j).take 22 ++ R j) = cat 8 fun j => ctx.pub_seed ++ (as j).take 22 ++
          xorBytes ((I j).take (nb * P.n)) (Spec.Sha2.mgf1 alg256 (ctx.pub_seed ++ (as j).take 22) (nb * P.n)) :=
      cat_congr fun j hj => by rw [if_pos (by omega), Nat.sub_zero]
    rw [eR, ok_bind, e, ok_bind,
      em _ (by simp), ok_bind, k1, ok_bind, k3,
      outs256_spec hn g hst hp (stride := P.n + 22 + nb * P.n)
        (fun j hj => hXl j hj _ (mgf256_length _ _)) (by show P.n + (22 + _) ≤ P.n + 22 + _; omega)
        (by show 22 + _ < _; omega)]
    refine congrArg Except.ok (List.map_congr_left fun j hj => ?_)
    rw [hfin j (List.mem_range.1 hj) _ (mgf256_length _ _)]

end
end Spx.Sha2X

namespace Spx
open Spec Spec.Sha2 Sha2X

attribute [local irreducible] Spec.Sha2.hash Spec.Sha2.mgf1

section
variable {P : Params} (hP : P.Valid) (hf : P.fam = .sha2) (hn : P.n ≤ 32) (hs : P.sha512 = decide (24 ≤ P.n))
  (g g' : Nat → Nat → Byte) {ctx : Ctx} (hc : (sha2Refines g' hP hf hn hs).CtxOK ctx) {A : Nat → ADRS}
  {as : Nat → Addr}
include hc

theorem Sha2X.prfx_value (hA : ∀ j, j < 8 → Encodes P.fam (as j) (A j)) :
    (Sha2X.lanes P g).prf_addrx ctx ((List.range 8).map as) =
    .ok ((List.range 8).map fun j => (sha2Hash P.n P.robust).PRF ctx.pub_seed ctx.sk_seed (A j)) := by
  obtain ⟨h1, h2, h3, -⟩ := hc
  have hl : (blockPad alg256 ctx.pub_seed).length = 64 := by
    simp only [blockPad, List.length_append, List.length_replicate]; show _ + (64 - _) = 64; omega
  have ht : ∀ j, j < 8 → (as j).take 22 = (A j).enc22 := fun j hj => (hA j hj).take hf
  simp only [Sha2X.lanes, sha2Hash]
  rw [prf_addrx8_spec g (fun j hj => (hA j hj).1) hn h3 hl h2]
  refine congrArg Except.ok (List.map_congr_left fun j hj => ?_)
  rw [ht j (List.mem_range.1 hj), ← List.append_assoc]
  rfl

theorem Sha2X.thashx_value {I : Nat → Bytes} {b : Nat} (hb1 : 1 ≤ b) (hi : ∀ j, j < 8 → b * P.n ≤ (I j).length)
    (h31 : b * P.n < 2 ^ 31) (hA : ∀ j, j < 8 → Encodes P.fam (as j) (A j)) :
    (Sha2X.lanes P g).thashx ((List.range 8).map I) b ctx ((List.range 8).map as) =
      .ok ((List.range 8).map fun j => (sha2Hash P.n P.robust).T ctx.pub_seed (A j) ((I j).take (b * P.n))) := by
  obtain ⟨h1, h2, h3, h4⟩ := hc
  have hl : (blockPad alg256 ctx.pub_seed).length = 64 := by
    simp only [blockPad, List.length_append, List.length_replicate]; show _ + (64 - _) = 64; omega
  have hl' : (blockPad alg512 ctx.pub_seed).length = 128 := by
    simp only [blockPad, List.length_append, List.length_replicate]; show _ + (128 - _) = 128; omega
  have ht : ∀ j, j < 8 → (as j).take 22 = (A j).enc22 := fun j hj => (hA j hj).take hf
  have hn1 := hP.n_pos
  have hgt : (24 ≤ P.n ∧ P.n < b * P.n) ↔ (P.sha512 = true ∧ b > 1) := by
    rw [hs, decide_eq_true_iff]
    refine and_congr_right fun _ => ⟨fun h => ?_, fun h => ?_⟩
    · apply Classical.byContradiction
      intro h'
      have : b = 1 := by omega
      subst this; omega
    · have := Nat.mul_le_mul_right P.n (show 2 ≤ b from h)
      omega
  have hxl : ∀ j, j < 8 → ((I j).take (b * P.n)).length = b * P.n := fun j hj => by
    rw [List.length_take, Nat.min_eq_left (hi j hj)]
  simp only [Sha2X.lanes, sha2Hash]
  cases hr : P.robust
  · simp only [Bool.false_eq_true, if_false]
    rw [thashx8_simple_spec g (fun j hj => (hA j hj).1) hn h3 hl h4 hl' hi h31]
    refine congrArg Except.ok (List.map_congr_left fun j hj => ?_)
    simp only [sha2T, hxl j (List.mem_range.1 hj), hgt, ht j (List.mem_range.1 hj), Bool.false_eq_true, if_false, List.append_assoc]
  · simp only [if_true]
    rw [thashx8_robust_spec g (fun j hj => (hA j hj).1) hn h1 h3 hl h4 hl' hi h31]
    refine congrArg Except.ok (List.map_congr_left fun j hj => ?_)
    simp only [sha2T, hxl j (List.mem_range.1 hj), hgt, ht j (List.mem_range.1 hj), if_true, List.append_assoc]

end

theorem sha2LaneRefines {P : Params} (g G : Nat → Nat → Byte) (hP : P.Valid) (hf : P.fam = .sha2) (hn : P.n ≤ 32)
    (hs : P.sha512 = decide (24 ≤ P.n)) :
    LaneRefines (optBuild P (Sha2.impl P g) 3 (Sha2X.lanes P g) G) (sha2Refines g hP hf hn hs) where
  thashx _ A _ _ hc _ hb hi h31 :=
    Sha2X.thashx_value hP hf hn hs g g hc hb hi h31 fun j _ => encodes_enc P.fam (A j)
  prf _ A hc _ := Sha2X.prfx_value hP hf hn hs g g hc fun j _ => encodes_enc P.fam (A j)

theorem specHash_sha2 {P : Params} (hf : P.fam = .sha2) : specHash P = sha2Hash P.n P.robust := by
  unfold specHash; rw [hf]

end Spx
