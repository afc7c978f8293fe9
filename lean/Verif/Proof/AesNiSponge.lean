import Verif.Proof.AesNi
import Verif.Proof.CatLanes
import Verif.Proof.HashHaraka
import Verif.Proof.FipsX
/-! Haraka-S of haraka-aesni/haraka.c, one-way and four-way, computes the specification in every lane. -/

namespace Spx.AesNi
open Spec

attribute [local irreducible] Spec.Haraka.perm512

theorem xor16 {x m : Bytes} (hx : x.length = 64) (hm : 32 ≤ m.length) :
    xorBytes (x.take 16) (m.take 16) ++ (xorBytes ((x.drop 16).take 16) ((m.drop 16).take 16) ++ x.drop 32) =
      xorAt x 0 (m.take 32) := by
  rw [← xorInto_eq x (m.take 32) (by simp; omega)]
  unfold xorInto
  have e1 : x = x.take 16 ++ ((x.drop 16).take 16 ++ x.drop 32) := by
    rw [show x.drop 32 = (x.drop 16).drop 16 by rw [List.drop_drop], List.take_append_drop, List.take_append_drop]
  have e2 : m.take 32 = m.take 16 ++ (m.drop 16).take 16 := by rw [← List.take_add]
  have e3 : (m.take 32).length = 32 := by simp; omega
  rw [e3, e2]
  conv => rhs; lhs; rw [e1]
  unfold xorBytes
  rw [List.zipWith_append (by simp; omega)]
  conv => rhs; lhs; rhs; rhs; rw [← List.append_nil ((m.drop 16).take 16)]
  rw [List.zipWith_append (by simp; omega)]
  simp

theorem xorBlock_ok {L j off : Nat} {F : Nat → Bytes} (hF : ∀ i, i < L → (F i).length = 64) (hj : j < L)
    (ho : off = 64 * j) {m : Bytes} (hm : 32 ≤ m.length) :
    xorBlock (cat L F) off m = .ok (cat L (put F j (xorAt (F j) 0 (m.take 32)))) := by
  have hx := hF j hj
  have e1 : (xorBytes ((F j).take 16) (m.take 16)).length = 16 := by simp [xorBytes]; omega
  have e2 : (xorBytes (((F j).drop 16).take 16) ((m.drop 16).take 16)).length = 16 := by simp [xorBytes]; omega
  unfold xorBlock LOAD STORE
  simp only [XOR128_eq]
  rw [rd_cat_part hF hj (o := 0) (by omega) (by omega), ok_bind, rd_ok (by omega), ok_bind,
    wr_cat_part hF hj (o := 0) (by omega) (by simp only [List.drop_zero]; omega), ok_bind]
  simp only [List.drop_zero, List.take_zero, List.nil_append, Nat.zero_add, e1]
  have hF1 : ∀ i, i < L → (put F j (xorBytes ((F j).take 16) (m.take 16) ++ (F j).drop 16) i).length = 64 :=
    put_length hF (by rw [List.length_append, e1]; simp; omega)
  rw [rd_cat_part hF1 hj (o := 16) (by omega) (by omega), ok_bind, rd_ok (by omega), ok_bind]
  simp only [put_same]
  rw [List.drop_left' e1]
  rw [wr_cat_part hF1 hj (o := 16) (by omega) (by omega)]
  simp only [put_same, put_put, e2]
  rw [List.take_left' e1, List.drop_append, show (xorBytes ((F j).take 16) (m.take 16)).drop (16 + 16) = [] from
    List.drop_of_length_le (by omega), e1, List.nil_append, List.drop_drop,
    ← xor16 hx hm, List.append_assoc]

theorem xorBlocks_ok {L : Nat} {F : Nat → Bytes} (hF : ∀ i, i < L → (F i).length = 64) {m : Nat → Bytes}
    (hm : ∀ j, j < L → 32 ≤ (m j).length) :
    xorBlocks L (cat L F) ((List.range L).map m) = .ok (cat L fun j => xorAt (F j) 0 ((m j).take 32)) := by
  refine forRange_eq' (fun i => cat L fun j => if j < i then xorAt (F j) 0 ((m j).take 32) else F j)
    (by simp) (cat_congr fun j hj => by simp only [if_pos hj]) ?_
  intro i hi
  rw [rd1_map m hi, ok_bind, xorBlock_ok (fun t ht => by
    show List.length (if _ then _ else _) = _
    split
    · rw [xorAt_length]; exact hF t ht
    · exact hF t ht) hi rfl (hm i hi), cat_fill_step]
  simp

/-- `perm` permutes every lane of the state. -/
def PermX (L : Nat) (perm : Bytes → Ctx → C Bytes) (ctx : Ctx) (rcb : Bytes) : Prop :=
  rcb.length = 640 ∧ ∀ F : Nat → Bytes, (∀ j, j < L → (F j).length = 64) →
    perm (cat L F) ctx = .ok (cat L fun j => Spec.Haraka.perm512 rcb (F j))

theorem last_ok {r : Nat} (hr0 : 0 < r) (g : Nat → Byte) {m1 : Bytes} {len1 : Nat}
    (hl1 : len1 < r) (hm1 : len1 ≤ m1.length) {p : Byte} (hp : p ||| 128#8 = p ^^^ 128#8) (f : Bytes → Bytes) :
    ∃ t, haraka_S_last g r m1 len1 p = .ok t ∧ r ≤ t.length ∧
      ∀ S : Bytes, xorAt S 0 (t.take r) = padState r p ((m1.take len1).foldl (absB f r) (S, 0)) := by
  have hT2 : forRange len1 (fun i (t : Bytes) => do wr1 t i (← rd1 m1 i))
      (List.replicate r 0#8 ++ (uninit g r).drop r) =
      .ok (m1.take len1 ++ (List.replicate (r - len1) 0#8 ++ (uninit g r).drop r)) := by
    rw [copy_loop _ _ _ hm1 (by simp; omega), List.drop_append_of_le_length (by simp; omega)]
    simp
  have hlen1 : (m1.take len1).length = len1 := by simp; omega
  have hT3 : wr1 (m1.take len1 ++ (List.replicate (r - len1) 0#8 ++ (uninit g r).drop r)) len1 p =
      .ok (m1.take len1 ++ (p :: List.replicate (r - len1 - 1) 0#8) ++ (uninit g r).drop r) := by
    rw [wr1_ok (by simp; omega), List.set_append, if_neg (by omega), hlen1, Nat.sub_self]
    obtain ⟨k, hk⟩ : ∃ k, r - len1 = k + 1 := ⟨r - len1 - 1, by omega⟩
    rw [hk, List.replicate_succ]
    simp
  have hblk : (m1.take len1 ++ (p :: List.replicate (r - len1 - 1) 0#8)).length = r := by
    simp; omega
  have hx : (m1.take len1 ++ (p :: List.replicate (r - len1 - 1) 0#8)).getD (r - 1) 0#8 ||| 128#8 =
      (m1.take len1 ++ (p :: List.replicate (r - len1 - 1) 0#8)).getD (r - 1) 0#8 ^^^ 128#8 := by
    rw [getD_append_right (by omega), hlen1]
    by_cases h : r - 1 = len1
    · rw [h, Nat.sub_self]; exact hp
    · obtain ⟨k, hk⟩ : ∃ k, r - 1 - len1 = k + 1 := ⟨r - 1 - len1 - 1, by omega⟩
      rw [hk, List.getD_cons_succ]
      have : (List.replicate (r - len1 - 1) 0#8).getD k 0#8 = 0#8 := by
        simp only [List.getD, List.getElem?_replicate]
        split <;> rfl
      rw [this]; rfl
  obtain ⟨e3, e4⟩ := or_last (rest := (uninit g r).drop r) hr0 hblk hx
  refine ⟨(m1.take len1 ++ (p :: List.replicate (r - len1 - 1) 0#8)).modify (r - 1) (· ^^^ 128#8) ++ (uninit g r).drop r,
    ?_, ?_, ?_⟩
  · unfold haraka_S_last
    rw [fill_zero _ _ _ (by simp), ok_bind, hT2, ok_bind, hT3, ok_bind, e3, ok_bind, e4]
  · rw [List.length_append, List.length_modify, hblk]; omega
  · intro S
    rw [List.take_left' (by rw [List.length_modify, hblk]), xorAt_modify _ _ (by omega), xorAt_append,
      xorAt, xorAt_zero, foldl_absB_lt _ _ _ _ _ (by omega)]
    rfl

section
variable {L : Nat} {perm : Bytes → Ctx → C Bytes} {ctx : Ctx} {rcb : Bytes} (hp : PermX L perm ctx rcb)
include hp

theorem permX_len : ∀ s : Bytes, s.length = 64 → (Spec.Haraka.perm512 rcb s).length = 64 :=
  fun _ hs => Haraka.perm512_length hp.1 hs

theorem permX_wr {F : Nat → Bytes} (hF : ∀ j, j < L → (F j).length = 64) :
    (do wr (cat L F) 0 (← perm (cat L F) ctx)) = .ok (cat L fun j => Spec.Haraka.perm512 rcb (F j)) := by
  rw [hp.2 F hF, ok_bind, wr_whole]
  rw [cat_length hF, cat_length (n := 64) fun j hj => permX_len hp _ (hF j hj)]

theorem absorbx_loop : ∀ (fuel : Nat) (F m : Nat → Bytes) (mlen : Nat), (∀ j, j < L → (F j).length = 64) →
    (∀ j, j < L → mlen ≤ (m j).length) → mlen < fuel →
    ∃ F' m' len', loop fuel (haraka_S_absorbx_block L perm 32 ctx) (cat L F, (List.range L).map m, mlen) =
        .ok (cat L F', (List.range L).map m', len') ∧ len' < 32 ∧ ∀ j, j < L → (F' j).length = 64 ∧
      len' ≤ (m' j).length ∧
      ((m' j).take len').foldl (absB (Spec.Haraka.perm512 rcb) 32) (F' j, 0) =
        ((m j).take mlen).foldl (absB (Spec.Haraka.perm512 rcb) 32) (F j, 0) := by
  intro fuel
  induction fuel with
  | zero => intro F m mlen _ _ h; omega
  | succ fuel ih =>
    intro F m mlen hF hm hf
    rw [loop_succ]
    by_cases hlt : mlen ≥ 32
    · have e1 := xorBlocks_ok hF (m := m) (fun j hj => Nat.le_trans hlt (hm j hj))
      have hF1 : ∀ j, j < L → (xorAt (F j) 0 ((m j).take 32)).length = 64 := fun j hj => by
        rw [xorAt_length]; exact hF j hj
      have e2 := permX_wr hp hF1
      have hb : haraka_S_absorbx_block L perm 32 ctx (cat L F, (List.range L).map m, mlen) =
          .ok (.inl (cat L (fun j => Spec.Haraka.perm512 rcb (xorAt (F j) 0 ((m j).take 32))),
            (List.range L).map fun j => (m j).drop 32, mlen - 32)) := by
        unfold haraka_S_absorbx_block
        simp only [if_pos hlt, e1, ok_bind]
        simp only [← bind_assoc, e2, ok_bind]
        rw [tabulate_ok (g := fun j => (m j).drop 32) (fun j hj => by
          rw [rd1_map m hj, ok_bind, sub_ok (by have := hm j hj; omega)]), ok_bind]
      rw [hb]
      simp only [ok_bind]
      obtain ⟨F', m', len', h1, h2, h3⟩ := ih (fun j => Spec.Haraka.perm512 rcb (xorAt (F j) 0 ((m j).take 32)))
        (fun j => (m j).drop 32) (mlen - 32) (fun j hj => permX_len hp _ (hF1 j hj))
        (fun j hj => by have := hm j hj; simp; omega) (by omega)
      refine ⟨F', m', len', h1, h2, fun j hj => ⟨(h3 j hj).1, (h3 j hj).2.1, ?_⟩⟩
      have e : (m j).take mlen = (m j).take 32 ++ ((m j).drop 32).take (mlen - 32) := by
        rw [← List.take_add]; congr 1; omega
      rw [(h3 j hj).2.2, e, List.foldl_append,
        foldl_absB_eq _ 32 (F j) 0 ((m j).take 32) (by decide) (by have := hm j hj; simp; omega)]
    · have hb : haraka_S_absorbx_block L perm 32 ctx (cat L F, (List.range L).map m, mlen) =
          .ok (.inr (cat L F, (List.range L).map m, mlen)) := by
        unfold haraka_S_absorbx_block
        simp only [if_neg hlt]
      rw [hb]
      exact ⟨F, m, mlen, rfl, by omega, fun j hj => ⟨hF j hj, hm j hj, rfl⟩⟩

theorem absorbx_spec (g : Nat → Nat → Byte) {F m : Nat → Bytes} {mlen : Nat} (hF : ∀ j, j < L → (F j).length = 64)
    (hm : ∀ j, j < L → mlen ≤ (m j).length) {p : Byte} (hpp : p ||| 128#8 = p ^^^ 128#8) :
    haraka_S_absorbx L perm g (cat L F) 32 ((List.range L).map m) mlen p ctx =
      .ok (cat L fun j => padState 32 p (((m j).take mlen).foldl (absB (Spec.Haraka.perm512 rcb) 32) (F j, 0))) := by
  obtain ⟨F1, m1, len1, e1, hl1, h1⟩ := absorbx_loop hp (mlen + 1) F m mlen hF hm (by omega)
  have hlast : ∀ j, ∃ t, j < L → haraka_S_last (g j) 32 (m1 j) len1 p = .ok t ∧ 32 ≤ t.length ∧
      ∀ S : Bytes, xorAt S 0 (t.take 32) =
        padState 32 p (((m1 j).take len1).foldl (absB (Spec.Haraka.perm512 rcb) 32) (S, 0)) := by
    intro j
    by_cases hj : j < L
    · obtain ⟨t, ht⟩ := last_ok (by decide) (g j) hl1 (h1 j hj).2.1 hpp (Spec.Haraka.perm512 rcb)
      exact ⟨t, fun _ => ht⟩
    · exact ⟨[], fun h => absurd h hj⟩
  obtain ⟨t, ht⟩ := Classical.axiomOfChoice hlast
  unfold haraka_S_absorbx
  rw [e1]
  simp only [ok_bind]
  rw [tabulate_ok (g := t) (fun j hj => by rw [rd1_map m1 hj, ok_bind, (ht j hj).1]), ok_bind,
    xorBlocks_ok (fun j hj => (h1 j hj).1) (fun j hj => (ht j hj).2.1)]
  congr 1
  apply cat_congr
  intro j hj
  rw [(ht j hj).2.2, (h1 j hj).2.2]

theorem iterX_len {s : Bytes} (hs : s.length = 64) (k : Nat) : (iter (Spec.Haraka.perm512 rcb) k s).length = 64 := by
  induction k with
  | zero => exact hs
  | succ k ih => exact permX_len hp _ ih

omit hp in
/-- Two stores of sixteen bytes. -/
theorem store32 {L j off so : Nat} {F : Nat → Bytes} (hF : ∀ i, i < L → (F i).length = 64) (hj : j < L)
    (hs : so = 64 * j) {h : Bytes} (hl : off + 32 ≤ h.length) :
    (do
      let h ← STORE h off (← LOAD (cat L F) so)
      STORE h (off + 16) (← LOAD (cat L F) (so + 16))) = .ok (h.take off ++ (F j).take 32 ++ h.drop (off + 32)) := by
  have hx := hF j hj
  have l1 : ((F j).take 16).length = 16 := by simp; omega
  have l2 : (((F j).drop 16).take 16).length = 16 := by simp; omega
  have l3 : (h.take off).length = off := by simp; omega
  have l4 : (h.take off ++ (F j).take 16).length = off + 16 := by rw [List.length_append, l3, l1]
  unfold LOAD STORE
  rw [rd_cat_part hF hj (o := 0) (by omega) (by omega), ok_bind, wr_ok (by rw [List.drop_zero]; omega), ok_bind,
    rd_cat_part hF hj (o := 16) (by omega) (by omega), ok_bind, List.drop_zero, l1,
    wr_ok (by rw [List.length_append, l4, l2, List.length_drop]; omega), List.take_left' l4, l2,
    List.drop_append, show (h.take off ++ (F j).take 16).drop (off + 16 + 16) = [] from
      List.drop_of_length_le (by omega), l4, List.nil_append, List.drop_drop,
    show (F j).take 32 = (F j).take 16 ++ ((F j).drop 16).take 16 by rw [← List.take_add]]
  rw [show off + 16 + (off + 16 + 16 - (off + 16)) = off + 32 by omega]
  simp only [List.append_assoc]

theorem squeezex_spec {F : Nat → Bytes} (hF : ∀ j, j < L → (F j).length = 64) {h : Nat → Bytes} {nb : Nat}
    (hl : ∀ j, j < L → nb * 32 ≤ (h j).length) :
    haraka_S_squeezeblocksx L perm ((List.range L).map h) nb (cat L F) 32 ctx =
      .ok ((List.range L).map (fun j => (List.range (nb * 32)).map (stream (Spec.Haraka.perm512 rcb) 32 (F j)) ++
        (h j).drop (nb * 32)), cat L fun j => iter (Spec.Haraka.perm512 rcb) nb (F j)) := by
  unfold haraka_S_squeezeblocksx
  have e : forRange nb (fun _ (st : List Bytes × Nat × Bytes) => do
      let (hs, off, s) := st
      let s ← wr s 0 (← perm s ctx)
      let hs ← tabulate L fun j => do
        let h ← STORE (← rd1 hs j) off (← LOAD s (64 * j))
        STORE h (off + 16) (← LOAD s (64 * j + 16))
      .ok (hs, off + 32, s)) ((List.range L).map h, 0, cat L F) =
      .ok ((List.range L).map (fun j => (List.range (nb * 32)).map (stream (Spec.Haraka.perm512 rcb) 32 (F j)) ++
        (h j).drop (nb * 32)), nb * 32, cat L fun j => iter (Spec.Haraka.perm512 rcb) nb (F j)) := by
    refine forRange_eq' (fun k => ((List.range L).map (fun j => (List.range (k * 32)).map
      (stream (Spec.Haraka.perm512 rcb) 32 (F j)) ++ (h j).drop (k * 32)), k * 32,
      cat L fun j => iter (Spec.Haraka.perm512 rcb) k (F j))) (by simp [iter]) rfl ?_
    intro k hk
    have hlk : ∀ j, j < L → (iter (Spec.Haraka.perm512 rcb) k (F j)).length = 64 :=
      fun j hj => iterX_len hp (hF j hj) k
    have hlk' : ∀ j, j < L → (iter (Spec.Haraka.perm512 rcb) (k + 1) (F j)).length = 64 :=
      fun j hj => iterX_len hp (hF j hj) (k + 1)
    have e2 := permX_wr hp hlk
    have hs2 : ∀ j, j < L → (iter (Spec.Haraka.perm512 rcb) (k + 1) (F j)).take 32 = (List.range 32).map
        (fun i => stream (Spec.Haraka.perm512 rcb) 32 (F j) (k * 32 + i)) := by
      intro j hj
      have hlj' := hlk' j hj
      apply List.ext_getElem (by simp [hlj'])
      intro i h1 h2
      have hi : i < 32 := by simpa using h2
      have := Haraka.stream_at (f := Spec.Haraka.perm512 rcb) (r := 32) (K := k * 32) (c := 32) (q := k + 1) (i := i)
        (fin := F j) (by omega) (Nat.le_refl _) hi
      simp only [List.getElem_map, List.getElem_range, List.getElem_take]
      rw [this, Nat.sub_self, Nat.zero_add, getD_lt (by omega)]
    simp only [← bind_assoc, e2, ok_bind]
    rw [tabulate_ok (g := fun j => (List.range ((k + 1) * 32)).map (stream (Spec.Haraka.perm512 rcb) 32 (F j)) ++
      (h j).drop ((k + 1) * 32)), ok_bind, Nat.succ_mul]
    · rfl
    · intro j hj
      have hhj := hl j hj
      rw [rd1_map _ hj, ok_bind]
      have e3 := store32 (j := j) (off := k * 32) (so := 64 * j) hlk' hj rfl
        (h := (List.range (k * 32)).map (stream (Spec.Haraka.perm512 rcb) 32 (F j)) ++ (h j).drop (k * 32))
        (by simp; omega)
      simp only [bind_assoc] at e3 ⊢
      refine Eq.trans e3 ?_
      rw [List.take_left' (by simp), hs2 j hj, List.drop_append, List.drop_of_length_le (by simp), List.nil_append,
        List.drop_drop, Nat.succ_mul, List.range_add, List.map_append, List.map_map]
      simp only [List.length_map, List.length_range, Nat.add_sub_cancel_left]
      rfl
  rw [e]
  rfl

theorem harakaSx_bytes (m : Bytes) (n : Nat) : Spec.Haraka.harakaS rcb m n =
    (List.range n).map (stream (Spec.Haraka.perm512 rcb) 32
      (padState 32 0x1F#8 (m.foldl (absB (Spec.Haraka.perm512 rcb) 32) (List.replicate 64 0#8, 0)))) :=
  sponge_eq (permX_len hp) (by decide) (by decide) m n

theorem padStateX_len (m : Bytes) : (padState 32 0x1F#8
    (m.foldl (absB (Spec.Haraka.perm512 rcb) 32) (List.replicate 64 0#8, 0))).length = 64 := by
  rw [padState, List.length_modify, List.length_modify]
  exact foldl_absB_length (permX_len hp) m (by simp)

omit hp in
theorem cat_replicate (L n : Nat) (b : Byte) : cat L (fun _ => List.replicate n b) = List.replicate (n * L) b := by
  induction L with
  | zero => simp [cat]
  | succ L ih => rw [cat, ih, Nat.mul_succ, List.replicate_append_replicate]

/-- `haraka_S` and `haraka_Sx4` write exactly the Haraka-S output in every lane. -/
theorem haraka_Sx_spec (g : Nat → Nat → Byte) {out inp : Nat → Bytes} {outlen inlen : Nat}
    (ho : ∀ j, j < L → outlen ≤ (out j).length) (hi : ∀ j, j < L → inlen ≤ (inp j).length) :
    haraka_Sx L perm g ((List.range L).map out) outlen ((List.range L).map inp) inlen ctx =
      .ok ((List.range L).map fun j =>
        Spec.Haraka.harakaS rcb ((inp j).take inlen) outlen ++ (out j).drop outlen) := by
  have e0 := fill_zero 0#8 (64 * L) (uninit (g 41) (64 * L)) (by simp)
  rw [List.drop_of_length_le (by simp), List.append_nil, ← cat_replicate] at e0
  have e1 := absorbx_spec hp (fun j => g (60 + j)) (F := fun _ => List.replicate 64 0#8) (by simp) hi (p := 0x1F#8)
    (by decide)
  obtain ⟨s1, hd⟩ : ∃ s1 : Nat → Bytes, s1 = fun j => padState 32 0x1F#8 (((inp j).take inlen).foldl
    (absB (Spec.Haraka.perm512 rcb) 32) (List.replicate 64 0#8, 0)) := ⟨_, rfl⟩
  rw [← hd] at e1
  have hs1 : ∀ j, j < L → (s1 j).length = 64 := fun j _ => by rw [hd]; exact padStateX_len hp ((inp j).take inlen)
  have hb : ∀ j, Spec.Haraka.harakaS rcb ((inp j).take inlen) outlen = (List.range outlen).map
      (stream (Spec.Haraka.perm512 rcb) 32 (s1 j)) := fun j => by rw [hd]; exact harakaSx_bytes hp _ _
  simp only [hb]
  have e2 := squeezex_spec hp hs1 (h := out) (nb := outlen / 32) (fun j hj => by have := ho j hj; omega)
  have e3 := squeezex_spec hp (fun j hj => iterX_len hp (hs1 j hj) (outlen / 32)) (h := fun j => uninit (g (64 + j)) 32)
    (nb := 1) (by simp)
  unfold haraka_Sx Haraka.HARAKAS_RATE
  simp only [e0, e1, ok_bind, e2]
  by_cases h0 : outlen % 32 ≠ 0
  · rw [if_pos h0, e3]
    simp only [ok_bind]
    apply tabulate_ok
    intro j hj
    have hoj := ho j hj
    rw [rd1_map _ hj, ok_bind, rd1_map _ hj, ok_bind]
    refine forRange_eq' (fun i => (List.range (outlen / 32 * 32 + i)).map (stream (Spec.Haraka.perm512 rcb) 32 (s1 j)) ++
      (out j).drop (outlen / 32 * 32 + i)) rfl
      (by rw [show outlen / 32 * 32 + outlen % 32 = outlen by omega]) ?_
    intro i hi
    have hst : stream (Spec.Haraka.perm512 rcb) 32 (iter (Spec.Haraka.perm512 rcb) (outlen / 32) (s1 j)) i =
        stream (Spec.Haraka.perm512 rcb) 32 (s1 j) (outlen / 32 * 32 + i) := by
      rw [stream, stream, show i / 32 = 0 by omega,
        show (outlen / 32 * 32 + i) / 32 = outlen / 32 by omega,
        show (outlen / 32 * 32 + i) % 32 = i % 32 by omega]
      rfl
    rw [rd1_ok (by simp; omega), ok_bind, List.getElem_append_left (by simp; omega)]
    simp only [List.getElem_map, List.getElem_range]
    rw [hst]
    exact wr1_fill (g := stream (Spec.Haraka.perm512 rcb) 32 (s1 j)) (by omega)
  · rw [if_neg h0, show outlen / 32 * 32 = outlen by omega]

end

theorem permX_1 {ctx : Ctx} (h : ctx.rc.length = 640) : PermX 1 haraka512_perm ctx ctx.rc := by
  refine ⟨h, fun F hF => ?_⟩
  have h0 := hF 0 (by decide)
  have e : ∀ F : Nat → Bytes, cat 1 F = F 0 := fun F => by simp [cat]
  rw [e, e, haraka512_perm_spec h (by omega), List.take_of_length_le (by omega)]

theorem permX_4 {ctx : Ctx} (h : ctx.rc.length = 640) : PermX 4 haraka512_perm_x4 ctx ctx.rc := by
  refine ⟨h, fun F hF => ?_⟩
  rw [haraka512_perm_x4_spec h (by rw [cat_length hF])]
  exact congrArg Except.ok (cat_congr fun j hj => by rw [chunk_cat hF hj])

theorem permIs_1 {ctx : Ctx} (h : ctx.rc.length = 640) : Haraka.PermIs haraka512_perm ctx ctx.rc :=
  ⟨h, fun _ hi => haraka512_perm_spec h hi⟩

theorem haraka_S_spec {ctx : Ctx} (h : ctx.rc.length = 640) (g : Nat → Nat → Byte) {out inp : Bytes}
    {outlen inlen : Nat} (ho : outlen ≤ out.length) (hi : inlen ≤ inp.length) :
    haraka_S g out outlen inp inlen ctx =
      .ok (Spec.Haraka.harakaS ctx.rc (inp.take inlen) outlen ++ out.drop outlen) := by
  have e := haraka_Sx_spec (permX_1 h) g (out := fun _ => out) (inp := fun _ => inp) (outlen := outlen)
    (inlen := inlen) (fun _ _ => ho) (fun _ _ => hi)
  unfold haraka_S
  have e' : haraka_Sx 1 haraka512_perm g [out] outlen [inp] inlen ctx = _ := e
  rw [e', ok_bind]
  rfl

theorem haraka_Sx4_spec {ctx : Ctx} (h : ctx.rc.length = 640) (g : Nat → Nat → Byte) {out inp : Nat → Bytes}
    {outlen inlen : Nat} (ho : ∀ j, j < 4 → outlen ≤ (out j).length) (hi : ∀ j, j < 4 → inlen ≤ (inp j).length) :
    haraka_Sx4 g ((List.range 4).map out) outlen ((List.range 4).map inp) inlen ctx =
      .ok ((List.range 4).map fun j =>
        Spec.Haraka.harakaS ctx.rc ((inp j).take inlen) outlen ++ (out j).drop outlen) :=
  haraka_Sx_spec (permX_4 h) g ho hi

/-- The constants in the code are the published ones. -/
theorem stdConstants_ok : stdConstants.length = 40 ∧ (∀ i, i < 40 → (stdConstants.getD i []) =
    chunk 16 Spec.Haraka.rcStd i) := by
  refine ⟨by decide +kernel, ?_⟩
  decide +kernel

theorem load_constants_spec {rc : Bytes} (h : rc.length = 640) : load_haraka_constants rc = .ok Spec.Haraka.rcStd := by
  have hl : Spec.Haraka.rcStd.length = 640 := by decide +kernel
  have hc : ∀ i, i < 40 → (chunk 16 Spec.Haraka.rcStd i).length = 16 := fun i hi => chunk_length (by omega)
  unfold load_haraka_constants
  rw [← List.take_of_length_le (l := Spec.Haraka.rcStd) (i := 40 * 16) (by omega), ← cat_chunks 16 40 _ (by omega)]
  refine forRange_eq' (fun i => cat i (chunk 16 Spec.Haraka.rcStd) ++ rc.drop (16 * i)) (by simp [cat])
    (by rw [List.drop_of_length_le (by omega), List.append_nil]) ?_
  intro i hi
  have h1 := stdConstants_ok.2 i hi
  rw [rd1_ok (by rw [stdConstants_ok.1]; exact hi), ok_bind]
  rw [getD_lt (by rw [stdConstants_ok.1]; exact hi)] at h1
  rw [h1]
  have hcl : (cat i (chunk 16 Spec.Haraka.rcStd)).length = 16 * i := by
    rw [cat_length fun j hj => hc j (by omega), Nat.mul_comm]
  rw [wr_app hcl.symm (by rw [hc i hi]; simp; omega), hc i hi]
  rw [List.drop_drop, cat, Nat.mul_succ]

theorem tweak_constants_spec (g : Nat → Nat → Byte) {n : Nat} {ctx : Ctx} (hn : ctx.pub_seed.length = n)
    (h : ctx.rc.length = 640) :
    tweak_constants g n ctx = .ok { ctx with rc := Spec.Haraka.rcTweak ctx.pub_seed } := by
  have hl : Spec.Haraka.rcStd.length = 640 := by decide +kernel
  have e1 := haraka_S_spec (ctx := { ctx with rc := Spec.Haraka.rcStd }) hl g
    (out := uninit (g 43) (40 * 16)) (inp := ctx.pub_seed) (outlen := 40 * 16) (inlen := n) (by simp) (by omega)
  rw [List.take_of_length_le (by omega), List.drop_of_length_le (by simp), List.append_nil,
    show 40 * 16 = 640 from rfl] at e1
  have hrcl : (Spec.Haraka.harakaS Spec.Haraka.rcStd ctx.pub_seed 640).length = 640 := sponge_length _ _ _ _ _ _
  unfold tweak_constants
  rw [load_constants_spec h, ok_bind]
  simp only [show 40 * 16 = 640 from rfl, e1, ok_bind]
  unfold Spec.Haraka.rcTweak
  generalize Spec.Haraka.harakaS Spec.Haraka.rcStd ctx.pub_seed 640 = rcb at *
  have hc : ∀ i, i < 40 → (chunk 16 rcb i).length = 16 := fun i hi => chunk_length (by omega)
  have e2 : forRange 40 (fun i rc => do wr rc (16 * i) (← LOAD rcb (16 * i))) Spec.Haraka.rcStd = .ok rcb := by
    rw [← List.take_of_length_le (l := rcb) (i := 40 * 16) (by omega), ← cat_chunks 16 40 _ (by omega)]
    refine forRange_eq' (fun i => cat i (chunk 16 rcb) ++ Spec.Haraka.rcStd.drop (16 * i)) (by simp [cat])
      (by rw [List.drop_of_length_le (by omega), List.append_nil]) ?_
    intro i hi
    have hcl : (cat i (chunk 16 rcb)).length = 16 * i := by
      rw [cat_length fun j hj => hc j (by omega), Nat.mul_comm]
    unfold LOAD
    rw [rd_ok (by rw [cat_length hc]; omega), ok_bind, cat_chunks 16 40 _ (by omega),
      List.take_of_length_le (l := rcb) (by omega), Nat.mul_comm,
      show (rcb.drop (i * 16)).take 16 = chunk 16 rcb i from rfl, Nat.mul_comm]
    rw [wr_app hcl.symm (by rw [hc i hi]; simp; omega), hc i hi, List.drop_drop, cat, Nat.mul_succ]
  rw [e2]
  rfl

attribute [local irreducible] Spec.Haraka.rcTweak Spec.Haraka.rcStd

theorem libOK {ctx : Ctx} (h : ctx.rc.length = 640) : Haraka.LibOK lib ctx ctx.rc where
  perm := permIs_1 h
  h512 _ hi := haraka512_spec h hi
  h256 _ hi := haraka256_spec h hi
  hS g _ _ _ _ ho hi := haraka_S_spec h g ho hi

theorem tweakOK : Haraka.TweakOK lib := fun g _ ctx h1 _ _ h =>
  ⟨_, tweak_constants_spec g h1 h, libOK (ctx := { ctx with rc := Spec.Haraka.rcTweak ctx.pub_seed })
    (Haraka.rcTweak_length _), rfl, rfl⟩

end Spx.AesNi
