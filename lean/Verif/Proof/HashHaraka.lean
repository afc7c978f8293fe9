import Verif.Proof.HarakaSponge
import Verif.Proof.HashShake
import Verif.Model.HashHaraka
import Verif.Spec.HashHaraka
/-! The Haraka instantiation computes the specified hash functions. -/

namespace Spx.Haraka
open Spec

theorem load_eq {w : Nat} {rc : List (BitVec w)} {k : Nat} {q : Q8 w} (h : (rc.drop (8 * k)).take 8 = q.toList) :
    Q8.load rc k = .ok q := by
  have hg : ∀ j, j < 8 → rd1 rc (8 * k + j) = rd1 q.toList j := by
    intro j hj
    have := congrArg (fun l : List (BitVec w) => l[j]?) h
    simp only [List.getElem?_take, if_pos hj, List.getElem?_drop] at this
    simp only [rd1, this]
  have h0 := hg 0 (by omega)
  rw [Nat.add_zero] at h0
  unfold Q8.load
  rw [h0, hg 1 (by omega), hg 2 (by omega), hg 3 (by omega), hg 4 (by omega), hg 5 (by omega), hg 6 (by omega),
    hg 7 (by omega)]
  rfl

theorem rcStd_length : Spec.Haraka.rcStd.length = 640 := by decide +kernel

/-- The table of the reference code is the bitsliced form of the published constants. -/
theorem rc64_std : Rc64 haraka512_rc64 Spec.Haraka.rcStd := by
  refine ⟨rcStd_length, ?_⟩
  have key : ∀ k < 10, ∀ q, Q8.load haraka512_rc64 k = .ok q → ∀ p < 64, byteAt q (pi64 p) =
      (chunk 64 Spec.Haraka.rcStd k).getD p 0#8 := by
    have : ∀ k < 10, (match Q8.load haraka512_rc64 k with
      | .ok q => (List.range 64).map (fun p => byteAt q (pi64 p)) | .error _ => []) =
        chunk 64 Spec.Haraka.rcStd k := by decide +kernel
    intro k hk q hq p hp
    have := this k hk
    rw [hq] at this
    simp only at this
    rw [← this, map_range_getD _ hp]
  intro k hk
  have hok : ∀ k < 10, (Q8.load haraka512_rc64 k).isOk := by decide +kernel
  cases hq : Q8.load haraka512_rc64 k with
  | ok q => exact ⟨q, rfl, chunk_length (by rw [rcStd_length]; omega), key k hk q hq⟩
  | error e => have := hok k hk; rw [hq] at this; cases this

theorem rcTweak_length (pub : Bytes) : (Spec.Haraka.rcTweak pub).length = 640 := sponge_length _ _ _ _ _ _

theorem toList_length {w : Nat} (q : Q8 w) : q.toList.length = 8 := rfl

/-- The loop of `tweak_constants` on one of the two arrays: row `k` of the result is the bitsliced
chunk `k`. -/
theorem rows {w : Nat} (rc : List (BitVec w)) (hrc : rc.length = 80) (Q : Nat → Q8 w) :
    ∀ n, n ≤ 10 → ∃ rc', forRange n (fun i rc => wr rc (8 * i) (Q i).toList) rc = .ok rc' ∧ rc'.length = 80 ∧
      ∀ k, k < n → (rc'.drop (8 * k)).take 8 = (Q k).toList := by
  intro n
  induction n with
  | zero => intro _; exact ⟨rc, rfl, hrc, fun _ h => by omega⟩
  | succ n ih =>
    intro hn
    obtain ⟨rc1, e, hl, h⟩ := ih (by omega)
    refine ⟨rc1.take (8 * n) ++ (Q n).toList ++ rc1.drop (8 * n + 8), ?_, ?_, ?_⟩
    · rw [forRange, e, ok_bind, wr_ok (by rw [toList_length]; omega), toList_length]
    · simp [toList_length]; omega
    · intro k hk
      have ht : (rc1.take (8 * n)).length = 8 * n := by simp; omega
      by_cases hkn : k = n
      · subst hkn
        rw [List.append_assoc, List.drop_left' ht, List.take_left' (toList_length _)]
      · rw [← h k (by omega), List.append_assoc, List.drop_append_of_le_length (by omega),
          List.take_append_of_le_length (by simp; omega), List.drop_take, List.take_take,
          Nat.min_eq_left (by omega)]

theorem tweak_constants_spec (g : Nat → Nat → Byte) {n : Nat} {ctx : Ctx} (hn : ctx.pub_seed.length = n)
    (h5 : ctx.tweaked512_rc64.length = 80) (h2 : ctx.tweaked256_rc32.length = 80) :
    ∃ ctx', tweak_constants g n ctx = .ok ctx' ∧ Rc64 ctx'.tweaked512_rc64 (Spec.Haraka.rcTweak ctx.pub_seed) ∧
      Rc32 ctx'.tweaked256_rc32 (Spec.Haraka.rcTweak ctx.pub_seed) ∧ ctx'.pub_seed = ctx.pub_seed ∧
      ctx'.sk_seed = ctx.sk_seed ∧ ctx'.tweaked512_rc64.length = 80 ∧ ctx'.tweaked256_rc32.length = 80 := by
  have hstd : haraka512_rc64.length = 80 := by decide +kernel
  have e0 : wr ctx.tweaked512_rc64 0 haraka512_rc64 = .ok haraka512_rc64 := by
    rw [wr_ok (by omega), List.drop_of_length_le (by omega)]; simp
  have e1 := haraka_S_spec (ctx := { ctx with tweaked512_rc64 := haraka512_rc64 }) (permIs_ref rc64_std) g
    (out := uninit (g 43) (40 * 16)) (inp := ctx.pub_seed) (outlen := 40 * 16) (inlen := n) (by simp) (by omega)
  rw [List.take_of_length_le (by omega), List.drop_of_length_le (by simp), List.append_nil,
    show 40 * 16 = 640 from rfl] at e1
  have hrcl : (Spec.Haraka.harakaS Spec.Haraka.rcStd ctx.pub_seed 640).length = 640 := sponge_length _ _ _ _ _ _
  unfold Spec.Haraka.rcTweak
  generalize Spec.Haraka.harakaS Spec.Haraka.rcStd ctx.pub_seed 640 = rcb at *
  have hq64 : ∀ k, k < 10 → ∃ q, slice64 (rcb.drop (64 * k)) = .ok q ∧ Rel64 q (chunk 64 rcb k) := by
    intro k hk
    obtain ⟨q, e, h⟩ := slice64_spec (src := rcb.drop (64 * k)) (by simp; omega)
    refine ⟨q, e, chunk_length (by omega), fun p hp => ?_⟩
    rw [h p hp, chunk_getD hp]
    simp [List.getD, Nat.mul_comm]
  have hq32 : ∀ k, k < 10 → ∃ q, slice32 (rcb.drop (32 * k)) = .ok q ∧ Rel32 q (chunk 32 rcb k) := by
    intro k hk
    obtain ⟨q, e, h⟩ := slice32_spec (src := rcb.drop (32 * k)) (by simp; omega)
    refine ⟨q, e, chunk_length (by omega), fun p hp => ?_⟩
    rw [h p hp, chunk_getD hp]
    simp [List.getD, Nat.mul_comm]
  have z64 : Q8 64 := ⟨0, 0, 0, 0, 0, 0, 0, 0⟩
  have z32 : Q8 32 := ⟨0, 0, 0, 0, 0, 0, 0, 0⟩
  let Q : Nat → Q8 64 := fun k => if hk : k < 10 then (hq64 k hk).choose else z64
  let Q' : Nat → Q8 32 := fun k => if hk : k < 10 then (hq32 k hk).choose else z32
  have hQ : ∀ k, k < 10 → slice64 (rcb.drop (64 * k)) = .ok (Q k) ∧ Rel64 (Q k) (chunk 64 rcb k) := by
    intro k hk
    simp only [Q, dif_pos hk]
    exact (hq64 k hk).choose_spec
  have hQ' : ∀ k, k < 10 → slice32 (rcb.drop (32 * k)) = .ok (Q' k) ∧ Rel32 (Q' k) (chunk 32 rcb k) := by
    intro k hk
    simp only [Q', dif_pos hk]
    exact (hq32 k hk).choose_spec
  have hr64 := fun n hn => rows haraka512_rc64 hstd Q n hn
  have hr32 := fun n hn => rows ctx.tweaked256_rc32 h2 Q' n hn
  have hloop : ∀ n, n ≤ 10 → ∀ r64 r32,
      forRange n (fun i rc => wr rc (8 * i) (Q i).toList) haraka512_rc64 = .ok r64 →
      forRange n (fun i rc => wr rc (8 * i) (Q' i).toList) ctx.tweaked256_rc32 = .ok r32 →
      forRange n (fun i (ctx : Ctx) => do
        let rc32 ← interleave_constant32 ctx.tweaked256_rc32 i (← sub rcb (32 * i))
        let ctx := { ctx with tweaked256_rc32 := rc32 }
        let rc64 ← interleave_constant ctx.tweaked512_rc64 i (← sub rcb (64 * i))
        .ok { ctx with tweaked512_rc64 := rc64 }) { ctx with tweaked512_rc64 := haraka512_rc64 } =
      .ok { ctx with tweaked512_rc64 := r64, tweaked256_rc32 := r32 } := by
    intro n
    induction n with
    | zero =>
      intro _ r64 r32 ha hb
      cases ha; cases hb; rfl
    | succ n ih =>
      intro hn r64 r32 ha hb
      obtain ⟨a, ea, _, _⟩ := hr64 n (by omega)
      obtain ⟨b, eb, _, _⟩ := hr32 n (by omega)
      rw [forRange, ea, ok_bind] at ha
      rw [forRange, eb, ok_bind] at hb
      rw [forRange, ih (by omega) a b ea eb, ok_bind]
      simp only [interleave_constant, interleave_constant32, sub_ok (show 32 * n ≤ rcb.length by omega),
        sub_ok (show 64 * n ≤ rcb.length by omega), ok_bind, (hQ n (by omega)).1, (hQ' n (by omega)).1, ha, hb]
  obtain ⟨r64, ea, hl64, ha⟩ := hr64 10 (by omega)
  obtain ⟨r32, eb, hl32, hb⟩ := hr32 10 (by omega)
  refine ⟨{ ctx with tweaked512_rc64 := r64, tweaked256_rc32 := r32 }, ?_, ⟨hrcl, fun k hk => ?_⟩,
    ⟨by omega, fun k hk => ?_⟩, rfl, rfl, hl64, hl32⟩
  · unfold tweak_constants
    rw [e0, ok_bind]
    simp only [show 40 * 16 = 640 from rfl]
    rw [e1, ok_bind]
    exact hloop 10 (by omega) r64 r32 ea eb
  · exact ⟨Q k, load_eq (ha k hk), (hQ k hk).2⟩
  · exact ⟨Q' k, load_eq (hb k hk), (hQ' k hk).2⟩

theorem perm512_len' {rcb : Bytes} (h : rcb.length = 640) (s : Bytes) : (Spec.Haraka.perm512 rcb s).length = 64 := by
  rw [Spec.Haraka.perm512, Spec.Haraka.rounds,
    self_map (aesLayer_length (b := 4) (j := 2 * 4 + 1) (by omega)), mix4_map, List.length_map]
  rfl

theorem haraka512_length {rcb x : Bytes} (h : rcb.length = 640) (hx : 64 ≤ x.length) :
    (Spec.Haraka.haraka512 rcb x).length = 32 := by
  have hy : (xorBytes (Spec.Haraka.perm512 rcb x) x).length = 64 := by simp [xorBytes, perm512_len' h]; omega
  simp only [Spec.Haraka.haraka512, List.length_append]
  rw [chunk_length (by omega), chunk_length (by omega), chunk_length (by omega), chunk_length (by omega)]

theorem haraka256_length {rcb x : Bytes} (h : rcb.length = 640) (hx : x.length = 32) :
    (Spec.Haraka.haraka256 rcb x).length = 32 := by
  have hl : (Spec.Haraka.perm256 rcb x).length = 32 := by
    rw [Spec.Haraka.perm256, Spec.Haraka.rounds,
      self_map (aesLayer_length (b := 2) (j := 2 * 4 + 1) (by omega)), mix2_map, List.length_map]
    rfl
  simp [Spec.Haraka.haraka256, xorBytes, hl, hx]

theorem zeroPad_length {k : Nat} {x : Bytes} (h : x.length ≤ k) : (zeroPad k x).length = k := by
  simp [zeroPad]; omega

theorem zeroPad_length_ge (k : Nat) (x : Bytes) : k ≤ (zeroPad k x).length := by
  simp [zeroPad]; omega

theorem harakaS_length (rcb m : Bytes) (n : Nat) : (Spec.Haraka.harakaS rcb m n).length = n :=
  sponge_length _ _ _ _ _ _

/-- `xor_loop` with a mask that may be longer than needed. -/
theorem xor_loop' {pre l inp mask : Bytes} {k off : Nat} (ho : off = pre.length) (hi : k ≤ inp.length)
    (hm : k ≤ mask.length) (hl : k ≤ l.length) :
    forRange k (fun i buf => do wr1 buf (off + i) ((← rd1 inp i) ^^^ (← rd1 mask i))) (pre ++ l) =
      .ok (pre ++ xorBytes (inp.take k) mask ++ l.drop k) := by
  have h1 := xor_loop (mask := mask.take k) ho hi (by simp; omega) hl
  have h2 : xorBytes (inp.take k) (mask.take k) = xorBytes (inp.take k) mask := by
    simp only [xorBytes]
    apply List.ext_getElem?
    intro j
    simp only [List.getElem?_zipWith, List.getElem?_take]
    by_cases hj : j < k
    · rw [if_pos hj, if_pos hj]
    · rw [if_neg hj]
  rw [← h2, ← h1]
  apply forRange_congr
  intro i s hii
  rw [rd1_ok (b := mask) (by omega), rd1_ok (b := mask.take k) (by simp; omega), List.getElem_take]

theorem pad_buf {a x : Bytes} (ha : a.length = 32) (hx : x.length ≤ 32) :
    (do let buf ← wr (List.replicate 64 0#8) 0 a; wr buf 32 x) = .ok (zeroPad 64 (a ++ x)) := by
  rw [wr_app0 (by simp; omega), ok_bind, wr_app (by omega) (by simp; omega)]
  congr 1
  rw [zeroPad]
  congr 1
  simp only [List.length_append, List.drop_replicate]
  congr 1; omega

attribute [local irreducible] Spec.Haraka.perm512 Spec.Haraka.perm256 Spec.Haraka.harakaS Spec.Haraka.rcTweak
  Spec.Haraka.haraka512 Spec.Haraka.haraka256 zeroPad

theorem zeroPad_eq (k : Nat) (x : Bytes) : zeroPad k x = x ++ List.replicate (k - x.length) 0#8 := by
  unfold zeroPad; rfl

section
variable {P : Params} (g : Nat → Nat → Byte)

/-- The functions of `K` with the context `ctx` are those of the specification with the round
constants `rcb`. -/
structure LibOK (K : Lib) (ctx : Ctx) (rcb : Bytes) : Prop where
  perm : PermIs K.haraka512_perm ctx rcb
  h512 : ∀ inp : Bytes, 64 ≤ inp.length → K.haraka512 inp ctx = .ok (Spec.Haraka.haraka512 rcb (inp.take 64))
  h256 : ∀ inp : Bytes, 32 ≤ inp.length → K.haraka256 inp ctx = .ok (Spec.Haraka.haraka256 rcb (inp.take 32))
  hS : ∀ (g : Nat → Nat → Byte) (out inp : Bytes) (outlen inlen : Nat), outlen ≤ out.length → inlen ≤ inp.length →
    K.haraka_S g out outlen inp inlen ctx = .ok (Spec.Haraka.harakaS rcb (inp.take inlen) outlen ++ out.drop outlen)

/-- Contexts after `initialize_hash_function`. -/
def CtxOK (K : Lib) (P : Params) (ctx : Ctx) : Prop :=
  ctx.pub_seed.length = P.n ∧ ctx.sk_seed.length = P.n ∧ LibOK K ctx (Spec.Haraka.rcTweak ctx.pub_seed)

/-- `tweak_constants` of `K` sets the constants up. -/
def TweakOK (K : Lib) : Prop := ∀ (g : Nat → Nat → Byte) (n : Nat) (ctx : Ctx), ctx.pub_seed.length = n →
  ctx.tweaked512_rc64.length = 80 → ctx.tweaked256_rc32.length = 80 → ctx.rc.length = 640 →
  ∃ ctx', K.tweak_constants g n ctx = .ok ctx' ∧ LibOK K ctx' (Spec.Haraka.rcTweak ctx.pub_seed) ∧
    ctx'.pub_seed = ctx.pub_seed ∧ ctx'.sk_seed = ctx.sk_seed

theorem refLib_ok {ctx : Ctx} {rcb : Bytes} (h : Rc64 ctx.tweaked512_rc64 rcb) (h' : Rc32 ctx.tweaked256_rc32 rcb) :
    LibOK refLib ctx rcb :=
  ⟨permIs_ref h, fun _ hi => haraka512_spec h hi, fun _ hi => haraka256_spec h' hi,
    fun g _ _ _ _ ho hi => haraka_S_spec (permIs_ref h) g ho hi⟩

theorem refLib_tweak : TweakOK refLib := fun g _ _ h1 h5 h6 _ =>
  let ⟨ctx', e, h64, h32, hp, hs, _, _⟩ := tweak_constants_spec g h1 h5 h6
  ⟨ctx', e, refLib_ok h64 h32, hp, hs⟩

variable {K : Lib}

theorem F_spec (hn : P.n ≤ 32) {ctx : Ctx} (hc : CtxOK K P ctx) {a x : Bytes} (ha : a.length = 32)
    (hx : x.length = P.n) :
    (do let outbuf ← K.haraka512 (zeroPad 64 (a ++ x)) ctx; rd outbuf 0 P.n) =
      .ok ((Spec.Haraka.haraka512 (Spec.Haraka.rcTweak ctx.pub_seed) (zeroPad 64 (a ++ x))).take P.n) := by
  have hl : (zeroPad 64 (a ++ x)).length = 64 := zeroPad_length (by simp; omega)
  rw [hc.2.2.h512 _ (by omega), ok_bind, List.take_of_length_le (by omega),
    rd_ok (by rw [haraka512_length (rcTweak_length _) (by omega)]; omega), List.drop_zero]

theorem prf_addr_spec (hn : P.n ≤ 32) {ctx : Ctx} (hc : CtxOK K P ctx) {ad : Addr} (ha : ad.length = 32) :
    prf_addr K P ctx ad = .ok ((Spec.Haraka.haraka512 (Spec.Haraka.rcTweak ctx.pub_seed)
      (zeroPad 64 (ad ++ ctx.sk_seed))).take P.n) := by
  have hs := hc.2.1
  have e := pad_buf (a := ad) (x := ctx.sk_seed) ha (by omega)
  rw [← F_spec hn hc ha hs]
  unfold prf_addr SPX_ADDR_BYTES
  rw [rd_ok (by omega), ok_bind, List.drop_zero, List.take_of_length_le (by omega)]
  simp only [rd_ok (show 0 + P.n ≤ ctx.sk_seed.length by omega), ok_bind, List.drop_zero,
    List.take_of_length_le (show ctx.sk_seed.length ≤ P.n by omega)]
  rw [← bind_assoc, e, ok_bind]

theorem thash_simple_spec (hn : P.n ≤ 32) (hn0 : 0 < P.n) {ctx : Ctx} (hc : CtxOK K P ctx) {a : ADRS}
    {inp : Bytes} {blocks : Nat} (hi : blocks * P.n ≤ inp.length) :
    thash_simple K P g inp blocks ctx a.enc32 =
      .ok ((harakaHash P.n false).T ctx.pub_seed a (inp.take (blocks * P.n))) := by
  have ha : a.enc32.length = 32 := enc_length .haraka a
  unfold thash_simple SPX_ADDR_BYTES harakaHash
  simp only [rd_ok (show 0 + 32 ≤ a.enc32.length by omega), ok_bind, List.drop_zero,
    List.take_of_length_le (show a.enc32.length ≤ 32 by omega), Bool.false_eq_true, if_false]
  have hl : (inp.take (blocks * P.n)).length = blocks * P.n := by simp; omega
  by_cases hb : blocks = 1
  · subst hb
    rw [Nat.one_mul] at *
    have e := pad_buf (a := a.enc32) (x := inp.take P.n) ha (by omega)
    rw [if_pos rfl, if_pos hl, ← F_spec hn hc ha hl]
    simp only [rd_ok (show 0 + P.n ≤ inp.length by omega), ok_bind, List.drop_zero]
    rw [← bind_assoc, e, ok_bind]
  · have hne : ¬ blocks * P.n = P.n := by
      intro h
      have : blocks * P.n = 1 * P.n := by omega
      exact hb (Nat.eq_of_mul_eq_mul_right hn0 this)
    rw [if_neg hb, if_neg (by rw [hl]; exact hne)]
    rw [wr_app0 (by simp; omega), ok_bind, rd_ok (by omega), ok_bind, List.drop_zero,
      wr_app (by omega) (by simp; omega), ok_bind]
    have hl2 : (a.enc32 ++ inp.take (blocks * P.n)).length = 32 + blocks * P.n := by simp; omega
    rw [hc.2.2.hS g _ _ _ _ (by simp) (by rw [List.length_append, hl2]; omega), List.take_left' hl2]
    simp

theorem thash_robust_spec (hn : P.n ≤ 32) (hn0 : 0 < P.n) {ctx : Ctx} (hc : CtxOK K P ctx) {a : ADRS}
    {inp : Bytes} {blocks : Nat} (hi : blocks * P.n ≤ inp.length) :
    thash_robust K P g inp blocks ctx a.enc32 =
      .ok ((harakaHash P.n true).T ctx.pub_seed a (inp.take (blocks * P.n))) := by
  have ha : a.enc32.length = 32 := enc_length .haraka a
  unfold thash_robust SPX_ADDR_BYTES harakaHash
  simp only [rd_ok (show 0 + 32 ≤ a.enc32.length by omega), ok_bind, List.drop_zero,
    List.take_of_length_le (show a.enc32.length ≤ 32 by omega), if_true]
  have hl : (inp.take (blocks * P.n)).length = blocks * P.n := by simp; omega
  by_cases hb : blocks = 1
  · subst hb
    simp only [Nat.one_mul] at *
    rw [if_pos trivial, if_pos hl, wr_app0 (by simp; omega), ok_bind,
      hc.2.2.h256 _ (by simp; omega), ok_bind, List.take_left' ha,
      xor_loop' (by omega) (by omega) (by rw [haraka256_length (rcTweak_length _) ha]; omega) (by simp; omega), ok_bind]
    have hx : (xorBytes (inp.take P.n) (Spec.Haraka.haraka256 (Spec.Haraka.rcTweak ctx.pub_seed) a.enc32)).length =
        P.n := by
      simp only [xorBytes, List.length_zipWith, hl, haraka256_length (rcTweak_length _) ha]; omega
    rw [← F_spec hn hc ha hx, zeroPad_eq]
    simp only [List.length_append, hx, ha, List.drop_replicate, Nat.sub_sub]
  · have hne : ¬ blocks * P.n = P.n := by
      intro h
      have : blocks * P.n = 1 * P.n := by omega
      exact hb (Nat.eq_of_mul_eq_mul_right hn0 this)
    rw [if_neg hb, if_neg (by rw [hl]; exact hne), hl]
    rw [wr_app0 (by simp; omega), ok_bind,
      hc.2.2.hS g _ _ _ _ (by simp) (by simp; omega), List.take_left' ha, ok_bind,
      List.drop_of_length_le (l := uninit (g 50) (blocks * P.n)) (by simp), List.append_nil,
      xor_loop (by omega) hi (by rw [harakaS_length]) (by simp; omega), ok_bind]
    have hl2 : (a.enc32 ++ xorBytes (inp.take (blocks * P.n))
        (Spec.Haraka.harakaS (Spec.Haraka.rcTweak ctx.pub_seed) a.enc32 (blocks * P.n))).length =
        32 + blocks * P.n := by
      rw [List.length_append, ha]
      simp [xorBytes, harakaS_length]; omega
    rw [hc.2.2.hS g _ _ _ _ (by simp) (by rw [List.length_append, hl2]; omega), List.take_left' hl2]
    simp

theorem absorb3 {ctx : Ctx} {rcb : Bytes} {perm : Bytes → Ctx → C Bytes} (hrc : PermIs perm ctx rcb) {a b m : Bytes} {ka kb : Nat}
    (ha : ka ≤ a.length) (hb : kb ≤ b.length)
    {s : Bytes} (hs : s.length = 65) (out : Bytes) (k : Nat) (hk : k = out.length) :
    ∃ s', (do
      let s_inc ← haraka_S_inc_init s
      let s_inc ← haraka_S_inc_absorb perm s_inc a ka ctx
      let s_inc ← haraka_S_inc_absorb perm s_inc b kb ctx
      let s_inc ← haraka_S_inc_absorb perm s_inc m m.length ctx
      let s_inc ← haraka_S_inc_finalize s_inc
      haraka_S_inc_squeeze perm out k s_inc ctx) =
    .ok (Spec.Haraka.harakaS rcb (a.take ka ++ b.take kb ++ m) k, s') := by
  obtain ⟨s1, e1, h1⟩ := haraka_inc_init_abs rcb hs
  obtain ⟨s2, e2, h2⟩ := haraka_inc_absorb_abs hrc h1 ha
  obtain ⟨s3, e3, h3⟩ := haraka_inc_absorb_abs hrc h2 hb
  obtain ⟨s4, e4, h4⟩ := haraka_inc_absorb_abs hrc h3 (Nat.le_refl m.length)
  obtain ⟨s5, e5, h5⟩ := haraka_inc_finalize_abs hrc h4
  obtain ⟨s6, e6, h6⟩ := haraka_inc_squeeze_abs hrc h5 (h := out) (n := k) (by omega)
  refine ⟨s6, ?_⟩
  simp only [e1, e2, e3, e4, e5, e6, ok_bind]
  rw [List.drop_of_length_le (l := out) (by omega)]
  simp

theorem gen_message_random_spec {skPrf optrand m : Bytes} (h1 : P.n ≤ skPrf.length)
    (h2 : P.n ≤ optrand.length) {ctx : Ctx} {rcb : Bytes} (hrc : PermIs K.haraka512_perm ctx rcb) :
    gen_message_random K P g skPrf optrand m ctx =
      .ok (Spec.Haraka.harakaS rcb (skPrf.take P.n ++ optrand.take P.n ++ m) P.n) := by
  obtain ⟨s', e⟩ := absorb3 hrc (m := m) h1 h2 (s := uninit (g 44) 65) (by simp)
    (uninit (g 45) P.n) P.n (by simp)
  have : gen_message_random K P g skPrf optrand m ctx = (do
      let (R, _) ← (do
        let s_inc ← haraka_S_inc_init (uninit (g 44) 65)
        let s_inc ← haraka_S_inc_absorb K.haraka512_perm s_inc skPrf P.n ctx
        let s_inc ← haraka_S_inc_absorb K.haraka512_perm s_inc optrand P.n ctx
        let s_inc ← haraka_S_inc_absorb K.haraka512_perm s_inc m m.length ctx
        let s_inc ← haraka_S_inc_finalize s_inc
        haraka_S_inc_squeeze K.haraka512_perm (uninit (g 45) P.n) P.n s_inc ctx)
      .ok R) := by
    unfold gen_message_random
    simp only [bind_assoc]
  rw [this, e]; rfl

theorem hash_message_spec (hP : P.Valid) {R pk m : Bytes} (h1 : P.n ≤ R.length)
    (h2 : 2 * P.n ≤ pk.length) {ctx : Ctx} {rcb : Bytes} (hrc : PermIs K.haraka512_perm ctx rcb) :
    hash_message K P g R pk m ctx =
      .ok (splitDigest P.toSpec
        (Spec.Haraka.harakaS rcb (R.take P.n ++ (pk.drop P.n).take P.n ++ m) P.dgstBytes)) := by
  obtain ⟨s', e⟩ := absorb3 hrc (m := m) (b := pk.drop P.n) h1 (kb := P.n) (by simp; omega)
    (s := uninit (g 46) 65) (by simp) (uninit (g 47) P.dgstBytes) P.dgstBytes (by simp)
  have : hash_message K P g R pk m ctx = (do
      let (buf, _) ← (do
        let s_inc ← haraka_S_inc_init (uninit (g 46) 65)
        let s_inc ← haraka_S_inc_absorb K.haraka512_perm s_inc R P.n ctx
        let s_inc ← haraka_S_inc_absorb K.haraka512_perm s_inc (pk.drop P.n) P.n ctx
        let s_inc ← haraka_S_inc_absorb K.haraka512_perm s_inc m m.length ctx
        let s_inc ← haraka_S_inc_finalize s_inc
        haraka_S_inc_squeeze K.haraka512_perm (uninit (g 47) P.dgstBytes) P.dgstBytes s_inc ctx)
      hash_message_split P buf) := by
    unfold hash_message
    simp only [bind_assoc, sub_ok (show P.n ≤ pk.length by omega), ok_bind]
  rw [this, e]
  simp only [ok_bind]
  exact hash_message_split_spec hP (harakaS_length _ _ _)

end
end Haraka

open Spec Haraka

theorem Haraka.thash_value {P : Params} {K : Haraka.Lib} (g : Nat → Nat → Byte) (hP : P.Valid) (hf : P.fam = .haraka)
    (hn : P.n ≤ 32) {ctx : Ctx} (hc : Haraka.CtxOK K P ctx) {ad : Addr} {a : ADRS} (he : Encodes P.fam ad a)
    {inp : Bytes} {blocks : Nat} (hb : blocks * P.n ≤ inp.length) :
    (Haraka.implWith K P g).thash inp blocks ctx ad =
      .ok ((harakaHash P.n P.robust).T ctx.pub_seed a (inp.take (blocks * P.n))) := by
  have e := he.eq32 (by rw [hf]; decide)
  simp only [Haraka.implWith, e]
  cases hr : P.robust
  · simp only [Bool.false_eq_true, if_false]
    exact thash_simple_spec g hn hP.n_pos hc hb
  · simp only [if_true]
    exact thash_robust_spec g hn hP.n_pos hc hb

theorem Haraka.prf_value {P : Params} {K : Haraka.Lib} (g : Nat → Nat → Byte) (hf : P.fam = .haraka)
    (hn : P.n ≤ 32) {ctx : Ctx} (hc : Haraka.CtxOK K P ctx) {ad : Addr} {a : ADRS} (he : Encodes P.fam ad a) :
    (Haraka.implWith K P g).prf_addr ctx ad = .ok ((harakaHash P.n P.robust).PRF ctx.pub_seed ctx.sk_seed a) := by
  have e := he.eq32 (by rw [hf]; decide)
  simp only [Haraka.implWith, harakaHash]
  rw [Haraka.prf_addr_spec hn hc he.1, e]

/-- hash_haraka.c and thash_haraka_*.c, linked with functions `K` as specified, implement the Haraka
instantiation of the specification. -/
def harakaRefinesWith {P : Params} {K : Haraka.Lib} (hK : TweakOK K) (g : Nat → Nat → Byte) (hP : P.Valid) (hf : P.fam = .haraka) (hn : P.n ≤ 32) :
    Refines P (Haraka.implWith K P g) (harakaHash P.n P.robust) where
  CtxOK := Haraka.CtxOK K P
  T_len pub a x := by
    have h5 : ∀ x, ((Spec.Haraka.haraka512 (Spec.Haraka.rcTweak pub) (zeroPad 64 x)).take P.n).length = P.n := by
      intro x
      rw [List.length_take, haraka512_length (rcTweak_length _) (zeroPad_length_ge _ _)]; omega
    simp only [harakaHash]
    split
    · exact h5 _
    · exact harakaS_length _ _ _
  PRF_len pub sk a := by
    simp only [harakaHash]
    rw [List.length_take, haraka512_length (rcTweak_length _) (zeroPad_length_ge _ _)]; omega
  PRFmsg_len _ _ _ _ := harakaS_length _ _ _
  Hmsg_len _ _ _ _ _ := harakaS_length _ _ _
  init ctx h1 h2 _ _ h5 h6 h7 := by
    obtain ⟨ctx', e, hc, hp, hs⟩ := hK g _ ctx h1 h5 h6 h7
    exact ⟨ctx', e, ⟨by rw [hp, h1], by rw [hs, h2], by rw [hp]; exact hc⟩, hp, hs⟩
  thash _ a _ _ hc _ _ hb _ := Haraka.thash_value g hP hf hn hc (encodes_enc P.fam a) hb
  prf _ a hc _ := Haraka.prf_value g hf hn hc (encodes_enc P.fam a)
  genR ctx skPrf optrand m hc h1 h2 _ := Haraka.gen_message_random_spec g h1 h2 hc.2.2.perm
  hmsg ctx R pk m hc h1 h2 _ _ := by
    simp only [Haraka.implWith, harakaHash]
    rw [Haraka.hash_message_spec g hP h1 h2 hc.2.2.perm, digestBytes_eq]

/-- The Haraka files of the reference code implement the Haraka instantiation of the specification. -/
def harakaRefines {P : Params} (g : Nat → Nat → Byte) (hP : P.Valid) (hf : P.fam = .haraka) (hn : P.n ≤ 32) :
    Refines P (Haraka.impl P g) (harakaHash P.n P.robust) := harakaRefinesWith refLib_tweak g hP hf hn

end Spx
