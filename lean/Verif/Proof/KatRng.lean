import Verif.Proof.KatHex
import Verif.Props.Rng
/-! The generator as the known-answer program uses it. -/

namespace Spx.Kat
open Spec Spec.Rng Spec.Kat Rng

section
variable {aes : Bytes → Bytes → Bytes} (haes : Cipher aes)
include haes

theorem drbgUpdate_len {data key : Bytes} (hd : data.length = 48) (hk : key.length = 32) (v : Nat) :
    (drbgUpdate aes data key v).1.length = 32 ∧ (drbgUpdate aes data key v).2.length = 16 := by
  have hcat : (cat 3 fun j => aes key (toBE 16 (v + 1 + j))).length = 3 * 16 :=
    cat_length fun _ _ => haes _ _ hk (toBE_length _ _)
  have hx : (xorBytes (cat 3 fun j => aes key (toBE 16 (v + 1 + j))) data).length = 48 := by
    unfold xorBytes
    rw [List.length_zipWith, hcat, hd]
    rfl
  unfold drbgUpdate
  simp only [List.length_take, List.length_drop, hx]
  exact ⟨by decide, trivial⟩

theorem init_ok (g : Nat → Byte) {ctx : DrbgCtx} (hk : ctx.Key.length = 32) (hv : ctx.V.length = 16) {seed : Bytes}
    (hs : seed.length = 48) :
    randombytes_init aes g ctx seed none =
      .ok ⟨(drbgUpdate aes seed (List.replicate 32 0) 0).1, (drbgUpdate aes seed (List.replicate 32 0) 0).2, 1⟩ := by
  have h := C35_randombytes_init haes g hk hv hs (ps := none) (fun d hd => by cases hd)
  rw [Option.getD_none, xor_zeros hs] at h
  exact h

theorem rb_ok (g : Nat → Byte) {ctx : DrbgCtx} (hk : ctx.Key.length = 32) (hv : ctx.V.length = 16)
    (hc : ctx.reseed_counter + 1 < 2 ^ 31) {x : Bytes} {len : Nat} (hx : len ≤ x.length) (hlt : len < 2 ^ 31) :
    randombytes aes g ctx x len =
        .ok (⟨(drbgGenerate aes ctx.Key (beNat ctx.V) len).2.1, (drbgGenerate aes ctx.Key (beNat ctx.V) len).2.2,
          ctx.reseed_counter + 1⟩, (drbgGenerate aes ctx.Key (beNat ctx.V) len).1 ++ x.drop len, 0) ∧
      (drbgGenerate aes ctx.Key (beNat ctx.V) len).1.length = len ∧
      (drbgGenerate aes ctx.Key (beNat ctx.V) len).2.1.length = 32 ∧
      (drbgGenerate aes ctx.Key (beNat ctx.V) len).2.2.length = 16 := by
  obtain ⟨out, Key, V, e1, e2, e3⟩ := C35_randombytes haes g ⟨hk, hv, hc⟩ hx hlt
  rw [e1]
  refine ⟨e3, e2, ?_⟩
  have hl := drbgUpdate_len haes (data := List.replicate 48 0) List.length_replicate hk (beNat ctx.V + (len + 15) / 16)
  unfold drbgGenerate at e1
  simp only [Prod.mk.injEq] at e1
  rw [← e1.2]
  exact hl

omit haes in
/-- Key and `V` after consecutive calls. -/
def drbgState (aes : Bytes → Bytes → Bytes) : Bytes × Bytes → List Nat → Bytes × Bytes
  | kv, [] => kv
  | kv, len :: ls => drbgState aes (drbgGenerate aes kv.1 (beNat kv.2) len).2 ls

omit haes in
theorem drbgOutputs_append (kv : Bytes × Bytes) (a b : List Nat) :
    drbgOutputs aes kv.1 kv.2 (a ++ b) = drbgOutputs aes kv.1 kv.2 a ++
      drbgOutputs aes (drbgState aes kv a).1 (drbgState aes kv a).2 b := by
  induction a generalizing kv with
  | nil => rfl
  | cons l a ih =>
    show (_ :: drbgOutputs aes _ _ (a ++ b)) = _ :: _
    rw [ih]
    rfl

omit haes in
theorem drbgState_append (kv : Bytes × Bytes) (a b : List Nat) :
    drbgState aes kv (a ++ b) = drbgState aes (drbgState aes kv a) b := by
  induction a generalizing kv with
  | nil => rfl
  | cons l a ih => exact ih _

omit haes in
/-- Lengths of the requests for the first `k` records. -/
def katLens (k : Nat) : List Nat := (List.range k).flatMap fun i => [48, 33 * (i + 1)]

omit haes in
theorem katLens_succ (k : Nat) : katLens (k + 1) = katLens k ++ [48, 33 * (k + 1)] := by
  unfold katLens
  rw [List.range_succ, List.flatMap_append]
  simp

omit haes in
/-- State of the generator before record `k`. -/
def katState (aes : Bytes → Bytes → Bytes) (k : Nat) : Bytes × Bytes :=
  drbgState aes (drbgUpdate aes ((List.range 48).map (BitVec.ofNat 8)) (List.replicate 32 0) 0) (katLens k)

omit haes in
/-- State of the generator between the seed and the message of record `k`. -/
def katMid (aes : Bytes → Bytes → Bytes) (k : Nat) : Bytes × Bytes :=
  (drbgGenerate aes (katState aes k).1 (beNat (katState aes k).2) 48).2

omit haes in
theorem katState_succ (k : Nat) : katState aes (k + 1) =
    (drbgGenerate aes (katMid aes k).1 (beNat (katMid aes k).2) (33 * (k + 1))).2 := by
  unfold katState
  rw [katLens_succ, drbgState_append]
  rfl

omit haes in
theorem inputs_succ (k : Nat) : inputs aes (k + 1) = inputs aes k ++
    [(drbgGenerate aes (katState aes k).1 (beNat (katState aes k).2) 48).1,
      (drbgGenerate aes (katMid aes k).1 (beNat (katMid aes k).2) (33 * (k + 1))).1] := by
  have e : ∀ k, inputs aes k = drbgOutputs aes
      (drbgUpdate aes ((List.range 48).map (BitVec.ofNat 8)) (List.replicate 32 0) 0).1
      (drbgUpdate aes ((List.range 48).map (BitVec.ofNat 8)) (List.replicate 32 0) 0).2 (katLens k) := fun k => rfl
  rw [e, katLens_succ, drbgOutputs_append, ← e]
  rfl

omit haes in
theorem inputs_length (k : Nat) : (inputs aes k).length = 2 * k := by
  induction k with
  | zero => rfl
  | succ k ih => rw [inputs_succ, List.length_append, ih]; simp; omega

omit haes in
theorem inputs_get (i : Nat) : ∀ j, (inputs aes (i + 1 + j)).getD (2 * i) [] =
      (drbgGenerate aes (katState aes i).1 (beNat (katState aes i).2) 48).1 ∧
    (inputs aes (i + 1 + j)).getD (2 * i + 1) [] =
      (drbgGenerate aes (katMid aes i).1 (beNat (katMid aes i).2) (33 * (i + 1))).1 := by
  intro j
  induction j with
  | zero =>
    have hl := inputs_length (aes := aes) i
    rw [Nat.add_zero, inputs_succ, getD_append_right (by omega), getD_append_right (by omega), hl,
      Nat.sub_self, Nat.add_sub_cancel_left]
    exact ⟨rfl, rfl⟩
  | succ j ih =>
    have hl := inputs_length (aes := aes) (i + 1 + j)
    rw [← Nat.add_assoc, inputs_succ, getD_append_left (by omega), getD_append_left (by omega)]
    exact ih

theorem katState_len (k : Nat) : (katState aes k).1.length = 32 ∧ (katState aes k).2.length = 16 := by
  unfold katState
  suffices h : ∀ (ls : List Nat) (kv : Bytes × Bytes), kv.1.length = 32 → kv.2.length = 16 →
      (drbgState aes kv ls).1.length = 32 ∧ (drbgState aes kv ls).2.length = 16 by
    obtain ⟨h1, h2⟩ := drbgUpdate_len haes (data := (List.range 48).map (BitVec.ofNat 8)) (by simp)
      (key := List.replicate 32 0) List.length_replicate 0
    exact h _ _ h1 h2
  intro ls
  induction ls with
  | nil => intro kv h1 h2; exact ⟨h1, h2⟩
  | cons l ls ih =>
    intro kv h1 h2
    obtain ⟨e1, e2⟩ := drbgUpdate_len haes (data := List.replicate 48 0) List.length_replicate h1 (beNat kv.2 + (l + 15) / 16)
    exact ih _ e1 e2

theorem katMid_len (k : Nat) : (katMid aes k).1.length = 32 ∧ (katMid aes k).2.length = 16 :=
  drbgUpdate_len haes (data := List.replicate 48 0) List.length_replicate (katState_len haes k).1 _

theorem seedOf_len {i : Nat} (hi : i < 100) : (seedOf aes i).length = 48 ∧ (msgOf aes i).length = 33 * (i + 1) := by
  unfold seedOf msgOf
  obtain ⟨e1, e2⟩ := inputs_get (aes := aes) i (99 - i)
  rw [show i + 1 + (99 - i) = 100 by omega] at e1 e2
  rw [e1, e2]
  exact ⟨(rb_ok haes (fun _ => 0) (ctx := ⟨_, _, 0⟩) (katState_len haes i).1 (katState_len haes i).2 (by simp)
      (x := List.replicate 48 0) (len := 48) (by rw [List.length_replicate]; decide) (by decide)).2.1,
    (rb_ok haes (fun _ => 0) (ctx := ⟨_, _, 0⟩) (katMid_len haes i).1 (katMid_len haes i).2 (by simp)
      (x := List.replicate (33 * (i + 1)) 0) (len := 33 * (i + 1)) (by rw [List.length_replicate]; omega) (by omega)).2.1⟩

/-! ## The request file -/

omit haes in
theorem ascii_request (i : Nat) (seed msg : Bytes) : ascii (request i seed msg) =
    asc "count = " ++ pct_u i ++ asc "\n" ++ (asc "seed = " ++ seed.flatMap pct_02X ++ asc "\n") ++
      (asc "mlen = " ++ pct_u msg.length ++ asc "\n") ++ (asc "msg = " ++ msg.flatMap pct_02X ++ asc "\n") ++
      asc "pk =\nsk =\nsmlen =\nsm =\n\n" := by
  have ha : ∀ s, ascii s = asc s := fun _ => rfl
  have h1 : asc "\nseed = " = asc "\n" ++ asc "seed = " := by decide
  have h2 : asc "\nmlen = " = asc "\n" ++ asc "mlen = " := by decide
  have h3 : asc "\nmsg = " = asc "\n" ++ asc "msg = " := by decide
  have h4 : asc "\npk =\nsk =\nsmlen =\nsm =\n\n" = asc "\n" ++ asc "pk =\nsk =\nsmlen =\nsm =\n\n" := by decide
  have ts : ∀ s : String, toString s = s := fun _ => rfl
  unfold request
  simp only [ha, asc_append, asc_toString, ts, asc_hex, h1, h2, h3, h4, List.append_assoc]

omit haes in
theorem ascii_response (i : Nat) (seed msg pk sk sm : Bytes) : ascii (response i seed msg pk sk sm) =
    asc "count = " ++ pct_u i ++ asc "\n" ++ (asc "seed = " ++ seed.flatMap pct_02X ++ asc "\n") ++
      (asc "mlen = " ++ pct_u msg.length ++ asc "\n") ++ (asc "msg = " ++ msg.flatMap pct_02X ++ asc "\n") ++
      ((asc "pk = " ++ pk.flatMap pct_02X ++ asc "\n") ++ (asc "sk = " ++ sk.flatMap pct_02X ++ asc "\n") ++
      (asc "smlen = " ++ pct_u sm.length ++ asc "\n") ++ (asc "sm = " ++ sm.flatMap pct_02X ++ asc "\n") ++
      asc "\n") := by
  have ha : ∀ s, ascii s = asc s := fun _ => rfl
  have h1 : asc "\nseed = " = asc "\n" ++ asc "seed = " := by decide
  have h2 : asc "\nmlen = " = asc "\n" ++ asc "mlen = " := by decide
  have h3 : asc "\nmsg = " = asc "\n" ++ asc "msg = " := by decide
  have h4 : asc "\nsk = " = asc "\n" ++ asc "sk = " := by decide
  have h5 : asc "\nsmlen = " = asc "\n" ++ asc "smlen = " := by decide
  have h6 : asc "\nsm = " = asc "\n" ++ asc "sm = " := by decide
  have h7 : asc "\n\n" = asc "\n" ++ asc "\n" := by decide
  have ts : ∀ s : String, toString s = s := fun _ => rfl
  unfold response
  simp only [ha, asc_append, asc_toString, ts, asc_hex, h1, h2, h3, h4, h5, h6, h7, List.append_assoc]

theorem request_ok (g : Nat → Nat → Byte) (fn : Bytes) (fs0 : FS) {x0 : Bytes} (hf : fs0 fn = some x0) {seed0 msg0 : Bytes}
    (hs : seed0.length = 48) (hm : msg0.length = 3300) {ctx : DrbgCtx} (hk : ctx.Key = (katState aes 0).1)
    (hv : ctx.V = (katState aes 0).2) (hc : ctx.reseed_counter = 1) :
    ∃ seed msg, forRange 100 (request_body aes g fn) (ctx, fs0, seed0, msg0) =
      .ok (⟨(katState aes 100).1, (katState aes 100).2, 201⟩, fs0.put fn (requestFile aes), seed, msg) ∧ seed.length = 48 := by
  have hinv := forRange_inv (n := 100) (body := request_body aes g fn) (s := (ctx, fs0, seed0, msg0))
    (Inv := fun i st => st.1 = ⟨(katState aes i).1, (katState aes i).2, 1 + 2 * i⟩ ∧
      st.2.1 = fs0.put fn (cat i fun i => ascii (request i (seedOf aes i) (msgOf aes i))) ∧
      st.2.2.1.length = 48 ∧ st.2.2.2.length = 3300)
    ⟨by cases ctx; simp only at hk hv hc; simp [hk, hv, hc], (put_nil_of hf).symm, hs, hm⟩ ?_
  · obtain ⟨st, e, h1, h2, h3, h4⟩ := hinv
    refine ⟨st.2.2.1, st.2.2.2, ?_, h3⟩
    rw [e]
    obtain ⟨c, f, s, m⟩ := st
    simp only at h1 h2
    rw [h1, h2]
    rfl
  · rintro i ⟨c, f, s, m⟩ hi ⟨h1, h2, h3, h4⟩
    simp only at h1 h2 h3 h4
    obtain ⟨hl1, hl2⟩ := seedOf_len haes hi
    obtain ⟨k1, k2⟩ := katState_len haes i
    obtain ⟨m1, m2⟩ := katMid_len haes i
    obtain ⟨g1, g2⟩ := inputs_get (aes := aes) i (99 - i)
    rw [show i + 1 + (99 - i) = 100 by omega] at g1 g2
    have g1 : seedOf aes i = _ := g1
    have g2 : msgOf aes i = _ := g2
    obtain ⟨r1, -, -, -⟩ := rb_ok haes (g 1) (ctx := ⟨(katState aes i).1, (katState aes i).2, 1 + 2 * i⟩) k1 k2
      (by show (1 + 2 * (i : Int)) + 1 < 2 ^ 31; omega) (x := s) (len := 48) (by omega) (by decide)
    obtain ⟨r2, -, -, -⟩ := rb_ok haes (g 2) (ctx := ⟨(katMid aes i).1, (katMid aes i).2, 1 + 2 * i + 1⟩) m1 m2
      (by show (1 + 2 * (i : Int) + 1) + 1 < 2 ^ 31; omega) (x := m) (len := 33 * (i + 1)) (by omega) (by omega)
    have r1 : randombytes aes (g 1) ⟨(katState aes i).1, (katState aes i).2, 1 + 2 * i⟩ s 48 =
        .ok (⟨(katMid aes i).1, (katMid aes i).2, 1 + 2 * i + 1⟩, seedOf aes i, 0) := by
      rw [r1, ← g1, List.drop_of_length_le (by omega), List.append_nil]
      rfl
    have r2 : randombytes aes (g 2) ⟨(katMid aes i).1, (katMid aes i).2, 1 + 2 * i + 1⟩ m (33 * (i + 1)) =
        .ok (⟨(katState aes (i + 1)).1, (katState aes (i + 1)).2, 1 + 2 * i + 1 + 1⟩,
          msgOf aes i ++ m.drop (33 * (i + 1)), 0) := by
      rw [r2, ← g2, katState_succ]
    refine ⟨(⟨(katState aes (i + 1)).1, (katState aes (i + 1)).2, 1 + 2 * i + 1 + 1⟩,
      fs0.put fn (cat (i + 1) fun i => ascii (request i (seedOf aes i) (msgOf aes i))), seedOf aes i,
      msgOf aes i ++ m.drop (33 * (i + 1))), ?_, ?_, rfl, hl1, ?_⟩
    · unfold request_body
      simp only []
      rw [h1, r1]
      simp only [ok_bind]
      rw [fprintBstr_ok _ _ _ (by omega) (by omega)]
      simp only [ok_bind]
      rw [r2]
      simp only [ok_bind]
      rw [fprintBstr_ok _ _ _ (by simp; omega) (by omega)]
      simp only [ok_bind, put_put, h2]
      congr 3
      rw [cat, ascii_request, hl2, List.take_of_length_le (by omega), List.take_append_of_le_length (by omega),
        List.take_of_length_le (by omega), pct_d_nat,
        show asc "pk =\nsk =\nsmlen =\nsm =\n\n" = asc "pk =\n" ++ asc "sk =\n" ++ asc "smlen =\n" ++ asc "sm =\n\n" by decide]
      simp only [List.append_assoc]
    · simp only [DrbgCtx.mk.injEq, true_and]
      omega
    · simp only [List.length_append, List.length_drop]; omega

end
end Spx.Kat
