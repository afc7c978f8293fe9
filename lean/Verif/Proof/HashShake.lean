import Verif.Proof.Shake
import Verif.Proof.HashCommon
import Verif.Model.HashShake
import Verif.Spec.HashShake
/-! The SHAKE instantiation computes the specified hash functions. -/

namespace Spx
open Spec

theorem keccak_shake256_length (m : Bytes) (n : Nat) : (Keccak.shake256 m n).length = n :=
  sponge_length _ _ _ _ _ _

/-- `buf[off + i] = in[i] ^ mask[i]` -/
theorem xor_loop {pre l inp mask : Bytes} {k off : Nat} (ho : off = pre.length) (hi : k ≤ inp.length)
    (hm : k = mask.length) (hl : k ≤ l.length) :
    forRange k (fun i buf => do wr1 buf (off + i) ((← rd1 inp i) ^^^ (← rd1 mask i))) (pre ++ l) =
      .ok (pre ++ xorBytes (inp.take k) mask ++ l.drop k) := by
  subst ho hm
  have hx : ∀ i, i < mask.length → (xorBytes (inp.take mask.length) mask)[i]? =
      some (inp.getD i 0#8 ^^^ mask.getD i 0#8) := by
    intro i hii
    simp only [xorBytes, List.getElem?_zipWith, List.getElem?_take, if_pos hii, List.getD]
    rw [List.getElem?_eq_getElem hii, List.getElem?_eq_getElem (show i < inp.length by omega)]
    rfl
  have hxl : (xorBytes (inp.take mask.length) mask).length = mask.length := by
    simp [xorBytes]; omega
  refine forRange_eq' (fun i => pre ++ (xorBytes (inp.take mask.length) mask).take i ++ l.drop i) (by simp)
    (by rw [List.take_of_length_le (l := xorBytes _ _) (by omega)]) ?_
  intro i hii
  have e1 : (xorBytes (inp.take mask.length) mask).take (i + 1) =
      (xorBytes (inp.take mask.length) mask).take i ++ [inp.getD i 0#8 ^^^ mask.getD i 0#8] := by
    rw [List.take_add_one, hx i hii]; rfl
  have hlen : (pre ++ (xorBytes (inp.take mask.length) mask).take i).length = pre.length + i := by
    simp; omega
  rw [rd1_ok (by omega), ok_bind, rd1_ok hii, ok_bind, wr1_ok (by rw [List.length_append, hlen]; simp; omega),
    List.set_append, if_neg (by omega), hlen, Nat.sub_self, List.drop_eq_getElem_cons (by omega),
    List.set_cons_zero, e1, getD_lt (by omega), getD_lt hii]
  simp

section
variable {P : Params} (g : Nat → Nat → Byte)

theorem Shake.prf_addr_spec {ctx : Ctx} (hp : ctx.pub_seed.length = P.n) (hs : ctx.sk_seed.length = P.n)
    {ad : Addr} (ha : ad.length = 32) :
    Shake.prf_addr P g ctx ad = .ok (Keccak.shake256 (ctx.pub_seed ++ ad ++ ctx.sk_seed) P.n) := by
  unfold Shake.prf_addr SPX_ADDR_BYTES
  rw [rd_ok (by omega), ok_bind, wr_app0 (by simp; omega), ok_bind, rd_ok (by omega), ok_bind,
    List.drop_zero, List.drop_zero, List.take_of_length_le (by omega), List.take_of_length_le (by omega),
    wr_app (by omega) (by simp; omega), ok_bind, rd_ok (by omega), ok_bind, List.drop_zero,
    List.take_of_length_le (l := ctx.sk_seed) (by omega),
    wr_app (by rw [List.length_append]; omega) (by simp; omega), ok_bind]
  have hl : (ctx.pub_seed ++ ad ++ ctx.sk_seed).length = 2 * P.n + 32 := by simp; omega
  rw [shake256_spec g (by simp) (by rw [List.length_append, hl]; omega), List.take_left' hl]
  simp

theorem Shake.thash_simple_spec {ctx : Ctx} (hp : ctx.pub_seed.length = P.n) {ad : Addr} (ha : ad.length = 32)
    {inp : Bytes} {blocks : Nat} (hi : blocks * P.n ≤ inp.length) :
    Shake.thash_simple P g inp blocks ctx ad =
      .ok (Keccak.shake256 (ctx.pub_seed ++ ad ++ inp.take (blocks * P.n)) P.n) := by
  unfold Shake.thash_simple SPX_ADDR_BYTES
  rw [rd_ok (by omega), ok_bind, wr_app0 (by simp; omega), ok_bind, rd_ok (by omega), ok_bind,
    List.drop_zero, List.drop_zero, List.take_of_length_le (by omega), List.take_of_length_le (by omega),
    wr_app (by omega) (by simp; omega), ok_bind, rd_ok (by omega), ok_bind, List.drop_zero,
    wr_app (by rw [List.length_append]; omega) (by simp; omega), ok_bind]
  have hl : (ctx.pub_seed ++ ad ++ inp.take (blocks * P.n)).length = P.n + 32 + blocks * P.n := by simp; omega
  rw [shake256_spec g (by simp) (by rw [List.length_append, hl]; omega), List.take_left' hl]
  simp

theorem Shake.thash_robust_spec {ctx : Ctx} (hp : ctx.pub_seed.length = P.n) {ad : Addr} (ha : ad.length = 32)
    {inp : Bytes} {blocks : Nat} (hi : blocks * P.n ≤ inp.length) :
    Shake.thash_robust P g inp blocks ctx ad =
      .ok (Keccak.shake256 (ctx.pub_seed ++ ad ++
        xorBytes (inp.take (blocks * P.n)) (Keccak.shake256 (ctx.pub_seed ++ ad) (blocks * P.n))) P.n) := by
  have hl : (ctx.pub_seed ++ ad).length = P.n + 32 := by simp; omega
  unfold Shake.thash_robust SPX_ADDR_BYTES
  simp only []
  rw [rd_ok (by omega), ok_bind, wr_app0 (by simp; omega), ok_bind, rd_ok (by omega), ok_bind,
    List.drop_zero, List.drop_zero, List.take_of_length_le (by omega), List.take_of_length_le (by omega),
    wr_app (by omega) (by simp; omega), ok_bind]
  rw [shake256_spec g (by simp) (by rw [List.length_append, hl]; omega), List.take_left' hl, ok_bind,
    List.drop_of_length_le (l := uninit (g 18) (blocks * P.n)) (by simp), List.append_nil,
    xor_loop (by omega) hi (by rw [keccak_shake256_length]) (by simp; omega), ok_bind]
  have hl2 : (ctx.pub_seed ++ ad ++ xorBytes (inp.take (blocks * P.n))
      (Keccak.shake256 (ctx.pub_seed ++ ad) (blocks * P.n))).length = P.n + 32 + blocks * P.n := by
    rw [List.length_append, hl]
    simp [xorBytes, keccak_shake256_length]; omega
  rw [shake256_spec g (by simp) (by rw [List.length_append, hl2]; omega), List.take_left' hl2]
  simp

theorem Shake.absorb3 {a b m : Bytes} {ka kb : Nat} (ha : ka ≤ a.length) (hb : kb ≤ b.length)
    {s : List (BitVec 64)} (hs : s.length = 26) (out : Bytes) (k : Nat) (hk : k = out.length) :
    ∃ s', (do
      let s_inc ← shake256_inc_init s
      let s_inc ← shake256_inc_absorb s_inc a ka
      let s_inc ← shake256_inc_absorb s_inc b kb
      let s_inc ← shake256_inc_absorb s_inc m m.length
      let s_inc ← shake256_inc_finalize s_inc
      shake256_inc_squeeze out k s_inc) =
    .ok (Keccak.shake256 (a.take ka ++ b.take kb ++ m) k, s') := by
  obtain ⟨s1, e1, h1⟩ := shake256_inc_init_spec hs
  obtain ⟨s2, e2, h2⟩ := shake256_inc_absorb_spec h1 ha
  obtain ⟨s3, e3, h3⟩ := shake256_inc_absorb_spec h2 hb
  obtain ⟨s4, e4, h4⟩ := shake256_inc_absorb_spec h3 (Nat.le_refl m.length)
  obtain ⟨s5, e5, h5⟩ := shake256_inc_finalize_spec h4
  obtain ⟨s6, e6, h6⟩ := shake256_inc_squeeze_spec h5 (h := out) (n := k) (by omega)
  refine ⟨s6, ?_⟩
  simp only [e1, e2, e3, e4, e5, e6, ok_bind]
  rw [List.drop_of_length_le (l := out) (by omega)]
  simp

theorem Shake.gen_message_random_spec {skPrf optrand m : Bytes} (h1 : P.n ≤ skPrf.length)
    (h2 : P.n ≤ optrand.length) (ctx : Ctx) :
    Shake.gen_message_random P g skPrf optrand m ctx =
      .ok (Keccak.shake256 (skPrf.take P.n ++ optrand.take P.n ++ m) P.n) := by
  obtain ⟨s', e⟩ := Shake.absorb3 (m := m) h1 h2 (s := uninit (fun i => (g 12 i).zeroExtend 64) 26) (by simp)
    (uninit (g 13) P.n) P.n (by simp)
  have : Shake.gen_message_random P g skPrf optrand m ctx = (do
      let (R, _) ← (do
        let s_inc ← shake256_inc_init (uninit (fun i => (g 12 i).zeroExtend 64) 26)
        let s_inc ← shake256_inc_absorb s_inc skPrf P.n
        let s_inc ← shake256_inc_absorb s_inc optrand P.n
        let s_inc ← shake256_inc_absorb s_inc m m.length
        let s_inc ← shake256_inc_finalize s_inc
        shake256_inc_squeeze (uninit (g 13) P.n) P.n s_inc)
      .ok R) := by
    unfold Shake.gen_message_random
    simp only [bind_assoc]
  rw [this, e]; rfl

theorem Shake.hash_message_spec (hP : P.Valid) {R pk m : Bytes} (h1 : P.n ≤ R.length)
    (h2 : 2 * P.n ≤ pk.length) (ctx : Ctx) :
    Shake.hash_message P g R pk m ctx =
      .ok (splitDigest P.toSpec (Keccak.shake256 (R.take P.n ++ pk.take (2 * P.n) ++ m) P.dgstBytes)) := by
  obtain ⟨s', e⟩ := Shake.absorb3 (m := m) h1 h2 (s := uninit (fun i => (g 14 i).zeroExtend 64) 26) (by simp)
    (uninit (g 15) P.dgstBytes) P.dgstBytes (by simp)
  have : Shake.hash_message P g R pk m ctx = (do
      let (buf, _) ← (do
        let s_inc ← shake256_inc_init (uninit (fun i => (g 14 i).zeroExtend 64) 26)
        let s_inc ← shake256_inc_absorb s_inc R P.n
        let s_inc ← shake256_inc_absorb s_inc pk (2 * P.n)
        let s_inc ← shake256_inc_absorb s_inc m m.length
        let s_inc ← shake256_inc_finalize s_inc
        shake256_inc_squeeze (uninit (g 15) P.dgstBytes) P.dgstBytes s_inc)
      hash_message_split P buf) := by
    unfold Shake.hash_message
    simp only [bind_assoc]
    rfl
  rw [this, e]
  simp only [ok_bind]
  exact hash_message_split_spec hP (keccak_shake256_length _ _)

theorem Shake.thash_value (hf : P.fam = .shake) {ctx : Ctx} (hp : ctx.pub_seed.length = P.n) {ad : Addr} {a : ADRS}
    (he : Encodes P.fam ad a) {inp : Bytes} {blocks : Nat} (hb : blocks * P.n ≤ inp.length) :
    (Shake.impl P g).thash inp blocks ctx ad =
      .ok ((shakeHash P.n P.robust).T ctx.pub_seed a (inp.take (blocks * P.n))) := by
  have e := he.eq32 (by rw [hf]; decide)
  simp only [Shake.impl, shakeHash]
  cases hr : P.robust
  · simp only [Bool.false_eq_true, if_false]
    rw [Shake.thash_simple_spec g hp he.1 hb, e]
  · simp only [if_true]
    rw [Shake.thash_robust_spec g hp he.1 hb, e]
    rw [List.length_take, Nat.min_eq_left hb]

theorem Shake.prf_value (hf : P.fam = .shake) {ctx : Ctx} (hp : ctx.pub_seed.length = P.n)
    (hs : ctx.sk_seed.length = P.n) {ad : Addr} {a : ADRS} (he : Encodes P.fam ad a) :
    (Shake.impl P g).prf_addr ctx ad = .ok ((shakeHash P.n P.robust).PRF ctx.pub_seed ctx.sk_seed a) := by
  have e := he.eq32 (by rw [hf]; decide)
  simp only [Shake.impl, shakeHash]
  rw [Shake.prf_addr_spec g hp hs he.1, e]

/-- The SHAKE files of the reference code implement the SHAKE instantiation of the specification. -/
def shakeRefines (hP : P.Valid) (hf : P.fam = .shake) :
    Refines P (Shake.impl P g) (shakeHash P.n P.robust) where
  CtxOK ctx := ctx.pub_seed.length = P.n ∧ ctx.sk_seed.length = P.n
  T_len pub a x := by
    simp only [shakeHash]; split <;> exact keccak_shake256_length _ _
  PRF_len _ _ _ := keccak_shake256_length _ _
  PRFmsg_len _ _ _ _ := keccak_shake256_length _ _
  Hmsg_len _ _ _ _ _ := keccak_shake256_length _ _
  init ctx h1 h2 _ _ _ _ _ := ⟨ctx, rfl, ⟨h1, h2⟩, rfl, rfl⟩
  thash _ a _ _ hc _ _ hb _ := Shake.thash_value g hf hc.1 (encodes_enc P.fam a) hb
  prf _ a hc _ := Shake.prf_value g hf hc.1 hc.2 (encodes_enc P.fam a)
  genR ctx skPrf optrand m _ h1 h2 _ := Shake.gen_message_random_spec g h1 h2 ctx
  hmsg ctx R pk m hc h1 h2 h3 _ := by
    simp only [Shake.impl, shakeHash]
    rw [Shake.hash_message_spec g hP h1 h2, digestBytes_eq, ← h3, Nat.two_mul, List.take_add]
    simp only [List.append_assoc]

end
end Spx
