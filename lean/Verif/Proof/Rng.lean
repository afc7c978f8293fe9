import Verif.Model.Rng
import Verif.Spec.Rng
import Verif.Proof.Bytes
import Verif.Proof.List
/-! The generators of ref/rng.c. -/

namespace Spx.Rng
open Spec Spec.Rng

/-- The increment loop adds one to the bytes it runs over, as a big-endian number. -/
theorem increment_spec (a : Bytes) (k : Nat) (t z : Bytes) (ht : t.length = k) :
    increment a.length k (a ++ (t ++ z)) = .ok (a ++ (toBE k (beNat t + 1) ++ z)) := by
  induction k generalizing t z with
  | zero =>
    have : t = [] := List.eq_nil_of_length_eq_zero ht
    subst this
    rfl
  | succ k ih =>
    obtain ⟨t', x, rfl⟩ : ∃ t' x, t = t' ++ [x] :=
      ⟨t.dropLast, t.getLast (by intro h; simp [h] at ht), (List.dropLast_concat_getLast _).symm⟩
    have ht' : t'.length = k := by simpa using ht
    have hlen : a.length + k < (a ++ (t' ++ [x] ++ z)).length := by simp; omega
    have hget : (a ++ (t' ++ [x] ++ z))[a.length + k]? = some x := by
      rw [List.getElem?_append_right (by omega), List.getElem?_append_left (by simp; omega),
        List.getElem?_append_right (by omega)]
      simp [ht']
    have hset : ∀ y, (a ++ (t' ++ [x] ++ z)).set (a.length + k) y = a ++ (t' ++ ([y] ++ z)) := by
      intro y
      rw [List.set_append_right _ _ (by omega), List.set_append_left _ _ (by simp; omega),
        List.set_append_right _ _ (by omega)]
      simp [ht']
    have hr : rd1 (a ++ (t' ++ [x] ++ z)) (a.length + k) = .ok x := by
      unfold rd1
      rw [hget]
    rw [increment]
    simp only [hr, ok_bind]
    rw [wr1_ok hlen, wr1_ok hlen, hset, hset]
    simp only [ok_bind]
    have hb : beNat (t' ++ [x]) = beNat t' * 256 + x.toNat := by
      rw [beNat_append, beNat_singleton]
      simp
    have hx := x.isLt
    by_cases h : x = 0xff#8
    · rw [if_pos h, ih t' _ ht', hb, h]
      rw [toBE, show ((beNat t' * 256 + (0xff#8).toNat) + 1) / 256 = beNat t' + 1 by
        show (beNat t' * 256 + 255 + 1) / 256 = _
        omega]
      have : BitVec.ofNat 8 (beNat t' * 256 + (0xff#8).toNat + 1) = 0x00#8 := by
        apply BitVec.eq_of_toNat_eq
        show (beNat t' * 256 + 255 + 1) % 256 = 0
        omega
      rw [this]
      simp
    · rw [if_neg h, hb]
      have hne : x.toNat ≠ 255 := by
        intro hc
        exact h (BitVec.eq_of_toNat_eq hc)
      rw [toBE, show (beNat t' * 256 + x.toNat + 1) / 256 = beNat t' by omega]
      have e1 : toBE k (beNat t') = t' := by rw [← ht']; exact toBE_beNat t'
      have e2 : BitVec.ofNat 8 (beNat t' * 256 + x.toNat + 1) = x + 1 := by
        apply BitVec.eq_of_toNat_eq
        rw [BitVec.toNat_ofNat, BitVec.toNat_add]
        show _ = (x.toNat + 1) % 256
        omega
      rw [e1, e2]
      simp

theorem toBE_mod (k x : Nat) : toBE k (x % 256 ^ k) = toBE k x := by
  have h := toBE_beNat (toBE k x)
  rwa [toBE_length, beNat_toBE] at h

/-- Incrementing a counter that is stored modulo its size. -/
theorem increment_toBE (a : Bytes) (k v : Nat) :
    increment a.length k (a ++ toBE k v) = .ok (a ++ toBE k (v + 1)) := by
  have h := increment_spec a k (toBE k v) [] (toBE_length _ _)
  rw [List.append_nil, List.append_nil, beNat_toBE] at h
  rw [h, ← toBE_mod k (v % 256 ^ k + 1), ← toBE_mod k (v + 1), Nat.mod_add_mod]

section xof
variable {aes : Bytes → Bytes → Bytes} (haes : ∀ k b, k.length = 32 → b.length = 16 → (aes k b).length = 16)

theorem xofStream_length (key pre : Bytes) (c n : Nat) : (xofStream aes key pre c n).length = n := by
  simp [xofStream]

theorem xofStream_add (key pre : Bytes) (c m n : Nat) :
    xofStream aes key pre c (m + n) = xofStream aes key pre c m ++ xofStream aes key pre (c + m) n := by
  unfold xofStream
  rw [List.range_add, List.map_append, List.map_map]
  congr 1
  apply List.map_congr_left
  intro i _
  show xofByte aes key pre (c + (m + i)) = xofByte aes key pre (c + m + i)
  rw [Nat.add_assoc]

include haes in
/-- A piece of one block. -/
theorem xofStream_block {key pre : Bytes} (hk : key.length = 32) (hp : pre.length = 12) {c b pos n : Nat} (hc : c = 16 * b + pos) (hn : pos + n ≤ 16) :
    xofStream aes key pre c n = ((aes key (pre ++ toBE 4 b)).drop pos).take n := by
  have hl := haes key (pre ++ toBE 4 b) hk (by simp [hp])
  apply List.ext_getElem?
  intro i
  by_cases hi : i < n
  · have e1 : (c + i) / 16 = b := by omega
    have e2 : (c + i) % 16 = pos + i := by omega
    rw [List.getElem?_take_of_lt hi, List.getElem?_drop]
    simp only [xofStream, List.getElem?_map, List.getElem?_range hi, Option.map_some]
    unfold xofByte
    rw [e1, e2, getD_lt (by omega), List.getElem?_eq_getElem (by omega)]
  · rw [List.getElem?_eq_none (by simp [xofStream]; omega), List.getElem?_eq_none (by simp; omega)]

/-- The state of the expander after `c` bytes of output; `b` blocks have been made. -/
structure XofInv (aes : Bytes → Bytes → Bytes) (key pre : Bytes) (c : Nat) (ctx : XofCtx) : Prop where
  key_eq : ctx.key = key
  pos_le : ctx.buffer_pos ≤ 16
  buf_len : ctx.buffer.length = 16
  block : ∃ b, c + 16 = 16 * b + ctx.buffer_pos ∧ ctx.ctr = pre ++ toBE 4 b ∧
    (0 < b → ctx.buffer = aes key (pre ++ toBE 4 (b - 1)))

include haes in
theorem XofInv.rd {key pre : Bytes} (hk : key.length = 32) (hpre : pre.length = 12) {c : Nat} {ctx : XofCtx} (h : XofInv aes key pre c ctx) {n : Nat}
    (hn : ctx.buffer_pos + n ≤ 16) :
    rd ctx.buffer ctx.buffer_pos n = .ok (xofStream aes key pre c n) := by
  have hb := h.buf_len
  have hp := h.pos_le
  rw [rd_ok (by omega)]
  obtain ⟨b, h1, -, h3⟩ := h.block
  by_cases h0 : 0 < b
  · rw [h3 h0, xofStream_block haes hk hpre (b := b - 1) (pos := ctx.buffer_pos) (by omega) hn]
  · have : n = 0 := by omega
    subst this
    rw [List.take_zero]
    rfl

include haes in
/-- One more block. -/
theorem XofInv.next {key pre : Bytes} (hk : key.length = 32) (hp : pre.length = 12) {c : Nat} {ctx : XofCtx}
    (h : XofInv aes key pre c ctx) :
    ∃ buffer ctr, AES256_ECB aes ctx.key ctx.ctr ctx.buffer 0 = .ok buffer ∧
      increment 12 4 ctx.ctr = .ok ctr ∧
      XofInv aes key pre (c + (16 - ctx.buffer_pos)) { ctx with buffer := buffer, buffer_pos := 0, ctr := ctr } := by
  obtain ⟨b, h1, h2, h3⟩ := h.block
  have hb := h.buf_len
  have hpos := h.pos_le
  have hc : ctx.ctr.length = 16 := by rw [h2]; simp [hp]
  have hl := haes key (pre ++ toBE 4 b) hk (by simp [hp])
  refine ⟨aes key (pre ++ toBE 4 b), pre ++ toBE 4 (b + 1), ?_, ?_, ⟨h.key_eq, Nat.zero_le _, hl, ?_⟩⟩
  · unfold AES256_ECB
    rw [h.key_eq, rd_ok (by omega), rd_ok (by omega)]
    simp only [ok_bind, List.drop_zero]
    rw [List.take_of_length_le (by omega), List.take_of_length_le (by omega), h2,
      wr_ok (by omega), hl, List.drop_of_length_le (by omega)]
    simp
  · rw [h2, ← hp]
    exact increment_toBE pre 4 b
  · exact ⟨b + 1, by show c + (16 - ctx.buffer_pos) + 16 = 16 * (b + 1) + 0; omega, rfl, fun _ => rfl⟩

include haes in
/-- The loop of `seedexpander`. -/
theorem seedexpander_loop {key pre : Bytes} (hk : key.length = 32) (hp : pre.length = 12) (m : Nat) :
    ∀ (fuel : Nat) (ctx : XofCtx) (x : Bytes) (c xlen offset : Nat), XofInv aes key pre c ctx →
      offset + xlen ≤ x.length → offset + xlen < 2 ^ 64 → m < fuel →
      xlen + (if ctx.buffer_pos = 16 then 1 else 0) ≤ m →
      ∃ ctx', loop fuel (seedexpander_body aes) (ctx, x, xlen, offset) =
          .ok (ctx', x.take offset ++ xofStream aes key pre c xlen ++ x.drop (offset + xlen)) ∧
        XofInv aes key pre (c + xlen) ctx' ∧ ctx'.length_remaining = ctx.length_remaining := by
  induction m with
  | zero =>
    intro fuel ctx x c xlen offset hinv hx _ hf hm
    have h0 : xlen = 0 := by omega
    subst h0
    obtain ⟨f, rfl⟩ : ∃ f, fuel = f + 1 := ⟨fuel - 1, by omega⟩
    refine ⟨ctx, ?_, hinv, rfl⟩
    rw [loop_succ]
    simp only [seedexpander_body]
    rw [if_neg (Nat.lt_irrefl 0)]
    simp only [ok_bind, xofStream, List.range_zero, List.map_nil, List.append_nil, Nat.add_zero,
      List.take_append_drop]
  | succ m ih =>
    intro fuel ctx x c xlen offset hinv hx hov hf hm
    obtain ⟨f, rfl⟩ : ∃ f, fuel = f + 1 := ⟨fuel - 1, by omega⟩
    have hpos := hinv.pos_le
    by_cases h0 : 0 < xlen
    · have hleft : (16 + 2 ^ 64 - ctx.buffer_pos) % 2 ^ 64 = 16 - ctx.buffer_pos := by omega
      by_cases hle : xlen ≤ 16 - ctx.buffer_pos
      · -- the buffer has what we need
        have e1 := hinv.rd haes hk hp (n := xlen) (by omega)
        refine ⟨{ ctx with buffer_pos := ctx.buffer_pos + xlen }, ?_, ?_, rfl⟩
        · rw [loop_succ]
          simp only [seedexpander_body]
          rw [if_pos h0]
          simp only [hleft]
          rw [if_pos hle, e1]
          simp only [ok_bind]
          rw [wr_ok (by rw [xofStream_length]; omega), xofStream_length]
          simp only [ok_bind]
          rw [Nat.mod_eq_of_lt (by omega)]
        · obtain ⟨b, h1, h2, h3⟩ := hinv.block
          exact ⟨hinv.key_eq, by show ctx.buffer_pos + xlen ≤ 16; omega, hinv.buf_len, b,
            by show c + xlen + 16 = 16 * b + (ctx.buffer_pos + xlen); omega, h2, h3⟩
      · obtain ⟨buffer, ctr, e2, e3, hinv'⟩ := hinv.next haes hk hp
        have e1 := hinv.rd haes hk hp (n := 16 - ctx.buffer_pos) (by omega)
        have hx' : ∃ x', wr x offset (xofStream aes key pre c (16 - ctx.buffer_pos)) = .ok x' ∧
            x' = x.take offset ++ xofStream aes key pre c (16 - ctx.buffer_pos) ++
              x.drop (offset + (16 - ctx.buffer_pos)) := by
          refine ⟨_, ?_, rfl⟩
          rw [wr_ok (by rw [xofStream_length]; omega), xofStream_length]
        obtain ⟨x', e4, hx'⟩ := hx'
        have hl' : x'.length = x.length := wr_length e4
        obtain ⟨ctx', h1, h2, h3⟩ := ih f { ctx with buffer := buffer, buffer_pos := 0, ctr := ctr } x'
          (c + (16 - ctx.buffer_pos)) (xlen - (16 - ctx.buffer_pos)) (offset + (16 - ctx.buffer_pos)) hinv'
          (by omega) (by omega) (by omega) (by
            simp only [if_neg (show ¬ (0 = 16) by decide)]
            split at hm <;> omega)
        refine ⟨ctx', ?_, ?_, h3⟩
        · rw [loop_succ]
          simp only [seedexpander_body]
          rw [if_pos h0]
          simp only [hleft]
          rw [if_neg hle, e1]
          simp only [ok_bind, e4, e2, e3]
          rw [Nat.mod_eq_of_lt (by omega), h1]
          have hs : xofStream aes key pre c xlen = xofStream aes key pre c (16 - ctx.buffer_pos) ++
              xofStream aes key pre (c + (16 - ctx.buffer_pos)) (xlen - (16 - ctx.buffer_pos)) := by
            rw [← xofStream_add]
            congr 1
            omega
          have ht : x'.take (offset + (16 - ctx.buffer_pos)) =
              x.take offset ++ xofStream aes key pre c (16 - ctx.buffer_pos) := by
            rw [hx', List.take_append_of_le_length
              (by simp only [List.length_append, List.length_take, xofStream_length]; omega)]
            exact List.take_of_length_le
              (by simp only [List.length_append, List.length_take, xofStream_length]; omega)
          have hd : x'.drop (offset + (16 - ctx.buffer_pos) + (xlen - (16 - ctx.buffer_pos))) =
              x.drop (offset + xlen) := by
            have hpre : (x.take offset ++ xofStream aes key pre c (16 - ctx.buffer_pos)).length =
                offset + (16 - ctx.buffer_pos) := by
              simp only [List.length_append, List.length_take, xofStream_length]; omega
            rw [hx', List.drop_append, List.drop_of_length_le (by omega), List.nil_append, hpre, List.drop_drop]
            congr 1
            omega
          rw [ht, hd, hs]
          simp only [List.append_assoc]
        · rw [show c + xlen = c + (16 - ctx.buffer_pos) + (xlen - (16 - ctx.buffer_pos)) by omega]
          exact h2
    · have h0 : xlen = 0 := by omega
      subst h0
      refine ⟨ctx, ?_, hinv, rfl⟩
      rw [loop_succ]
      simp only [seedexpander_body]
      rw [if_neg (Nat.lt_irrefl 0)]
      simp only [ok_bind, xofStream, List.range_zero, List.map_nil, List.append_nil, Nat.add_zero,
        List.take_append_drop]

/-- An `AES_XOF_struct` object: the arrays have their sizes. -/
structure XofSized (ctx : XofCtx) : Prop where
  buffer : ctx.buffer.length = 16
  key : ctx.key.length = 32
  ctr : ctx.ctr.length = 16

theorem ctr_fill (d t : Bytes) (hd : d.length = 8) (ht : t.length = 8) (a b c e : Byte) :
    ((((d ++ t).set 11 a).set 10 b).set 9 c).set 8 e = d ++ ([e, c, b, a] ++ t.drop 4) := by
  rw [List.set_append_right _ _ (by omega), List.set_append_right _ _ (by omega),
    List.set_append_right _ _ (by omega), List.set_append_right _ _ (by omega), hd]
  match t, ht with
  | [t0, t1, t2, t3, t4, t5, t6, t7], _ => rfl

theorem seedexpander_init_spec {ctx : XofCtx} (hs : XofSized ctx) {seed diversifier : Bytes} {maxlen : Nat}
    (hseed : 32 ≤ seed.length) (hdiv : 8 ≤ diversifier.length) (hmax : maxlen < 2 ^ 32) :
    ∃ ctx', seedexpander_init ctx seed diversifier maxlen = .ok (ctx', 0) ∧
      XofInv aes (seed.take 32) (xofPrefix (diversifier.take 8) maxlen) 0 ctx' ∧
      ctx'.length_remaining = maxlen := by
  obtain ⟨hb, hk, hc⟩ := hs
  have hdl : (diversifier.take 8).length = 8 := by simp; omega
  have hsl : (seed.take 32).length = 32 := by simp; omega
  refine ⟨⟨List.replicate 16 0, 16, maxlen, seed.take 32,
    xofPrefix (diversifier.take 8) maxlen ++ toBE 4 0⟩, ?_, ⟨rfl, Nat.le_refl _, rfl, 0, rfl, rfl, fun h => absurd h (Nat.lt_irrefl 0)⟩, rfl⟩
  unfold seedexpander_init
  rw [if_neg (by omega), rd_ok (by omega), rd_ok (by omega)]
  simp only [ok_bind, List.drop_zero]
  rw [wr_ok (by omega), wr_ok (by omega)]
  simp only [ok_bind, List.take_zero, List.nil_append, Nat.zero_add, hdl, hsl]
  rw [List.drop_of_length_le (show ctx.key.length ≤ 32 by omega), List.append_nil]
  have hl : (List.take 8 diversifier ++ List.drop 8 ctx.ctr).length = 16 := by
    rw [List.length_append, List.length_drop]; omega
  rw [wr1_ok (by omega)]
  simp only [ok_bind]
  rw [wr1_ok (by rw [List.length_set]; omega)]
  simp only [ok_bind]
  rw [wr1_ok (by rw [List.length_set, List.length_set]; omega)]
  simp only [ok_bind]
  rw [wr1_ok (by rw [List.length_set, List.length_set, List.length_set]; omega)]
  simp only [ok_bind]
  rw [ctr_fill _ _ hdl (by rw [List.length_drop]; omega)]
  rw [wr_ok (by simp only [List.length_append, List.length_replicate, List.length_drop, hdl, List.length_cons,
    List.length_nil]; omega), wr_ok (by rw [List.length_replicate]; omega)]
  simp only [ok_bind, List.length_replicate]
  have e1 : ∀ (d q t : Bytes), d.length = 8 → q.length = 4 → (d ++ (q ++ t)).take 12 = d ++ q := by
    intro d q t h1 h2
    rw [← List.append_assoc]
    have : (d ++ q).length = 12 := by simp [h1, h2]
    rw [← this]
    exact List.take_left
  have e3 : ∀ (d q t : Bytes), d.length = 8 → q.length = 4 → t.length = 4 → (d ++ (q ++ t)).drop (12 + 4) = [] := by
    intro d q t h1 h2 h3
    exact List.drop_of_length_le (by simp only [List.length_append]; omega)
  rw [e1 _ _ _ hdl rfl, e3 _ _ _ hdl rfl (by simp only [List.length_drop]; omega), List.append_nil,
    List.take_zero, List.nil_append, List.drop_of_length_le (show ctx.buffer.length ≤ _ by omega), List.append_nil]
  have e2 : ∀ y : Nat, BitVec.ofNat 8 (y % 256) = BitVec.ofNat 8 y := by
    intro y
    apply BitVec.eq_of_toNat_eq
    simp
  simp only [e2, Nat.shiftRight_eq_div_pow]
  congr 2

include haes in
/-- An accepted request. -/
theorem seedexpander_accept {key pre : Bytes} (hk : key.length = 32) (hp : pre.length = 12) {ctx : XofCtx}
    {c xlen : Nat} {x : Bytes} (hinv : XofInv aes key pre c ctx) (hlen : xlen < ctx.length_remaining)
    (hx : xlen ≤ x.length) (h64 : ctx.length_remaining < 2 ^ 64) :
    ∃ ctx', seedexpander aes ctx (some x) xlen =
        .ok (ctx', some (xofStream aes key pre c xlen ++ x.drop xlen), 0) ∧
      XofInv aes key pre (c + xlen) ctx' ∧ ctx'.length_remaining = ctx.length_remaining - xlen := by
  have hinv' : XofInv aes key pre c { ctx with length_remaining := ctx.length_remaining - xlen } :=
    ⟨hinv.key_eq, hinv.pos_le, hinv.buf_len, hinv.block⟩
  obtain ⟨ctx', h1, h2, h3⟩ := seedexpander_loop haes hk hp (xlen + 1) (2 ^ 64 + 2) _ x c xlen 0 hinv'
    (by omega) (by omega) (by omega) (by split <;> omega)
  refine ⟨ctx', ?_, h2, h3⟩
  unfold seedexpander
  simp only
  rw [if_neg (by omega), h1]
  simp only [ok_bind, List.take_zero, List.nil_append, Nat.zero_add]
  rfl

end xof

section drbg
variable {aes : Bytes → Bytes → Bytes} (haes : ∀ k b, k.length = 32 → b.length = 16 → (aes k b).length = 16)

theorem increment16 (v : Nat) : increment 0 16 (toBE 16 v) = .ok (toBE 16 (v + 1)) :=
  by
  have h := increment_toBE [] 16 v
  rw [List.nil_append, List.nil_append] at h
  exact h

include haes in
theorem ecb_block {key buf : Bytes} {off : Nat} (hk : key.length = 32) (v : Nat) (hb : off + 16 ≤ buf.length) :
    AES256_ECB aes key (toBE 16 v) buf off =
      .ok (buf.take off ++ aes key (toBE 16 v) ++ buf.drop (off + 16)) := by
  have hl := haes key (toBE 16 v) hk (by simp)
  unfold AES256_ECB
  rw [rd_ok (by omega), rd_ok (by simp)]
  simp only [ok_bind, List.drop_zero]
  rw [List.take_of_length_le (by omega), List.take_of_length_le (by simp), wr_ok (by omega), hl]

/-- Blocks of the counter mode. -/
def blk (aes : Bytes → Bytes → Bytes) (key : Bytes) (v j : Nat) : Bytes := aes key (toBE 16 (v + 1 + j))

include haes in
/-- The loop of `randombytes`. -/
theorem randombytes_loop {key : Bytes} (hk : key.length = 32) (v xlen : Nat) (hlt : xlen < 2 ^ 31) (m : Nat) :
    ∀ (fuel j : Nat) (x block : Bytes), block.length = 16 → xlen ≤ x.length → 16 * j ≤ xlen → m < fuel →
      (xlen + 15) / 16 - j = m → ∀ x0 : Bytes, x = cat j (blk aes key v) ++ x0.drop (16 * j) →
      xlen ≤ x0.length →
      loop fuel (randombytes_body aes key) (toBE 16 (v + j), x, xlen - 16 * j, block, 16 * j) =
          .ok (toBE 16 (v + (xlen + 15) / 16), drbgOut aes key v xlen ++ x0.drop xlen) := by
  have hcl : ∀ j, (cat j (blk aes key v)).length = j * 16 := fun j => cat_length fun _ _ => haes _ _ hk (toBE_length _ _)
  induction m with
  | zero =>
    intro fuel j x block hb hx hj hf hm x0 hx0 hx0l
    obtain ⟨f, rfl⟩ : ∃ f, fuel = f + 1 := ⟨fuel - 1, by omega⟩
    have hjx : xlen = 16 * j := by omega
    have : (xlen + 15) / 16 = j := by omega
    rw [loop_succ]
    simp only [randombytes_body]
    rw [if_neg (by omega)]
    simp only [ok_bind]
    unfold drbgOut
    rw [this, hx0, hjx, List.take_of_length_le (by
      show (cat j (blk aes key v)).length ≤ _
      rw [hcl]; omega)]
    rfl
  | succ m ih =>
    intro fuel j x block hb hx hj hf hm x0 hx0 hx0l
    obtain ⟨f, rfl⟩ : ∃ f, fuel = f + 1 := ⟨fuel - 1, by omega⟩
    have hpos : 0 < xlen - 16 * j := by omega
    have e1 := increment16 (v + j)
    have e2 := ecb_block haes hk (v + j + 1) (buf := block) (off := 0) (by omega)
    rw [List.take_zero, List.nil_append, List.drop_of_length_le (by omega), List.append_nil] at e2
    have hB : aes key (toBE 16 (v + j + 1)) = blk aes key v j := by
      unfold blk
      rw [Nat.add_right_comm]
    rw [hB] at e2
    have hBl : (blk aes key v j).length = 16 := haes _ _ hk (toBE_length _ _)
    by_cases hfull : xlen - 16 * j > 15
    · have hx' : wr x (16 * j) (blk aes key v j) = .ok (cat (j + 1) (blk aes key v) ++ x0.drop (16 * (j + 1))) := by
        rw [hx0]
        have := wr_fill (n := 16) (i := j) (f := blk aes key v) (b := x0) (fun _ _ => haes _ _ hk (toBE_length _ _)) (by omega)
        rw [Nat.mul_comm 16 j, Nat.mul_comm 16 (j + 1)]
        exact this
      have hr := ih f (j + 1) (cat (j + 1) (blk aes key v) ++ x0.drop (16 * (j + 1))) (blk aes key v j) hBl
        (by rw [List.length_append, hcl, List.length_drop]; omega) (by omega) (by omega) (by omega) x0 rfl hx0l
      rw [loop_succ]
      simp only [randombytes_body]
      rw [if_pos hpos, e1]
      simp only [ok_bind]
      rw [e2]
      simp only [ok_bind]
      rw [if_pos hfull, rd_ok (by omega), List.drop_zero, List.take_of_length_le (by omega)]
      simp only [ok_bind, hx']
      rw [if_pos (by omega)]
      simp only [ok_bind]
      rw [show xlen - 16 * j - 16 = xlen - 16 * (j + 1) by omega, show 16 * j + 16 = 16 * (j + 1) by omega,
        show v + j + 1 = v + (j + 1) by omega]
      exact hr
    · have hr : xlen - 16 * j ≤ 15 := by omega
      have hN : (xlen + 15) / 16 = j + 1 := by omega
      obtain ⟨f', rfl⟩ : ∃ f', f = f' + 1 := ⟨f - 1, by omega⟩
      rw [loop_succ]
      simp only [randombytes_body]
      rw [if_pos hpos, e1]
      simp only [ok_bind]
      rw [e2]
      simp only [ok_bind]
      rw [if_neg hfull, rd_ok (by omega), List.drop_zero]
      simp only [ok_bind]
      have hlt' : ((blk aes key v j).take (xlen - 16 * j)).length = xlen - 16 * j := by
        rw [List.length_take]; omega
      rw [wr_ok (by omega), hlt']
      simp only [ok_bind]
      rw [loop_succ]
      simp only [randombytes_body]
      rw [if_neg (Nat.lt_irrefl 0)]
      simp only [ok_bind]
      have hpre : (cat j (blk aes key v)).length = 16 * j := by rw [hcl]; omega
      have t1 : x.take (16 * j) = cat j (blk aes key v) := by
        rw [hx0, ← hpre]
        exact List.take_left
      have t2 : x.drop (16 * j + (xlen - 16 * j)) = x0.drop xlen := by
        rw [hx0, List.drop_append, List.drop_of_length_le (by omega), List.nil_append, hpre, List.drop_drop]
        congr 1
        omega
      have t3 : drbgOut aes key v xlen = cat j (blk aes key v) ++ (blk aes key v j).take (xlen - 16 * j) := by
        unfold drbgOut
        rw [hN]
        show (cat j (blk aes key v) ++ blk aes key v j).take xlen = _
        rw [List.take_append, List.take_of_length_le (by omega), hpre]
      rw [t1, t2, t3, hN, show v + j + 1 = v + (j + 1) by omega]

/-- The bytewise exclusive or with provided data. -/
theorem xor48 {t pd : Bytes} (ht : t.length = 48) (hp : 48 ≤ pd.length) :
    forRange 48 (fun i temp => do wr1 temp i ((← rd1 temp i) ^^^ (← rd1 pd i))) t =
      .ok (xorBytes t (pd.take 48)) := by
  have hz : ∀ i, i ≤ 48 → (xorBytes (t.take i) (pd.take i)).length = i := by
    intro i hi
    simp only [xorBytes, List.length_zipWith, List.length_take]
    omega
  refine forRange_eq' (fun i => xorBytes (t.take i) (pd.take i) ++ t.drop i) ?_ ?_ ?_
  · simp [xorBytes]
  · rw [List.drop_of_length_le (by omega), List.append_nil, List.take_of_length_le (l := t) (by omega)]
  · intro i hi
    have hl : i < (xorBytes (t.take i) (pd.take i) ++ t.drop i).length := by
      rw [List.length_append, hz i (by omega), List.length_drop]; omega
    rw [rd1_ok hl, rd1_ok (show i < pd.length by omega)]
    simp only [ok_bind]
    rw [wr1_ok hl]
    have hd : t.drop i = t[i] :: t.drop (i + 1) := (List.getElem_cons_drop (by omega)).symm
    have hg : (xorBytes (t.take i) (pd.take i) ++ t.drop i)[i]'hl = t[i] := by
      rw [List.getElem_append_right (by rw [hz i (by omega)]; exact Nat.le_refl _)]
      simp [hz i (by omega)]
    rw [hg]
    congr 1
    rw [List.set_append_right _ _ (by rw [hz i (by omega)]; exact Nat.le_refl _), hz i (by omega), Nat.sub_self, hd,
      List.set_cons_zero]
    have e : xorBytes (t.take (i + 1)) (pd.take (i + 1)) =
        xorBytes (t.take i) (pd.take i) ++ [t[i] ^^^ pd[i]] := by
      unfold xorBytes
      rw [List.take_succ_eq_append_getElem (by omega), List.take_succ_eq_append_getElem (by omega),
        List.zipWith_append (by simp; omega)]
      rfl
    rw [e]
    simp

theorem xor_zeros {t : Bytes} (ht : t.length = 48) : xorBytes t (List.replicate 48 0) = t := by
  have h : ∀ (k : Nat) (t : Bytes), t.length = k → List.zipWith (· ^^^ ·) t (List.replicate k (0 : Byte)) = t := by
    intro k
    induction k with
    | zero =>
      intro t ht
      rw [List.eq_nil_of_length_eq_zero ht]
      rfl
    | succ k ih =>
      intro t ht
      match t, ht with
      | a :: t, ht =>
        rw [List.replicate_succ, List.zipWith_cons_cons, ih t (by simpa using ht)]
        congr 1
        exact BitVec.xor_zero
  exact h 48 t ht

theorem xor_if_spec {t : Bytes} {pd : Option Bytes} (hpd : ∀ d, pd = some d → d.length = 48) (ht : t.length = 48) :
    xor_if t pd = .ok (xorBytes t (pd.getD (List.replicate 48 0))) ∧
      (xorBytes t (pd.getD (List.replicate 48 0))).length = 48 := by
  cases pd with
  | none =>
    have hz : xorBytes t (Option.getD none (List.replicate 48 0)) = t := xor_zeros ht
    rw [hz]
    exact ⟨rfl, ht⟩
  | some d =>
    have hd := hpd d rfl
    constructor
    · have := xor48 ht (pd := d) (by omega)
      rw [List.take_of_length_le (by omega)] at this
      exact this
    · simp [xorBytes, ht, hd]

include haes in
theorem update_spec (g : Nat → Byte) {pd : Option Bytes} (hpd : ∀ d, pd = some d → d.length = 48) {Key : Bytes}
    (hk : Key.length = 32) (v : Nat) :
    AES256_CTR_DRBG_Update aes g pd Key (toBE 16 v) =
      .ok (drbgUpdate aes (pd.getD (List.replicate 48 0)) Key v) := by
  have hcl : ∀ j, (cat j (blk aes Key v)).length = j * 16 := fun j => cat_length fun _ _ => haes _ _ hk (toBE_length _ _)
  have e1 : forRange 3 (fun i (s : Bytes × Bytes) => (do
      let V ← increment 0 16 s.1
      let temp ← AES256_ECB aes Key V s.2 (16 * i)
      .ok (V, temp) : C (Bytes × Bytes))) (toBE 16 v, uninit g 48) =
      .ok (toBE 16 (v + 3), cat 3 (blk aes Key v)) := by
    refine forRange_eq' (fun i => (toBE 16 (v + i), cat i (blk aes Key v) ++ (uninit g 48).drop (16 * i)))
      ?_ ?_ ?_
    · simp [cat]
    · simp
    · intro i hi
      simp only [increment16, ok_bind]
      rw [ecb_block haes hk (v + i + 1) (by rw [List.length_append, hcl, List.length_drop, uninit_length]; omega)]
      simp only [ok_bind]
      have hpre : (cat i (blk aes Key v)).length = 16 * i := by rw [hcl]; omega
      have t1 : (cat i (blk aes Key v) ++ (uninit g 48).drop (16 * i)).take (16 * i) = cat i (blk aes Key v) := by
        rw [← hpre]; exact List.take_left
      have t2 : (cat i (blk aes Key v) ++ (uninit g 48).drop (16 * i)).drop (16 * i + 16) =
          (uninit g 48).drop (16 * (i + 1)) := by
        rw [List.drop_append, List.drop_of_length_le (by omega), List.nil_append, hpre, List.drop_drop]
        congr 1
        omega
      rw [t1, t2]
      have hB : aes Key (toBE 16 (v + i + 1)) = blk aes Key v i := by
        unfold blk
        rw [Nat.add_right_comm]
      rw [hB]
      rfl
  have ht : (cat 3 (blk aes Key v)).length = 48 := hcl 3
  obtain ⟨temp, h1⟩ : ∃ temp, temp = xorBytes (cat 3 (blk aes Key v)) (pd.getD (List.replicate 48 0)) := ⟨_, rfl⟩
  obtain ⟨h3, h2⟩ := xor_if_spec hpd ht
  rw [← h1] at h2 h3
  unfold AES256_CTR_DRBG_Update
  simp only [e1, ok_bind, h3]
  rw [rd_ok (by omega), rd_ok (by omega)]
  simp only [ok_bind]
  rw [wr_ok (by simp; omega), wr_ok (by simp; omega)]
  simp only [ok_bind, List.take_zero, List.nil_append, List.drop_zero, List.length_take, List.length_drop, h2]
  rw [List.drop_of_length_le (show Key.length ≤ _ by omega),
    List.drop_of_length_le (show (toBE 16 (v + 3)).length ≤ _ by simp), List.append_nil, List.append_nil,
    List.take_of_length_le (show (temp.drop 32).length ≤ 16 by simp; omega), h1]
  rfl

end drbg
end Spx.Rng
