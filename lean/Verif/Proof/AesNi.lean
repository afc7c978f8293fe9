import Verif.Model.AesNi
import Verif.Proof.HarakaPerm
import Verif.Proof.Lanes
import Verif.Proof.FipsX
/-! The permutations with AES instructions are those of the specification. -/

namespace Spx.AesNi
open Spec Spec.Haraka

theorem aesenc_round {s k : Bytes} (hs : s.length = 16) : aesenc s k = Aes.round k s := by
  have h : Aes.subBytes (Aes.shiftRows s) = Aes.shiftRows (Aes.subBytes s) := by
    simp only [Aes.subBytes, Aes.shiftRows, List.map_map]
    apply List.map_congr_left
    intro p hp
    have hp : p < 16 := List.mem_range.1 hp
    have hi : 4 * ((p / 4 + p % 4) % 4) + p % 4 < 16 := by omega
    simp only [Function.comp]
    rw [getD_lt (by omega), getD_lt (by simp; omega), List.getElem_map]
  unfold aesenc Aes.round
  rw [h]
  rfl

theorem aesenc_length {s k : Bytes} (hk : k.length = 16) : (aesenc s k).length = 16 := by
  simp [aesenc, XOR128, Aes.mixColumns, hk]

/-- All registers have 16 bytes. -/
def S4.OK (s : S4) : Prop := s.s0.length = 16 ∧ s.s1.length = 16 ∧ s.s2.length = 16 ∧ s.s3.length = 16

def S2.OK (s : S2) : Prop := s.s0.length = 16 ∧ s.s1.length = 16

theorem chunk4_0 {a b c d : Bytes} (ha : a.length = 16) : chunk 16 (a ++ b ++ c ++ d) 0 = a := by
  simp [chunk, ha]

theorem bytes4_cat (s : S4) : s.bytes = cat 4 fun i => [s.s0, s.s1, s.s2, s.s3].getD i [] := by
  simp [cat, S4.bytes]

theorem bytes2_cat (s : S2) : s.bytes = cat 2 fun i => [s.s0, s.s1].getD i [] := by
  simp [cat, S2.bytes]

theorem bytes4_chunk {s : S4} (h : s.OK) : chunk 16 s.bytes 0 = s.s0 ∧ chunk 16 s.bytes 1 = s.s1 ∧
    chunk 16 s.bytes 2 = s.s2 ∧ chunk 16 s.bytes 3 = s.s3 := by
  obtain ⟨h0, h1, h2, h3⟩ := h
  have hl : ∀ i, i < 4 → ([s.s0, s.s1, s.s2, s.s3].getD i []).length = 16 := by
    intro i hi
    rcases i with _ | _ | _ | _ | i
    · exact h0
    · exact h1
    · exact h2
    · exact h3
    · omega
  rw [bytes4_cat]
  exact ⟨chunk_cat hl (by omega), chunk_cat hl (by omega), chunk_cat hl (by omega), chunk_cat hl (by omega)⟩

theorem bytes2_chunk {s : S2} (h : s.OK) : chunk 16 s.bytes 0 = s.s0 ∧ chunk 16 s.bytes 1 = s.s1 := by
  obtain ⟨h0, h1⟩ := h
  have hl : ∀ i, i < 2 → ([s.s0, s.s1].getD i []).length = 16 := by
    intro i hi
    rcases i with _ | _ | i
    · exact h0
    · exact h1
    · omega
  rw [bytes2_cat]
  exact ⟨chunk_cat hl (by omega), chunk_cat hl (by omega)⟩

theorem S4.OK.length {s : S4} (h : s.OK) : s.bytes.length = 64 := by
  obtain ⟨h0, h1, h2, h3⟩ := h
  simp [S4.bytes, *]

theorem S2.OK.length {s : S2} (h : s.OK) : s.bytes.length = 32 := by
  obtain ⟨h0, h1⟩ := h
  simp [S2.bytes, *]

theorem rcAt_ok {rc : Bytes} (h : rc.length = 640) {k : Nat} (hk : k < 40) :
    rcAt rc k = .ok (chunk 16 rc k) ∧ (chunk 16 rc k).length = 16 := by
  refine ⟨?_, chunk_length (by omega)⟩
  rw [rcAt, rd_ok (by omega), chunk, Nat.mul_comm]

/-- The value of `AES4`. -/
def aes4 (rc : Bytes) (r : Nat) (s : S4) : S4 :=
  ⟨aesenc (aesenc s.s0 (chunk 16 rc r)) (chunk 16 rc (r + 4)),
   aesenc (aesenc s.s1 (chunk 16 rc (r + 1))) (chunk 16 rc (r + 5)),
   aesenc (aesenc s.s2 (chunk 16 rc (r + 2))) (chunk 16 rc (r + 6)),
   aesenc (aesenc s.s3 (chunk 16 rc (r + 3))) (chunk 16 rc (r + 7))⟩

def aes2 (rc : Bytes) (r : Nat) (s : S2) : S2 :=
  ⟨aesenc (aesenc s.s0 (chunk 16 rc r)) (chunk 16 rc (r + 2)),
   aesenc (aesenc s.s1 (chunk 16 rc (r + 1))) (chunk 16 rc (r + 3))⟩

section
variable {rc : Bytes} (h : rc.length = 640)
include h

theorem AES4_ok {r : Nat} (hr : r ≤ 32) (s : S4) : AES4 rc r s = .ok (aes4 rc r s) := by
  unfold AES4
  rw [(rcAt_ok h (k := r) (by omega)).1, (rcAt_ok h (k := r + 1) (by omega)).1, (rcAt_ok h (k := r + 2) (by omega)).1,
    (rcAt_ok h (k := r + 3) (by omega)).1, (rcAt_ok h (k := r + 4) (by omega)).1, (rcAt_ok h (k := r + 5) (by omega)).1,
    (rcAt_ok h (k := r + 6) (by omega)).1, (rcAt_ok h (k := r + 7) (by omega)).1]
  rfl

theorem AES2_ok {r : Nat} (hr : r ≤ 36) (s : S2) : AES2 rc r s = .ok (aes2 rc r s) := by
  unfold AES2
  rw [(rcAt_ok h (k := r) (by omega)).1, (rcAt_ok h (k := r + 1) (by omega)).1, (rcAt_ok h (k := r + 2) (by omega)).1,
    (rcAt_ok h (k := r + 3) (by omega)).1]
  rfl

theorem aes4_OK {r : Nat} (hr : r ≤ 32) (s : S4) : (aes4 rc r s).OK :=
  ⟨aesenc_length (rcAt_ok h (by omega)).2, aesenc_length (rcAt_ok h (by omega)).2,
    aesenc_length (rcAt_ok h (by omega)).2, aesenc_length (rcAt_ok h (by omega)).2⟩

theorem aes2_OK {r : Nat} (hr : r ≤ 36) (s : S2) : (aes2 rc r s).OK :=
  ⟨aesenc_length (rcAt_ok h (by omega)).2, aesenc_length (rcAt_ok h (by omega)).2⟩

theorem aes4_bytes {k : Nat} (hk : k < 5) {s : S4} (hs : s.OK) :
    (aes4 rc (8 * k) s).bytes = aesLayer 4 rc (2 * k + 1) (aesLayer 4 rc (2 * k) s.bytes) := by
  obtain ⟨c0, c1, c2, c3⟩ := bytes4_chunk hs
  obtain ⟨h0, h1, h2, h3⟩ := hs
  have e1 : aesLayer 4 rc (2 * k) s.bytes = S4.bytes ⟨aesenc s.s0 (chunk 16 rc (8 * k)),
      aesenc s.s1 (chunk 16 rc (8 * k + 1)), aesenc s.s2 (chunk 16 rc (8 * k + 2)),
      aesenc s.s3 (chunk 16 rc (8 * k + 3))⟩ := by
    simp only [aesLayer, cat, List.nil_append, c0, c1, c2, c3]
    simp only [S4.bytes, aesenc_round h0, aesenc_round h1, aesenc_round h2, aesenc_round h3]
    simp only [show 4 * (2 * k) = 8 * k by omega, Nat.add_zero]
  have hl : ∀ {s : Bytes} {j : Nat}, j < 40 → (aesenc s (chunk 16 rc j)).length = 16 :=
    fun hj => aesenc_length (rcAt_ok h hj).2
  obtain ⟨d0, d1, d2, d3⟩ := bytes4_chunk (s := ⟨aesenc s.s0 (chunk 16 rc (8 * k)),
      aesenc s.s1 (chunk 16 rc (8 * k + 1)), aesenc s.s2 (chunk 16 rc (8 * k + 2)),
      aesenc s.s3 (chunk 16 rc (8 * k + 3))⟩) ⟨hl (by omega), hl (by omega), hl (by omega), hl (by omega)⟩
  rw [e1]
  simp only [aesLayer, cat, List.nil_append, d0, d1, d2, d3]
  simp only [aes4, S4.bytes, aesenc_round (hl (s := s.s0) (show 8 * k < 40 by omega)),
    aesenc_round (hl (s := s.s1) (show 8 * k + 1 < 40 by omega)),
    aesenc_round (hl (s := s.s2) (show 8 * k + 2 < 40 by omega)),
    aesenc_round (hl (s := s.s3) (show 8 * k + 3 < 40 by omega))]
  simp only [show 4 * (2 * k + 1) = 8 * k + 4 by omega, Nat.add_zero]

theorem aes2_bytes {k : Nat} (hk : k < 5) {s : S2} (hs : s.OK) :
    (aes2 rc (4 * k) s).bytes = aesLayer 2 rc (2 * k + 1) (aesLayer 2 rc (2 * k) s.bytes) := by
  obtain ⟨c0, c1⟩ := bytes2_chunk hs
  obtain ⟨h0, h1⟩ := hs
  have e1 : aesLayer 2 rc (2 * k) s.bytes = S2.bytes ⟨aesenc s.s0 (chunk 16 rc (4 * k)),
      aesenc s.s1 (chunk 16 rc (4 * k + 1))⟩ := by
    simp only [aesLayer, cat, List.nil_append, c0, c1]
    simp only [S2.bytes, aesenc_round h0, aesenc_round h1]
    simp only [show 2 * (2 * k) = 4 * k by omega, Nat.add_zero]
  have hl : ∀ {s : Bytes} {j : Nat}, j < 40 → (aesenc s (chunk 16 rc j)).length = 16 :=
    fun hj => aesenc_length (rcAt_ok h hj).2
  obtain ⟨d0, d1⟩ := bytes2_chunk (s := ⟨aesenc s.s0 (chunk 16 rc (4 * k)),
      aesenc s.s1 (chunk 16 rc (4 * k + 1))⟩) ⟨hl (by omega), hl (by omega)⟩
  rw [e1]
  simp only [aesLayer, cat, List.nil_append, d0, d1]
  simp only [aes2, S2.bytes, aesenc_round (hl (s := s.s0) (show 4 * k < 40 by omega)),
    aesenc_round (hl (s := s.s1) (show 4 * k + 1 < 40 by omega))]
  simp only [show 2 * (2 * k + 1) = 4 * k + 2 by omega, Nat.add_zero]

end

theorem unpacklo_eq (a b : Bytes) : unpacklo_epi32 a b = unpackLo a b := rfl
theorem unpackhi_eq (a b : Bytes) : unpackhi_epi32 a b = unpackHi a b := rfl

theorem unpacklo_length {a b : Bytes} (ha : a.length = 16) (hb : b.length = 16) : (unpacklo_epi32 a b).length = 16 := by
  simp [unpacklo_epi32, dword, ha, hb]

theorem unpackhi_length {a b : Bytes} (ha : a.length = 16) (hb : b.length = 16) : (unpackhi_epi32 a b).length = 16 := by
  simp [unpackhi_epi32, dword, ha, hb]

theorem MIX4_OK {s : S4} (hs : s.OK) : (MIX4 s).OK := by
  obtain ⟨h0, h1, h2, h3⟩ := hs
  have a := unpacklo_length h0 h1
  have b := unpackhi_length h0 h1
  have c := unpacklo_length h2 h3
  have d := unpackhi_length h2 h3
  exact ⟨unpackhi_length b d, unpacklo_length c a, unpackhi_length c a, unpacklo_length b d⟩

theorem MIX2_OK {s : S2} (hs : s.OK) : (MIX2 s).OK :=
  ⟨unpacklo_length hs.1 hs.2, unpackhi_length hs.1 hs.2⟩

theorem MIX4_bytes {s : S4} (hs : s.OK) : (MIX4 s).bytes = mix4 s.bytes := by
  obtain ⟨c0, c1, c2, c3⟩ := bytes4_chunk hs
  unfold mix4
  rw [c0, c1, c2, c3]
  rfl

theorem MIX2_bytes {s : S2} (hs : s.OK) : (MIX2 s).bytes = mix2 s.bytes := by
  obtain ⟨c0, c1⟩ := bytes2_chunk hs
  unfold mix2
  rw [c0, c1]
  rfl

/-- The value of the five rounds. -/
def rd4 (rc : Bytes) : Nat → S4 → S4
  | 0, s => s
  | k + 1, s => MIX4 (aes4 rc (8 * k) (rd4 rc k s))

def rd2 (rc : Bytes) : Nat → S2 → S2
  | 0, s => s
  | k + 1, s => MIX2 (aes2 rc (4 * k) (rd2 rc k s))

section
variable {rc : Bytes} (h : rc.length = 640)
include h

theorem rounds4_ok (s : S4) : rounds4 rc s = .ok (rd4 rc 5 s) := by
  simp only [rounds4, AES4_ok h (show 0 ≤ 32 by omega), AES4_ok h (show 8 ≤ 32 by omega),
    AES4_ok h (show 16 ≤ 32 by omega), AES4_ok h (show 24 ≤ 32 by omega), AES4_ok h (show 32 ≤ 32 by omega), ok_bind]
  rfl

theorem rounds2_ok (s : S2) : rounds2 rc s = .ok (rd2 rc 5 s) := by
  simp only [rounds2, AES2_ok h (show 0 ≤ 36 by omega), AES2_ok h (show 4 ≤ 36 by omega),
    AES2_ok h (show 8 ≤ 36 by omega), AES2_ok h (show 12 ≤ 36 by omega), AES2_ok h (show 16 ≤ 36 by omega), ok_bind]
  rfl

theorem AES4_4x_ok {r : Nat} (hr : r ≤ 32) (F : Nat → S4) :
    AES4_4x rc r ((List.range 4).map F) = .ok ((List.range 4).map fun j => aes4 rc r (F j)) :=
  tabulate_ok fun j hj => by rw [rd1_map F hj, ok_bind, AES4_ok h hr]

theorem AES2_4x_ok {r : Nat} (hr : r ≤ 36) (F : Nat → S2) :
    AES2_4x rc r ((List.range 4).map F) = .ok ((List.range 4).map fun j => aes2 rc r (F j)) :=
  tabulate_ok fun j hj => by rw [rd1_map F hj, ok_bind, AES2_ok h hr]

theorem rounds4_4x_ok (F : Nat → S4) :
    rounds4_4x rc ((List.range 4).map F) = .ok ((List.range 4).map fun j => rd4 rc 5 (F j)) := by
  simp only [rounds4_4x, AES4_4x_ok h (show 0 ≤ 32 by omega),
    AES4_4x_ok h (show 8 ≤ 32 by omega),
    AES4_4x_ok h (show 16 ≤ 32 by omega),
    AES4_4x_ok h (show 24 ≤ 32 by omega),
    AES4_4x_ok h (show 32 ≤ 32 by omega), ok_bind, List.map_map]
  rfl

theorem rounds2_4x_ok (F : Nat → S2) :
    rounds2_4x rc ((List.range 4).map F) = .ok ((List.range 4).map fun j => rd2 rc 5 (F j)) := by
  simp only [rounds2_4x, AES2_4x_ok h (show 0 ≤ 36 by omega),
    AES2_4x_ok h (show 4 ≤ 36 by omega),
    AES2_4x_ok h (show 8 ≤ 36 by omega),
    AES2_4x_ok h (show 12 ≤ 36 by omega),
    AES2_4x_ok h (show 16 ≤ 36 by omega), ok_bind, List.map_map]
  rfl

theorem rd4_spec {s : S4} (hs : s.OK) : ∀ k, k ≤ 5 → (rd4 rc k s).OK ∧ (rd4 rc k s).bytes = rounds 4 mix4 rc k s.bytes
  | 0, _ => ⟨hs, rfl⟩
  | k + 1, hk => by
    obtain ⟨h1, h2⟩ := rd4_spec hs k (by omega)
    have ha := aes4_OK h (r := 8 * k) (by omega) (rd4 rc k s)
    refine ⟨MIX4_OK ha, ?_⟩
    rw [rd4, MIX4_bytes ha, aes4_bytes h (by omega) h1, h2, rounds]

theorem rd2_spec {s : S2} (hs : s.OK) : ∀ k, k ≤ 5 → (rd2 rc k s).OK ∧ (rd2 rc k s).bytes = rounds 2 mix2 rc k s.bytes
  | 0, _ => ⟨hs, rfl⟩
  | k + 1, hk => by
    obtain ⟨h1, h2⟩ := rd2_spec hs k (by omega)
    have ha := aes2_OK h (r := 4 * k) (by omega) (rd2 rc k s)
    refine ⟨MIX2_OK ha, ?_⟩
    rw [rd2, MIX2_bytes ha, aes2_bytes h (by omega) h1, h2, rounds]

end

/-- The registers loaded from `inp + off`. -/
def ld4 (inp : Bytes) (off : Nat) : S4 :=
  ⟨(inp.drop off).take 16, (inp.drop (off + 16)).take 16, (inp.drop (off + 32)).take 16, (inp.drop (off + 48)).take 16⟩

def ld2 (inp : Bytes) (off : Nat) : S2 := ⟨(inp.drop off).take 16, (inp.drop (off + 16)).take 16⟩

theorem load4_ok {inp : Bytes} {off : Nat} (h : off + 64 ≤ inp.length) : load4 inp off = .ok (ld4 inp off) := by
  simp only [load4, LOAD, rd_ok (show off + 16 ≤ inp.length by omega), rd_ok (show off + 16 + 16 ≤ inp.length by omega),
    rd_ok (show off + 32 + 16 ≤ inp.length by omega), rd_ok (show off + 48 + 16 ≤ inp.length by omega), ok_bind]
  rfl

theorem load2_ok {inp : Bytes} {off : Nat} (h : off + 32 ≤ inp.length) : load2 inp off = .ok (ld2 inp off) := by
  simp only [load2, LOAD, rd_ok (show off + 16 ≤ inp.length by omega), rd_ok (show off + 16 + 16 ≤ inp.length by omega),
    ok_bind]
  rfl

theorem ld4_OK {inp : Bytes} {off : Nat} (h : off + 64 ≤ inp.length) : (ld4 inp off).OK := by
  refine ⟨?_, ?_, ?_, ?_⟩ <;> simp [ld4] <;> omega

theorem ld2_OK {inp : Bytes} {off : Nat} (h : off + 32 ≤ inp.length) : (ld2 inp off).OK := by
  refine ⟨?_, ?_⟩ <;> simp [ld2] <;> omega

theorem ld4_bytes (inp : Bytes) (off : Nat) : (ld4 inp off).bytes = (inp.drop off).take 64 := by
  simp only [ld4, S4.bytes]
  rw [show (64 : Nat) = 16 + 16 + 16 + 16 from rfl, List.take_add, List.take_add, List.take_add]
  simp only [List.drop_drop]

theorem ld2_bytes (inp : Bytes) (off : Nat) : (ld2 inp off).bytes = (inp.drop off).take 32 := by
  simp only [ld2, S2.bytes]
  rw [show (32 : Nat) = 16 + 16 from rfl, List.take_add]
  simp only [List.drop_drop]

theorem XOR128_eq (a b : Bytes) : XOR128 a b = xorBytes a b := rfl

theorem xor_length {a b : Bytes} (ha : a.length = 16) (hb : b.length = 16) : (XOR128 a b).length = 16 := by
  simp [XOR128, ha, hb]

/-- The value of the feed-forward. -/
def xor4 (a b : S4) : S4 := ⟨XOR128 a.s0 b.s0, XOR128 a.s1 b.s1, XOR128 a.s2 b.s2, XOR128 a.s3 b.s3⟩

def xor2 (a b : S2) : S2 := ⟨XOR128 a.s0 b.s0, XOR128 a.s1 b.s1⟩

theorem feed4_ok {inp : Bytes} {off : Nat} (h : off + 64 ≤ inp.length) (s : S4) :
    feed4 inp off s = .ok (xor4 s (ld4 inp off)) := by
  simp only [feed4, LOAD, rd_ok (show off + 16 ≤ inp.length by omega), rd_ok (show off + 16 + 16 ≤ inp.length by omega),
    rd_ok (show off + 32 + 16 ≤ inp.length by omega), rd_ok (show off + 48 + 16 ≤ inp.length by omega), ok_bind]
  rfl

theorem feed2_ok {inp : Bytes} {off : Nat} (h : off + 32 ≤ inp.length) (s : S2) :
    feed2 inp off s = .ok (xor2 s (ld2 inp off)) := by
  simp only [feed2, LOAD, rd_ok (show off + 16 ≤ inp.length by omega), rd_ok (show off + 16 + 16 ≤ inp.length by omega),
    ok_bind]
  rfl

theorem xor4_OK {a b : S4} (ha : a.OK) (hb : b.OK) : (xor4 a b).OK :=
  ⟨xor_length ha.1 hb.1, xor_length ha.2.1 hb.2.1, xor_length ha.2.2.1 hb.2.2.1, xor_length ha.2.2.2 hb.2.2.2⟩

theorem xor4_bytes {a b : S4} (ha : a.OK) (hb : b.OK) : (xor4 a b).bytes = xorBytes a.bytes b.bytes := by
  obtain ⟨a0, a1, a2, a3⟩ := ha
  obtain ⟨b0, b1, b2, b3⟩ := hb
  simp only [xor4, S4.bytes, xorBytes, XOR128]
  rw [List.zipWith_append (by simp [*]), List.zipWith_append (by simp [*]), List.zipWith_append (by simp [*])]

theorem xor2_bytes {a b : S2} (ha : a.OK) (hb : b.OK) : (xor2 a b).bytes = xorBytes a.bytes b.bytes := by
  obtain ⟨a0, a1⟩ := ha
  obtain ⟨b0, b1⟩ := hb
  simp only [xor2, S2.bytes, xorBytes, XOR128]
  rw [List.zipWith_append (by simp [*])]

theorem trunc_bytes {s : S4} (hs : s.OK) : TRUNCSTORE s =
    chunk 8 s.bytes 1 ++ chunk 8 s.bytes 3 ++ chunk 8 s.bytes 4 ++ chunk 8 s.bytes 6 := by
  obtain ⟨c0, c1, c2, c3⟩ := bytes4_chunk hs
  have key : ∀ (i : Nat) (b : Bytes), (chunk 8 (chunk 16 b i) 0 = chunk 8 b (2 * i)) ∧
      chunk 8 (chunk 16 b i) 1 = chunk 8 b (2 * i + 1) := by
    intro i b
    simp only [chunk, List.drop_take, List.take_take, List.drop_drop]
    constructor
    · congr 2; omega
    · congr 2; omega
  have q : ∀ (a : Bytes) (i : Nat), qword a i = chunk 8 a i := by
    intro a i
    rw [qword, chunk, Nat.mul_comm]
  simp only [TRUNCSTORE, shuffle_pd, q]
  rw [← c0, ← c1, ← c2, ← c3]
  simp only [show 3 % 2 = 1 from rfl, show 0 % 2 = 0 from rfl,
    (key _ _).1, (key _ _).2, List.append_assoc]

/-! ### The functions -/

section
variable {ctx : Ctx} (h : ctx.rc.length = 640) {inp : Bytes}
include h

theorem haraka512_perm_spec (hi : 64 ≤ inp.length) :
    haraka512_perm inp ctx = .ok (perm512 ctx.rc (inp.take 64)) := by
  have hs := rd4_spec h (ld4_OK (inp := inp) (off := 0) (by omega)) 5 (by omega)
  unfold haraka512_perm
  rw [load4_ok (by omega), ok_bind, rounds4_ok h, ok_bind, hs.2, ld4_bytes, List.drop_zero]
  rfl

theorem haraka512_spec (hi : 64 ≤ inp.length) :
    haraka512 inp ctx = .ok (Spec.Haraka.haraka512 ctx.rc (inp.take 64)) := by
  have hl := ld4_OK (inp := inp) (off := 0) (by omega)
  have hs := rd4_spec h hl 5 (by omega)
  unfold haraka512
  rw [load4_ok (by omega), ok_bind, rounds4_ok h, ok_bind, feed4_ok (by omega), ok_bind,
    trunc_bytes (xor4_OK hs.1 hl), xor4_bytes hs.1 hl, hs.2, ld4_bytes, List.drop_zero]
  rfl

theorem haraka256_spec (hi : 32 ≤ inp.length) :
    haraka256 inp ctx = .ok (Spec.Haraka.haraka256 ctx.rc (inp.take 32)) := by
  have hl := ld2_OK (inp := inp) (off := 0) (by omega)
  have hs := rd2_spec h hl 5 (by omega)
  unfold haraka256
  rw [load2_ok (by omega), ok_bind, rounds2_ok h, ok_bind, feed2_ok (by omega), ok_bind,
    xor2_bytes hs.1 hl, hs.2, ld2_bytes, List.drop_zero]
  rfl

omit h in
theorem flatMap_range {α : Type} (f : Nat → List α) (k : Nat) : (List.range k).flatMap f = cat k f := by
  induction k with
  | zero => rfl
  | succ k ih => rw [List.range_succ, List.flatMap_append, ih]; simp [cat]

omit h in
theorem flatMap_map_range {α β : Type} (f : β → List α) (F : Nat → β) (k : Nat) :
    ((List.range k).map F).flatMap f = cat k fun j => f (F j) := by
  rw [List.flatMap_map, flatMap_range]

theorem haraka512_perm_x4_spec (hi : 256 ≤ inp.length) :
    haraka512_perm_x4 inp ctx = .ok (cat 4 fun j => perm512 ctx.rc (chunk 64 inp j)) := by
  unfold haraka512_perm_x4
  rw [tabulate_ok (g := fun j => ld4 inp (64 * j)) (fun j hj => load4_ok (by omega)), ok_bind,
    rounds4_4x_ok h (fun j => ld4 inp (64 * j)), ok_bind, flatMap_map_range]
  refine congrArg Except.ok (cat_congr fun j hj => ?_)
  have hs := rd4_spec h (ld4_OK (inp := inp) (off := 64 * j) (by omega)) 5 (by omega)
  rw [hs.2, ld4_bytes, show (inp.drop (64 * j)).take 64 = chunk 64 inp j by rw [chunk, Nat.mul_comm j]]
  rfl

theorem haraka512x4_spec (hi : 256 ≤ inp.length) :
    haraka512x4 inp ctx = .ok (cat 4 fun j => Spec.Haraka.haraka512 ctx.rc (chunk 64 inp j)) := by
  unfold haraka512x4
  rw [tabulate_ok (g := fun j => ld4 inp (64 * j)) (fun j hj => load4_ok (by omega)), ok_bind,
    rounds4_4x_ok h (fun j => ld4 inp (64 * j)), ok_bind,
    tabulate_ok (g := fun j => xor4 (rd4 ctx.rc 5 (ld4 inp (64 * j))) (ld4 inp (64 * j))) (fun j hj => by
      rw [rd1_map _ hj, ok_bind, feed4_ok (by omega)]), ok_bind, flatMap_map_range]
  refine congrArg Except.ok (cat_congr fun j hj => ?_)
  have hl := ld4_OK (inp := inp) (off := 64 * j) (by omega)
  have hs := rd4_spec h hl 5 (by omega)
  rw [trunc_bytes (xor4_OK hs.1 hl), xor4_bytes hs.1 hl, hs.2, ld4_bytes,
    show (inp.drop (64 * j)).take 64 = chunk 64 inp j by rw [chunk, Nat.mul_comm j]]
  rfl

theorem haraka256x4_spec (hi : 128 ≤ inp.length) :
    haraka256x4 inp ctx = .ok (cat 4 fun j => Spec.Haraka.haraka256 ctx.rc (chunk 32 inp j)) := by
  unfold haraka256x4
  rw [tabulate_ok (g := fun j => ld2 inp (32 * j)) (fun j hj => load2_ok (by omega)), ok_bind,
    rounds2_4x_ok h (fun j => ld2 inp (32 * j)), ok_bind,
    tabulate_ok (g := fun j => xor2 (rd2 ctx.rc 5 (ld2 inp (32 * j))) (ld2 inp (32 * j))) (fun j hj => by
      rw [rd1_map _ hj, ok_bind, feed2_ok (by omega)]), ok_bind, flatMap_map_range]
  refine congrArg Except.ok (cat_congr fun j hj => ?_)
  have hl := ld2_OK (inp := inp) (off := 32 * j) (by omega)
  have hs := rd2_spec h hl 5 (by omega)
  rw [xor2_bytes hs.1 hl, hs.2, ld2_bytes, chunk, Nat.mul_comm j]
  rfl

end
end Spx.AesNi
