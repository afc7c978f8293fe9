import Verif.Proof.LeakLanes
import Verif.Model.LeakAesNi
/-! # Two runs of the Haraka hash functions with the AES instructions leave the same trace -/

namespace Spx.Leak
namespace AesNi
open Spx.AesNi
open Spx.Haraka (HARAKAS_RATE)
open _root_.Spx.Leak.Haraka (PermLow LibLow)

/-- Two registers. -/
def Reg (x y : Bytes) : Prop := x.length = 16 ∧ y.length = 16

theorem Reg.of {x y : Bytes} (h1 : x.length = 16) (h2 : y.length = 16) : Reg x y := ⟨h1, h2⟩

theorem len_xor {a b : Bytes} (ha : a.length = 16) (hb : b.length = 16) : (XOR128 a b).length = 16 := by
  unfold XOR128; rw [List.length_zipWith, ha, hb]; rfl

theorem len_aesenc {s k : Bytes} (hk : k.length = 16) : (aesenc s k).length = 16 := by
  unfold aesenc
  refine len_xor ?_ hk
  unfold Spec.Aes.mixColumns; rw [List.length_map, List.length_range]

theorem len_dword {a : Bytes} (ha : a.length = 16) {i : Nat} (hi : i < 4) : (dword a i).length = 4 := by
  unfold dword; rw [List.length_take, List.length_drop]; omega

theorem len_qword {a : Bytes} (ha : a.length = 16) {i : Nat} (hi : i < 2) : (qword a i).length = 8 := by
  unfold qword; rw [List.length_take, List.length_drop]; omega

theorem len_lo {a b : Bytes} (ha : a.length = 16) (hb : b.length = 16) : (unpacklo_epi32 a b).length = 16 := by
  unfold unpacklo_epi32
  simp only [List.length_append]
  rw [len_dword ha (by decide), len_dword ha (by decide), len_dword hb (by decide), len_dword hb (by decide)]

theorem len_hi {a b : Bytes} (ha : a.length = 16) (hb : b.length = 16) : (unpackhi_epi32 a b).length = 16 := by
  unfold unpackhi_epi32
  simp only [List.length_append]
  rw [len_dword ha (by decide), len_dword ha (by decide), len_dword hb (by decide), len_dword hb (by decide)]

theorem len_shuffle {a b : Bytes} (ha : a.length = 16) (hb : b.length = 16) (i : Nat) : (shuffle_pd a b i).length = 16 := by
  unfold shuffle_pd
  rw [List.length_append, len_qword ha (Nat.mod_lt _ (by decide)), len_qword hb (Nat.mod_lt _ (by decide))]

/-- All registers have 16 bytes. -/
structure Ok4 (s : S4) : Prop where
  h0 : s.s0.length = 16
  h1 : s.s1.length = 16
  h2 : s.s2.length = 16
  h3 : s.s3.length = 16

/-- All registers have 16 bytes. -/
structure Ok2 (s : S2) : Prop where
  h0 : s.s0.length = 16
  h1 : s.s1.length = 16

/-- Registers of two runs. -/
def R4 (s s' : S4) : Prop := Ok4 s ∧ Ok4 s'
/-- Registers of two runs. -/
def R2 (s s' : S2) : Prop := Ok2 s ∧ Ok2 s'

theorem ok_MIX4 {s : S4} (h : Ok4 s) : Ok4 (MIX4 s) := by
  obtain ⟨s0, s1, s2, s3⟩ := s
  obtain ⟨h0, h1, h2, h3⟩ := h
  have a := len_lo h0 h1
  have b := len_hi h0 h1
  have c := len_lo h2 h3
  have d := len_hi h2 h3
  exact ⟨len_hi b d, len_lo c a, len_hi c a, len_lo b d⟩

theorem ok_MIX2 {s : S2} (h : Ok2 s) : Ok2 (MIX2 s) := ⟨len_lo h.h0 h.h1, len_hi h.h0 h.h1⟩

theorem len_bytes4 {s : S4} (h : Ok4 s) : s.bytes.length = 64 := by
  unfold S4.bytes; simp only [List.length_append]; rw [h.h0, h.h1, h.h2, h.h3]

theorem len_bytes2 {s : S2} (h : Ok2 s) : s.bytes.length = 32 := by
  unfold S2.bytes; simp only [List.length_append]; rw [h.h0, h.h1]

theorem len_trunc {s : S4} (h : Ok4 s) : (TRUNCSTORE s).length = 32 := by
  unfold TRUNCSTORE; rw [List.length_append, len_shuffle h.h0 h.h1, len_shuffle h.h2 h.h3]

theorem low_LOAD {b b' : Bytes} {off : Nat} (h : Len b b') : Rel Reg (LOAD b off) (LOAD b' off) :=
  (Rel.rd h rfl rfl).weaken fun _ _ h => h

theorem low_STORE {b b' r r' : Bytes} {off : Nat} (h : Len b b') (hr : Len r r') :
    Rel (fun x y => x.length = b.length ∧ y.length = b.length) (STORE b off r) (STORE b' off r') := Rel.wr h rfl hr

section
variable {c c' : Ctx} (hc : CtxLow c c')
include hc

theorem low_rcAt {k : Nat} : Rel Reg (rcAt c.rc k) (rcAt c'.rc k) := (Rel.rd hc.rc rfl rfl).weaken fun _ _ h => h

theorem low_AES4 {r : Nat} {s s' : S4} : Rel R4 (AES4 c.rc r s) (AES4 c'.rc r s') := by
  unfold AES4
  refine Rel.bind (low_rcAt hc) fun _ _ _ => ?_
  refine Rel.bind (low_rcAt hc) fun _ _ _ => ?_
  refine Rel.bind (low_rcAt hc) fun _ _ _ => ?_
  refine Rel.bind (low_rcAt hc) fun _ _ _ => ?_
  refine Rel.bind (low_rcAt hc) fun _ _ h0 => ?_
  refine Rel.bind (low_rcAt hc) fun _ _ h1 => ?_
  refine Rel.bind (low_rcAt hc) fun _ _ h2 => ?_
  refine Rel.bind (low_rcAt hc) fun _ _ h3 => ?_
  exact Rel.ok ⟨⟨len_aesenc h0.1, len_aesenc h1.1, len_aesenc h2.1, len_aesenc h3.1⟩,
    ⟨len_aesenc h0.2, len_aesenc h1.2, len_aesenc h2.2, len_aesenc h3.2⟩⟩

theorem low_AES2 {r : Nat} {s s' : S2} : Rel R2 (AES2 c.rc r s) (AES2 c'.rc r s') := by
  unfold AES2
  refine Rel.bind (low_rcAt hc) fun _ _ _ => ?_
  refine Rel.bind (low_rcAt hc) fun _ _ _ => ?_
  refine Rel.bind (low_rcAt hc) fun _ _ h0 => ?_
  refine Rel.bind (low_rcAt hc) fun _ _ h1 => ?_
  exact Rel.ok ⟨⟨len_aesenc h0.1, len_aesenc h1.1⟩, ⟨len_aesenc h0.2, len_aesenc h1.2⟩⟩

theorem low_rounds4 {s s' : S4} : Rel R4 (rounds4 c.rc s) (rounds4 c'.rc s') := by
  unfold rounds4
  refine Rel.bind (low_AES4 hc) fun _ _ _ => ?_
  refine Rel.bind (low_AES4 hc) fun _ _ _ => ?_
  refine Rel.bind (low_AES4 hc) fun _ _ _ => ?_
  refine Rel.bind (low_AES4 hc) fun _ _ _ => ?_
  refine Rel.bind (low_AES4 hc) fun _ _ h => ?_
  exact Rel.ok ⟨ok_MIX4 h.1, ok_MIX4 h.2⟩

theorem low_rounds2 {s s' : S2} : Rel R2 (rounds2 c.rc s) (rounds2 c'.rc s') := by
  unfold rounds2
  refine Rel.bind (low_AES2 hc) fun _ _ _ => ?_
  refine Rel.bind (low_AES2 hc) fun _ _ _ => ?_
  refine Rel.bind (low_AES2 hc) fun _ _ _ => ?_
  refine Rel.bind (low_AES2 hc) fun _ _ _ => ?_
  refine Rel.bind (low_AES2 hc) fun _ _ h => ?_
  exact Rel.ok ⟨ok_MIX2 h.1, ok_MIX2 h.2⟩

theorem low_AES4_4x {r : Nat} {s s' : List S4} (h : Len s s') :
    Rel (fun x y => x.length = 4 ∧ List.Forall₂ R4 x y) (AES4_4x c.rc r s) (AES4_4x c'.rc r s') := by
  unfold AES4_4x
  exact low_tabulateR R4 fun j _ => Rel.bind (Rel.rd1 h rfl) fun _ _ _ => low_AES4 hc

theorem low_AES2_4x {r : Nat} {s s' : List S2} (h : Len s s') :
    Rel (fun x y => x.length = 4 ∧ List.Forall₂ R2 x y) (AES2_4x c.rc r s) (AES2_4x c'.rc r s') := by
  unfold AES2_4x
  exact low_tabulateR R2 fun j _ => Rel.bind (Rel.rd1 h rfl) fun _ _ _ => low_AES2 hc

omit hc in
theorem len_map {α β γ δ : Type} {f : α → γ} {g : β → δ} {x : List α} {y : List β} {R : α → β → Prop}
    (h : x.length = 4 ∧ List.Forall₂ R x y) : Len (x.map f) (y.map g) := by
  rw [Len, List.length_map, List.length_map]; exact forall₂_len h.2

theorem low_rounds4_4x {s s' : List S4} (h : Len s s') :
    Rel (fun x y => x.length = 4 ∧ List.Forall₂ R4 x y) (rounds4_4x c.rc s) (rounds4_4x c'.rc s') := by
  unfold rounds4_4x
  refine Rel.bind (low_AES4_4x hc h) fun _ _ h => ?_
  refine Rel.bind (low_AES4_4x hc (len_map h)) fun _ _ h => ?_
  refine Rel.bind (low_AES4_4x hc (len_map h)) fun _ _ h => ?_
  refine Rel.bind (low_AES4_4x hc (len_map h)) fun _ _ h => ?_
  refine Rel.bind (low_AES4_4x hc (len_map h)) fun _ _ h => ?_
  exact Rel.ok ⟨by rw [List.length_map, h.1], forall₂_map h.2 fun _ _ h => ⟨ok_MIX4 h.1, ok_MIX4 h.2⟩⟩

theorem low_rounds2_4x {s s' : List S2} (h : Len s s') :
    Rel (fun x y => x.length = 4 ∧ List.Forall₂ R2 x y) (rounds2_4x c.rc s) (rounds2_4x c'.rc s') := by
  unfold rounds2_4x
  refine Rel.bind (low_AES2_4x hc h) fun _ _ h => ?_
  refine Rel.bind (low_AES2_4x hc (len_map h)) fun _ _ h => ?_
  refine Rel.bind (low_AES2_4x hc (len_map h)) fun _ _ h => ?_
  refine Rel.bind (low_AES2_4x hc (len_map h)) fun _ _ h => ?_
  refine Rel.bind (low_AES2_4x hc (len_map h)) fun _ _ h => ?_
  exact Rel.ok ⟨by rw [List.length_map, h.1], forall₂_map h.2 fun _ _ h => ⟨ok_MIX2 h.1, ok_MIX2 h.2⟩⟩

omit hc in
theorem low_load4 {b b' : Bytes} {off : Nat} (h : Len b b') : Rel R4 (load4 b off) (load4 b' off) := by
  unfold load4
  refine Rel.bind (low_LOAD h) fun _ _ h0 => ?_
  refine Rel.bind (low_LOAD h) fun _ _ h1 => ?_
  refine Rel.bind (low_LOAD h) fun _ _ h2 => ?_
  refine Rel.bind (low_LOAD h) fun _ _ h3 => ?_
  exact Rel.ok ⟨⟨h0.1, h1.1, h2.1, h3.1⟩, ⟨h0.2, h1.2, h2.2, h3.2⟩⟩

omit hc in
theorem low_load2 {b b' : Bytes} {off : Nat} (h : Len b b') : Rel R2 (load2 b off) (load2 b' off) := by
  unfold load2
  refine Rel.bind (low_LOAD h) fun _ _ h0 => ?_
  refine Rel.bind (low_LOAD h) fun _ _ h1 => ?_
  exact Rel.ok ⟨⟨h0.1, h1.1⟩, ⟨h0.2, h1.2⟩⟩

omit hc in
theorem low_feed4 {b b' : Bytes} {off : Nat} {s s' : S4} (h : Len b b') (hs : R4 s s') :
    Rel R4 (feed4 b off s) (feed4 b' off s') := by
  unfold feed4
  refine Rel.bind (low_LOAD h) fun _ _ h0 => ?_
  refine Rel.bind (low_LOAD h) fun _ _ h1 => ?_
  refine Rel.bind (low_LOAD h) fun _ _ h2 => ?_
  refine Rel.bind (low_LOAD h) fun _ _ h3 => ?_
  exact Rel.ok ⟨⟨len_xor hs.1.h0 h0.1, len_xor hs.1.h1 h1.1, len_xor hs.1.h2 h2.1, len_xor hs.1.h3 h3.1⟩,
    ⟨len_xor hs.2.h0 h0.2, len_xor hs.2.h1 h1.2, len_xor hs.2.h2 h2.2, len_xor hs.2.h3 h3.2⟩⟩

omit hc in
theorem low_feed2 {b b' : Bytes} {off : Nat} {s s' : S2} (h : Len b b') (hs : R2 s s') :
    Rel R2 (feed2 b off s) (feed2 b' off s') := by
  unfold feed2
  refine Rel.bind (low_LOAD h) fun _ _ h0 => ?_
  refine Rel.bind (low_LOAD h) fun _ _ h1 => ?_
  exact Rel.ok ⟨⟨len_xor hs.1.h0 h0.1, len_xor hs.1.h1 h1.1⟩, ⟨len_xor hs.2.h0 h0.2, len_xor hs.2.h1 h1.2⟩⟩

theorem low_haraka512_perm {s s' : Bytes} (h : Len s s') :
    Rel (fun x y => x.length = 64 ∧ y.length = 64) (haraka512_perm s c) (haraka512_perm s' c') := by
  unfold haraka512_perm
  refine Rel.prim (Rel.bind (low_load4 h) fun _ _ _ => ?_)
  refine Rel.bind (low_rounds4 hc) fun _ _ h => ?_
  exact Rel.ok ⟨len_bytes4 h.1, len_bytes4 h.2⟩

theorem low_haraka512_perm_x4 {s s' : Bytes} (h : Len s s') :
    Rel (fun x y => x.length = 256 ∧ y.length = 256) (haraka512_perm_x4 s c) (haraka512_perm_x4 s' c') := by
  unfold haraka512_perm_x4
  refine Rel.prim (Rel.bind (low_tabulateR R4 fun j _ => low_load4 h) fun _ _ h => ?_)
  refine Rel.bind (low_rounds4_4x hc (forall₂_len h.2)) fun x y h => Rel.ok ?_
  have := forall₂_flatMap h.2 (fun a b h => ⟨len_bytes4 h.1, len_bytes4 h.2⟩)
  rw [h.1] at this
  exact this

theorem low_haraka512 {s s' : Bytes} (h : Len s s') :
    Rel (fun x y => x.length = 32 ∧ y.length = 32) (haraka512 s c) (haraka512 s' c') := by
  unfold haraka512
  refine Rel.prim (Rel.bind (low_load4 h) fun _ _ _ => ?_)
  refine Rel.bind (low_rounds4 hc) fun _ _ hr => ?_
  refine Rel.bind (low_feed4 h hr) fun _ _ h => ?_
  exact Rel.ok ⟨len_trunc h.1, len_trunc h.2⟩

theorem low_haraka512x4 {s s' : Bytes} (h : Len s s') :
    Rel (fun x y => x.length = 128 ∧ y.length = 128) (haraka512x4 s c) (haraka512x4 s' c') := by
  unfold haraka512x4
  refine Rel.prim (Rel.bind (low_tabulateR R4 fun j _ => low_load4 h) fun _ _ hl => ?_)
  refine Rel.bind (low_rounds4_4x hc (forall₂_len hl.2)) fun x y hr => ?_
  refine Rel.bind (low_tabulateR R4 fun j _ => Rel.bind (Rel.rd1 (forall₂_len hr.2) rfl) fun a b hab =>
    low_feed4 h (forall₂_get hr.2 hab.1 hab.2)) fun x y h => Rel.ok ?_
  have := forall₂_flatMap h.2 (fun a b h => ⟨len_trunc h.1, len_trunc h.2⟩)
  rw [h.1] at this
  exact this

theorem low_haraka256 {s s' : Bytes} (h : Len s s') :
    Rel (fun x y => x.length = 32 ∧ y.length = 32) (haraka256 s c) (haraka256 s' c') := by
  unfold haraka256
  refine Rel.prim (Rel.bind (low_load2 h) fun _ _ _ => ?_)
  refine Rel.bind (low_rounds2 hc) fun _ _ hr => ?_
  refine Rel.bind (low_feed2 h hr) fun _ _ h => ?_
  exact Rel.ok ⟨len_bytes2 h.1, len_bytes2 h.2⟩

theorem low_haraka256x4 {s s' : Bytes} (h : Len s s') :
    Rel (fun x y => x.length = 128 ∧ y.length = 128) (haraka256x4 s c) (haraka256x4 s' c') := by
  unfold haraka256x4
  refine Rel.prim (Rel.bind (low_tabulateR R2 fun j _ => low_load2 h) fun _ _ hl => ?_)
  refine Rel.bind (low_rounds2_4x hc (forall₂_len hl.2)) fun x y hr => ?_
  refine Rel.bind (low_tabulateR R2 fun j _ => Rel.bind (Rel.rd1 (forall₂_len hr.2) rfl) fun a b hab =>
    low_feed2 h (forall₂_get hr.2 hab.1 hab.2)) fun x y h => Rel.ok ?_
  have := forall₂_flatMap h.2 (fun a b h => ⟨len_bytes2 h.1, len_bytes2 h.2⟩)
  rw [h.1] at this
  exact this

omit hc in
theorem low_xorBlock {s s' m m' : Bytes} {off : Nat} (h : Len s s') (hm : Len m m') :
    Rel (fun x y => x.length = s.length ∧ y.length = s.length) (xorBlock s off m) (xorBlock s' off m') := by
  unfold xorBlock
  refine Rel.bind (low_LOAD h) fun _ _ h0 => ?_
  refine Rel.bind (low_LOAD hm) fun _ _ h1 => ?_
  refine Rel.bind (low_STORE h ((len_xor h0.1 h1.1).trans (len_xor h0.2 h1.2).symm)) fun t t' ht => ?_
  have htl : Len t t' := ht.1.trans ht.2.symm
  refine Rel.bind (low_LOAD htl) fun _ _ h0 => ?_
  refine Rel.bind (low_LOAD hm) fun _ _ h1 => ?_
  refine (low_STORE htl ((len_xor h0.1 h1.1).trans (len_xor h0.2 h1.2).symm)).weaken fun x y hx => ?_
  exact ⟨hx.1.trans ht.1, hx.2.trans ht.1⟩

omit hc in
theorem low_xorBlocks {k : Nat} {s s' : Bytes} {ms ms' : List Bytes} (h : Len s s') (hm : Lens ms ms') :
    Rel (fun x y => Len x y) (xorBlocks k s ms) (xorBlocks k s' ms') := by
  unfold xorBlocks
  refine Rel.forRange (fun x y => Len x y) rfl h fun j t t' _ ht => ?_
  refine Rel.bind (Rel.rd1 hm.len rfl) fun a b hab => ?_
  exact (low_xorBlock ht (hm.get hab.1 hab.2)).weaken fun _ _ h => h.1.trans h.2.symm

/-- Two versions of the permutation, on any number of lanes, which leave the same trace. -/
def PermLen (perm perm' : Bytes → Ctx → L Bytes) : Prop :=
  ∀ s s' c c', Len s s' → CtxLow c c' → Rel (fun x y => Len x y) (perm s c) (perm' s' c')

variable {perm perm' : Bytes → Ctx → L Bytes} (hp : PermLen perm perm')
include hp

/-- Two states of the absorbing loop. -/
def AbsX (x y : Bytes × List Bytes × Nat) : Prop := Len x.1 y.1 ∧ Lens x.2.1 y.2.1 ∧ x.2.2 = y.2.2

theorem low_absorbx_block {k r : Nat} {x y : Bytes × List Bytes × Nat} (h : AbsX x y) :
    Rel (SumRel AbsX AbsX) (haraka_S_absorbx_block k perm r c x) (haraka_S_absorbx_block k perm' r c' y) := by
  obtain ⟨s, m, n⟩ := x
  obtain ⟨s', m', n'⟩ := y
  obtain ⟨h1, h2, h3⟩ := h
  dsimp only at h1 h2 h3
  subst h3
  unfold haraka_S_absorbx_block
  dsimp only
  refine Rel.branch Iff.rfl (fun _ => ?_) (fun _ => Rel.ok_inr ⟨h1, h2, rfl⟩)
  refine Rel.bind (low_xorBlocks h1 h2) fun t t' ht => ?_
  refine Rel.bind (hp _ _ _ _ ht hc) fun u u' hu => ?_
  refine Rel.bind (Rel.wr ht rfl hu) fun v v' hv => ?_
  refine Rel.bind (low_tabulate fun j _ => Rel.bind (Rel.rd1 h2.len rfl) fun a b hab =>
    (Rel.sub_len (h2.get hab.1 hab.2) rfl).weaken fun _ _ h => h.1.trans h.2.symm) fun w w' hw => ?_
  exact Rel.ok_inl ⟨hv.1.trans hv.2.symm, hw, rfl⟩

omit hc hp in
theorem low_last {g g' : Nat → Byte} {r : Nat} {m m' : Bytes} {n : Nat} {p : Byte} (hm : Len m m') :
    Rel (fun x y => Len x y) (haraka_S_last g r m n p) (haraka_S_last g' r m' n p) := by
  unfold haraka_S_last
  low

theorem low_absorbx {k : Nat} {g g' : Nat → Nat → Byte} {s s' : Bytes} {r : Nat} {m m' : List Bytes} {n : Nat}
    {p : Byte} (h : Len s s') (hm : Lens m m') :
    Rel (fun x y => Len x y) (haraka_S_absorbx k perm g s r m n p c) (haraka_S_absorbx k perm' g' s' r m' n p c') := by
  unfold haraka_S_absorbx
  refine Rel.bind (Rel.loop AbsX AbsX rfl ⟨h, hm, rfl⟩ fun _ _ => low_absorbx_block hc hp) ?_
  rintro ⟨s, m, n⟩ ⟨s', m', n'⟩ ⟨h1, h2, h3⟩
  dsimp only at h1 h2 h3 ⊢
  subst h3
  refine Rel.bind (low_tabulate fun j _ => Rel.bind (Rel.rd1 h2.len rfl) fun a b hab =>
    low_last (h2.get hab.1 hab.2)) fun w w' hw => ?_
  exact low_xorBlocks h1 hw

theorem low_squeezex {k : Nat} {ls : List Nat} (hk : ls.length = k) {hs hs' : List Bytes} {nb : Nat} {s s' : Bytes}
    {r : Nat} (hh : LensN ls hs hs') (h : Len s s') :
    Rel (fun x y => LensN ls x.1 y.1 ∧ Len x.2 y.2) (haraka_S_squeezeblocksx k perm hs nb s r c)
      (haraka_S_squeezeblocksx k perm' hs' nb s' r c') := by
  unfold haraka_S_squeezeblocksx
  refine Rel.bind (Rel.forRange (fun (x y : List Bytes × Nat × Bytes) => LensN ls x.1 y.1 ∧ x.2.1 = y.2.1 ∧
    Len x.2.2 y.2.2) rfl ⟨hh, rfl, h⟩ ?_) ?_
  · rintro i ⟨hs, off, s⟩ ⟨hs', off', s'⟩ _ ⟨h1, h2, h3⟩
    dsimp only at h1 h2 h3 ⊢
    subst h2
    refine Rel.bind (hp _ _ _ _ h3 hc) fun u u' hu => ?_
    refine Rel.bind (Rel.wr h3 rfl hu) fun v v' hv => ?_
    have hvl : Len v v' := hv.1.trans hv.2.symm
    refine Rel.bind (low_tabulateN hk fun j l _ hl => ?_) fun w w' hw => Rel.ok ⟨hw, rfl, hvl⟩
    refine Rel.bind (Rel.rd1 h1.len rfl) fun a b hab => ?_
    obtain ⟨ha, hb⟩ := h1.get hl hab.1 hab.2
    refine Rel.bind (low_LOAD hvl) fun _ _ h0 => ?_
    refine Rel.bind (low_STORE (ha.trans hb.symm) (h0.1.trans h0.2.symm)) fun d d' hd => ?_
    refine Rel.bind (low_LOAD hvl) fun _ _ h0 => ?_
    refine (low_STORE (hd.1.trans hd.2.symm) (h0.1.trans h0.2.symm)).weaken fun x y hx => ?_
    exact ⟨hx.1.trans (hd.1.trans ha), hx.2.trans (hd.1.trans ha)⟩
  · rintro ⟨hs, off, s⟩ ⟨hs', off', s'⟩ ⟨h1, h2, h3⟩
    exact Rel.ok ⟨h1, h3⟩

theorem low_haraka_Sx {k : Nat} {g g' : Nat → Nat → Byte} {ls : List Nat} (hk : ls.length = k) {o o' : List Bytes}
    {ol : Nat} {i i' : List Bytes} {il : Nat} (ho : LensN ls o o') (hi : Lens i i') :
    Rel (LensN ls) (haraka_Sx k perm g o ol i il c) (haraka_Sx k perm' g' o' ol i' il c') := by
  unfold haraka_Sx
  refine Rel.bind (R := fun x y => Len x y) ?_ fun s s' hs => ?_
  · refine (Rel.forLen rfl (by rw [Len, len_uninit, len_uninit]) fun i s s' _ h1 h2 => ?_).weaken
      fun _ _ h => h.1.trans h.2.symm
    exact (Rel.wr1_len (h1.trans h2.symm) rfl).weaken fun _ _ h => ⟨h.1.trans h1, h.2.trans h1⟩
  refine Rel.bind (low_absorbx hc hp hs hi) fun t t' ht => ?_
  refine Rel.bind (low_squeezex hc hp hk ho ht) ?_
  rintro ⟨o, t⟩ ⟨o', t'⟩ ⟨h1, h2⟩
  dsimp only at h1 h2 ⊢
  refine Rel.branch Iff.rfl (fun _ => ?_) (fun _ => Rel.ok h1)
  refine Rel.bind (low_squeezex hc hp (List.length_replicate ..) lensN_uninit h2) ?_
  rintro ⟨d, u⟩ ⟨d', u'⟩ ⟨h3, h4⟩
  dsimp only at h3 h4 ⊢
  refine low_tabulateN hk fun j l _ hl => ?_
  refine Rel.bind (Rel.rd1 h3.len rfl) fun a b hab => ?_
  have hd := h3.lens.get hab.1 hab.2
  refine Rel.bind (Rel.rd1 h1.len rfl) fun a' b' hab' => ?_
  obtain ⟨ha, hb⟩ := h1.get hl hab'.1 hab'.2
  refine (Rel.forLen rfl (ha.trans hb.symm) fun i s s' _ h1 h2 => ?_).weaken fun _ _ h => ⟨h.1.trans ha, h.2.trans ha⟩
  refine Rel.bind (Rel.rd1 hd rfl) fun _ _ _ => ?_
  exact (Rel.wr1_len (h1.trans h2.symm) rfl).weaken fun _ _ h => ⟨h.1.trans h1, h.2.trans h1⟩

end

theorem low_perm : PermLow haraka512_perm haraka512_perm := fun _ _ _ _ h hc => low_haraka512_perm hc h

theorem len_perm : PermLen haraka512_perm haraka512_perm :=
  fun _ _ _ _ h hc => (low_haraka512_perm hc h).weaken fun _ _ h => h.1.trans h.2.symm

theorem len_perm_x4 : PermLen haraka512_perm_x4 haraka512_perm_x4 :=
  fun _ _ _ _ h hc => (low_haraka512_perm_x4 hc h).weaken fun _ _ h => h.1.trans h.2.symm

section
variable {c c' : Ctx} (hc : CtxLow c c') {g g' : Nat → Nat → Byte}
include hc

theorem low_haraka_S {o o' : Bytes} {ol : Nat} {i i' : Bytes} {il : Nat} (ho : Len o o') (hi : Len i i') :
    Rel (fun x y => x.length = o.length ∧ y.length = o.length) (haraka_S g o ol i il c) (haraka_S g' o' ol i' il c') := by
  unfold haraka_S
  refine Rel.bind (low_haraka_Sx hc len_perm (ls := [o.length]) rfl ⟨rfl, by show [o'.length] = _; rw [ho]⟩
    (show [i.length] = [i'.length] by rw [hi])) fun x y h => ?_
  refine (Rel.rd1 h.len rfl).weaken fun a b hab => ?_
  exact h.get rfl hab.1 hab.2

theorem low_haraka_Sx4 {ls : List Nat} (hk : ls.length = 4) {o o' : List Bytes} {ol : Nat} {i i' : List Bytes}
    {il : Nat} (ho : LensN ls o o') (hi : Lens i i') :
    Rel (LensN ls) (haraka_Sx4 g o ol i il c) (haraka_Sx4 g' o' ol i' il c') := by
  unfold haraka_Sx4
  exact low_haraka_Sx hc len_perm_x4 hk ho hi

omit hc in
theorem low_load_constants {r r' : Bytes} (h : Len r r') :
    Rel (fun x y => x.length = r.length ∧ y.length = r.length) (load_haraka_constants r) (load_haraka_constants r') := by
  unfold load_haraka_constants
  refine Rel.forLen rfl h fun i s s' _ h1 h2 => ?_
  refine Rel.bind (Rel.refl _) ?_
  rintro a _ rfl
  exact (Rel.wr (h1.trans h2.symm) rfl rfl).weaken fun _ _ h => ⟨h.1.trans h1, h.2.trans h1⟩

theorem low_tweak_constants {n : Nat} : Rel (CtxKeep c) (tweak_constants g n c) (tweak_constants g' n c') := by
  obtain ⟨h1, h2, h3, h4, h5, h6, h7⟩ := id hc
  unfold tweak_constants
  refine Rel.bind (low_load_constants h7) ?_
  rintro r r' ⟨hr, hr'⟩
  have hc1 : CtxLow { c with rc := r } { c' with rc := r' } := ⟨h1, h2, h3, h4, h5, h6, hr.trans hr'.symm⟩
  refine Rel.bind (low_haraka_S hc1 (by rw [Len, len_uninit, len_uninit]) h1) ?_
  rintro b b' ⟨hb, hb'⟩
  refine Rel.bind (Rel.forLen rfl (hr.trans hr'.symm) fun i s s' _ h1 h2 => ?_) fun u u' hu => ?_
  · refine Rel.bind (low_LOAD (hb.trans hb'.symm)) fun _ _ h0 => ?_
    exact (Rel.wr (h1.trans h2.symm) rfl (h0.1.trans h0.2.symm)).weaken fun _ _ h => ⟨h.1.trans h1, h.2.trans h1⟩
  · exact Rel.ok ⟨⟨h1, h2, h3, h4, h5, h6, hu.1.trans hu.2.symm⟩, rfl, rfl, rfl, rfl, rfl, rfl, hu.1.trans hr⟩

end

theorem low_lib : LibLow lib lib where
  perm := low_perm
  h512 _ _ _ _ h hc := low_haraka512 hc h
  h256 _ _ _ _ h hc := low_haraka256 hc h
  hS _ _ _ _ _ _ _ _ _ _ ho hi hc := low_haraka_S hc ho hi
  tweak _ _ _ _ _ hc := low_tweak_constants hc

theorem low_impl (P : Params) (g g' : Nat → Nat → Byte) : HashLow P (impl P g) (impl P g') :=
  Haraka.low_implWith low_lib P g g'

section
variable {c c' : Ctx} (hc : CtxLow c c') {P : Params} {g g' : Nat → Nat → Byte}

theorem low_outs32 {b b' : Bytes} (h : Len b b') : Rel Lens (outs32 P b) (outs32 P b') := by
  unfold outs32
  exact low_tabulate fun j _ => (Rel.rd h rfl rfl).weaken fun _ _ h => h.1.trans h.2.symm

/-- Copying one piece of every lane to a buffer. -/
theorem low_gather {k : Nat} {pos : Nat → Nat} {n : Nat} {b b' : Bytes} {xs xs' : List Bytes} (h : Len b b')
    (hx : Lens xs xs') :
    Rel (fun x y => Len x y) (forRange k (fun j b => do wr b (pos j) (← rd (← rd1 xs j) 0 n)) b)
      (forRange k (fun j b => do wr b (pos j) (← rd (← rd1 xs' j) 0 n)) b') := by
  refine Rel.forRange (fun x y => Len x y) rfl h fun j s s' _ hs => ?_
  refine Rel.bind (Rel.rd1 hx.len rfl) fun a d had => ?_
  refine Rel.bind (Rel.rd (hx.get had.1 had.2) rfl rfl) fun _ _ h => ?_
  exact (Rel.wr hs rfl (h.1.trans h.2.symm)).weaken fun _ _ h => h.1.trans h.2.symm

include hc

theorem low_prf_addrx4 {a a' : List Addr} (ha : Lens a a') : Rel Lens (prf_addrx4 P c a) (prf_addrx4 P c' a') := by
  unfold prf_addrx4
  refine Rel.bind (R := fun x y => Len x y) (Rel.forRange (fun x y => Len x y) rfl rfl fun j s s' _ hs => ?_)
    fun b b' hb => ?_
  · refine Rel.bind (Rel.rd1 ha.len rfl) fun a d had => ?_
    refine Rel.bind (Rel.rd (ha.get had.1 had.2) rfl rfl) fun _ _ h => ?_
    refine Rel.bind (Rel.wr hs rfl (h.1.trans h.2.symm)) fun _ _ hw => ?_
    refine Rel.bind (Rel.rd hc.sk_seed rfl rfl) fun _ _ h => ?_
    exact (Rel.wr (hw.1.trans hw.2.symm) rfl (h.1.trans h.2.symm)).weaken fun _ _ h => h.1.trans h.2.symm
  refine Rel.bind (low_haraka512x4 hc hb) fun _ _ h => ?_
  exact low_outs32 (h.1.trans h.2.symm)

theorem low_thashx4_simple {i i' : List Bytes} {k : Nat} {a a' : List Addr} (hi : Lens i i') (ha : Lens a a') :
    Rel Lens (thashx4_simple P g i k c a) (thashx4_simple P g' i' k c' a') := by
  unfold thashx4_simple
  refine Rel.branch Iff.rfl (fun _ => ?_) (fun _ => ?_)
  · refine Rel.bind (low_gather rfl ha) fun b b' hb => ?_
    refine Rel.bind (low_gather hb hi) fun b b' hb => ?_
    refine Rel.bind (low_haraka512x4 hc hb) fun _ _ h => ?_
    exact low_outs32 (h.1.trans h.2.symm)
  · refine Rel.bind (low_tabulate fun j _ => ?_) fun b b' hb => ?_
    · refine Rel.bind (Rel.rd1 ha.len rfl) fun x y hxy => ?_
      refine Rel.bind (Rel.rd (ha.get hxy.1 hxy.2) rfl rfl) fun _ _ h => ?_
      refine Rel.bind (Rel.wr (by rw [Len, len_uninit, len_uninit]) rfl (h.1.trans h.2.symm)) fun _ _ hw => ?_
      refine Rel.bind (Rel.rd1 hi.len rfl) fun x y hxy => ?_
      refine Rel.bind (Rel.rd (hi.get hxy.1 hxy.2) rfl rfl) fun _ _ h => ?_
      exact (Rel.wr (hw.1.trans hw.2.symm) rfl (h.1.trans h.2.symm)).weaken fun _ _ h => h.1.trans h.2.symm
    · exact (low_haraka_Sx4 hc (List.length_replicate ..) lensN_uninit hb).weaken fun _ _ h => h.lens

theorem low_thashx4_robust {i i' : List Bytes} {k : Nat} {a a' : List Addr} (hi : Lens i i') (ha : Lens a a') :
    Rel Lens (thashx4_robust P g i k c a) (thashx4_robust P g' i' k c' a') := by
  unfold thashx4_robust
  refine Rel.branch Iff.rfl (fun _ => ?_) (fun _ => ?_)
  · refine Rel.bind (low_gather rfl ha) fun b b' hb => ?_
    refine Rel.bind (low_haraka256x4 hc hb) fun o o' ho => ?_
    have hol : Len o o' := ho.1.trans ho.2.symm
    refine Rel.bind (Rel.rd hb rfl rfl) fun _ _ h => ?_
    refine Rel.bind (Rel.wr hb rfl (h.1.trans h.2.symm)) fun b b' hb => ?_
    replace hb : Len b b' := hb.1.trans hb.2.symm
    refine Rel.bind (Rel.rd hb rfl rfl) fun _ _ h => ?_
    refine Rel.bind (Rel.wr hb rfl (h.1.trans h.2.symm)) fun b b' hb => ?_
    replace hb : Len b b' := hb.1.trans hb.2.symm
    refine Rel.bind (Rel.rd hb rfl rfl) fun _ _ h => ?_
    refine Rel.bind (Rel.wr hb rfl (h.1.trans h.2.symm)) fun b b' hb => ?_
    replace hb : Len b b' := hb.1.trans hb.2.symm
    refine Rel.bind (Rel.wr hb rfl rfl) fun b b' hb => ?_
    replace hb : Len b b' := hb.1.trans hb.2.symm
    refine Rel.bind (Rel.wr hb rfl rfl) fun b b' hb => ?_
    replace hb : Len b b' := hb.1.trans hb.2.symm
    refine Rel.bind (R := fun x y => Len x y) (Rel.forRange (fun x y => Len x y) rfl hb fun n s s' _ hs =>
      Rel.forRange (fun x y => Len x y) rfl hs fun j s s' _ hs => ?_) fun b b' hb => ?_
    · refine Rel.bind (Rel.rd1 hi.len rfl) fun x y hxy => ?_
      refine Rel.bind (Rel.rd1 (hi.get hxy.1 hxy.2) rfl) fun _ _ _ => ?_
      refine Rel.bind (Rel.rd1 hol rfl) fun _ _ _ => ?_
      exact (Rel.wr1_len hs rfl).weaken fun _ _ h => h.1.trans h.2.symm
    · refine Rel.bind (low_haraka512x4 hc hb) fun _ _ h => ?_
      exact low_outs32 (h.1.trans h.2.symm)
  · refine Rel.bind (low_tabulate fun j _ => ?_) fun b b' hb => ?_
    · refine Rel.bind (Rel.rd1 ha.len rfl) fun x y hxy => ?_
      refine Rel.bind (Rel.rd (ha.get hxy.1 hxy.2) rfl rfl) fun _ _ h => ?_
      exact (Rel.wr (by rw [Len, len_uninit, len_uninit]) rfl (h.1.trans h.2.symm)).weaken fun _ _ h => h.1.trans h.2.symm
    · refine Rel.bind (low_haraka_Sx4 hc (List.length_replicate ..) lensN_uninit hb) fun m m' hm => ?_
      refine Rel.bind (low_tabulate fun j _ => ?_) fun b b' hb => ?_
      · refine Rel.bind (Rel.rd1 hi.len rfl) fun x y hxy => ?_
        have h1 := hi.get hxy.1 hxy.2
        refine Rel.bind (Rel.rd1 hm.len rfl) fun x y hxy => ?_
        have h2 := hm.lens.get hxy.1 hxy.2
        refine Rel.bind (Rel.rd1 hb.len rfl) fun x y hxy => ?_
        refine Rel.forRange (fun x y => Len x y) rfl (hb.get hxy.1 hxy.2) fun n s s' _ hs => ?_
        refine Rel.bind (Rel.rd1 h1 rfl) fun _ _ _ => ?_
        refine Rel.bind (Rel.rd1 h2 rfl) fun _ _ _ => ?_
        exact (Rel.wr1_len hs rfl).weaken fun _ _ h => h.1.trans h.2.symm
      · exact (low_haraka_Sx4 hc (List.length_replicate ..) lensN_uninit hb).weaken fun _ _ h => h.lens

end

theorem low_lanes (P : Params) (g g' : Nat → Nat → Byte) : LaneLow (lanes P g) (lanes P g') where
  prf _ _ _ _ hc ha := low_prf_addrx4 hc ha
  thash i i' k c c' a a' hi hc ha := by
    unfold lanes
    dsimp only
    by_cases h : P.robust = true
    · rw [if_pos h, if_pos h]; exact low_thashx4_robust hc hi ha
    · rw [if_neg h, if_neg h]; exact low_thashx4_simple hc hi ha

end AesNi
end Spx.Leak
