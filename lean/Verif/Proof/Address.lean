import Verif.Proof.Bytes
import Verif.Spec.Adrs
import Verif.Model.Address
/-! The address functions of the model are record updates on encoded addresses. -/

namespace Spx
open Spec

/-- The 32-byte buffer holding address `a`. -/
def enc (f : Family) (a : ADRS) : Addr :=
  match f with
  | .sha2 => a.enc22 ++ List.replicate 10 0
  | _ => a.enc32

theorem enc_length (f : Family) (a : ADRS) : (enc f a).length = 32 := by
  cases f <;> simp [enc, ADRS.enc22, ADRS.enc32]

/-- The 32-byte buffer `ad` holds the address `a`.  With SHA-2 the last 10 bytes of the buffer are not part of it. -/
def Encodes (f : Family) (ad : Addr) (a : ADRS) : Prop :=
  ad.length = 32 ∧ match f with
    | .sha2 => ad.take 22 = a.enc22
    | _ => ad = a.enc32

theorem encodes_enc (f : Family) (a : ADRS) : Encodes f (enc f a) a :=
  ⟨enc_length f a, by
    cases f
    · exact List.take_left' (by simp [ADRS.enc22])
    · rfl
    · rfl⟩

theorem Encodes.take {f : Family} {ad : Addr} {a : ADRS} (h : Encodes f ad a) (hf : f = .sha2) :
    ad.take 22 = a.enc22 := by
  subst hf; exact h.2

theorem Encodes.eq32 {f : Family} {ad : Addr} {a : ADRS} (h : Encodes f ad a) (hf : f ≠ .sha2) : ad = a.enc32 := by
  cases f
  · exact absurd rfl hf
  · exact h.2
  · exact h.2

theorem toBE_chunk {k : Nat} {b : Bytes} (h : b.length = k) : toBE k (beNat b) = b := by
  subst h; exact toBE_beNat b

theorem take_chunk (b : Bytes) (i k : Nat) : b.take i ++ (b.drop i).take k = b.take (i + k) := List.take_add.symm

theorem exists_enc32 {ad : Bytes} (h : ad.length = 32) : ∃ a : ADRS, ad = a.enc32 := by
  refine ⟨⟨beNat (ad.take 4), beNat ((ad.drop 4).take 12), beNat ((ad.drop 16).take 4), beNat ((ad.drop 20).take 4),
    beNat ((ad.drop 24).take 4), beNat ((ad.drop 28).take 4)⟩, ?_⟩
  unfold ADRS.enc32
  rw [toBE_chunk (by simp; omega), toBE_chunk (by simp; omega), toBE_chunk (by simp; omega), toBE_chunk (by simp; omega),
    toBE_chunk (by simp; omega), toBE_chunk (by simp; omega)]
  rw [take_chunk, take_chunk, take_chunk, take_chunk, take_chunk, List.take_of_length_le (by omega)]

theorem exists_enc22 {b : Bytes} (h : b.length = 22) : ∃ a : ADRS, b = a.enc22 := by
  refine ⟨⟨beNat (b.take 1), beNat ((b.drop 1).take 8), beNat ((b.drop 9).take 1), beNat ((b.drop 10).take 4),
    beNat ((b.drop 14).take 4), beNat ((b.drop 18).take 4)⟩, ?_⟩
  unfold ADRS.enc22
  rw [toBE_chunk (by simp; omega), toBE_chunk (by simp; omega), toBE_chunk (by simp; omega), toBE_chunk (by simp; omega),
    toBE_chunk (by simp; omega), toBE_chunk (by simp; omega)]
  rw [take_chunk, take_chunk, take_chunk, take_chunk, take_chunk, List.take_of_length_le (by omega)]

/-- Every buffer of 32 bytes holds some address. -/
theorem exists_encodes (f : Family) {ad : Addr} (h : ad.length = 32) : ∃ a, Encodes f ad a := by
  obtain ⟨a, e⟩ := exists_enc32 h
  obtain ⟨a', e'⟩ := exists_enc22 (b := ad.take 22) (by rw [List.length_take]; omega)
  cases f
  · exact ⟨a', h, e'⟩
  · exact ⟨a, h, e⟩
  · exact ⟨a, h, e⟩

/-- The all-zero address. -/
def zeroADRS : ADRS := ⟨0, 0, 0, 0, 0, 0⟩

theorem zeroAddr_eq (f : Family) : zeroAddr = enc f zeroADRS := by
  cases f <;> decide

theorem ofNat8_congr {x y : Nat} (h : x % 256 = y % 256) : BitVec.ofNat 8 x = BitVec.ofNat 8 y := by
  apply BitVec.eq_of_toNat_eq; simpa using h

section
variable {f : Family} {a : ADRS}

/-- Write one byte into a list, by cases on families. -/
local macro "addr_tac" : tactic => `(tactic| (
  cases f <;>
  simp [enc, ADRS.enc22, ADRS.enc32, toBE, wr1, wr, rd, withSub, Family.offLayer, Family.offTree,
    Family.offType, Family.offKp, Family.offChain, Family.offHash, Family.offTreeHgt,
    Family.offTreeIndex, ull_to_bytes_spec, u32_to_bytes_spec, Nat.div_div_eq_div_mul] <;>
  (repeat' apply And.intro) <;> apply ofNat8_congr <;> omega))

theorem set_layer_enc (ha : a.OK) {l : Nat} (hl : l < 256) :
    set_layer_addr f (enc f a) l = .ok (enc f { a with layer := l }) := by
  obtain ⟨h1, h2, h3, h4, h5, h6⟩ := ha
  unfold set_layer_addr
  addr_tac

theorem set_tree_enc (ha : a.OK) {t : Nat} (ht : t < 2 ^ 64) :
    set_tree_addr f (enc f a) t = .ok (enc f { a with tree := t }) := by
  obtain ⟨h1, h2, h3, h4, h5, h6⟩ := ha
  unfold set_tree_addr
  addr_tac

theorem set_type_enc (ha : a.OK) {t : Nat} (ht : t < 256) :
    set_type f (enc f a) t = .ok (enc f { a with typ := t }) := by
  obtain ⟨h1, h2, h3, h4, h5, h6⟩ := ha
  unfold set_type
  addr_tac

theorem set_keypair_enc {k : Nat} :
    set_keypair_addr f (enc f a) k = .ok (enc f { a with w1 := k }) := by
  unfold set_keypair_addr
  addr_tac

theorem set_chain_enc (ha : a.OK) {c : Nat} (hc : c < 256) :
    set_chain_addr f (enc f a) c = .ok (enc f { a with w2 := c }) := by
  obtain ⟨h1, h2, h3, h4, h5, h6⟩ := ha
  unfold set_chain_addr
  addr_tac

theorem set_hash_enc (ha : a.w3 < 256) {c : Nat} (hc : c < 256) :
    set_hash_addr f (enc f a) c = .ok (enc f { a with w3 := c }) := by
  unfold set_hash_addr
  addr_tac

theorem set_tree_height_enc (ha : a.OK) {c : Nat} (hc : c < 256) :
    set_tree_height f (enc f a) c = .ok (enc f { a with w2 := c }) := by
  obtain ⟨h1, h2, h3, h4, h5, h6⟩ := ha
  unfold set_tree_height
  addr_tac

theorem set_tree_index_enc {c : Nat} :
    set_tree_index f (enc f a) c = .ok (enc f { a with w3 := c }) := by
  unfold set_tree_index
  addr_tac

theorem copy_subtree_enc {b : ADRS} :
    copy_subtree_addr f (enc f a) (enc f b) =
      .ok (enc f { a with layer := b.layer, tree := b.tree }) := by
  unfold copy_subtree_addr
  addr_tac

theorem copy_keypair_enc {b : ADRS} :
    copy_keypair_addr f (enc f a) (enc f b) =
      .ok (enc f { a with layer := b.layer, tree := b.tree, w1 := b.w1 }) := by
  unfold copy_keypair_addr
  addr_tac

end
end Spx
