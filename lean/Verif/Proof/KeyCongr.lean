import Verif.Spec.Sphincs
/-! # What a key pair depends on

Key generation, signing and verification use the hash functions only with the public seed and the secret seed of the key. -/

namespace Spx.Rom
open Spec

section
variable {p : Par} {X Y : Spec.Hash} {pub sk sk' : Bytes} (hT : X.T pub = Y.T pub)
include hT

theorem wotsF_key : wotsF X pub = wotsF Y pub := by
  funext l t kp i j x
  unfold wotsF
  rw [hT]

theorem treeH_key : treeH X pub = treeH Y pub := by
  funext l t h i a b
  unfold treeH
  rw [hT]

theorem forsH_key : forsH X pub = forsH Y pub := by
  funext t kp h i a b
  unfold forsH
  rw [hT]

theorem forsLeafOf_key : forsLeafOf X pub = forsLeafOf Y pub := by
  funext t kp i s
  unfold forsLeafOf
  rw [hT]

theorem wotsPkFromSig_key : wotsPkFromSig p X pub = wotsPkFromSig p Y pub := by
  funext l t kp sig m
  unfold wotsPkFromSig
  rw [hT, wotsF_key hT]

theorem xmssRootFromSig_key : xmssRootFromSig p X pub = xmssRootFromSig p Y pub := by
  funext l t leaf sig m
  unfold xmssRootFromSig
  rw [treeH_key hT, wotsPkFromSig_key hT]

theorem htRoot_key (tree leaf : Nat) (sig m : Bytes) : ∀ j, htRoot p X pub tree leaf sig m j = htRoot p Y pub tree leaf sig m j
  | 0 => rfl
  | j + 1 => by
    rw [htRoot, htRoot, htRoot_key tree leaf sig m j, xmssRootFromSig_key hT]

theorem forsPkFromSig_key : forsPkFromSig p X pub = forsPkFromSig p Y pub := by
  funext t kp sig md
  unfold forsPkFromSig
  rw [hT, forsH_key hT, forsLeafOf_key hT]

/-- Verification -/
theorem verify_key {pk : Bytes} (hpk : pk.take p.n = pub) (hH : ∀ R root m l, X.Hmsg R pub root m l = Y.Hmsg R pub root m l)
    (m sig : Bytes) : verify p X pk m sig = verify p Y pk m sig := by
  subst hpk
  unfold verify
  simp only [hH, forsPkFromSig_key hT, htRoot_key hT]

variable (hP : X.PRF pub sk = Y.PRF pub sk')
include hP

omit hT in
theorem wotsSk_key : wotsSk X pub sk = wotsSk Y pub sk' := by
  funext l t kp i
  unfold wotsSk
  rw [hP]

omit hT in
theorem forsSk_key : forsSk X pub sk = forsSk Y pub sk' := by
  funext t kp i
  unfold forsSk
  rw [hP]

theorem wotsPk_key : wotsPk p X pub sk = wotsPk p Y pub sk' := by
  funext l t kp
  unfold wotsPk
  rw [hT, wotsF_key hT, wotsSk_key hP]

theorem wotsSig_key : wotsSig p X pub sk = wotsSig p Y pub sk' := by
  funext l t kp m
  unfold wotsSig
  rw [wotsF_key hT, wotsSk_key hP]

theorem xmssRoot_key : xmssRoot p X pub sk = xmssRoot p Y pub sk' := by
  funext l t
  unfold xmssRoot
  rw [treeH_key hT, wotsPk_key hT hP]

theorem xmssSig_key : xmssSig p X pub sk = xmssSig p Y pub sk' := by
  funext l t leaf m
  unfold xmssSig
  rw [treeH_key hT, wotsPk_key hT hP, wotsSig_key hT hP]

theorem htMsg_key (tree : Nat) (m : Bytes) : htMsg p X pub sk tree m = htMsg p Y pub sk' tree m := by
  funext j
  cases j with
  | zero => rfl
  | succ j => rw [htMsg, htMsg, xmssRoot_key hT hP]

theorem htSig_key : htSig p X pub sk = htSig p Y pub sk' := by
  funext tree leaf m
  unfold htSig
  rw [xmssSig_key hT hP, htMsg_key hT hP]

theorem forsLeaf_key : forsLeaf X pub sk = forsLeaf Y pub sk' := by
  funext t kp i
  unfold forsLeaf
  rw [forsLeafOf_key hT, forsSk_key hP]

theorem forsSig_key : forsSig p X pub sk = forsSig p Y pub sk' := by
  funext t kp md
  unfold forsSig
  rw [forsSk_key hP, forsH_key hT, forsLeaf_key hT hP]

theorem forsPk_key : forsPk p X pub sk = forsPk p Y pub sk' := by
  funext t kp
  unfold forsPk
  rw [hT, forsH_key hT, forsLeaf_key hT hP]

variable (l1 : sk.length = p.n) (l1' : sk'.length = p.n) (l3 : pub.length = p.n)
  {k k' : Bytes} (l2 : k.length = p.n) (l2' : k'.length = p.n)
include l1 l1' l2 l2' l3

/-- The public key -/
theorem pkOf_key : pkOf p X (sk ++ k ++ pub) = pkOf p Y (sk' ++ k' ++ pub) := by
  have e : ∀ a b : Bytes, a.length = p.n → b.length = p.n → ((a ++ b ++ pub).drop (2 * p.n)).take p.n = pub := by
    intro a b ha hb
    rw [List.drop_left' (by rw [List.length_append]; omega), List.take_of_length_le (by omega)]
  have f : ∀ a b : Bytes, a.length = p.n → (a ++ b ++ pub).take p.n = a := by
    intro a b ha
    rw [List.append_assoc, List.take_left' ha]
  unfold pkOf
  rw [e _ _ l1 l2, e _ _ l1' l2', f _ _ l1, f _ _ l1', xmssRoot_key hT hP]

/-- A signature -/
theorem sign_key (hH : ∀ R root m l, X.Hmsg R pub root m l = Y.Hmsg R pub root m l) {o m : Bytes}
    (hG : X.PRFmsg pub k o m = Y.PRFmsg pub k' o m) :
    sign p X (skOf p X (sk ++ k ++ pub)) o m = sign p Y (skOf p Y (sk' ++ k' ++ pub)) o m := by
  have e : ∀ a b : Bytes, a.length = p.n → b.length = p.n → ((a ++ b ++ pub).drop (2 * p.n)).take p.n = pub := by
    intro a b ha hb
    rw [List.drop_left' (by rw [List.length_append]; omega), List.take_of_length_le (by omega)]
  have f : ∀ a b : Bytes, a.length = p.n → (a ++ b ++ pub).take p.n = a := by
    intro a b ha
    rw [List.append_assoc, List.take_left' ha]
  unfold skOf
  rw [e _ _ l1 l2, e _ _ l1' l2', f _ _ l1, f _ _ l1', xmssRoot_key hT hP]
  generalize xmssRoot p Y pub sk' (p.d - 1) 0 = root
  have g1 : ∀ a b : Bytes, a.length = p.n → (a ++ b ++ pub ++ root).take p.n = a := by
    intro a b ha
    rw [List.append_assoc, List.append_assoc, List.take_left' ha]
  have g2 : ∀ a b : Bytes, a.length = p.n → b.length = p.n → ((a ++ b ++ pub ++ root).drop p.n).take p.n = b := by
    intro a b ha hb
    rw [List.append_assoc, List.append_assoc, List.drop_left' ha, List.take_left' hb]
  have g3 : ∀ a b : Bytes, a.length = p.n → b.length = p.n → ((a ++ b ++ pub ++ root).drop (2 * p.n)).take p.n = pub := by
    intro a b ha hb
    rw [List.append_assoc, List.drop_left' (by rw [List.length_append]; omega), List.take_left' l3]
  have g4 : ∀ a b : Bytes, a.length = p.n → b.length = p.n → (a ++ b ++ pub ++ root).drop (3 * p.n) = root := by
    intro a b ha hb
    rw [List.drop_left' (by simp only [List.length_append]; omega)]
  unfold sign
  simp only [g1 _ _ l1, g1 _ _ l1', g2 _ _ l1 l2, g2 _ _ l1' l2', g3 _ _ l1 l2, g3 _ _ l1' l2', g4 _ _ l1 l2, g4 _ _ l1' l2',
    hG, hH, forsSig_key hT hP, htSig_key hT hP, forsPk_key hT hP]

end

end Spx.Rom
