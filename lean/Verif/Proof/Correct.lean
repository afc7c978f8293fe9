import Verif.Spec.Sphincs
import Verif.Proof.Wots
import Verif.Proof.Fors
import Verif.Proof.Sign
/-! The specification accepts honest signatures. -/

namespace Spx
open Spec

/-- Output lengths of the hash functions. -/
structure HashLen (n : Nat) (S : Spec.Hash) : Prop where
  T : ∀ pub a x, (S.T pub a x).length = n
  PRF : ∀ pub sk a, (S.PRF pub sk a).length = n
  PRFmsg : ∀ pub k o m, (S.PRFmsg pub k o m).length = n
  Hmsg : ∀ R pub root m k, (S.Hmsg R pub root m k).length = k

theorem Refines.hashLen {P : Params} {H : HashImpl} {S : Spec.Hash} (R : Refines P H S) :
    HashLen P.toSpec.n S := ⟨R.T_len, R.PRF_len, R.PRFmsg_len, R.Hmsg_len⟩

section
variable {p : Par} {S : Spec.Hash} (L : HashLen p.n S) {pub sk : Bytes}

theorem digit_le (p : Par) (m : Bytes) (i : Nat) : (lengths p m).getD i 0 ≤ p.w - 1 := by
  have hp : 0 < 2 ^ p.lgw := Nat.two_pow_pos _
  unfold Par.w
  by_cases hi : i < (lengths p m).length
  · rw [getD_lt hi]
    have hm := List.getElem_mem hi
    generalize (lengths p m)[i] = v at *
    unfold lengths at hm
    simp only [List.mem_append] at hm
    rcases hm with h | h <;> have := digits_lt h <;> omega
  · rw [getD_ge (by omega)]; omega

include L in
theorem wotsSig_length {layer tree kp : Nat} {m : Bytes} :
    (wotsSig p S pub sk layer tree kp m).length = p.len * p.n :=
  cat_length fun _ _ => chain_length (fun _ _ => L.T ..) (L.PRF ..) _ _

include L in
/-- Completing the chains of an honest WOTS+ signature gives the public key. -/
theorem wots_correct (layer tree kp : Nat) (m rest : Bytes) :
    wotsPkFromSig p S pub layer tree kp (wotsSig p S pub sk layer tree kp m ++ rest) m =
      wotsPk p S pub sk layer tree kp := by
  unfold wotsPkFromSig wotsPk
  congr 1
  apply cat_congr
  intro i hi
  have hd := digit_le p m i
  unfold chunk wotsSig
  rw [cat_chunk (f := fun i => chain (wotsF S pub layer tree kp i) (wotsSk S pub sk layer tree kp i) 0
    ((lengths p m).getD i 0)) (fun j _ => chain_length (fun _ _ => L.T ..) (L.PRF ..) _ _) hi]
  have := chain_add (wotsF S pub layer tree kp i) (wotsSk S pub sk layer tree kp i) 0
    ((lengths p m).getD i 0) (p.w - 1 - (lengths p m).getD i 0)
  rw [Nat.zero_add, show ∀ a b : Nat, a ≤ b → a + (b - a) = b from fun a b h => by omega] at this
  · exact this
  · exact hd

/-- Reading the authentication path back. -/
theorem chunk_authPath {H : Nat → Nat → Bytes → Bytes → Bytes} {leaf : Nat → Bytes} {n t i : Nat}
    (hH : ∀ h i l r, (H h i l r).length = n) (hl : ∀ i, (leaf i).length = n) (rest : Bytes) {h : Nat} (hh : h < t) :
    chunk n (authPath H leaf t i ++ rest) h = node H leaf h (sibling (i / 2 ^ h)) := by
  unfold chunk authPath
  rw [cat_chunk (fun j _ => node_length' hH hl _ _) hh]

include L in
/-- An honest layer signature leads to the root of the subtree. -/
theorem xmss_correct (layer tree : Nat) {leaf : Nat} (hl : leaf < 2 ^ p.h') (m rest : Bytes) :
    xmssRootFromSig p S pub layer tree leaf (xmssSig p S pub sk layer tree leaf m ++ rest) m =
      xmssRoot p S pub sk layer tree := by
  unfold xmssRootFromSig xmssSig xmssRoot
  rw [List.append_assoc, wots_correct L, List.drop_left' (wotsSig_length L),
    climb_authPath (H := treeH S pub layer tree) (leaf := wotsPk p S pub sk layer tree),
    Nat.div_eq_of_lt hl]
  intro h hh
  exact chunk_authPath (fun _ _ _ _ => L.T ..) (fun _ => L.T ..) rest hh

include L in
theorem xmssSig_len {layer tree leaf : Nat} {m : Bytes} :
    (xmssSig p S pub sk layer tree leaf m).length = xmssBytes p := by
  unfold xmssSig xmssBytes
  rw [List.length_append, wotsSig_length L,
    authPath_length (H := treeH S pub layer tree) (leaf := wotsPk p S pub sk layer tree) (fun _ _ _ _ => L.T ..) (fun _ => L.T ..)]

include L in
/-- An honest hypertree signature leads to the values signed at each layer. -/
theorem ht_correct {tree leaf : Nat} (hl : leaf < 2 ^ p.h') (m rest : Bytes) :
    ∀ j, j ≤ p.d → htRoot p S pub tree leaf (htSig p S pub sk tree leaf m ++ rest) m j =
      htMsg p S pub sk tree m j := by
  intro j
  induction j with
  | zero => intro _; rfl
  | succ j ih =>
    intro hj
    rw [htRoot, htMsg, ih (by omega)]
    have hd : (htSig p S pub sk tree leaf m ++ rest).drop (j * xmssBytes p) =
        xmssSig p S pub sk j (treeAt p tree j) (leafAt p tree leaf j) (htMsg p S pub sk tree m j) ++
        ((htSig p S pub sk tree leaf m ++ rest).drop (j * xmssBytes p)).drop (xmssBytes p) := by
      conv => lhs; rw [← List.take_append_drop (xmssBytes p) ((htSig p S pub sk tree leaf m ++ rest).drop _)]
      congr 1
      unfold htSig
      rw [cat_chunk (fun i _ => xmssSig_len L) (by omega)]
    rw [hd, xmss_correct L _ _ (leafAt_lt hl j)]

include L in
/-- An honest FORS signature leads to the FORS public key. -/
theorem fors_correct (tree kp : Nat) (md rest : Bytes) :
    forsPkFromSig p S pub tree kp (forsSig p S pub sk tree kp md ++ rest) md =
      forsPk p S pub sk tree kp := by
  have hpl : ∀ i, (forsPart p S pub sk tree kp md i).length = (p.a + 1) * p.n := by
    intro i
    unfold forsPart
    simp only [List.length_append]
    rw [authPath_length (H := forsH S pub tree kp) (leaf := forsLeaf S pub sk tree kp) (n := p.n)
        (fun _ _ _ _ => L.T ..) (fun _ => L.T ..),
      show (forsSk S pub sk tree kp (i * 2 ^ p.a + forsIdx p md i)).length = p.n from L.PRF ..,
      Nat.succ_mul, Nat.add_comm]
  unfold forsPkFromSig forsPk
  congr 1
  apply cat_congr
  intro i hi
  simp only
  generalize hs : (forsSig p S pub sk tree kp md ++ rest).drop (i * ((p.a + 1) * p.n)) = s
  have hst : s = forsPart p S pub sk tree kp md i ++ s.drop ((p.a + 1) * p.n) := by
    conv => lhs; rw [← List.take_append_drop ((p.a + 1) * p.n) s]
    congr 1
    rw [← hs]
    exact cat_chunk (fun j _ => hpl j) hi rest
  have hlt : forsIdx p md i < 2 ^ p.a := Nat.mod_lt _ (Nat.two_pow_pos _)
  generalize hrest : s.drop ((p.a + 1) * p.n) = s' at hst
  rw [hst]
  unfold forsPart
  simp only
  generalize hj : i * 2 ^ p.a + forsIdx p md i = j
  have hsk : (forsSk S pub sk tree kp j).length = p.n := L.PRF ..
  rw [List.append_assoc, List.take_left' hsk, List.drop_left' hsk,
    show forsLeafOf S pub tree kp j (forsSk S pub sk tree kp j) = forsLeaf S pub sk tree kp j from rfl,
    climb_authPath (H := forsH S pub tree kp) (leaf := forsLeaf S pub sk tree kp)]
  · congr 1
    rw [← hj, Nat.mul_comm, Nat.mul_add_div (Nat.two_pow_pos _), Nat.div_eq_of_lt hlt, Nat.add_zero]
  · intro h hh
    exact chunk_authPath (fun _ _ _ _ => L.T ..) (fun _ => L.T ..) s' hh

include L in
theorem forsSig_len {tree kp : Nat} {md : Bytes} :
    (forsSig p S pub sk tree kp md).length = Spec.forsBytes p := by
  refine cat_length fun i _ => ?_
  simp only [List.length_append]
  rw [authPath_length (H := forsH S pub tree kp) (leaf := forsLeaf S pub sk tree kp) (n := p.n)
        (fun _ _ _ _ => L.T ..) (fun _ => L.T ..),
      show (forsSk S pub sk tree kp (i * 2 ^ p.a + forsIdx p md i)).length = p.n from L.PRF ..,
      Nat.succ_mul, Nat.add_comm]

include L in
theorem htSig_len {tree leaf : Nat} {m : Bytes} :
    (htSig p S pub sk tree leaf m).length = p.d * xmssBytes p :=
  cat_length fun _ _ => xmssSig_len L

/-- The value signed last is the root of the only tree in the top layer. -/
theorem htMsg_top (hd : 1 ≤ p.d) {tree : Nat} (ht : tree < 2 ^ (p.h' * (p.d - 1))) (m : Bytes) :
    htMsg p S pub sk tree m p.d = xmssRoot p S pub sk (p.d - 1) 0 := by
  obtain ⟨k, hk⟩ : ∃ k, p.d = k + 1 := ⟨p.d - 1, by omega⟩
  rw [hk, htMsg, Nat.add_sub_cancel]
  unfold treeAt
  rw [hk, Nat.add_sub_cancel] at ht
  rw [Nat.div_eq_of_lt ht]

include L in
theorem sign_length (hd : p.h' * p.d = p.h) {sk optrand m : Bytes} :
    (Spec.sign p S sk optrand m).length = p.sigBytes := by
  unfold Spec.sign
  simp only [List.length_append]
  rw [forsSig_len L, htSig_len L, L.PRFmsg]
  unfold Spec.forsBytes Par.sigBytes xmssBytes
  rw [Nat.mul_add, ← hd, ← Nat.mul_assoc, ← Nat.mul_assoc, ← Nat.mul_assoc, Nat.add_mul, Nat.add_mul, Nat.add_mul,
    Nat.mul_comm p.h' p.d, Nat.one_mul]
  omega

include L in
/-- Honest signatures verify, in the specification. -/
theorem spec_correct (hd : 1 ≤ p.d) {seed optrand m rest : Bytes} (hs : seed.length = 3 * p.n) :
    verify p S (pkOf p S seed) m (Spec.sign p S (skOf p S seed) optrand m ++ rest) = true := by
  have hn1 : (seed.take p.n).length = p.n := by simp; omega
  have hps : ((seed.drop (2 * p.n)).take p.n).length = p.n := by simp; omega
  have hrl : (xmssRoot p S ((seed.drop (2 * p.n)).take p.n) (seed.take p.n) (p.d - 1) 0).length = p.n :=
    node_length' (fun _ _ _ _ => L.T ..) (fun _ => L.T ..) _ _
  unfold pkOf skOf Spec.sign verify
  simp only
  generalize hpub : (seed.drop (2 * p.n)).take p.n = pub at *
  generalize hskd : seed.take p.n = sk at *
  generalize hroot : xmssRoot p S pub sk (p.d - 1) 0 = root at *
  have q1 : (seed ++ root).take p.n = sk := by
    rw [List.take_append_of_le_length (by omega), hskd]
  have q2 : ((seed ++ root).drop (2 * p.n)).take p.n = pub := by
    rw [List.drop_append_of_le_length (by omega), List.take_append_of_le_length (by simp; omega), hpub]
  have q3 : ((seed ++ root).drop (3 * p.n)).take p.n = root := by
    rw [List.drop_left' hs, List.take_of_length_le (by omega)]
  have q4 : (pub ++ root).take p.n = pub := List.take_left' hps
  have q5 : ((pub ++ root).drop p.n).take p.n = root := by
    rw [List.drop_left' hps, List.take_of_length_le (by omega)]
  rw [q1, q2, q3, q4, q5]
  have hRl : (S.PRFmsg pub (((seed ++ root).drop p.n).take p.n) optrand m).length = p.n := L.PRFmsg ..
  generalize S.PRFmsg pub (((seed ++ root).drop p.n).take p.n) optrand m = R at *
  have q6 : ∀ x : Bytes, (R ++ x).take p.n = R := fun x => List.take_left' hRl
  simp only [List.append_assoc, q6]
  have ht := splitDigest_tree_lt p (S.Hmsg R pub root m (digestBytes p))
  have hl := splitDigest_leaf_lt p (S.Hmsg R pub root m (digestBytes p))
  generalize splitDigest p (S.Hmsg R pub root m (digestBytes p)) = sd at *
  obtain ⟨md, tree, leaf⟩ := sd
  simp only at ht hl ⊢
  rw [beq_iff_eq, List.drop_left' hRl, fors_correct L, ← List.drop_drop, List.drop_left' hRl,
    List.drop_left' (forsSig_len L), ht_correct L hl _ _ _ (Nat.le_refl _), htMsg_top hd ht, hroot]

end
end Spx
