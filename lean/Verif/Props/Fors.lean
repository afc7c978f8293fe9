import Verif.Proof.Ready
import Verif.Proof.ForsBits
import Verif.Proof.Sign
/-! # Properties of the indices derived from the message: C19, C20 -/

namespace Spx
open Spec

/-- C19: entry `i` is below `2^a`, and its bit `j` is bit `i*a + j` of the digest. -/
theorem C19_fors_indices {P : Params} (hfh : P.forsHeight ≤ 32) {ind : List Nat} {m : Bytes}
    (hi : ind.length = P.forsTrees) (hm : m.length = P.forsMsgBytes) (junk : Bytes) :
    ∃ idx, message_to_indices P ind m = .ok idx ∧
      /- nothing behind the digest is read -/
      message_to_indices P ind (m ++ junk) = .ok idx ∧
      idx.length = P.forsTrees ∧
      ∀ i, i < P.forsTrees → idx.getD i 0 < 2 ^ P.forsHeight ∧
        ∀ j, j < P.forsHeight → (idx.getD i 0).testBit j = bitAt m (i * P.forsHeight + j) := by
  have hmb : P.forsTrees * P.forsHeight ≤ 8 * m.length := by
    rw [hm, Nat.mul_comm P.forsTrees]; unfold Params.forsMsgBytes; omega
  have hg : ∀ (k : Nat) (f : Nat → Nat) i, i < k → ((List.range k).map f).getD i 0 = f i := by
    intro k f i hik
    rw [getD_lt (by simpa using hik)]
    simp
  refine ⟨_, message_to_indices_spec hfh hi hmb, ?_, by simp, ?_⟩
  · rw [message_to_indices_spec hfh hi (by rw [List.length_append]; omega)]
    congr 1
    apply List.map_congr_left
    intro i hik
    rw [List.mem_range] at hik
    apply Nat.eq_of_testBit_eq
    intro j
    by_cases hj : j < P.forsHeight
    · rw [testBit_forsIdx hmb hik hj, testBit_forsIdx (by rw [List.length_append]; omega) hik hj]
      have hmul : (i + 1) * P.forsHeight ≤ P.forsTrees * P.forsHeight := Nat.mul_le_mul_right _ hik
      rw [Nat.succ_mul] at hmul
      have ho : (i * P.forsHeight + j) / 8 < m.length := by omega
      unfold bitAt
      rw [List.getD, List.getD, List.getElem?_append_left ho]
    · have h1 : ∀ x, (x % 2 ^ P.forsHeight).testBit j = false := fun x => by
        rw [Nat.testBit_mod_two_pow, decide_eq_false hj, Bool.false_and]
      exact (h1 _).trans (h1 _).symm
  · intro i hik
    rw [hg _ _ i hik]
    exact ⟨Nat.mod_lt _ (Nat.two_pow_pos _), fun j hj => testBit_forsIdx hmb hik hj⟩

/-- C19: two digests give the same indices exactly if they agree on the first `k*a` bits. -/
theorem C19_fors_indices_injective {P : Params} (hfh : P.forsHeight ≤ 32) {ind ind' : List Nat} {m m' : Bytes}
    (hi : ind.length = P.forsTrees) (hi' : ind'.length = P.forsTrees)
    (hm : m.length = P.forsMsgBytes) (hm' : m'.length = P.forsMsgBytes) :
    message_to_indices P ind m = message_to_indices P ind' m' ↔
      ∀ b, b < P.forsTrees * P.forsHeight → bitAt m b = bitAt m' b := by
  obtain ⟨x, e, -, hl, hx⟩ := C19_fors_indices hfh hi hm []
  obtain ⟨y, e', -, hl', hy⟩ := C19_fors_indices hfh hi' hm' []
  rw [e, e']
  constructor
  · intro h b hb
    cases h
    have hpos : 0 < P.forsHeight := by
      rcases Nat.eq_zero_or_pos P.forsHeight with h | h
      · rw [h] at hb; simp at hb
      · exact h
    have hq : b / P.forsHeight < P.forsTrees := (Nat.div_lt_iff_lt_mul hpos).mpr hb
    have hr := Nat.mod_lt b hpos
    have hd : b / P.forsHeight * P.forsHeight + b % P.forsHeight = b := by
      rw [Nat.mul_comm]; exact Nat.div_add_mod b _
    rw [← hd, ← (hx _ hq).2 _ hr, ← (hy _ hq).2 _ hr]
  · intro h
    congr 1
    apply List.ext_getElem (hl.trans hl'.symm)
    intro i h1 h2
    have hik : i < P.forsTrees := by omega
    rw [← getD_lt (d := 0) h1, ← getD_lt (d := 0) h2]
    apply Nat.eq_of_testBit_eq
    intro j
    by_cases hj : j < P.forsHeight
    · rw [(hx i hik).2 j hj, (hy i hik).2 j hj]
      apply h
      have hmul : (i + 1) * P.forsHeight ≤ P.forsTrees * P.forsHeight := Nat.mul_le_mul_right _ hik
      rw [Nat.succ_mul] at hmul
      omega
    · have hp : 2 ^ P.forsHeight ≤ 2 ^ j := Nat.pow_le_pow_right (by omega) (by omega)
      rw [Nat.testBit_lt_two_pow (Nat.lt_of_lt_of_le (hx i hik).1 hp),
        Nat.testBit_lt_two_pow (Nat.lt_of_lt_of_le (hy i hik).1 hp)]

/-- A concrete case with computed results: 9-bit indices from bytes, least significant bit first. -/
example : (message_to_indices (sha2_256f true) (List.replicate 35 77) (0x01 :: 0x06 :: List.replicate 38 0)).toOption =
    some (1 :: 3 :: List.replicate 33 0) := by
  decide +kernel

/-- C20: `hash_message` succeeds, and its tree index, leaf index and digest are in range; `h` is the
full height, `h/d` the height of one layer. -/
theorem C20_index_ranges {P : Params} (hP : P ∈ shipped) (g : Nat → Nat → Byte) {ctx : Ctx} (hctx : ctx.Ready P g)
    {R pk m : Bytes} (hR : P.n ≤ R.length) (hpk : pk.length = P.pkBytes) (hseed : pk.take P.n = ctx.pub_seed)
    (hm : m.length < 2 ^ 60) :
    ∃ digest tree leaf, (implOf P g).hash_message R pk m ctx = .ok (digest, tree, leaf) ∧
      digest.length = P.forsMsgBytes ∧ tree < 2 ^ (P.fullHeight - P.fullHeight / P.d) ∧ tree < 2 ^ 64 ∧
      leaf < 2 ^ (P.fullHeight / P.d) ∧ leaf < 2 ^ 31 := by
  have e := (shippedRefines hP g).hmsg ctx R pk m (hctx.ctxOK hP (fun _ _ => 0)) hR
    (by rw [hpk]; unfold Params.pkBytes; omega) hseed hm
  have hl := (shippedRefines hP g).Hmsg_len (R.take P.n) ctx.pub_seed ((pk.drop P.n).take P.n) m
    (digestBytes P.toSpec)
  have hv := shipped_valid hP
  have h1 := splitDigest_tree_lt P.toSpec ((specHash P).Hmsg (R.take P.n) ctx.pub_seed ((pk.drop P.n).take P.n) m
    (digestBytes P.toSpec))
  have h2 := splitDigest_leaf_lt P.toSpec ((specHash P).Hmsg (R.take P.n) ctx.pub_seed ((pk.drop P.n).take P.n) m
    (digestBytes P.toSpec))
  have hfh : P.toSpec.h' * (P.toSpec.d - 1) = P.fullHeight - P.fullHeight / P.d := by
    have hd := hv.dvd
    change P.treeHeight * (P.d - 1) = P.fullHeight - P.treeHeight
    rw [Nat.mul_sub_one, hd]
  rw [hfh] at h1
  have htb : P.fullHeight - P.fullHeight / P.d ≤ 64 := by
    rw [← hfh]; exact hv.tree_bits
  have hth : P.toSpec.h' ≤ 30 := hv.th_le
  refine ⟨_, _, _, e, ?_, h1, Nat.lt_of_lt_of_le h1 (Nat.pow_le_pow_right (by omega) htb), h2, ?_⟩
  · exact (splitDigest_md_length hl).trans (toSpec_mdBytes P)
  · exact Nat.lt_of_lt_of_le h2 (Nat.pow_le_pow_right (by omega) (by omega))

/-- C20 where the tree index has exactly 64 bits. -/
example : (shake_256f false).fullHeight - (shake_256f false).fullHeight / (shake_256f false).d = 64 ∧
    ∃ ctx digest tree leaf, (implOf (shake_256f false) (fun _ _ => 3)).hash_message (List.replicate 32 1)
      (List.replicate 64 2) [1, 2, 3] ctx = .ok (digest, tree, leaf) ∧ tree < 2 ^ 64 ∧ leaf < 2 ^ 4 := by
  refine ⟨by decide, ?_⟩
  obtain ⟨ctx, -, hr, hp, -⟩ := (Ctx.zeroed_sized (P := shake_256f false) (pub := List.replicate 32 2)
    (sk := List.replicate 32 0) List.length_replicate List.length_replicate).ready (by decide) (fun _ _ => 3)
  obtain ⟨d, t, l, e, -, -, h1, h2, -⟩ := C20_index_ranges (P := shake_256f false) (by decide) (fun _ _ => 3) hr
    (R := List.replicate 32 1) (pk := List.replicate 64 2) (m := [1, 2, 3]) (by decide) (by decide) (by rw [hp]; decide)
    (by decide)
  exact ⟨ctx, d, t, l, e, h1, h2⟩

end Spx
