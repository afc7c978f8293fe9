import Verif.Proof.ThashMem
import Verif.Proof.AnyAddress
import Verif.Proof.Wots
/-! # C42: the tweakable hash may be computed in place -/

namespace Spx
open Spec

variable {P : Params} {g : Nat → Nat → Byte} {ctx : Ctx} {M : Mem}

/-- C42: wherever the `n` bytes of the output lie, over the input or not, `thash` writes the
tweakable hash of the bytes that were at `in` when it was called, and changes nothing else. -/
theorem C42_thash_any_overlap (hP : P ∈ shipped) (hc : ctx.Ready P g) {ad : Addr} {a : ADRS} (ha : Encodes P.fam ad a)
    {out inp blocks : Nat} {d : Bytes} (h1 : 1 ≤ blocks) (hb : blocks * P.n < 2 ^ 31)
    (hin : M.rd inp (blocks * P.n) = .ok d) (hout : M.Alloc out P.n) :
    ∃ M', thash_mem P g M out inp blocks ctx ad = .ok M' ∧
      M'.rd out P.n = .ok ((specHash P).T ctx.pub_seed a d) ∧ M.SameOutside M' out P.n := by
  have hl := Mem.rd_length hin
  have e := thash_any hP hc ha h1 (Nat.le_of_eq hl.symm) hb
  rw [List.take_of_length_le (Nat.le_of_eq hl)] at e
  have hT : ((specHash P).T ctx.pub_seed a d).length = P.n := (shippedRefines hP g).T_len ..
  obtain ⟨M', h2, h3, h4⟩ := Mem.wr_of_alloc (M := M) (p := out) (d := (specHash P).T ctx.pub_seed a d)
    (by rw [hT]; exact hout)
  rw [hT] at h3 h4
  refine ⟨M', ?_, h3, h4⟩
  rw [thash_mem_eq hin, e, ok_bind]
  exact h2

/-- C42: two calls with the same input bytes in any two memories, whatever their overlaps, write the
same bytes. -/
theorem C42_thash_overlap_irrelevant (hP : P ∈ shipped) (hc : ctx.Ready P g) {ad : Addr} {a : ADRS} (ha : Encodes P.fam ad a)
    {M₁ M₂ : Mem} {out₁ inp₁ out₂ inp₂ blocks : Nat} {d : Bytes} (h1 : 1 ≤ blocks) (hb : blocks * P.n < 2 ^ 31)
    (hin₁ : M₁.rd inp₁ (blocks * P.n) = .ok d) (hout₁ : M₁.Alloc out₁ P.n)
    (hin₂ : M₂.rd inp₂ (blocks * P.n) = .ok d) (hout₂ : M₂.Alloc out₂ P.n) :
    ∃ M₁' M₂' r, thash_mem P g M₁ out₁ inp₁ blocks ctx ad = .ok M₁' ∧
      thash_mem P g M₂ out₂ inp₂ blocks ctx ad = .ok M₂' ∧
      M₁'.rd out₁ P.n = .ok r ∧ M₂'.rd out₂ P.n = .ok r := by
  obtain ⟨M₁', e1, r1, -⟩ := C42_thash_any_overlap hP hc ha h1 hb hin₁ hout₁
  obtain ⟨M₂', e2, r2, -⟩ := C42_thash_any_overlap hP hc ha h1 hb hin₂ hout₂
  exact ⟨M₁', M₂', _, e1, e2, r1, r2⟩

/-- C42: `gen_chain`, which runs `thash` in place in its output buffer, leaves there the value
`steps` further along the chain and changes nothing else. -/
theorem C42_gen_chain_in_place (hP : P ∈ shipped) (hc : ctx.Ready P g) {layer tree kp i v : Nat}
    (hlay : layer < 256) (htr : tree < 2 ^ 64) (hkp : kp < 2 ^ 32) (hi : i < 256) (hv : v < 256)
    {out inp start steps : Nat} {d : Bytes} (hs : start + steps < P.w)
    (hin : M.rd inp P.n = .ok d) (hout : M.Alloc out P.n) (_hd : Mem.Disj out P.n inp P.n) :
    ∃ M' v', gen_chain_mem P g M out inp start steps ctx (enc P.fam ⟨layer, tree, WOTS_HASH, kp, i, v⟩) =
        .ok (M', enc P.fam ⟨layer, tree, WOTS_HASH, kp, i, v'⟩) ∧
      M'.rd out P.n = .ok (chain (wotsF (specHash P) ctx.pub_seed layer tree kp i) d start steps) ∧
      M.SameOutside M' out P.n := by
  have hV := shipped_valid hP
  have hw := hV.w_le
  have hl := Mem.rd_length hin
  have h2n := two_n_small hP
  obtain ⟨M₀, w0, r0, s0⟩ := Mem.wr_of_alloc (M := M) (p := out) (d := d) (by rw [hl]; exact hout)
  rw [hl] at r0 s0
  unfold gen_chain_mem
  rw [hin, ok_bind, w0]
  simp only [ok_bind]
  rw [Nat.mod_eq_of_lt (by omega), Nat.min_eq_left (by omega), Nat.add_sub_cancel_left]
  obtain ⟨s', hs', h1, h3, v', hv', h2⟩ := forRange_inv
    (n := steps) (s := (M₀, enc P.fam ⟨layer, tree, WOTS_HASH, kp, i, v⟩))
    (body := fun j (s : Mem × Addr) => (do
      let addr ← set_hash_addr P.fam s.2 (start + j)
      let M ← thash_mem P g s.1 out out 1 ctx addr
      .ok (M, addr) : C (Mem × Addr)))
    (fun j s => s.1.rd out P.n = .ok (chain (wotsF (specHash P) ctx.pub_seed layer tree kp i) d start j) ∧
      M.SameOutside s.1 out P.n ∧
      ∃ v', v' < 256 ∧ s.2 = enc P.fam ⟨layer, tree, WOTS_HASH, kp, i, v'⟩)
    ⟨r0, s0, v, hv, rfl⟩ (by
      rintro j ⟨Mj, ad⟩ hj ⟨h1, h3, v', hv', h2⟩
      simp only at h1 h2 h3
      subst h2
      have e1 : set_hash_addr P.fam (enc P.fam ⟨layer, tree, WOTS_HASH, kp, i, v'⟩) (start + j) =
          .ok (enc P.fam ⟨layer, tree, WOTS_HASH, kp, i, start + j⟩) :=
        set_hash_enc (f := P.fam) (a := ⟨layer, tree, WOTS_HASH, kp, i, v'⟩) hv' (by omega)
      obtain ⟨M', e2, r2, f2⟩ := C42_thash_any_overlap hP hc
        (a := ⟨layer, tree, WOTS_HASH, kp, i, start + j⟩)
        (encodes_enc P.fam _) (M := Mj) (out := out) (inp := out) (blocks := 1)
        (d := chain (wotsF (specHash P) ctx.pub_seed layer tree kp i) d start j) (Nat.le_refl 1) (by omega) (by rw [Nat.one_mul]; exact h1) (Mem.alloc_of_rd h1)
      refine ⟨(M', enc P.fam ⟨layer, tree, WOTS_HASH, kp, i, start + j⟩), ?_, r2,
        h3.trans f2 ⟨Nat.le_refl _, Nat.le_refl _⟩ ⟨Nat.le_refl _, Nat.le_refl _⟩, start + j, by omega, rfl⟩
      simp only [e1, ok_bind, e2])
  obtain ⟨M', ad⟩ := s'
  simp only at h1 h2 h3
  subst h2
  exact ⟨M', v', hs', h1, h3⟩

/-- The hypotheses can be met with output and input starting at the same address, with the output in
the second half of the input, and with the two offset by one byte. -/
example (hP : P ∈ shipped) :
    ∃ ctx : Ctx, ctx.Ready P g ∧ ∀ out ∈ [1000, 1000 + P.n, 1001, 999],
      ∃ M', thash_mem P g (Mem.filled fun _ => 6) out 1000 2 ctx (enc P.fam ⟨1, 5, TREE, 0, 3, 9⟩) = .ok M' ∧
        M'.rd out P.n = .ok ((specHash P).T ctx.pub_seed ⟨1, 5, TREE, 0, 3, 9⟩ (List.replicate (2 * P.n) 6)) := by
  obtain ⟨ctx, -, hc, -, -⟩ := (Ctx.zeroed_sized (P := P) (pub := List.replicate P.n 7)
    (sk := List.replicate P.n 9) (by simp) (by simp)).ready hP g
  refine ⟨ctx, hc, fun out _ => ?_⟩
  obtain ⟨M', h1, h2, -⟩ := C42_thash_any_overlap hP hc (a := ⟨1, 5, TREE, 0, 3, 9⟩)
    (encodes_enc P.fam _) (blocks := 2) (inp := 1000) (out := out) (by decide)
    (two_n_small hP) (Mem.filled_const 6 _ _) (Mem.filled_alloc _ _ _)
  exact ⟨M', h1, h2⟩

end Spx
