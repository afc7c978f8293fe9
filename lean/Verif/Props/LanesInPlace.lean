import Verif.Proof.ThashxMem
import Verif.Proof.ShakeLanes
import Verif.Props.HarakaAesni
import Verif.Props.Sha2Lanes
/-! # C53: the parallel tweakable hashes may be computed in place -/

namespace Spx
open Spec

/-- What a parallel tweakable hash with `L` lanes must do in memory, wherever its outputs `out j` and inputs `inp j` lie.
`T` is the tweakable hash. -/
def LanesInPlace (P : Params) (L : Nat) (T : ADRS → Bytes → Bytes) (ctx : Ctx)
    (f : Mem → (Nat → Nat) → (Nat → Nat) → Nat → Ctx → List Addr → C Mem) : Prop :=
  ∀ ⦃A : Nat → ADRS⦄ ⦃as : Nat → Addr⦄ ⦃M : Mem⦄ ⦃out inp : Nat → Nat⦄ ⦃blocks : Nat⦄ ⦃d : Nat → Bytes⦄,
    (∀ j, j < L → Encodes P.fam (as j) (A j)) → 1 ≤ blocks → blocks * P.n < 2 ^ 31 →
    (∀ j, j < L → M.rd (inp j) (blocks * P.n) = .ok (d j)) → (∀ j, j < L → M.Alloc (out j) P.n) →
    ∃ M', f M out inp blocks ctx ((List.range L).map as) = .ok M' ∧
      -- every output that no later lane overwrites is the hash of the bytes the input of its lane held at the call
      (∀ j, j < L → Wins L P.n out j → M'.rd (out j) P.n = .ok (T (A j) (d j))) ∧
      -- nothing else changes
      (∀ a, (∀ j, j < L → ¬ (out j ≤ a ∧ a < out j + P.n)) → M' a = M a) ∧
      -- outputs in the same or in disjoint places: as if all hashes were computed first and then written lane by lane
      ((∀ j j', j < L → j' < L → out j = out j' ∨ Mem.Disj (out j) P.n (out j') P.n) →
        forRange L (fun j M => M.wr (out j) (T (A j) (d j))) M = .ok M')

theorem LanesInPlace.of {P : Params} {L : Nat} {T : ADRS → Bytes → Bytes} {ctx : Ctx}
    {f : List Bytes → Nat → Ctx → List Addr → C (List Bytes)}
    {fM : Mem → (Nat → Nat) → (Nat → Nat) → Nat → Ctx → List Addr → C Mem} (hI : InPlace L P.n f fM)
    (hT : ∀ a d, (T a d).length = P.n)
    (hv : ∀ {A : Nat → ADRS} {as : Nat → Addr} {I : Nat → Bytes} {b : Nat},
      (∀ j, j < L → Encodes P.fam (as j) (A j)) → 1 ≤ b →
      (∀ j, j < L → b * P.n ≤ (I j).length) → b * P.n < 2 ^ 31 →
      f ((List.range L).map I) b ctx ((List.range L).map as) =
        .ok ((List.range L).map fun j => T (A j) ((I j).take (b * P.n)))) : LanesInPlace P L T ctx fM := by
  intro A as M out inp blocks d hA hb h31 hin hout
  have e := hv (I := d) hA hb (fun j hj => Nat.le_of_eq (Mem.rd_length (hin j hj)).symm) h31
  rw [List.map_congr_left (f := fun j => T (A j) ((d j).take (blocks * P.n))) (g := fun j => T (A j) (d j)) fun j hj => by
    rw [List.take_of_length_le (l := d j) (Nat.le_of_eq (Mem.rd_length (hin j (List.mem_range.mp hj))))]] at e
  obtain ⟨M', h1, w⟩ := hI M out inp blocks ctx _ d (fun j => T (A j) (d j)) hin hout (fun j _ => hT _ _) e
  refine ⟨M', h1, fun j hj hw => w.final (fun j _ => hT _ _) hj hw, w.frame, fun hd => ?_⟩
  obtain ⟨M2, e2, w2⟩ := Wr.outs (L := L) (n := P.n) (out := out) (r := fun j => T (A j) (d j)) (M := M) (l0 := 0)
    (k := L) (f := fun j => .ok (T (A j) (d j))) (by omega)
    (fun j hj => by rw [Nat.zero_add]; exact ⟨rfl, hT _ _⟩)
    (M₀ := M) ⟨fun _ _ => rfl, hout, fun _ _ _ i hi _ => absurd hi (Nat.not_lt_zero i)⟩
  have w2' : Wr L P.n out (fun j => T (A j) (d j)) M (fun _ => P.n) M2 :=
    ⟨w2.frame, w2.alloc, fun j hj hwin i hi hn => w2.val j hj hwin i (by rw [if_pos (by omega)]; exact hi) hn⟩
  rw [w.unique hd w2', ← e2]
  exact forRange_congr fun j M hj => by rw [Nat.zero_add, ok_bind]

attribute [local irreducible] Spec.Haraka.rcTweak Spec.Haraka.rcStd

section
variable {P : Params} (hP : P ∈ shipped) {g : Nat → Nat → Byte} (g' : Nat → Nat → Byte)
include hP

theorem shake_n8 : 0 < P.n ∧ P.n < 136 ∧ P.n % 8 = 0 := by
  obtain ⟨N, hn, h2, h4⟩ := shake_n hP
  omega

/-- C53.  `thashx2` of shake-a64. -/
theorem C53_a64_thashx2 (hf : P.fam = .shake) {ctx : Ctx} (hc : ctx.Ready P g) :
    LanesInPlace P 2 ((specHash P).T ctx.pub_seed) ctx (A64.thashxM P g') := by
  obtain ⟨h0, h1, h2⟩ := shake_n8 hP
  refine LanesInPlace.of (A64.thashx_mem h0 h1 h2) (fun a d => (shippedRefines hP g).T_len ..) ?_
  intro A as I b hA _ hi _
  rw [specHash_shake hf]
  exact A64.thashx_value hP g' hc.pub_len hi hf hA

/-- C53.  `thashx4` of shake-avx2. -/
theorem C53_shake_avx2_thashx4 (hf : P.fam = .shake) {ctx : Ctx} (hc : ctx.Ready P g) :
    LanesInPlace P 4 ((specHash P).T ctx.pub_seed) ctx (Avx2.thashxM P g') := by
  obtain ⟨h0, h1, h2⟩ := shake_n8 hP
  refine LanesInPlace.of (Avx2.thashx_mem h0 h1 h2) (fun a d => (shippedRefines hP g).T_len ..) ?_
  intro A as I b hA _ hi _
  rw [specHash_shake hf]
  exact Avx2.thashx_value hP g' hc.pub_len hi hf hA

/-- C53.  `thashx8` of sha2-avx2. -/
theorem C53_sha2_avx2_thashx8 (hf : P.fam = .sha2) {ctx : Ctx} (hc : ctx.Ready P g) :
    LanesInPlace P 8 ((specHash P).T ctx.pub_seed) ctx (Sha2X.thashxM P g') := by
  refine LanesInPlace.of Sha2X.thashx_mem (fun a d => (shippedRefines hP g).T_len ..) ?_
  intro A as I b hA hb hi h31
  rw [specHash_sha2 hf]
  exact Sha2X.thashx_value (shipped_valid hP) hf (shipped_n hP) (shipped_sha512 hP hf) g' g (hc.sha2OK hP hf) hb hi h31 hA

/-- C53.  `thashx4` of haraka-aesni, with a context initialised by haraka-aesni. -/
theorem C53_aesni_thashx4 (hf : P.fam = .haraka) {ctx0 : Ctx} (hs : ctx0.Sized P) :
    ∃ ctx, (AesNi.impl P g').initialize_hash_function ctx0 = .ok ctx ∧
      LanesInPlace P 4 ((specHash P).T ctx0.pub_seed) ctx (AesNi.thashxM P g') := by
  have e := AesNi.tweak_constants_spec g' hs.pub_seed hs.rc
  have hc : AesNi.CtxOK P { ctx0 with rc := Spec.Haraka.rcTweak ctx0.pub_seed } := ⟨hs.pub_seed, hs.sk_seed, rfl⟩
  refine ⟨_, e, LanesInPlace.of (AesNi.thashx_mem (shipped_valid hP).n_pos (shipped_n hP))
    (fun a d => (shippedRefines hP g').T_len ..) ?_⟩
  intro A as I b hA _ hi _
  rw [specHash_haraka hf]
  exact AesNi.thashx_value (shipped_n hP) (shipped_valid hP).n_pos hf g' hc hi hA

/-- C53.  `thash` of shake-a64, which is `thashx2` with the same output and the same input twice: wherever the output
lies, as the `thash` of the reference (C42). -/
theorem C53_a64_thash (hf : P.fam = .shake) {ctx : Ctx} (hc : ctx.Ready P g) {ad : Addr} {a : ADRS} (ha : Encodes P.fam ad a) {M : Mem}
    {out inp blocks : Nat} {d : Bytes} (h1 : 1 ≤ blocks) (hb : blocks * P.n < 2 ^ 31)
    (hin : M.rd inp (blocks * P.n) = .ok d) (hout : M.Alloc out P.n) :
    ∃ M', A64.thashM P g' M out inp blocks ctx ad = .ok M' ∧
      M'.rd out P.n = .ok ((specHash P).T ctx.pub_seed a d) ∧ M.SameOutside M' out P.n := by
  obtain ⟨M', e, hv, hfr, -⟩ := C53_a64_thashx2 hP g' hf hc (A := fun _ => a) (as := fun _ => ad) (M := M) (out := fun _ => out)
    (inp := fun _ => inp) (d := fun _ => d) (fun _ _ => ha) h1 hb (fun _ _ => hin) (fun _ _ => hout)
  refine ⟨M', ?_, hv 1 (by decide) (fun j' hj' hne => Or.inr ⟨rfl, by omega⟩), fun x hx => hfr x fun _ _ => hx⟩
  unfold A64.thashM
  rw [rd_whole ha.1, ok_bind]
  exact e

end

/-- C53.  The use in the tree code (`treehashx2`, `treehashx4`, `treehashx8`): the `L` nodes at `left` and the `L` nodes at
`cur` are hashed pairwise into `cur`.  Afterwards `cur` holds the parents of the `2 L` nodes that were there, in order, and
nothing else has changed. -/
theorem C53_level_in_place {P : Params} {H : Nat} {T : ADRS → Bytes → Bytes} {ctx : Ctx}
    {f : Mem → (Nat → Nat) → (Nat → Nat) → Nat → Ctx → List Addr → C Mem} (h : LanesInPlace P (2 * H) T ctx f)
    (hT : ∀ a d, (T a d).length = P.n) (h31 : 2 * P.n < 2 ^ 31) {A : Nat → ADRS} {as : Nat → Addr}
    (hA : ∀ j, j < 2 * H → Encodes P.fam (as j) (A j))
    {M : Mem} {left cur : Nat} {l c : Bytes}
    (hl : M.rd left (2 * H * P.n) = .ok l) (hc : M.rd cur (2 * H * P.n) = .ok c) :
    ∃ M', f M (fun j => cur + j * P.n)
          (fun j => if j < H then left + 2 * j * P.n else cur + 2 * (j - H) * P.n) 2 ctx
          ((List.range (2 * H)).map as) = .ok M' ∧
      M'.rd cur (2 * H * P.n) =
        .ok (cat (2 * H) fun j => T (A j) (((l ++ c).drop (2 * j * P.n)).take (2 * P.n))) ∧
      M.SameOutside M' cur (2 * H * P.n) := by
  have ll := Mem.rd_length hl
  have lc := Mem.rd_length hc
  have hm : ∀ {a b : Nat}, a ≤ b → a * P.n ≤ b * P.n := fun h => Nat.mul_le_mul_right _ h
  have hin : ∀ j, j < 2 * H → M.rd (if j < H then left + 2 * j * P.n else cur + 2 * (j - H) * P.n) (2 * P.n) =
      .ok (((l ++ c).drop (2 * j * P.n)).take (2 * P.n)) := by
    intro j hj
    by_cases c1 : j < H
    · have h2 := hm (show 2 * j + 2 ≤ 2 * H by omega)
      rw [Nat.add_mul] at h2
      rw [if_pos c1, List.drop_append_of_le_length (by omega), List.take_append_of_le_length (by
        rw [List.length_drop]; omega)]
      exact Mem.rd_take (Mem.rd_drop hl (k := 2 * j * P.n) (by omega)) (k := 2 * P.n) (by omega)
    · have h2 := hm (show 2 * (j - H) + 2 ≤ 2 * H by omega)
      have h3 : 2 * j * P.n = 2 * H * P.n + 2 * (j - H) * P.n := by
        rw [← Nat.add_mul]
        congr 1
        omega
      rw [Nat.add_mul] at h2
      rw [if_neg c1, h3, ← ll, List.drop_length_add_append]
      exact Mem.rd_take (Mem.rd_drop hc (k := 2 * (j - H) * P.n) (by omega)) (k := 2 * P.n) (by omega)
  have hall : M.Alloc cur (2 * H * P.n) := Mem.alloc_of_rd hc
  have hin' : ∀ j, j < 2 * H → j * P.n + P.n ≤ 2 * H * P.n := by
    intro j hj
    have := hm (show j + 1 ≤ 2 * H by omega)
    rwa [Nat.succ_mul] at this
  obtain ⟨M', e, hv, hfr, -⟩ := h (A := A) (as := as) (M := M) (out := fun j => cur + j * P.n)
    (inp := fun j => if j < H then left + 2 * j * P.n else cur + 2 * (j - H) * P.n) (blocks := 2)
    (d := fun j => ((l ++ c).drop (2 * j * P.n)).take (2 * P.n)) hA (by decide) h31 hin
    (fun j hj i hi => by
      have := hin' j hj
      show (M (cur + j * P.n + i)).isSome
      rw [Nat.add_assoc]
      exact hall _ (by omega))
  refine ⟨M', e, ?_, fun a ha => hfr a fun j hj hja => ha ?_⟩
  · refine Mem.rd_eq_iff.mpr ⟨?_, fun i hi => ?_⟩
    · exact cat_length fun j _ => hT _ _
    · have hn : 0 < P.n := Nat.pos_of_ne_zero fun e => by rw [e] at hi; omega
      have hj : i / P.n < 2 * H := (Nat.div_lt_iff_lt_mul hn).mpr hi
      have hw : Wins (2 * H) P.n (fun j => cur + j * P.n) (i / P.n) := by
        intro j' hj' hne
        rcases Nat.lt_or_gt_of_ne hne with c1 | c1
        · have := hm (show j' + 1 ≤ i / P.n by omega)
          rw [Nat.succ_mul] at this
          left; left
          show cur + j' * P.n + P.n ≤ cur + i / P.n * P.n
          omega
        · have := hm (show i / P.n + 1 ≤ j' by omega)
          rw [Nat.succ_mul] at this
          left; right
          show cur + i / P.n * P.n + P.n ≤ cur + j' * P.n
          omega
      have r1 := (Mem.rd_eq_iff.mp (hv _ hj hw)).2 (i % P.n) (Nat.mod_lt _ hn)
      rw [Nat.add_assoc, Nat.mul_comm (i / P.n), Nat.div_add_mod] at r1
      rw [r1]
      symm
      have := cat_chunk (k := 2 * H) (f := fun j => T (A j) (((l ++ c).drop (2 * j * P.n)).take (2 * P.n)))
        (n := P.n) (fun j _ => hT _ _) (i := i / P.n) hj []
      rw [List.append_nil] at this
      rw [← this, List.getElem?_take_of_lt (Nat.mod_lt i hn), List.getElem?_drop, Nat.mul_comm (i / P.n),
        Nat.div_add_mod]
  · have := hin' j hj
    obtain ⟨h1, h2⟩ := hja
    have h1 : cur + j * P.n ≤ a := h1
    have h2 : a < cur + j * P.n + P.n := h2
    omega

/-! Concrete cases. -/

/-- Output 0 is inside input 1 and one byte off its start, output 1 is inside input 0. -/
example (g : Nat → Nat → Byte) : ∃ ctx : Ctx, ctx.Ready (shake_128f true) g ∧
    ∃ M', A64.thashxM (shake_128f true) (fun _ _ => 9) (Mem.filled fun a => BitVec.ofNat 8 a)
        (fun j => 1033 - 25 * j) (fun j => 1000 + 32 * j) 2 ctx
        [enc .shake ⟨1, 5, TREE, 0, 3, 9⟩, enc .shake ⟨1, 5, TREE, 0, 3, 10⟩] = .ok M' ∧
      M'.rd 1033 16 = .ok ((specHash (shake_128f true)).T ctx.pub_seed ⟨1, 5, TREE, 0, 3, 9⟩
        ((List.range 32).map fun i => BitVec.ofNat 8 (1000 + i))) ∧
      M'.rd 1008 16 = .ok ((specHash (shake_128f true)).T ctx.pub_seed ⟨1, 5, TREE, 0, 3, 10⟩
        ((List.range 32).map fun i => BitVec.ofNat 8 (1032 + i))) := by
  obtain ⟨ctx, -, hr, -, -⟩ := (Ctx.zeroed_sized (P := shake_128f true) (pub := List.replicate 16 2)
    (sk := List.replicate 16 0) List.length_replicate List.length_replicate).ready (by decide) g
  obtain ⟨M', e, hv, -, -⟩ := C53_a64_thashx2 (P := shake_128f true) (by decide) (fun _ _ => 9) rfl hr
    (A := fun j => ⟨1, 5, TREE, 0, 3, 9 + j⟩) (M := Mem.filled fun a => BitVec.ofNat 8 a)
    (out := fun j => 1033 - 25 * j) (inp := fun j => 1000 + 32 * j) (blocks := 2)
    (fun j _ => encodes_enc _ _) (by decide) (by decide) (fun j _ => Mem.filled_rd _ _ _)
    (fun j _ => Mem.filled_alloc _ _ _)
  have hw : ∀ j, j < 2 → Wins 2 16 (fun j => 1033 - 25 * j) j := by
    intro j hj j' hj' hne
    left
    show 1033 - 25 * j' + 16 ≤ 1033 - 25 * j ∨ 1033 - 25 * j + 16 ≤ 1033 - 25 * j'
    omega
  exact ⟨ctx, hr, M', e, hv 0 (by decide) (hw 0 (by decide)), hv 1 (by decide) (hw 1 (by decide))⟩

/-- As in `gen_chains`: three chains in place, the other five lanes share one buffer. -/
example (g : Nat → Nat → Byte) : ∃ ctx : Ctx, ctx.Ready (sha2_192s false) g ∧
    ∃ M', Sha2X.thashxM (sha2_192s false) (fun _ _ => 9) (Mem.filled fun a => BitVec.ofNat 8 a)
        (fun j => if j < 3 then 1000 + 24 * j else 5000) (fun j => if j < 3 then 1000 + 24 * j else 5000) 1 ctx
        ((List.range 8).map fun j => enc .sha2 ⟨1, 5, TREE, 0, 3, 9 + j⟩) = .ok M' ∧
      (∀ j, j < 3 → M'.rd (1000 + 24 * j) 24 = .ok ((specHash (sha2_192s false)).T ctx.pub_seed ⟨1, 5, TREE, 0, 3, 9 + j⟩
        ((List.range 24).map fun i => BitVec.ofNat 8 (1000 + 24 * j + i)))) ∧
      M'.rd 5000 24 = .ok ((specHash (sha2_192s false)).T ctx.pub_seed ⟨1, 5, TREE, 0, 3, 16⟩
        ((List.range 24).map fun i => BitVec.ofNat 8 (5000 + i))) := by
  obtain ⟨ctx, -, hr, -, -⟩ := (Ctx.zeroed_sized (P := sha2_192s false) (pub := List.replicate 24 2)
    (sk := List.replicate 24 0) List.length_replicate List.length_replicate).ready (by decide) g
  obtain ⟨M', e, hv, -, -⟩ := C53_sha2_avx2_thashx8 (P := sha2_192s false) (by decide) (fun _ _ => 9) rfl hr
    (A := fun j => ⟨1, 5, TREE, 0, 3, 9 + j⟩) (M := Mem.filled fun a => BitVec.ofNat 8 a)
    (out := fun j => if j < 3 then 1000 + 24 * j else 5000) (inp := fun j => if j < 3 then 1000 + 24 * j else 5000)
    (blocks := 1) (fun j _ => encodes_enc _ _) (by decide) (by decide) (fun j _ => Mem.filled_rd _ _ _)
    (fun j _ => Mem.filled_alloc _ _ _)
  have hw : ∀ j, j < 8 → (j < 3 ∨ j = 7) → Wins 8 24 (fun j => if j < 3 then 1000 + 24 * j else 5000) j := by
    intro j hj hc j' hj' hne
    show ((if j' < 3 then _ else _) + 24 ≤ (if j < 3 then _ else _) ∨ (if j < 3 then _ else _) + 24 ≤ (if j' < 3 then _ else _)) ∨
      ((if j' < 3 then _ else _) = (if j < 3 then _ else _) ∧ _)
    split <;> split <;> omega
  refine ⟨ctx, hr, M', e, fun j hj => ?_, ?_⟩
  · have := hv j (by omega) (hw j (by omega) (Or.inl hj))
    simp only [if_pos hj] at this
    exact this
  · exact hv 7 (by decide) (hw 7 (by decide) (Or.inr rfl))

/-- One level of the tree in haraka-aesni. -/
example : ∃ ctx, (AesNi.impl (haraka_256s true) fun _ _ => 9).initialize_hash_function
      (Ctx.zeroed (List.replicate 32 2) (List.replicate 32 0)) = .ok ctx ∧
    ∃ M', AesNi.thashxM (haraka_256s true) (fun _ _ => 9) (Mem.filled fun a => BitVec.ofNat 8 a)
        (fun j => 2000 + j * 32) (fun j => if j < 2 then 1000 + 2 * j * 32 else 2000 + 2 * (j - 2) * 32) 2 ctx
        ((List.range 4).map fun j => enc .haraka ⟨1, 5, TREE, 0, 3, 9 + j⟩) = .ok M' ∧
      M'.rd 2000 128 = .ok (cat 4 fun j => (specHash (haraka_256s true)).T (List.replicate 32 2) ⟨1, 5, TREE, 0, 3, 9 + j⟩
        ((((List.range 128).map (fun i => BitVec.ofNat 8 (1000 + i)) ++
          (List.range 128).map (fun i => BitVec.ofNat 8 (2000 + i))).drop (2 * j * 32)).take 64)) := by
  have hs := Ctx.zeroed_sized (P := haraka_256s true) (pub := List.replicate 32 2)
    (sk := List.replicate 32 0) List.length_replicate List.length_replicate
  obtain ⟨ctx, e0, h⟩ := C53_aesni_thashx4 (P := haraka_256s true) (by decide) (fun _ _ => 9) rfl hs
  obtain ⟨M', e, hv, -⟩ := C53_level_in_place (H := 2) h
    (fun a d => (shippedRefines (P := haraka_256s true) (by decide) fun _ _ => 9).T_len ..) (by decide)
    (A := fun j => ⟨1, 5, TREE, 0, 3, 9 + j⟩) (fun j _ => encodes_enc _ _)
    (M := Mem.filled fun a => BitVec.ofNat 8 a) (left := 1000) (cur := 2000) (Mem.filled_rd _ _ _) (Mem.filled_rd _ _ _)
  exact ⟨ctx, e0, M', e, hv⟩

end Spx
