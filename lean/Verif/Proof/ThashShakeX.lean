import Verif.Proof.HashShakeX
/-! `prf_addrx2`, `thashx2`, `prf_addrx4` and `thashx4` of the SHAKE code, lane by lane. -/

namespace Spx
open Spec Spec.Keccak

attribute [local irreducible] keccakF

theorem zeros50 : List.replicate 50 0#64 = inter 2 fun _ _ => 0#64 := by decide +kernel

theorem uninit_inter (f : Nat → BitVec 64) : uninit f 100 = inter 4 fun i j => f (4 * i + j) := by
  unfold uninit inter
  refine List.map_congr_left fun k _ => ?_
  show f k = f (4 * (k / 4) + k % 4)
  rw [show 4 * (k / 4) + k % 4 = k by omega]

theorem shake256x2_spec (g : Nat → Nat → Byte) {out inp : Nat → Bytes} {outlen inlen : Nat}
    (ho : ∀ j, j < 2 → outlen ≤ (out j).length) (hi : ∀ j, j < 2 → inlen ≤ (inp j).length) :
    shake256x2 g ((List.range 2).map out) outlen ((List.range 2).map inp) inlen =
      .ok ((List.range 2).map fun j => Keccak.shake256 ((inp j).take inlen) outlen ++ (out j).drop outlen) := by
  unfold shake256x2
  rw [zeros50]
  exact shake256x_spec (by decide) f1600x2_ok g ho hi

theorem shake256x4_spec (g : Nat → Nat → Byte) {out inp : Nat → Bytes} {outlen inlen : Nat}
    (ho : ∀ j, j < 4 → outlen ≤ (out j).length) (hi : ∀ j, j < 4 → inlen ≤ (inp j).length) :
    shake256x4 g ((List.range 4).map out) outlen ((List.range 4).map inp) inlen =
      .ok ((List.range 4).map fun j => Keccak.shake256 ((inp j).take inlen) outlen ++ (out j).drop outlen) := by
  have hz : forRange 25 (fun i s => do
      let v ← getw 4 s i
      setw 4 s i (vxor v v)) (uninit (fun i => (g 50 i).zeroExtend 64) 100) = .ok (inter 4 fun _ _ => 0#64) := by
    rw [uninit_inter]
    generalize (fun i j => (g 50 (4 * i + j)).zeroExtend 64) = F
    refine forRange_eq' (fun t => inter 4 fun i j => if i < t then 0#64 else F i j) (by simp)
      (inter_congr fun i j h _ => by simp only [if_pos h]) ?_
    intro i hi
    rw [getw_inter (by decide) _ hi, ok_bind, setw_inter (by decide) _ hi]
    congr 1
    refine inter_congr fun t j _ hj => ?_
    unfold upd vxor
    by_cases h1 : t = i
    · subst h1; simp
    · simp only [if_neg h1]
      by_cases h2 : t < i
      · rw [if_pos h2, if_pos (by omega)]
      · rw [if_neg h2, if_neg (by omega)]
  unfold shake256x4
  rw [hz, ok_bind]
  exact shake256x_spec (by decide) PermuteAll_ok g ho hi

section
variable {L : Nat} {shk : List Bytes → Nat → List Bytes → Nat → C (List Bytes)}
  (hshk : ∀ {out inp : Nat → Bytes} {outlen inlen : Nat}, (∀ j, j < L → outlen ≤ (out j).length) →
    (∀ j, j < L → inlen ≤ (inp j).length) → shk ((List.range L).map out) outlen ((List.range L).map inp) inlen =
      .ok ((List.range L).map fun j => Keccak.shake256 ((inp j).take inlen) outlen ++ (out j).drop outlen))
  {P : Params} (g : Nat → Nat → Byte) {ctx : Ctx} (hp : ctx.pub_seed.length = P.n) {ad : Nat → Addr}
  (ha : ∀ j, j < L → (ad j).length = 32) {I : Nat → Bytes} {blocks : Nat}
  (hi : ∀ j, j < L → blocks * P.n ≤ (I j).length)
include hshk hp ha hi

theorem thashx_simple_long_spec :
    thashx_simple_long L shk P g ((List.range L).map I) blocks ctx ((List.range L).map ad) =
      .ok ((List.range L).map fun j => Keccak.shake256 (ctx.pub_seed ++ ad j ++ (I j).take (blocks * P.n)) P.n) := by
  unfold thashx_simple_long SPX_ADDR_BYTES
  rw [tabulate_ok (g := fun j => ctx.pub_seed ++ ad j ++ (I j).take (blocks * P.n)) (fun j hj => by
    have h1 := ha j hj
    have h2 := hi j hj
    simp only []
    rw [rd_ok (by omega), ok_bind, wr_app0 (by simp; omega), ok_bind, rd1_map ad hj, ok_bind, rd_ok (by omega), ok_bind,
      List.drop_zero, List.drop_zero, List.take_of_length_le (by omega), List.take_of_length_le (by omega),
      wr_app (by omega) (by simp; omega), ok_bind, rd1_map I hj, ok_bind, rd_ok (by omega), ok_bind, List.drop_zero,
      wr_app (by rw [List.length_append]; omega) (by simp; omega)]
    rw [List.drop_of_length_le (by simp; omega), List.append_nil]), ok_bind]
  have hl : ∀ j, j < L → (ctx.pub_seed ++ ad j ++ (I j).take (blocks * P.n)).length = P.n + 32 + blocks * P.n :=
    fun j hj => by have h1 := ha j hj; have h2 := hi j hj; simp; omega
  rw [hshk (by simp) (fun j hj => by rw [hl j hj]; omega)]
  congr 1
  refine List.map_congr_left fun j hj => ?_
  rw [List.take_of_length_le (by rw [hl j (List.mem_range.1 hj)]; omega), List.drop_of_length_le (by simp),
    List.append_nil]

theorem thashx_robust_long_spec :
    thashx_robust_long L shk P g ((List.range L).map I) blocks ctx ((List.range L).map ad) =
      .ok ((List.range L).map fun j => Keccak.shake256 (ctx.pub_seed ++ ad j ++
        xorBytes ((I j).take (blocks * P.n)) (Keccak.shake256 (ctx.pub_seed ++ ad j) (blocks * P.n))) P.n) := by
  unfold thashx_robust_long SPX_ADDR_BYTES
  have hl : ∀ j, j < L → (ctx.pub_seed ++ ad j).length = P.n + 32 :=
    fun j hj => by have h1 := ha j hj; simp; omega
  rw [tabulate_ok (g := fun j => ctx.pub_seed ++ ad j ++
      ((uninit (g (60 + j)) (P.n + 32 + blocks * P.n)).drop ctx.pub_seed.length).drop (ad j).length) (fun j hj => by
    have h1 := ha j hj
    simp only []
    rw [rd_ok (by omega), ok_bind, wr_app0 (by simp; omega), ok_bind, rd1_map ad hj, ok_bind, rd_ok (by omega), ok_bind,
      List.drop_zero, List.drop_zero, List.take_of_length_le (by omega), List.take_of_length_le (by omega),
      wr_app (by omega) (by simp; omega)]), ok_bind]
  rw [hshk (by simp) (fun j hj => by rw [List.length_append, hl j hj]; omega), ok_bind]
  have hm : ∀ j, j < L → Keccak.shake256 ((ctx.pub_seed ++ ad j ++
      ((uninit (g (60 + j)) (P.n + 32 + blocks * P.n)).drop ctx.pub_seed.length).drop (ad j).length).take (P.n + 32))
        (blocks * P.n) ++ (uninit (g (80 + j)) (blocks * P.n)).drop (blocks * P.n) =
      Keccak.shake256 (ctx.pub_seed ++ ad j) (blocks * P.n) := fun j hj => by
    rw [List.take_left' (hl j hj), List.drop_of_length_le (by simp), List.append_nil]
  rw [tabulate_ok (g := fun j => ctx.pub_seed ++ ad j ++
      xorBytes ((I j).take (blocks * P.n)) (Keccak.shake256 (ctx.pub_seed ++ ad j) (blocks * P.n))) (fun j hj => by
    have h1 := ha j hj
    rw [rd1_map I hj, ok_bind, rd1_map _ hj, ok_bind, rd1_map _ hj, ok_bind, hm j hj,
      xor_loop (by rw [hl j hj]) (hi j hj) (by rw [keccak_shake256_length]) (by simp; omega),
      List.drop_of_length_le (by simp; omega), List.append_nil]), ok_bind]
  have hl2 : ∀ j, j < L → (ctx.pub_seed ++ ad j ++ xorBytes ((I j).take (blocks * P.n))
      (Keccak.shake256 (ctx.pub_seed ++ ad j) (blocks * P.n))).length = P.n + 32 + blocks * P.n := by
    intro j hj
    have h2 := hi j hj
    rw [List.length_append, hl j hj]
    simp [xorBytes, keccak_shake256_length]; omega
  rw [hshk (by simp) (fun j hj => by rw [hl2 j hj]; omega)]
  congr 1
  refine List.map_congr_left fun j hj => ?_
  rw [List.take_of_length_le (by rw [hl2 j (List.mem_range.1 hj)]; omega), List.drop_of_length_le (by simp),
    List.append_nil]

end

theorem blocks_words {P : Params} {N b : Nat} (hn : P.n = 8 * N) (h4 : N ≤ 4) (hb : b = 1 ∨ b = 2) :
    ∃ M, N ≤ M ∧ M ≤ 2 * N ∧ N * b = M ∧ N * (1 + b) = N + M ∧ b * P.n = 8 * M := by
  refine ⟨N * b, ?_⟩
  obtain rfl | rfl := hb <;> omega

section
variable {P : Params} (g : Nat → Nat → Byte) {N : Nat} (hn : P.n = 8 * N) (h2 : 2 ≤ N) (h4 : N ≤ 4)
  {ctx : Ctx} (hpub : ctx.pub_seed.length = P.n) {ad : Nat → Addr}
include hn h2 h4 hpub

theorem A64.prf_addrx2_spec (hsk : ctx.sk_seed.length = P.n) (ha : ∀ j, j < 2 → (ad j).length = 32) :
    A64.prf_addrx2 P g ctx ((List.range 2).map ad) =
      .ok ((List.range 2).map fun j => Keccak.shake256 (ctx.pub_seed ++ ad j ++ ctx.sk_seed) P.n) := by
  have d8 : P.n / 8 = N := by omega
  have d4 : P.n / 4 = 2 * N := by omega
  have L2 : 0 < 2 := by decide
  unfold A64.prf_addrx2
  simp only []
  rw [zeros50, seedLanes_ok L2 (by omega) (by omega), ok_bind, putAddrs_ok L2 (by omega) ha, ok_bind,
    seedLanes_ok L2 (by omega) (by omega), ok_bind, setw_inter L2 _ (by omega), ok_bind,
    setw_inter L2 _ (by omega), ok_bind]
  refine perm_out L2 f1600x2_ok (m := fun j => ctx.pub_seed ++ ad j ++ ctx.sk_seed) (q := 2 * N + 4) (by omega)
    (fun j hj => by simp [ha j hj]; omega) ?_ (by omega) (by omega) g
  intro i j hi hj
  rw [d8, d4]
  unfold upd lanePut blkW
  simp only []
  have hw := fun h => msg_word (x := ctx.sk_seed) (i := i) (by omega : ctx.pub_seed.length = 8 * N) (ha j hj) h
  by_cases c1 : i < 2 * N + 4
  · rw [if_pos c1, hw (by omega)]
    by_cases c2 : i < N
    · ifs; simp
    · by_cases c3 : i < N + 4
      · ifs
      · ifs
  · by_cases c4 : i = 2 * N + 4
    · ifs; first | exact BitVec.xor_zero.symm | exact BitVec.zero_xor.symm
    · by_cases c5 : i = 16
      · ifs; first | exact BitVec.xor_zero.symm | exact BitVec.zero_xor.symm
      · ifs; simp

theorem Avx2.prf_addrx4_spec (hsk : ctx.sk_seed.length = P.n) (ha : ∀ j, j < 4 → (ad j).length = 32) :
    Avx2.prf_addrx4 P g ctx ((List.range 4).map ad) =
      .ok ((List.range 4).map fun j => Keccak.shake256 (ctx.pub_seed ++ ad j ++ ctx.sk_seed) P.n) := by
  have d8 : P.n / 8 = N := by omega
  have d4 : P.n / 4 = 2 * N := by omega
  have L4 : 0 < 4 := by decide
  unfold Avx2.prf_addrx4 Avx2.state0
  simp only []
  rw [uninit_inter, seedLanes_ok L4 (by omega) (by omega), ok_bind, putAddrs_ok L4 (by omega) ha, ok_bind,
    seedLanes_ok L4 (by omega) (by omega), ok_bind, setw_inter L4 _ (by omega), ok_bind,
    zeroWords_ok L4 (by omega) (by omega), ok_bind,
    setw_inter L4 _ (by omega), ok_bind, zeroWords_ok L4 (by omega) (by omega), ok_bind]
  refine perm_out L4 PermuteAll_ok (m := fun j => ctx.pub_seed ++ ad j ++ ctx.sk_seed) (q := 2 * N + 4) (by omega)
    (fun j hj => by simp [ha j hj]; omega) ?_ (by omega) (by omega) g
  intro i j hi hj
  rw [d8, d4]
  unfold upd lanePut blkW
  simp only []
  have hw := fun h => msg_word (x := ctx.sk_seed) (i := i) (by omega : ctx.pub_seed.length = 8 * N) (ha j hj) h
  by_cases c1 : i < 2 * N + 4
  · rw [if_pos c1, hw (by omega)]
    by_cases c2 : i < N
    · ifs; simp
    · by_cases c3 : i < N + 4
      · ifs
      · ifs
  · by_cases c4 : i = 2 * N + 4
    · ifs; first | exact BitVec.xor_zero.symm | exact BitVec.zero_xor.symm
    · by_cases c5 : i = 16
      · ifs; first | exact BitVec.xor_zero.symm | exact BitVec.zero_xor.symm
      · by_cases c6 : i < 16
        · ifs; simp
        · ifs; simp

variable {I : Nat → Bytes} {b : Nat}

theorem A64.thashx2_simple_spec (ha : ∀ j, j < 2 → (ad j).length = 32) (hi : ∀ j, j < 2 → b * P.n ≤ (I j).length) :
    A64.thashx2_simple P g ((List.range 2).map I) b ctx ((List.range 2).map ad) =
      .ok ((List.range 2).map fun j => Keccak.shake256 (ctx.pub_seed ++ ad j ++ (I j).take (b * P.n)) P.n) := by
  unfold A64.thashx2_simple
  by_cases hb : ¬ (b = 1 ∨ b = 2)
  · rw [if_neg hb]
    exact thashx_simple_long_spec (shake256x2_spec g) g hpub ha hi
  have hb := Decidable.not_not.1 hb
  rw [if_pos hb]
  have d8 : P.n / 8 = N := by omega
  have L2 : 0 < 2 := by decide
  obtain ⟨M, hkN, hk, hM, hq, hbn⟩ := blocks_words (N := N) hn h4 hb
  simp only []
  rw [zeros50, d8, hq, hbn, hM, seedLanes_ok L2 (by omega) (by omega), ok_bind, putAddrs_ok L2 (by omega) ha, ok_bind,
    put_loop L2 (a := N + 4) (by omega) (v := fun i j => if j < 2 then ldW (I j) i else 0) (fun i s hi' => by
      rw [ldLanes_ok (fun j hj => by have := hi j hj; omega), ok_bind]), ok_bind,
    setw_inter L2 _ (by omega), ok_bind, xorWord_ok L2 (by omega), ok_bind]
  refine perm_out L2 f1600x2_ok (m := fun j => ctx.pub_seed ++ ad j ++ (I j).take (8 * M)) (q := N + M + 4)
    (by omega) (fun j hj => by have := hi j hj; simp [ha j hj]; omega) ?_ (by omega) (by omega) g
  intro i j hi' hj
  rw [d8]
  have hij := hi j hj
  unfold upd lanePut blkW
  simp only []
  have hw := fun h => msg_word (x := (I j).take (8 * M)) (i := i) (by omega : ctx.pub_seed.length = 8 * N) (ha j hj) h
  by_cases c1 : i < N + M + 4
  · rw [if_pos c1, hw (by rw [List.length_take]; omega)]
    by_cases c2 : i < N
    · ifs; simp
    · by_cases c3 : i < N + 4
      · ifs
      · ifs
        rw [ldW_take (by omega) (by omega)]
  · by_cases c5 : i = 16
    · by_cases c4 : i = N + M + 4
      · ifs; exact BitVec.xor_comm _ _
      · ifs; exact BitVec.zero_xor.symm
    · by_cases c4 : i = N + M + 4
      · ifs; simp
      · ifs; simp

theorem Avx2.thashx4_simple_spec (ha : ∀ j, j < 4 → (ad j).length = 32) (hi : ∀ j, j < 4 → b * P.n ≤ (I j).length) :
    Avx2.thashx4_simple P g ((List.range 4).map I) b ctx ((List.range 4).map ad) =
      .ok ((List.range 4).map fun j => Keccak.shake256 (ctx.pub_seed ++ ad j ++ (I j).take (b * P.n)) P.n) := by
  unfold Avx2.thashx4_simple
  by_cases hb : ¬ (b = 1 ∨ b = 2)
  · rw [if_neg hb]
    exact thashx_simple_long_spec (shake256x4_spec g) g hpub ha hi
  have hb := Decidable.not_not.1 hb
  rw [if_pos hb]
  have d8 : P.n / 8 = N := by omega
  have L4 : 0 < 4 := by decide
  obtain ⟨M, hkN, hk, hM, hq, hbn⟩ := blocks_words (N := N) hn h4 hb
  unfold Avx2.state0
  simp only []
  rw [uninit_inter, d8, hq, hbn, hM, seedLanes_ok L4 (by omega) (by omega), ok_bind, putAddrs_ok L4 (by omega) ha, ok_bind,
    put_loop L4 (a := N + 4) (by omega) (v := fun i j => if j < 4 then ldW (I j) i else 0) (fun i s hi' => by
      rw [ldLanes_ok (fun j hj => by have := hi j hj; omega), ok_bind]), ok_bind,
    zeroWords_ok L4 (by omega) (by omega), ok_bind,
    setw_inter L4 _ (by omega), ok_bind, xorWord_ok L4 (by omega), ok_bind, zeroWords_ok L4 (by omega) (by omega), ok_bind]
  refine perm_out L4 PermuteAll_ok (m := fun j => ctx.pub_seed ++ ad j ++ (I j).take (8 * M)) (q := N + M + 4)
    (by omega) (fun j hj => by have := hi j hj; simp [ha j hj]; omega) ?_ (by omega) (by omega) g
  intro i j hi' hj
  rw [d8]
  have hij := hi j hj
  unfold upd lanePut blkW
  simp only []
  have hw := fun h => msg_word (x := (I j).take (8 * M)) (i := i) (by omega : ctx.pub_seed.length = 8 * N) (ha j hj) h
  by_cases c1 : i < N + M + 4
  · rw [if_pos c1, hw (by rw [List.length_take]; omega)]
    by_cases c2 : i < N
    · ifs; simp
    · by_cases c3 : i < N + 4
      · ifs
      · ifs
        rw [ldW_take (by omega) (by omega)]
  · by_cases c5 : i = 16
    · by_cases c4 : i = N + M + 4
      · ifs; exact BitVec.xor_comm _ _
      · ifs; exact BitVec.zero_xor.symm
    · by_cases c4 : i = N + M + 4
      · ifs; simp
      · by_cases c6 : i < 16
        · ifs; simp
        · ifs; simp

theorem A64.thashx2_robust_spec (ha : ∀ j, j < 2 → (ad j).length = 32) (hi : ∀ j, j < 2 → b * P.n ≤ (I j).length) :
    A64.thashx2_robust P g ((List.range 2).map I) b ctx ((List.range 2).map ad) =
      .ok ((List.range 2).map fun j => Keccak.shake256 (ctx.pub_seed ++ ad j ++
        xorBytes ((I j).take (b * P.n)) (Keccak.shake256 (ctx.pub_seed ++ ad j) (b * P.n))) P.n) := by
  unfold A64.thashx2_robust
  by_cases hb : ¬ (b = 1 ∨ b = 2)
  · rw [if_neg hb]
    exact thashx_robust_long_spec (shake256x2_spec g) g hpub ha hi
  have hb := Decidable.not_not.1 hb
  rw [if_pos hb]
  have d8 : P.n / 8 = N := by omega
  have L2 : 0 < 2 := by decide
  obtain ⟨M, hkN, hk, hM, hq, hbn⟩ := blocks_words (N := N) hn h4 hb
  simp only []
  rw [zeros50, d8, hq, hbn, hM, seedLanes_ok L2 (by omega) (by omega), ok_bind, putAddrs_ok L2 (by omega) ha, ok_bind,
    setw_inter L2 _ (by omega), ok_bind, xorWord_ok L2 (by omega), ok_bind]
  obtain ⟨F1, e1, hF1⟩ := perm_block f1600x2_ok (F := upd (upd (lanePut (lanePut (fun _ _ => 0#64) 0 (P.n / 8)
      fun i _ => ldW ctx.pub_seed i) N 4 fun i j => if j < 2 then ldW (ad j) i else 0) 16 (vdup (0x80#64 <<< 56))) (N + 4)
      fun j => upd (lanePut (lanePut (fun _ _ => 0#64) 0 (P.n / 8)
      fun i _ => ldW ctx.pub_seed i) N 4 fun i j => if j < 2 then ldW (ad j) i else 0) 16 (vdup (0x80#64 <<< 56)) (N + 4) j ^^^ 0x1f#64)
    (m := fun j => ctx.pub_seed ++ ad j) (q := N + 4) (by omega) (fun j hj => by simp [ha j hj]; omega) (by
      intro i j hi' hj
      rw [d8]
      unfold upd lanePut blkW
      simp only []
      by_cases c1 : i < N + 4
      · rw [if_pos c1, msg_word0 (by omega : ctx.pub_seed.length = 8 * N) (ha j hj) c1]
        by_cases c2 : i < N
        · ifs; simp
        · ifs
      · by_cases c5 : i = 16
        · ifs; first | exact BitVec.xor_zero.symm | exact BitVec.zero_xor.symm
        · by_cases c4 : i = N + 4
          · ifs; simp
          · ifs; simp)
  rw [e1, ok_bind, put_loop L2 (a := N + 4) (by omega) (v := fun i j => if j < 2 then F1 i j ^^^ ldW (I j) i else 0) (fun i s hi' => by
      rw [getw_inter L2 F1 (by omega), ok_bind, ldLanes_ok (fun j hj => by have := hi j hj; omega), ok_bind]
      refine congrArg (setw 2 s (N + 4 + i)) (funext fun j => ?_)
      simp only [vxor]
      by_cases h : j < 2
      · simp only [if_pos h]
      · simp only [if_neg h]; rfl), ok_bind, xorWord_ok L2 (by omega), ok_bind]
  have hmw : ∀ j, j < 2 → ∀ i, i < M →
      ldW (Keccak.shake256 (ctx.pub_seed ++ ad j) (8 * M)) i = F1 i j := by
    intro j hj i hi'
    rw [← hF1 j hj _ (by omega), ldW_take (by omega) (by simp; omega), ldW_wordsB (by simp; omega),
      laneW_getD _ _ (by omega)]
  refine perm_out L2 f1600x2_ok (m := fun j => ctx.pub_seed ++ ad j ++ xorBytes ((I j).take (8 * M))
      (Keccak.shake256 (ctx.pub_seed ++ ad j) (8 * M))) (q := N + M + 4)
    (by omega) (fun j hj => by
      have := hi j hj; simp [ha j hj, xorBytes, keccak_shake256_length]; omega) ?_ (by omega) (by omega) g
  intro i j hi' hj
  rw [d8]
  have hij := hi j hj
  have hmj := hmw j hj
  unfold upd lanePut blkW
  simp only []
  have hw := fun h => msg_word (x := xorBytes ((I j).take (8 * M))
      (Keccak.shake256 (ctx.pub_seed ++ ad j) (8 * M))) (i := i) (by omega : ctx.pub_seed.length = 8 * N) (ha j hj) h
  by_cases c1 : i < N + M + 4
  · rw [if_pos c1, hw (by simp [xorBytes, keccak_shake256_length]; omega)]
    by_cases c2 : i < N
    · ifs; simp
    · by_cases c3 : i < N + 4
      · ifs
      · ifs
        rw [ldW_xor (by simp; omega) (by rw [keccak_shake256_length]; omega), hmj _ (by omega),
          ldW_take (by omega) (by omega), BitVec.xor_comm]
  · by_cases c5 : i = 16
    · by_cases c4 : i = N + M + 4
      · ifs; exact BitVec.xor_comm _ _
      · ifs; exact BitVec.zero_xor.symm
    · by_cases c4 : i = N + M + 4
      · ifs; simp
      · ifs; simp

theorem Avx2.thashx4_robust_spec (ha : ∀ j, j < 4 → (ad j).length = 32) (hi : ∀ j, j < 4 → b * P.n ≤ (I j).length) :
    Avx2.thashx4_robust P g ((List.range 4).map I) b ctx ((List.range 4).map ad) =
      .ok ((List.range 4).map fun j => Keccak.shake256 (ctx.pub_seed ++ ad j ++
        xorBytes ((I j).take (b * P.n)) (Keccak.shake256 (ctx.pub_seed ++ ad j) (b * P.n))) P.n) := by
  unfold Avx2.thashx4_robust
  by_cases hb : ¬ (b = 1 ∨ b = 2)
  · rw [if_neg hb]
    exact thashx_robust_long_spec (shake256x4_spec g) g hpub ha hi
  have hb := Decidable.not_not.1 hb
  rw [if_pos hb]
  have d8 : P.n / 8 = N := by omega
  have L4 : 0 < 4 := by decide
  obtain ⟨M, hkN, hk, hM, hq, hbn⟩ := blocks_words (N := N) hn h4 hb
  unfold Avx2.state0
  simp only []
  rw [uninit_inter]
  generalize (fun i j => (g 51 (4 * i + j)).zeroExtend 64) = F0
  rw [d8, hq, hbn, hM, seedLanes_ok L4 (by omega) (by omega), ok_bind, putAddrs_ok L4 (by omega) ha, ok_bind,
    setw_inter L4 _ (by omega), ok_bind, zeroWords_ok L4 (by omega) (by omega), ok_bind,
    setw_inter L4 _ (by omega), ok_bind, zeroWords_ok L4 (by omega) (by omega), ok_bind]
  obtain ⟨F1, e1, hF1⟩ := perm_block PermuteAll_ok (F := lanePut (upd (lanePut (upd (lanePut (lanePut F0 0 (P.n / 8)
      fun i _ => ldW ctx.pub_seed i) N 4 fun i j => if j < 4 then ldW (ad j) i else 0) (N + 4) (vdup 0x1f#64))
      (N + 5) (16 - (N + 5)) fun _ _ => 0) 16 (vdup (0x80#64 <<< 56))) 17 (25 - 17) fun _ _ => 0)
    (m := fun j => ctx.pub_seed ++ ad j) (q := N + 4) (by omega) (fun j hj => by simp [ha j hj]; omega) (by
      intro i j hi' hj
      rw [d8]
      unfold upd lanePut blkW
      simp only []
      by_cases c1 : i < N + 4
      · rw [if_pos c1, msg_word0 (by omega : ctx.pub_seed.length = 8 * N) (ha j hj) c1]
        by_cases c2 : i < N
        · ifs; simp
        · ifs
      · by_cases c5 : i = 16
        · ifs; first | exact BitVec.xor_zero.symm | exact BitVec.zero_xor.symm
        · by_cases c4 : i = N + 4
          · ifs; first | exact BitVec.xor_zero.symm | exact BitVec.zero_xor.symm
          · by_cases c6 : i < 16
            · ifs; simp
            · ifs; simp)
  rw [e1, ok_bind, put_loop L4 (a := N + 4) (by omega) (v := fun i j => if j < 4 then F1 i j ^^^ ldW (I j) i else 0) (fun i s hi' => by
      rw [getw_inter L4 F1 (by omega), ok_bind, ldLanes_ok (fun j hj => by have := hi j hj; omega), ok_bind]
      refine congrArg (setw 4 s (N + 4 + i)) (funext fun j => ?_)
      simp only [vxor]
      by_cases h : j < 4
      · simp only [if_pos h]
      · simp only [if_neg h]; rfl), ok_bind, xorWord_ok L4 (by omega), ok_bind]
  have hmw : ∀ j, j < 4 → ∀ i, i < M →
      ldW (Keccak.shake256 (ctx.pub_seed ++ ad j) (8 * M)) i = F1 i j := by
    intro j hj i hi'
    rw [← hF1 j hj _ (by omega), ldW_take (by omega) (by simp; omega), ldW_wordsB (by simp; omega),
      laneW_getD _ _ (by omega)]
  refine perm_out L4 PermuteAll_ok (m := fun j => ctx.pub_seed ++ ad j ++ xorBytes ((I j).take (8 * M))
      (Keccak.shake256 (ctx.pub_seed ++ ad j) (8 * M))) (q := N + M + 4)
    (by omega) (fun j hj => by
      have := hi j hj; simp [ha j hj, xorBytes, keccak_shake256_length]; omega) ?_ (by omega) (by omega) g
  intro i j hi' hj
  rw [d8]
  have hij := hi j hj
  have hmj := hmw j hj
  unfold upd lanePut blkW
  simp only []
  have hw := fun h => msg_word (x := xorBytes ((I j).take (8 * M))
      (Keccak.shake256 (ctx.pub_seed ++ ad j) (8 * M))) (i := i) (by omega : ctx.pub_seed.length = 8 * N) (ha j hj) h
  by_cases c1 : i < N + M + 4
  · rw [if_pos c1, hw (by simp [xorBytes, keccak_shake256_length]; omega)]
    by_cases c2 : i < N
    · ifs; simp
    · by_cases c3 : i < N + 4
      · ifs
      · ifs
        rw [ldW_xor (by simp; omega) (by rw [keccak_shake256_length]; omega), hmj _ (by omega),
          ldW_take (by omega) (by omega), BitVec.xor_comm]
  · by_cases c5 : i = 16
    · by_cases c4 : i = N + M + 4
      · ifs; exact BitVec.xor_comm _ _
      · ifs; exact BitVec.zero_xor.symm
    · by_cases c4 : i = N + M + 4
      · ifs; simp
      · by_cases c6 : i < 16
        · ifs; simp
        · ifs; simp

end
end Spx
