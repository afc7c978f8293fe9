import Verif.Proof.LanesMem
/-! The parallel tweakable hashes over memory. -/

namespace Spx
open Spec

/-- `fM` over memory does what `f` does over lists: it writes the outputs of `f` on the bytes that were at the input
addresses. -/
def InPlace (L n : Nat) (f : List Bytes → Nat → Ctx → List Addr → C (List Bytes))
    (fM : Mem → (Nat → Nat) → (Nat → Nat) → Nat → Ctx → List Addr → C Mem) : Prop :=
  ∀ (M : Mem) (out inp : Nat → Nat) (blocks : Nat) (ctx : Ctx) (addrs : List Addr) (d r : Nat → Bytes),
    (∀ j, j < L → M.rd (inp j) (blocks * n) = .ok (d j)) → (∀ j, j < L → M.Alloc (out j) n) →
    (∀ j, j < L → (r j).length = n) → f ((List.range L).map d) blocks ctx addrs = .ok ((List.range L).map r) →
    ∃ M', fM M out inp blocks ctx addrs = .ok M' ∧ Wr L n out r M (fun _ => n) M'

theorem map_range_inj {α : Type} {L : Nat} {f g : Nat → α} (h : (List.range L).map f = (List.range L).map g) {j : Nat}
    (hj : j < L) : f j = g j := by
  have e : ((List.range L).map f)[j]? = ((List.range L).map g)[j]? := by rw [h]
  simpa [hj] using e

theorem tabulate_congr {α : Type} {k : Nat} {f g : Nat → C α} (h : ∀ j, j < k → f j = g j) :
    tabulate k f = tabulate k g := by
  unfold tabulate
  exact forRange_congr fun j s hj => by rw [h j hj]

theorem rd1_map' {α : Type} {L : Nat} {d : Nat → α} {j : Nat} (hj : j < L) :
    rd1 ((List.range L).map d) j = .ok (d j) := by
  rw [rd1_ok (by simpa using hj)]
  simp

theorem load64_take (x : Bytes) : load64 (x.take 8) = load64 x := by
  unfold load64
  refine forRange_congr fun i s hi => ?_
  unfold rd1
  rw [List.getElem?_take_of_lt hi]

/-- A common first step. -/
theorem stepM {α β γ : Type} {x x' : C α} (e : x' = x) {f : α → C β} {r : β} (h : (x >>= f) = .ok r) {fM : α → C γ}
    {Q : γ → Prop} (k : ∀ a, f a = .ok r → ∃ m, fM a = .ok m ∧ Q m) : ∃ m, (x' >>= fM) = .ok m ∧ Q m := by
  obtain ⟨a, e1, e2⟩ := bind_inv h
  rw [e, e1, ok_bind]
  exact k a e2

/-! ### Reading -/

section
variable {L n blocks : Nat} {M : Mem} {inp : Nat → Nat} {d : Nat → Bytes}
  (hin : ∀ j, j < L → M.rd (inp j) (blocks * n) = .ok (d j))
include hin

theorem ldLanesM_eq {i : Nat} (hi : 8 * i + 8 ≤ blocks * n) : ldLanesM L M inp i = ldLanes L ((List.range L).map d) i := by
  unfold ldLanesM ldLanes
  rw [tabulate_congr fun j hj => ?_]
  have hl := Mem.rd_length (hin j hj)
  rw [rd1_map' hj, ok_bind, sub_ok (by omega), ok_bind, ← load64_take]
  have e := Mem.rd_take (Mem.rd_drop (hin j hj) (k := 8 * i) (by omega)) (k := 8) (by omega)
  rw [e, ok_bind]

theorem rd_in {j : Nat} (hj : j < L) : M.rd (inp j) (blocks * n) =
    (do rd (← rd1 ((List.range L).map d) j) 0 (blocks * n)) := by
  rw [rd1_map' hj, ok_bind, rd_whole (Mem.rd_length (hin j hj))]
  exact hin j hj

theorem rd1_in {j : Nat} (hj : j < L) {i : Nat} (hi : i < blocks * n) : M.rd1 (inp j) i =
    (do rd1 (← rd1 ((List.range L).map d) j) i) := by
  rw [rd1_map' hj, ok_bind]
  exact Mem.rd1_of_rd (hin j hj) hi

omit hin in
theorem wordIdx {i : Nat} (hi : i < n / 8 * blocks) : 8 * i + 8 ≤ blocks * n := by
  have h1 : 8 * (i + 1) ≤ 8 * (n / 8 * blocks) := Nat.mul_le_mul_left 8 hi
  have h2 : 8 * (n / 8 * blocks) ≤ n * blocks := by
    rw [← Nat.mul_assoc]
    exact Nat.mul_le_mul_right _ (by omega)
  rw [Nat.mul_comm blocks n]
  omega

end

/-! ### The SHAKE files -/

section
variable {L n : Nat} {out : Nat → Nat} {r : Nat → Bytes} {M : Mem}

theorem outLanes_mem {g : Nat → Nat → Byte} {s : List (BitVec 64)} (hL : 0 < L) (h8 : n % 8 = 0)
    (hM : ∀ j, j < L → M.Alloc (out j) n) (h : outLanes L n g s = .ok ((List.range L).map r)) :
    ∃ M', storeLanesM L out 0 s (n / 8) M = .ok M' ∧ Wr L n out r M (fun _ => n) M' := by
  unfold outLanes at h
  obtain ⟨r', e, h'⟩ := tabulate_inv h
  exact Wr.storeLanes h8 (h0 := fun j => uninit (g (90 + j)) n)
    (fun j hj => by rw [map_range_inj e hj]; exact h' j hj) hL hM

theorem shake256x_mem {perm : List (BitVec 64) → C (List (BitVec 64))} {g : Nat → Nat → Byte} {s : List (BitVec 64)}
    {outs : List Bytes} {ins : List Bytes} {inlen : Nat} (h0 : 0 < n) (hn : n < 136)
    (hM : ∀ j, j < L → M.Alloc (out j) n)
    (h : shake256x L perm g s outs n ins inlen = .ok ((List.range L).map r)) :
    ∃ M', shake256xM L perm g s M out n ins inlen = .ok M' ∧ Wr L n out r M (fun _ => n) M' := by
  unfold shake256x at h
  unfold shake256xM
  have e1 : n / SHAKE256_RATE = 0 := Nat.div_eq_of_lt hn
  have e2 : n % SHAKE256_RATE = n := Nat.mod_eq_of_lt hn
  simp only [e1, e2, Nat.zero_mul] at h ⊢
  refine stepM rfl h fun s h => ?_
  have e3 : keccak_squeezeblocksx L perm outs 0 s SHAKE256_RATE = .ok (outs, s) := rfl
  have e4 : keccak_squeezeblocksxM L perm M out 0 s SHAKE256_RATE = .ok (M, s) := rfl
  rw [e3, ok_bind] at h
  rw [e4, ok_bind]
  simp only [] at h ⊢
  rw [if_pos (by omega)] at h ⊢
  refine stepM rfl h fun ts h => ?_
  obtain ⟨ts, _⟩ := ts
  simp only [] at h ⊢
  obtain ⟨r', e, h'⟩ := tabulate_inv h
  refine Wr.copyLanes (b := fun j => ((rd1 outs j).toOption).getD []) (fun j hj => ?_) hM
  have := h' j hj
  obtain ⟨t, g1, g2⟩ := bind_inv this
  obtain ⟨o, g3, g4⟩ := bind_inv g2
  rw [map_range_inj e hj, g1, ok_bind, g3]
  exact g4

end

section
variable {P : Params} {L : Nat} {g : Nat → Nat → Byte}

/-- `shkM` writes to memory what `shk` writes to lists. -/
def ShkMem (L n : Nat) (shk : List Bytes → Nat → List Bytes → Nat → C (List Bytes))
    (shkM : Mem → (Nat → Nat) → Nat → List Bytes → Nat → C Mem) : Prop :=
  ∀ (M : Mem) (out : Nat → Nat) (r : Nat → Bytes) (outs ins : List Bytes) (inlen : Nat),
    (∀ j, j < L → M.Alloc (out j) n) → shk outs n ins inlen = .ok ((List.range L).map r) →
    ∃ M', shkM M out n ins inlen = .ok M' ∧ Wr L n out r M (fun _ => n) M'

theorem shake256x2_mem {n : Nat} (h0 : 0 < n) (hn : n < 136) : ShkMem 2 n (shake256x2 g) (shake256x2M g) :=
  fun _ _ _ _ _ _ hM h => shake256x_mem h0 hn hM h

theorem shake256x4_mem {n : Nat} (h0 : 0 < n) (hn : n < 136) : ShkMem 4 n (shake256x4 g) (shake256x4M g) := by
  intro M out r outs ins inlen hM h
  unfold shake256x4 at h
  unfold shake256x4M
  exact stepM rfl h fun s h => shake256x_mem h0 hn hM h

variable {shk : List Bytes → Nat → List Bytes → Nat → C (List Bytes)}
  {shkM : Mem → (Nat → Nat) → Nat → List Bytes → Nat → C Mem}

theorem simple_long_mem (hs : ShkMem L P.n shk shkM) :
    InPlace L P.n (thashx_simple_long L shk P g) (thashx_simple_longM L shkM P g) := by
  intro M out inp blocks ctx addrs d r hin hM _ h
  unfold thashx_simple_long at h
  unfold thashx_simple_longM
  refine stepM ?_ h fun s h => hs _ _ _ _ _ _ hM h
  refine tabulate_congr fun j hj => ?_
  simp only [rd_in hin hj, bind_assoc]

theorem robust_long_mem (hs : ShkMem L P.n shk shkM) :
    InPlace L P.n (thashx_robust_long L shk P g) (thashx_robust_longM L shk shkM P g) := by
  intro M out inp blocks ctx addrs d r hin hM _ h
  unfold thashx_robust_long at h
  unfold thashx_robust_longM
  refine stepM rfl h fun bufs h => stepM rfl h fun masks h => stepM ?_ h fun s h => hs _ _ _ _ _ _ hM h
  refine tabulate_congr fun j hj => ?_
  simp only [rd1_map' hj, ok_bind]
  cases rd1 masks j with
  | error e => rfl
  | ok mask =>
    simp only [ok_bind]
    cases rd1 bufs j with
    | error e => rfl
    | ok b =>
      simp only [ok_bind]
      refine forRange_congr fun i b hi => ?_
      rw [rd1_in hin hj hi, rd1_map' hj, ok_bind]

theorem A64.simple_mem (h0 : 0 < P.n) (hn : P.n < 136) (h8 : P.n % 8 = 0) :
    InPlace 2 P.n (A64.thashx2_simple P g) (A64.thashx2_simpleM P g) := by
  intro M out inp blocks ctx addrs d r hin hM hl h
  unfold A64.thashx2_simple at h
  unfold A64.thashx2_simpleM
  split at h
  · rename_i hb
    rw [if_pos hb]
    refine stepM rfl h fun s h => stepM rfl h fun s h => stepM ?_ h fun s h => stepM rfl h fun s h => stepM rfl h fun s h =>
      stepM rfl h fun s h => outLanes_mem (by decide) h8 hM h
    exact forRange_congr fun i s hi => by rw [ldLanesM_eq hin (wordIdx hi)]
  · rename_i hb
    rw [if_neg hb]
    exact simple_long_mem (shake256x2_mem h0 hn) M out inp blocks ctx addrs d r hin hM hl h

theorem A64.robust_mem (h0 : 0 < P.n) (hn : P.n < 136) (h8 : P.n % 8 = 0) :
    InPlace 2 P.n (A64.thashx2_robust P g) (A64.thashx2_robustM P g) := by
  intro M out inp blocks ctx addrs d r hin hM hl h
  unfold A64.thashx2_robust at h
  unfold A64.thashx2_robustM
  split at h
  · rename_i hb
    rw [if_pos hb]
    refine stepM rfl h fun s h => stepM rfl h fun s h => stepM rfl h fun s h => stepM rfl h fun s h => stepM rfl h fun s h =>
      stepM ?_ h fun s h => stepM rfl h fun s h => stepM rfl h fun s h => outLanes_mem (by decide) h8 hM h
    exact forRange_congr fun i s hi => by rw [ldLanesM_eq hin (wordIdx hi)]
  · rename_i hb
    rw [if_neg hb]
    exact robust_long_mem (shake256x2_mem h0 hn) M out inp blocks ctx addrs d r hin hM hl h

theorem A64.thashx_mem (h0 : 0 < P.n) (hn : P.n < 136) (h8 : P.n % 8 = 0) :
    InPlace 2 P.n (A64.lanes P g).thashx (A64.thashxM P g) := by
  unfold A64.thashxM A64.lanes
  show InPlace 2 P.n (if _ then _ else _) _
  split
  · exact A64.robust_mem h0 hn h8
  · exact A64.simple_mem h0 hn h8

theorem Avx2.simple_mem (h0 : 0 < P.n) (hn : P.n < 136) (h8 : P.n % 8 = 0) :
    InPlace 4 P.n (Avx2.thashx4_simple P g) (Avx2.thashx4_simpleM P g) := by
  intro M out inp blocks ctx addrs d r hin hM hl h
  unfold Avx2.thashx4_simple at h
  unfold Avx2.thashx4_simpleM
  split at h
  · rename_i hb
    rw [if_pos hb]
    refine stepM rfl h fun s h => stepM rfl h fun s h => stepM ?_ h fun s h => stepM rfl h fun s h => stepM rfl h fun s h =>
      stepM rfl h fun s h => stepM rfl h fun s h => stepM rfl h fun s h => outLanes_mem (by decide) h8 hM h
    exact forRange_congr fun i s hi => by rw [ldLanesM_eq hin (wordIdx hi)]
  · rename_i hb
    rw [if_neg hb]
    exact simple_long_mem (shake256x4_mem h0 hn) M out inp blocks ctx addrs d r hin hM hl h

theorem Avx2.robust_mem (h0 : 0 < P.n) (hn : P.n < 136) (h8 : P.n % 8 = 0) :
    InPlace 4 P.n (Avx2.thashx4_robust P g) (Avx2.thashx4_robustM P g) := by
  intro M out inp blocks ctx addrs d r hin hM hl h
  unfold Avx2.thashx4_robust at h
  unfold Avx2.thashx4_robustM
  split at h
  · rename_i hb
    rw [if_pos hb]
    refine stepM rfl h fun s h => stepM rfl h fun s h => stepM rfl h fun s h => stepM rfl h fun s h => stepM rfl h fun s h =>
      stepM rfl h fun s h => stepM rfl h fun s h => stepM ?_ h fun s h => stepM rfl h fun s h => stepM rfl h fun s h =>
      outLanes_mem (by decide) h8 hM h
    exact forRange_congr fun i s hi => by rw [ldLanesM_eq hin (wordIdx hi)]
  · rename_i hb
    rw [if_neg hb]
    exact robust_long_mem (shake256x4_mem h0 hn) M out inp blocks ctx addrs d r hin hM hl h

theorem Avx2.thashx_mem (h0 : 0 < P.n) (hn : P.n < 136) (h8 : P.n % 8 = 0) :
    InPlace 4 P.n (Avx2.lanes P g).thashx (Avx2.thashxM P g) := by
  unfold Avx2.thashxM Avx2.lanes
  show InPlace 4 P.n (if _ then _ else _) _
  split
  · exact Avx2.robust_mem h0 hn h8
  · exact Avx2.simple_mem h0 hn h8

end

/-! ### The Haraka files -/

namespace AesNi
open Haraka (HARAKAS_RATE)
variable {P : Params} {g : Nat → Nat → Byte}

theorem outs32_mem {out : Nat → Nat} {r : Nat → Bytes} {M : Mem} {outbuf : Bytes}
    (hM : ∀ j, j < 4 → M.Alloc (out j) P.n) (hl : ∀ j, j < 4 → (r j).length = P.n)
    (h : outs32 P outbuf = .ok ((List.range 4).map r)) :
    ∃ M', outs32M P out outbuf M = .ok M' ∧ Wr 4 P.n out r M (fun _ => P.n) M' := by
  unfold outs32 at h
  obtain ⟨r', e, h'⟩ := tabulate_inv h
  obtain ⟨M', e', w⟩ := Wr.outs (L := 4) (n := P.n) (out := out) (r := r) (M := M) (l0 := 0) (k := 4)
    (f := fun j => rd outbuf (32 * j) P.n) (by decide)
    (fun j hj => by rw [Nat.zero_add]; exact ⟨by rw [map_range_inj e hj]; exact h' j hj, hl j hj⟩)
    (M₀ := M) ⟨fun _ _ => rfl, hM, fun _ _ _ i hi _ => absurd hi (Nat.not_lt_zero i)⟩
  refine ⟨M', ?_, w.frame, w.alloc, fun j hj hwin i hi hn => w.val j hj hwin i (by rw [if_pos (by omega)]; exact hi) hn⟩
  unfold outs32M
  simpa only [Nat.zero_add] using e'

theorem squeeze1_mem {perm : Bytes → Ctx → C Bytes} {L : Nat} {out : Nat → Nat} {r : Nat → Bytes} {M : Mem}
    {outs : List Bytes} {s s' : Bytes} {ctx : Ctx} (hM : ∀ j, j < L → M.Alloc (out j) 32)
    (_hl : ∀ j, j < L → (r j).length = 32)
    (h : haraka_S_squeezeblocksx L perm outs 1 s 32 ctx = .ok ((List.range L).map r, s')) :
    ∃ M', haraka_S_squeezeblocksxM L perm M out 1 s 32 ctx = .ok (M', s') ∧ Wr L 32 out r M (fun _ => 32) M' := by
  unfold haraka_S_squeezeblocksx at h
  unfold haraka_S_squeezeblocksxM
  simp only [forRange, ok_bind] at h ⊢
  obtain ⟨⟨hs, o, s1⟩, h2, h1⟩ := bind_inv h
  cases h1
  obtain ⟨p, e1, h3⟩ := bind_inv h2
  obtain ⟨s2, e2, h4⟩ := bind_inv h3
  obtain ⟨hs, e3, h5⟩ := bind_inv h4
  cases h5
  obtain ⟨r', e, h'⟩ := tabulate_inv e3
  rw [e1, ok_bind, e2, ok_bind]
  have key : ∀ j, j < L → ∃ a b, LOAD s1 (64 * j) = .ok a ∧ LOAD s1 (64 * j + 16) = .ok b ∧ a.length = 16 ∧
      b.length = 16 ∧ (∀ c, c < 16 → a[c]? = (r j)[c]?) ∧ ∀ c, c < 16 → b[c]? = (r j)[16 + c]? := by
    intro j hj
    obtain ⟨o, g1, g2⟩ := bind_inv (h' j hj)
    obtain ⟨a, g3, g4⟩ := bind_inv g2
    obtain ⟨q, g5, g6⟩ := bind_inv g4
    obtain ⟨b, g7, g8⟩ := bind_inv g6
    have la : a.length = 16 := by
      obtain ⟨u, v⟩ := rd_inv g3
      rw [v, List.length_take, List.length_drop]; omega
    have lb : b.length = 16 := by
      obtain ⟨u, v⟩ := rd_inv g7
      rw [v, List.length_take, List.length_drop]; omega
    obtain ⟨u1, v1⟩ := wr_inv g5
    obtain ⟨u2, v2⟩ := wr_inv g8
    have er : r j = q.take 16 ++ b ++ q.drop (16 + b.length) := by
      rw [map_range_inj e hj, v2]
    have eq : q = a ++ o.drop 16 := by
      rw [v1, List.take_zero, List.nil_append, Nat.zero_add, la]
    refine ⟨a, b, g3, g7, la, lb, fun c hc => ?_, fun c hc => ?_⟩
    · rw [er, eq, List.append_assoc, List.take_left' la, List.getElem?_append_left (by omega)]
    · rw [er, eq, List.append_assoc, List.take_left' la, List.getElem?_append_right (by omega), la,
        Nat.add_sub_cancel_left, List.getElem?_append_left (by omega)]
  obtain ⟨M', em, w⟩ := forRange_inv (n := L) (s := M)
    (body := fun j M => do
      let M ← M.wr (out j + 0) (← LOAD s1 (64 * j))
      M.wr (out j + 0 + 16) (← LOAD s1 (64 * j + 16)))
    (fun j M' => Wr L 32 out r M (fun j' => if j' < j then 32 else 0) M')
    ⟨fun _ _ => rfl, hM, fun _ _ _ i hi _ => absurd hi (Nat.not_lt_zero i)⟩ (by
      intro j M1 hj h1
      obtain ⟨a, b, ea, eb, la, lb, ha, hb⟩ := key j hj
      rw [ea, ok_bind]
      obtain ⟨M2, f2, w2⟩ := h1.step (D' := fun j' => if j' < j then 32 else if j' = j then 16 else 0) (j := j) (w := 16)
        hj (by simp only [Nat.lt_irrefl, if_false]; omega) (fun j' hlt _ => by
          rw [if_neg (by omega), if_neg (by omega)]) la (fun c hc => by
          simp only [Nat.lt_irrefl, if_false, Nat.zero_add]; exact ha c hc) (fun j' _ hne => by
          by_cases c : j' < j
          · simp only [if_pos c]; omega
          · simp only [if_neg c, if_neg hne]; omega) (by simp only [Nat.lt_irrefl, if_false, if_true]; omega)
        (p := out j + 0) (by simp only [Nat.lt_irrefl, if_false])
      rw [f2, ok_bind, eb, ok_bind]
      refine w2.step (j := j) (w := 16) hj (by simp only [Nat.lt_irrefl, if_false, if_true]; omega)
        (fun j' hlt _ => by rw [if_neg (by omega), if_neg (by omega)]; omega) lb (fun c hc => by
          simp only [Nat.lt_irrefl, if_false, if_true]; exact hb c hc) (fun j' _ hne => ?_)
        (by simp only [Nat.lt_irrefl, if_false, if_true, Nat.lt_succ_self]; omega)
        (by simp only [Nat.lt_irrefl, if_false, if_true])
      by_cases c : j' < j
      · rw [if_pos c, if_pos (by omega)]
      · rw [if_neg c, if_neg (by omega)]; omega)
  rw [em]
  exact ⟨M', rfl, w.frame, w.alloc, fun j hj hwin i hi hn => w.val j hj hwin i (by rw [if_pos hj]; exact hi) hn⟩

theorem haraka_Sx4_mem {out : Nat → Nat} {r : Nat → Bytes} {M : Mem} {n : Nat} {outs ins : List Bytes} {inlen : Nat}
    {ctx : Ctx} (h0 : 0 < n) (hn : n ≤ 32) (hM : ∀ j, j < 4 → M.Alloc (out j) n)
    (hl : ∀ j, j < 4 → (r j).length = n)
    (h : haraka_Sx4 g outs n ins inlen ctx = .ok ((List.range 4).map r)) :
    ∃ M', haraka_Sx4M g M out n ins inlen ctx = .ok M' ∧ Wr 4 n out r M (fun _ => n) M' := by
  unfold haraka_Sx4 haraka_Sx at h
  unfold haraka_Sx4M
  refine stepM rfl h fun s h => stepM rfl h fun s h => ?_
  by_cases c : n = 32
  · subst c
    obtain ⟨⟨o, s'⟩, e1, h⟩ := bind_inv h
    cases h
    obtain ⟨M', e, w⟩ := squeeze1_mem hM hl e1
    refine ⟨M', ?_, w⟩
    show (haraka_S_squeezeblocksxM 4 haraka512_perm_x4 M out 1 s 32 ctx >>= _) = _
    rw [e]
    rfl
  · have e1 : n / HARAKAS_RATE = 0 := Nat.div_eq_of_lt (show n < 32 by omega)
    have e2 : n % HARAKAS_RATE = n := Nat.mod_eq_of_lt (show n < 32 by omega)
    simp only [e1, e2, Nat.zero_mul] at h ⊢
    have e3 : haraka_S_squeezeblocksx 4 haraka512_perm_x4 outs 0 s HARAKAS_RATE ctx = .ok (outs, s) := rfl
    have e4 : haraka_S_squeezeblocksxM 4 haraka512_perm_x4 M out 0 s HARAKAS_RATE ctx = .ok (M, s) := rfl
    rw [e3, ok_bind] at h
    rw [e4, ok_bind]
    simp only [] at h ⊢
    rw [if_pos (by omega)] at h ⊢
    refine stepM rfl h fun ts h => ?_
    obtain ⟨ts, _⟩ := ts
    simp only [] at h ⊢
    obtain ⟨r', e, h'⟩ := tabulate_inv h
    refine Wr.copyLanes (b := fun j => ((rd1 outs j).toOption).getD []) (fun j hj => ?_) hM
    obtain ⟨t, g1, g2⟩ := bind_inv (h' j hj)
    obtain ⟨o, g3, g4⟩ := bind_inv g2
    rw [map_range_inj e hj, g1, ok_bind, g3]
    exact g4

theorem simple_mem (h0 : 0 < P.n) (hn : P.n ≤ 32) :
    InPlace 4 P.n (thashx4_simple P g) (thashx4_simpleM P g) := by
  intro M out inp blocks ctx addrs d r hin hM hl h
  unfold thashx4_simple at h
  unfold thashx4_simpleM
  split at h
  · rename_i hb
    subst hb
    rw [if_pos rfl]
    rw [Nat.one_mul] at hin
    refine stepM rfl h fun s h => stepM ?_ h fun s h => stepM rfl h fun s h => outs32_mem hM hl h
    refine forRange_congr fun j s hj => ?_
    have := rd_in (blocks := 1) (n := P.n) (by simpa only [Nat.one_mul] using hin) hj
    rw [Nat.one_mul] at this
    rw [this, bind_assoc]
  · rename_i hb
    rw [if_neg hb]
    refine stepM ?_ h fun s h => haraka_Sx4_mem h0 hn hM hl h
    refine tabulate_congr fun j hj => ?_
    simp only [rd_in hin hj, bind_assoc]

theorem robust_mem (h0 : 0 < P.n) (hn : P.n ≤ 32) :
    InPlace 4 P.n (thashx4_robust P g) (thashx4_robustM P g) := by
  intro M out inp blocks ctx addrs d r hin hM hl h
  unfold thashx4_robust at h
  unfold thashx4_robustM
  split at h
  · rename_i hb
    subst hb
    rw [if_pos rfl]
    refine stepM rfl h fun s h => stepM rfl h fun s h => stepM rfl h fun s h => stepM rfl h fun s h => stepM rfl h fun s h =>
      stepM rfl h fun s h => stepM rfl h fun s h => stepM rfl h fun s h => stepM rfl h fun s h => stepM rfl h fun s h =>
      stepM ?_ h fun s h => stepM rfl h fun s h => outs32_mem hM hl h
    refine forRange_congr fun i b hi => forRange_congr fun j b hj => ?_
    rw [rd1_in hin hj (by omega), bind_assoc]
  · rename_i hb
    rw [if_neg hb]
    refine stepM rfl h fun bufs h => stepM rfl h fun masks h => stepM ?_ h fun s h => haraka_Sx4_mem h0 hn hM hl h
    refine tabulate_congr fun j hj => ?_
    simp only [rd1_map' hj, ok_bind]
    cases rd1 masks j with
    | error e => rfl
    | ok mask =>
      simp only [ok_bind]
      cases rd1 bufs j with
      | error e => rfl
      | ok b =>
        simp only [ok_bind]
        refine forRange_congr fun i b hi => ?_
        rw [rd1_in hin hj hi, rd1_map' hj, ok_bind]

theorem thashx_mem (h0 : 0 < P.n) (hn : P.n ≤ 32) : InPlace 4 P.n (lanes P g).thashx (thashxM P g) := by
  unfold thashxM lanes
  show InPlace 4 P.n (if _ then _ else _) _
  split
  · exact robust_mem h0 hn
  · exact simple_mem h0 hn

end AesNi

/-! ### The SHA-2 files -/

namespace Sha2X
variable {P : Params} {g : Nat → Nat → Byte} {out : Nat → Nat} {r : Nat → Bytes} {M : Mem}

theorem outs256_mem {seed buf : Bytes} {base stride len : Nat} (hM : ∀ j, j < 8 → M.Alloc (out j) P.n)
    (hl : ∀ j, j < 8 → (r j).length = P.n) (h : outs256 P g seed buf base stride len = .ok ((List.range 8).map r)) :
    ∃ M', outs256M P g out seed buf base stride len M = .ok M' ∧ Wr 8 P.n out r M (fun _ => P.n) M' := by
  unfold outs256 at h
  unfold outs256M
  refine stepM rfl h fun s h => stepM rfl h fun s h => stepM rfl h fun b h => ?_
  obtain ⟨r', e, h'⟩ := tabulate_inv h
  obtain ⟨M', e', w⟩ := Wr.outs (L := 8) (n := P.n) (out := out) (r := r) (M := M) (l0 := 0) (k := 8)
    (f := fun j => rd b (j * 32) P.n) (by decide)
    (fun j hj => by rw [Nat.zero_add]; exact ⟨by rw [map_range_inj e hj]; exact h' j hj, hl j hj⟩)
    (M₀ := M) ⟨fun _ _ => rfl, hM, fun _ _ _ i hi _ => absurd hi (Nat.not_lt_zero i)⟩
  exact ⟨M', e', w.frame, w.alloc, fun j hj hwin i hi hn => w.val j hj hwin i (by rw [if_pos (by omega)]; exact hi) hn⟩

theorem outs512_mem {seed buf : Bytes} {base stride len : Nat} (hM : ∀ j, j < 8 → M.Alloc (out j) P.n)
    (hl : ∀ j, j < 8 → (r j).length = P.n) (h : outs512 P g seed buf base stride len = .ok ((List.range 8).map r)) :
    ∃ M', outs512M P g out seed buf base stride len M = .ok M' ∧ Wr 8 P.n out r M (fun _ => P.n) M' := by
  unfold outs512 at h
  unfold outs512M
  refine stepM rfl h fun s h => stepM rfl h fun s h => stepM rfl h fun b h => ?_
  obtain ⟨lo, g1, h⟩ := bind_inv h
  obtain ⟨r1, rfl, h1⟩ := tabulate_inv g1
  obtain ⟨ss, g2, h⟩ := bind_inv h
  obtain ⟨os, g3, h⟩ := bind_inv h
  obtain ⟨b2, g4, h⟩ := bind_inv h
  obtain ⟨hi, g5, h⟩ := bind_inv h
  obtain ⟨r2, rfl, h2⟩ := tabulate_inv g5
  have h := Except.ok.inj h
  have e1 : ∀ j, j < 4 → r j = r1 j := by
    intro j hj
    have : ((List.range 8).map r)[j]? = ((List.range 4).map r1)[j]? := by
      rw [← h, List.getElem?_append_left (by simpa using hj)]
    simpa [hj, show j < 8 by omega] using this
  have e2 : ∀ j, j < 4 → r (4 + j) = r2 j := by
    intro j hj
    have : ((List.range 8).map r)[4 + j]? = ((List.range 4).map r2)[j]? := by
      rw [← h, List.getElem?_append_right (by simp)]
      simp
    simpa [hj, show 4 + j < 8 by omega] using this
  obtain ⟨M1, f1, w1⟩ := Wr.outs (L := 8) (n := P.n) (out := out) (r := r) (M := M) (l0 := 0) (k := 4)
    (f := fun j => rd b (j * 64) P.n) (by decide)
    (fun j hj => by rw [Nat.zero_add]; exact ⟨by rw [e1 j hj]; exact h1 j hj, hl j (by omega)⟩)
    (M₀ := M) ⟨fun _ _ => rfl, hM, fun _ _ _ i hi _ => absurd hi (Nat.not_lt_zero i)⟩
  obtain ⟨M2, f2, w⟩ := Wr.outs (L := 8) (n := P.n) (out := out) (r := r) (M := M) (l0 := 4) (k := 4)
    (f := fun j => rd b2 (j * 64) P.n) (by decide)
    (fun j hj => ⟨by rw [e2 j hj]; exact h2 j hj, hl (4 + j) (by omega)⟩) (M₀ := M1) w1
  have f1' : outsM P 4 0 64 out b M = .ok M1 := f1
  have f2' : outsM P 4 4 64 out b2 M1 = .ok M2 := f2
  rw [f1', ok_bind, g2, ok_bind, g3, ok_bind, g4, ok_bind, f2']
  exact ⟨M2, rfl, w.frame, w.alloc, fun j hj hwin i hi hn => w.val j hj hwin i (by rw [if_pos (by omega)]; exact hi) hn⟩

section
variable {blocks : Nat} {inp : Nat → Nat} {d : Nat → Bytes}
  (hin : ∀ j, j < 8 → M.rd (inp j) (blocks * P.n) = .ok (d j))
include hin

theorem simpleBufsM_eq (addrs : List Addr) :
    simpleBufsM P g M inp blocks addrs = simpleBufs P g ((List.range 8).map d) blocks addrs := by
  unfold simpleBufsM simpleBufs
  simp only []
  congr 1
  funext b
  refine forRange_congr fun j s hj => ?_
  rw [rd_in hin hj, bind_assoc]

theorem maskBufsM_eq {k l0 : Nat} (hk : l0 + k ≤ 8) (mask buf : Bytes) :
    maskBufsM P k l0 M inp blocks mask buf = maskBufs P k l0 ((List.range 8).map d) blocks mask buf := by
  unfold maskBufsM maskBufs
  simp only []
  refine forRange_congr fun i b hi => forRange_congr fun j b hj => ?_
  rw [rd1_in hin (by omega) hi, bind_assoc]

end

theorem simple_mem : InPlace 8 P.n (thashx8_simple P g) (thashx8_simpleM P g) := by
  intro M out inp blocks ctx addrs d r hin hM hl h
  unfold thashx8_simple at h
  unfold thashx8_simpleM
  simp only [] at h ⊢
  split at h
  · rename_i hb
    rw [if_pos hb]
    exact stepM (simpleBufsM_eq hin addrs) h fun s h => outs512_mem hM hl h
  · rename_i hb
    rw [if_neg hb]
    exact stepM (simpleBufsM_eq hin addrs) h fun s h => outs256_mem hM hl h

theorem robust_mem : InPlace 8 P.n (thashx8_robust P g) (thashx8_robustM P g) := by
  intro M out inp blocks ctx addrs d r hin hM hl h
  unfold thashx8_robust at h
  unfold thashx8_robustM
  simp only [] at h ⊢
  split at h
  · rename_i hb
    rw [if_pos hb]
    exact stepM rfl h fun s h => stepM rfl h fun s h => stepM rfl h fun s h =>
      stepM (maskBufsM_eq hin (by decide) _ _) h fun s h => stepM rfl h fun s h => stepM rfl h fun s h =>
      stepM (maskBufsM_eq hin (by decide) _ _) h fun s h => outs512_mem hM hl h
  · rename_i hb
    rw [if_neg hb]
    exact stepM rfl h fun s h => stepM rfl h fun s h => stepM rfl h fun s h =>
      stepM (maskBufsM_eq hin (by decide) _ _) h fun s h => outs256_mem hM hl h

theorem thashx_mem : InPlace 8 P.n (lanes P g).thashx (thashxM P g) := by
  unfold thashxM lanes
  show InPlace 8 P.n (if _ then _ else _) _
  split
  · exact robust_mem
  · exact simple_mem

end Sha2X
end Spx
