import Verif.Proof.Sha2XWord
import Verif.Proof.Lanes
/-! The block functions of the vectorised SHA-2 code: every lane computes the block function. -/

namespace Spx.Sha2X
open Spec Spec.Sha2

/-- Lane `l` of a list of registers. -/
def lane {wb : Nat} (s : List (V wb)) (l : Nat) : List (BitVec (8 * wb)) := s.map fun v => v l

theorem lane_length {wb : Nat} (s : List (V wb)) (l : Nat) : (lane s l).length = s.length := by simp [lane]

theorem lane_getD {wb : Nat} (s : List (V wb)) (l i : Nat) : (lane s l).getD i 0 = s.getD i (set1 0) l := by
  unfold lane
  by_cases h : i < s.length
  · rw [getD_lt (by simpa using h), getD_lt h, List.getElem_map]
  · rw [getD_ge (by simpa using h), getD_ge (by simpa using h)]; rfl

/-- The working variables in lane `l` when the roles of the registers have moved `m` places. -/
def regs (A : Alg) (s : List (V A.wb)) (l m : Nat) : Vars A :=
  ⟨s.getD ((0 + 8 - m) % 8) (set1 0) l, s.getD ((1 + 8 - m) % 8) (set1 0) l, s.getD ((2 + 8 - m) % 8) (set1 0) l,
    s.getD ((3 + 8 - m) % 8) (set1 0) l, s.getD ((4 + 8 - m) % 8) (set1 0) l, s.getD ((5 + 8 - m) % 8) (set1 0) l,
    s.getD ((6 + 8 - m) % 8) (set1 0) l, s.getD ((7 + 8 - m) % 8) (set1 0) l⟩

/-- The registers used as `a, …, h` in round `t`. -/
def row (t : Nat) : List Nat :=
  [(0 + 8 - t % 8) % 8, (1 + 8 - t % 8) % 8, (2 + 8 - t % 8) % 8, (3 + 8 - t % 8) % 8, (4 + 8 - t % 8) % 8,
    (5 + 8 - t % 8) % 8, (6 + 8 - t % 8) % 8, (7 + 8 - t % 8) % 8]

theorem rotr {wb : Nat} (x : V wb) {y : Nat} (l : Nat) (h : y < 8 * wb) : ROTR x y l = (x l).rotateRight y := by
  rw [← ROTR_eq _ h]; rfl

theorem S1_256 (x : V 4) (l : Nat) : SIGMA1_256 x l = rot3 alg256 alg256.S1 (x l) := by
  show ROTR x 6 l ^^^ ROTR x 11 l ^^^ ROTR x 25 l = _
  rw [rotr _ _ (by decide), rotr _ _ (by decide), rotr _ _ (by decide)]; rfl
theorem S0_256 (x : V 4) (l : Nat) : SIGMA0_256 x l = rot3 alg256 alg256.S0 (x l) := by
  show ROTR x 2 l ^^^ ROTR x 13 l ^^^ ROTR x 22 l = _
  rw [rotr _ _ (by decide), rotr _ _ (by decide), rotr _ _ (by decide)]; rfl
theorem s1_256 (x : V 4) (l : Nat) : WSIGMA1_256 x l = rot2 alg256 alg256.s1 (x l) := by
  show ROTR x 17 l ^^^ ROTR x 19 l ^^^ (x l) >>> 10 = _
  rw [rotr _ _ (by decide), rotr _ _ (by decide)]; rfl
theorem s0_256 (x : V 4) (l : Nat) : WSIGMA0_256 x l = rot2 alg256 alg256.s0 (x l) := by
  show ROTR x 7 l ^^^ ROTR x 18 l ^^^ (x l) >>> 3 = _
  rw [rotr _ _ (by decide), rotr _ _ (by decide)]; rfl
theorem S1_512 (x : V 8) (l : Nat) : SIGMA1_512 x l = rot3 alg512 alg512.S1 (x l) := by
  show ROTR x 14 l ^^^ ROTR x 18 l ^^^ ROTR x 41 l = _
  rw [rotr _ _ (by decide), rotr _ _ (by decide), rotr _ _ (by decide)]; rfl
theorem S0_512 (x : V 8) (l : Nat) : SIGMA0_512 x l = rot3 alg512 alg512.S0 (x l) := by
  show ROTR x 28 l ^^^ ROTR x 34 l ^^^ ROTR x 39 l = _
  rw [rotr _ _ (by decide), rotr _ _ (by decide), rotr _ _ (by decide)]; rfl
theorem s1_512 (x : V 8) (l : Nat) : GAMMA1_512 x l = rot2 alg512 alg512.s1 (x l) := by
  show ROTR x 19 l ^^^ ROTR x 61 l ^^^ (x l) >>> 6 = _
  rw [rotr _ _ (by decide), rotr _ _ (by decide)]; rfl
theorem s0_512 (x : V 8) (l : Nat) : GAMMA0_512 x l = rot2 alg512 alg512.s0 (x l) := by
  show ROTR x 1 l ^^^ ROTR x 8 l ^^^ (x l) >>> 7 = _
  rw [rotr _ _ (by decide), rotr _ _ (by decide)]; rfl

theorem ch256 (a b c : V 4) (l : Nat) : CH256 a b c l = Ch alg256 (a l) (b l) (c l) := by
  show (a l &&& b l) ^^^ ((a l ^^^ -1#32) &&& c l) = (a l &&& b l) ^^^ (~~~ (a l) &&& c l)
  rw [show (-1#32 : BitVec 32) = BitVec.allOnes 32 from by decide, BitVec.xor_allOnes]

theorem maj256 (a b c : V 4) (l : Nat) : MAJ256 a b c l = Maj alg256 (a l) (b l) (c l) := rfl

theorem ch_bits {w : Nat} (a b c : BitVec w) : c ^^^ (a &&& (b ^^^ c)) = (a &&& b) ^^^ (~~~ a &&& c) := by
  apply BitVec.eq_of_getLsbD_eq
  intro i hi
  simp only [BitVec.getLsbD_xor, BitVec.getLsbD_and, BitVec.getLsbD_not, hi, decide_true, Bool.true_and]
  cases a.getLsbD i <;> cases b.getLsbD i <;> cases c.getLsbD i <;> rfl

theorem maj_bits {w : Nat} (a b c : BitVec w) :
    c ^^^ ((a ^^^ c) &&& (b ^^^ c)) = (a &&& b) ^^^ (a &&& c) ^^^ (b &&& c) := by
  apply BitVec.eq_of_getLsbD_eq
  intro i hi
  simp only [BitVec.getLsbD_xor, BitVec.getLsbD_and]
  cases a.getLsbD i <;> cases b.getLsbD i <;> cases c.getLsbD i <;> rfl

theorem ch512 (a b c : V 8) (l : Nat) : CH512 a b c l = Ch alg512 (a l) (b l) (c l) := ch_bits _ _ _
theorem maj512 (a b c : V 8) (l : Nat) : MAJ512 a b c l = Maj alg512 (a l) (b l) (c l) := maj_bits _ _ _

theorem T0_256 (h e f g : V 4) (k : BitVec 32) (w : V 4) (l : Nat) :
    ADD (ADD (ADD (ADD h (SIGMA1_256 e)) (CH256 e f g)) (set1 k)) w l =
      h l + rot3 alg256 alg256.S1 (e l) + Ch alg256 (e l) (f l) (g l) + k + w l := by
  show h l + SIGMA1_256 e l + CH256 e f g l + k + w l = _
  rw [S1_256, ch256]

theorem T1_256 (a b c : V 4) (l : Nat) :
    ADD (SIGMA0_256 a) (MAJ256 a b c) l = rot3 alg256 alg256.S0 (a l) + Maj alg256 (a l) (b l) (c l) := by
  show SIGMA0_256 a l + MAJ256 a b c l = _
  rw [S0_256, maj256]

theorem T0_512 (h e f g : V 8) (k : BitVec 64) (w : V 8) (l : Nat) :
    ADD (ADD (ADD (ADD h w) (SIGMA1_512 e)) (CH512 e f g)) (set1 k) l =
      h l + rot3 alg512 alg512.S1 (e l) + Ch alg512 (e l) (f l) (g l) + k + w l := by
  show h l + w l + SIGMA1_512 e l + CH512 e f g l + k = _
  rw [S1_512, ch512]
  ac_rfl

theorem T1_512 (a b c : V 8) (l : Nat) :
    ADD (SIGMA0_512 a) (MAJ512 a b c) l = rot3 alg512 alg512.S0 (a l) + Maj alg512 (a l) (b l) (c l) := by
  show SIGMA0_512 a l + MAJ512 a b c l = _
  rw [S0_512, maj512]

theorem list8 {α : Type} {s : List α} (h : s.length = 8) :
    ∃ a b c d e f g i, s = [a, b, c, d, e, f, g, i] := by
  match s, h with
  | [a, b, c, d, e, f, g, i], _ => exact ⟨a, b, c, d, e, f, g, i, rfl⟩

theorem a_256 (a b c e f g h : V 4) (k : BitVec 32) (w : V 4) (l : Nat) :
    ADD (ADD (ADD (ADD (ADD h (SIGMA1_256 e)) (CH256 e f g)) (set1 k)) w) (ADD (SIGMA0_256 a) (MAJ256 a b c)) l =
      h l + rot3 alg256 alg256.S1 (e l) + Ch alg256 (e l) (f l) (g l) + k + w l +
        (rot3 alg256 alg256.S0 (a l) + Maj alg256 (a l) (b l) (c l)) :=
  congr (congrArg (fun x y => x + y) (T0_256 h e f g k w l)) (T1_256 a b c l)

theorem e_256 (d e f g h : V 4) (k : BitVec 32) (w : V 4) (l : Nat) :
    ADD d (ADD (ADD (ADD (ADD h (SIGMA1_256 e)) (CH256 e f g)) (set1 k)) w) l =
      d l + (h l + rot3 alg256 alg256.S1 (e l) + Ch alg256 (e l) (f l) (g l) + k + w l) :=
  congrArg (fun x => d l + x) (T0_256 h e f g k w l)

theorem round256_spec {s : List (V 4)} (hs : s.length = 8) (w : V 4) (t rc wi l : Nat) :
    (ROUND256 w s (row t ++ [rc, wi])).length = 8 ∧
    regs alg256 (ROUND256 w s (row t ++ [rc, wi])) l ((t + 1) % 8) =
      round alg256 (RC256.getD rc 0) (w l) (regs alg256 s l (t % 8)) := by
  obtain ⟨x0, x1, x2, x3, x4, x5, x6, x7, rfl⟩ := list8 hs
  unfold row
  rw [show (t + 1) % 8 = (t % 8 + 1) % 8 by omega]
  have hm : t % 8 < 8 := by omega
  generalize t % 8 = m at hm ⊢
  have h : m = 0 ∨ m = 1 ∨ m = 2 ∨ m = 3 ∨ m = 4 ∨ m = 5 ∨ m = 6 ∨ m = 7 := by omega
  rcases h with rfl | rfl | rfl | rfl | rfl | rfl | rfl | rfl
  · refine ⟨rfl, (Vars.mk.injEq ..).mpr ⟨a_256 x0 x1 x2 x4 x5 x6 x7 (RC256.getD rc 0) w l, rfl, rfl, rfl,
      e_256 x3 x4 x5 x6 x7 (RC256.getD rc 0) w l, rfl, rfl, rfl⟩⟩
  · refine ⟨rfl, (Vars.mk.injEq ..).mpr ⟨a_256 x7 x0 x1 x3 x4 x5 x6 (RC256.getD rc 0) w l, rfl, rfl, rfl,
      e_256 x2 x3 x4 x5 x6 (RC256.getD rc 0) w l, rfl, rfl, rfl⟩⟩
  · refine ⟨rfl, (Vars.mk.injEq ..).mpr ⟨a_256 x6 x7 x0 x2 x3 x4 x5 (RC256.getD rc 0) w l, rfl, rfl, rfl,
      e_256 x1 x2 x3 x4 x5 (RC256.getD rc 0) w l, rfl, rfl, rfl⟩⟩
  · refine ⟨rfl, (Vars.mk.injEq ..).mpr ⟨a_256 x5 x6 x7 x1 x2 x3 x4 (RC256.getD rc 0) w l, rfl, rfl, rfl,
      e_256 x0 x1 x2 x3 x4 (RC256.getD rc 0) w l, rfl, rfl, rfl⟩⟩
  · refine ⟨rfl, (Vars.mk.injEq ..).mpr ⟨a_256 x4 x5 x6 x0 x1 x2 x3 (RC256.getD rc 0) w l, rfl, rfl, rfl,
      e_256 x7 x0 x1 x2 x3 (RC256.getD rc 0) w l, rfl, rfl, rfl⟩⟩
  · refine ⟨rfl, (Vars.mk.injEq ..).mpr ⟨a_256 x3 x4 x5 x7 x0 x1 x2 (RC256.getD rc 0) w l, rfl, rfl, rfl,
      e_256 x6 x7 x0 x1 x2 (RC256.getD rc 0) w l, rfl, rfl, rfl⟩⟩
  · refine ⟨rfl, (Vars.mk.injEq ..).mpr ⟨a_256 x2 x3 x4 x6 x7 x0 x1 (RC256.getD rc 0) w l, rfl, rfl, rfl,
      e_256 x5 x6 x7 x0 x1 (RC256.getD rc 0) w l, rfl, rfl, rfl⟩⟩
  · refine ⟨rfl, (Vars.mk.injEq ..).mpr ⟨a_256 x1 x2 x3 x5 x6 x7 x0 (RC256.getD rc 0) w l, rfl, rfl, rfl,
      e_256 x4 x5 x6 x7 x0 (RC256.getD rc 0) w l, rfl, rfl, rfl⟩⟩

theorem a_512 (a b c e f g h : V 8) (k : BitVec 64) (w : V 8) (l : Nat) :
    ADD (ADD (ADD (ADD (ADD h w) (SIGMA1_512 e)) (CH512 e f g)) (set1 k)) (ADD (SIGMA0_512 a) (MAJ512 a b c)) l =
      h l + rot3 alg512 alg512.S1 (e l) + Ch alg512 (e l) (f l) (g l) + k + w l +
        (rot3 alg512 alg512.S0 (a l) + Maj alg512 (a l) (b l) (c l)) :=
  congr (congrArg (fun x y => x + y) (T0_512 h e f g k w l)) (T1_512 a b c l)

theorem e_512 (d e f g h : V 8) (k : BitVec 64) (w : V 8) (l : Nat) :
    ADD d (ADD (ADD (ADD (ADD h w) (SIGMA1_512 e)) (CH512 e f g)) (set1 k)) l =
      d l + (h l + rot3 alg512 alg512.S1 (e l) + Ch alg512 (e l) (f l) (g l) + k + w l) :=
  congrArg (fun x => d l + x) (T0_512 h e f g k w l)

theorem round512_spec {s : List (V 8)} (hs : s.length = 8) (rc : Nat) (w : V 8) (t : Nat) (r : List Nat) (l : Nat) :
    (ROUND512 rc w s (row t ++ r)).length = 8 ∧
    regs alg512 (ROUND512 rc w s (row t ++ r)) l ((t + 1) % 8) =
      round alg512 (RC512.getD rc 0) (w l) (regs alg512 s l (t % 8)) := by
  obtain ⟨x0, x1, x2, x3, x4, x5, x6, x7, rfl⟩ := list8 hs
  unfold row
  rw [show (t + 1) % 8 = (t % 8 + 1) % 8 by omega]
  have hm : t % 8 < 8 := by omega
  generalize t % 8 = m at hm ⊢
  have h : m = 0 ∨ m = 1 ∨ m = 2 ∨ m = 3 ∨ m = 4 ∨ m = 5 ∨ m = 6 ∨ m = 7 := by omega
  rcases h with rfl | rfl | rfl | rfl | rfl | rfl | rfl | rfl
  · refine ⟨rfl, (Vars.mk.injEq ..).mpr ⟨a_512 x0 x1 x2 x4 x5 x6 x7 (RC512.getD rc 0) w l, rfl, rfl, rfl,
      e_512 x3 x4 x5 x6 x7 (RC512.getD rc 0) w l, rfl, rfl, rfl⟩⟩
  · refine ⟨rfl, (Vars.mk.injEq ..).mpr ⟨a_512 x7 x0 x1 x3 x4 x5 x6 (RC512.getD rc 0) w l, rfl, rfl, rfl,
      e_512 x2 x3 x4 x5 x6 (RC512.getD rc 0) w l, rfl, rfl, rfl⟩⟩
  · refine ⟨rfl, (Vars.mk.injEq ..).mpr ⟨a_512 x6 x7 x0 x2 x3 x4 x5 (RC512.getD rc 0) w l, rfl, rfl, rfl,
      e_512 x1 x2 x3 x4 x5 (RC512.getD rc 0) w l, rfl, rfl, rfl⟩⟩
  · refine ⟨rfl, (Vars.mk.injEq ..).mpr ⟨a_512 x5 x6 x7 x1 x2 x3 x4 (RC512.getD rc 0) w l, rfl, rfl, rfl,
      e_512 x0 x1 x2 x3 x4 (RC512.getD rc 0) w l, rfl, rfl, rfl⟩⟩
  · refine ⟨rfl, (Vars.mk.injEq ..).mpr ⟨a_512 x4 x5 x6 x0 x1 x2 x3 (RC512.getD rc 0) w l, rfl, rfl, rfl,
      e_512 x7 x0 x1 x2 x3 (RC512.getD rc 0) w l, rfl, rfl, rfl⟩⟩
  · refine ⟨rfl, (Vars.mk.injEq ..).mpr ⟨a_512 x3 x4 x5 x7 x0 x1 x2 (RC512.getD rc 0) w l, rfl, rfl, rfl,
      e_512 x6 x7 x0 x1 x2 (RC512.getD rc 0) w l, rfl, rfl, rfl⟩⟩
  · refine ⟨rfl, (Vars.mk.injEq ..).mpr ⟨a_512 x2 x3 x4 x6 x7 x0 x1 (RC512.getD rc 0) w l, rfl, rfl, rfl,
      e_512 x5 x6 x7 x0 x1 (RC512.getD rc 0) w l, rfl, rfl, rfl⟩⟩
  · refine ⟨rfl, (Vars.mk.injEq ..).mpr ⟨a_512 x1 x2 x3 x5 x6 x7 x0 (RC512.getD rc 0) w l, rfl, rfl, rfl,
      e_512 x4 x5 x6 x7 x0 (RC512.getD rc 0) w l, rfl, rfl, rfl⟩⟩

theorem rc256 {t : Nat} (h : t < 64) : RC256.getD t 0 = K alg256 t :=
  (show RC256.getD t 0 = _root_.Spx.Sha2.cfg256.K.getD t 0 from rfl).trans (cfg256_ok.K t h)

theorem rc512 {t : Nat} (h : t < 80) : RC512.getD t 0 = K alg512 t :=
  (show RC512.getD t 0 = _root_.Spx.Sha2.cfg512.K.getD t 0 from rfl).trans (cfg512_ok.K t h)

set_option maxRecDepth 4000 in
theorem prog256_eq : prog256 = (List.range 16).map (fun t => Op.R (row t ++ [t, t])) ++
    (List.range 48).flatMap (fun k => [Op.W [k + 16, k + 14, k, k + 9, k + 1],
      Op.R (row (k + 16) ++ [k + 16, k + 16])]) := rfl

section
variable {M : Nat → Nat → BitVec 32} {w s : List (V 4)} (hs : s.length = 8) (hwl : w.length = 16)
  (hw : ∀ l, l < 8 → ∀ i, i < 16 → w.getD i (set1 0) l = M l i)
include hs hwl hw

omit hwl in
theorem prog_first (n : Nat) (hn : n ≤ 16) :
    ∃ s', ((List.range n).map (fun t => Op.R (row t ++ [t, t]))).foldl Op.run (w, s) = (w, s') ∧ s'.length = 8 ∧
      ∀ l, l < 8 → regs alg256 s' l (n % 8) = rounds alg256 (wd alg256 (M l)) (regs alg256 s l 0) n := by
  induction n with
  | zero => exact ⟨s, rfl, hs, fun _ _ => rfl⟩
  | succ n ih =>
    obtain ⟨s', h1, h2, h3⟩ := ih (by omega)
    refine ⟨ROUND256 (w.getD n (set1 0)) s' (row n ++ [n, n]), ?_, (round256_spec h2 _ _ _ _ 0).1, ?_⟩
    · rw [List.range_succ, List.map_append, List.foldl_append, h1]
      rfl
    · intro l hl
      rw [(round256_spec h2 _ _ _ _ l).2, h3 l hl, rc256 (by omega), hw l hl n (by omega), rounds,
        wd_lt _ (by omega)]

theorem prog_second (n : Nat) (hn : n ≤ 48) :
    ∃ w' s', ((List.range 16).map (fun t => Op.R (row t ++ [t, t])) ++
      (List.range n).flatMap (fun k => [Op.W [k + 16, k + 14, k, k + 9, k + 1],
        Op.R (row (k + 16) ++ [k + 16, k + 16])])).foldl Op.run (w, s) = (w', s') ∧
      w'.length = 16 + n ∧ s'.length = 8 ∧
      (∀ l, l < 8 → ∀ i, i < 16 + n → w'.getD i (set1 0) l = wd alg256 (M l) i) ∧
      ∀ l, l < 8 → regs alg256 s' l ((n + 16) % 8) =
        rounds alg256 (wd alg256 (M l)) (regs alg256 s l 0) (n + 16) := by
  induction n with
  | zero =>
    obtain ⟨s', h1, h2, h3⟩ := prog_first hs hw 16 (by omega)
    refine ⟨w, s', ?_, hwl, h2, ?_, fun l hl => h3 l hl⟩
    · rw [List.range_zero, List.flatMap_nil, List.append_nil, h1]
    · intro l hl i hi
      rw [hw l hl i hi, wd_lt _ hi]
  | succ n ih =>
    obtain ⟨w', s', h1, h2, h3, h4, h5⟩ := ih (by omega)
    obtain ⟨x, hx⟩ : ∃ x, x = ADD (ADD (ADD (WSIGMA1_256 (w'.getD (n + 14) (set1 0))) (w'.getD n (set1 0)))
      (w'.getD (n + 9) (set1 0))) (WSIGMA0_256 (w'.getD (n + 1) (set1 0))) := ⟨_, rfl⟩
    have hxl : ∀ l, l < 8 → x l = wd alg256 (M l) (n + 16) := by
      intro l hl
      rw [hx]
      show WSIGMA1_256 (w'.getD (n + 14) (set1 0)) l + w'.getD n (set1 0) l + w'.getD (n + 9) (set1 0) l +
        WSIGMA0_256 (w'.getD (n + 1) (set1 0)) l = _
      rw [s1_256, s0_256, h4 l hl _ (by omega), h4 l hl _ (by omega), h4 l hl _ (by omega), h4 l hl _ (by omega),
        wd_ge _ (show 16 ≤ n + 16 by omega), show n + 16 - 2 = n + 14 by omega, show n + 16 - 7 = n + 9 by omega,
        show n + 16 - 15 = n + 1 by omega, show n + 16 - 16 = n by omega]
      ac_rfl
    have hg : (w' ++ [x]).getD (n + 16) (set1 0) = x := by
      rw [getD_append_right (by omega), show n + 16 - w'.length = 0 by omega]; rfl
    refine ⟨w' ++ [x], ROUND256 x s' (row (n + 16) ++ [n + 16, n + 16]), ?_, ?_,
      (round256_spec h3 _ _ _ _ 0).1, ?_, ?_⟩
    · rw [List.range_succ (n := n), List.flatMap_append, ← List.append_assoc, List.foldl_append, h1]
      show Op.run (Op.run (w', s') (.W [n + 16, n + 14, n, n + 9, n + 1])) (.R (row (n + 16) ++ [n + 16, n + 16])) = _
      rw [show Op.run (w', s') (.W [n + 16, n + 14, n, n + 9, n + 1]) = (w' ++ [x], s') from by rw [hx]; rfl]
      show (w' ++ [x], ROUND256 ((w' ++ [x]).getD (n + 16) (set1 0)) s' (row (n + 16) ++ [n + 16, n + 16])) = _
      rw [hg]
    · simp; omega
    · intro l hl i hi
      by_cases h : i < 16 + n
      · rw [getD_append_left (by omega), h4 l hl i h]
      · rw [show i = n + 16 by omega, hg, hxl l hl]
    · intro l hl
      rw [show n + 1 + 16 = n + 16 + 1 by omega, (round256_spec h3 _ _ _ _ l).2, h5 l hl, rc256 (by omega),
        hxl l hl]
      rfl

end

theorem regs_zero (A : Alg) (s : List (V A.wb)) (l : Nat) : regs A s l 0 = ofList A (lane s l) := by
  unfold regs ofList
  simp only [lane_getD]

/-- The feed-forward. -/
theorem lane_ff {A : Alg} {s cs : List (V A.wb)} (hc : cs.length = 8) {l : Nat} {v : Vars A}
    (h : regs A s l 0 = v) :
    lane ((List.range 8).map fun i => ADD (s.getD i (set1 0)) (cs.getD i (set1 0))) l =
      List.zipWith (· + ·) (toList A v) (lane cs l) := by
  obtain ⟨x0, x1, x2, x3, x4, x5, x6, x7, rfl⟩ := list8 hc
  subst h
  rfl

/-- Every lane of `sha256_transform8x` is the block function. -/
theorem transform256_spec {cs : List (V 4)} {data : List Bytes} (hc : cs.length = 8) (hd : data.length = 8)
    (hl : ∀ j, j < 8 → 64 ≤ (data.getD j []).length) :
    ∃ s, transform256 cs data = .ok s ∧ s.length = 8 ∧
      ∀ l, l < 8 → lane s l = compress alg256 (lane cs l) ((data.getD l []).take 64) := by
  have hlo : ∀ j, j < 8 → ∃ v, LOAD 4 (data.getD j []) 0 = .ok v ∧
      ∀ l, l < 8 → BYTESWAP256 v l = word alg256 (data.getD j []) l := by
    intro j hj
    obtain ⟨v, h1, h2⟩ := load256 (b := data.getD j []) (off := 0) (by have := hl j hj; omega)
    exact ⟨v, h1, fun l hl => by rw [h2 l hl, Nat.mul_zero, Nat.zero_add]⟩
  have hhi : ∀ j, j < 8 → ∃ v, LOAD 4 (data.getD j []) 32 = .ok v ∧
      ∀ l, l < 8 → BYTESWAP256 v l = word alg256 (data.getD j []) (8 + l) := by
    intro j hj
    exact load256 (b := data.getD j []) (off := 1) (by have := hl j hj; omega)
  have hch : ∀ (Q : Nat → V 4 → Prop), (∀ j, j < 8 → ∃ v, Q j v) → ∃ F : Nat → V 4, ∀ j, j < 8 → Q j (F j) := by
    intro Q hQ
    refine ⟨fun j => if h : j < 8 then (hQ j h).choose else set1 0, fun j hj => ?_⟩
    simp only [hj, dif_pos]
    exact (hQ j hj).choose_spec
  obtain ⟨F, hF⟩ := hch _ hlo
  obtain ⟨G, hG⟩ := hch _ hhi
  have hr : ∀ j, j < 8 → rd1 data j = .ok (data.getD j []) := fun j hj => by
    rw [rd1_ok (by omega), getD_lt (by omega)]
  have e1 : (tabulate 8 fun j => do .ok (BYTESWAP256 (← LOAD 4 (← rd1 data j) 0)) : C (List (V 4))) =
      .ok ((List.range 8).map fun j => BYTESWAP256 (F j)) :=
    tabulate_ok fun j hj => by rw [hr j hj, ok_bind, (hF j hj).1]; rfl
  have e2 : (tabulate 8 fun j => do .ok (BYTESWAP256 (← LOAD 4 (← rd1 data j) 32)) : C (List (V 4))) =
      .ok ((List.range 8).map fun j => BYTESWAP256 (G j)) :=
    tabulate_ok fun j hj => by rw [hr j hj, ok_bind, (hG j hj).1]; rfl
  obtain ⟨w, hwd⟩ : ∃ w, w = transpose256 ((List.range 8).map fun j => BYTESWAP256 (F j)) ++
    transpose256 ((List.range 8).map fun j => BYTESWAP256 (G j)) := ⟨_, rfl⟩
  have hwl : w.length = 16 := by rw [hwd]; rfl
  have hgetm : ∀ (f : Nat → V 4) l, l < 8 → ((List.range 8).map f).getD l (set1 0) = f l := by
    intro f l hl
    rw [getD_lt (by simpa using hl), List.getElem_map, List.getElem_range]
  have hw : ∀ l, l < 8 → ∀ i, i < 16 → w.getD i (set1 0) l = word alg256 ((data.getD l []).take 64) i := by
    intro l hl i hi
    rw [word_take _ (show (i + 1) * 4 ≤ 64 by omega), hwd]
    by_cases h : i < 8
    · rw [getD_append_left (by exact h), transpose256_get _ h hl, hgetm _ l hl, (hF l hl).2 i h]
    · rw [getD_append_right (by show 8 ≤ i; omega), transpose256_get _ (by show i - 8 < 8; omega) hl, hgetm _ l hl,
        (hG l hl).2 _ (by show i - 8 < 8; omega)]
      congr 1
      show 8 + (i - 8) = i
      omega
  obtain ⟨w', s', h1, _, h3, _, h5⟩ := prog_second hc hwl hw 48 (by omega)
  refine ⟨(List.range 8).map fun i => ADD (s'.getD i (set1 0)) (cs.getD i (set1 0)), ?_, by simp, ?_⟩
  · unfold transform256
    rw [e1, ok_bind, e2, ok_bind]
    simp only [← hwd]
    rw [prog256_eq, h1]
  · intro l hl
    rw [lane_ff hc (h5 l hl), regs_zero]
    unfold compress
    rw [sha_rounds_congr _ _ fun t ht => (schedule_getD (A := alg256) _ ht).symm]

theorem rows512_eq : rows512 = (List.range 16).map fun j => row j ++ [j, j] := rfl
theorem loopRows512_eq : loopRows512 = (List.range 16).map fun j => row j ++ [j, j] := rfl

theorem row_getD8 (t : Nat) (r : List Nat) : (row t ++ r).getD 8 0 = r.getD 0 0 := rfl
theorem row_getD9 (t : Nat) (r : List Nat) : (row t ++ r).getD 9 0 = r.getD 1 0 := rfl

/-- `w` while the loop body with start `i` has done `j` steps. -/
def WInv (M : Nat → Nat → BitVec 64) (i j : Nat) (w : List (V 8)) : Prop :=
  w.length = 16 ∧ ∀ l, l < 4 → ∀ k, k < 16 → w.getD k (set1 0) l = wd alg512 (M l) (if k < j then i + k else i + k - 16)

theorem winv_get {M : Nat → Nat → BitVec 64} {i j : Nat} {w : List (V 8)} (h : WInv M i j w) (hi : 16 ≤ i) (hj : j < 16)
    {l : Nat} (hl : l < 4) {d : Nat} (h1 : 1 ≤ d) (h2 : d ≤ 16) :
    w.getD (Sha2X.M (j + 16 - d)) (set1 0) l = wd alg512 (M l) (i + j - d) := by
  have hm : Sha2X.M (j + 16 - d) = (j + 16 - d) % 16 := Nat.and_two_pow_sub_one_eq_mod _ 4
  rw [hm, h.2 l hl _ (by omega)]
  congr 1
  split <;> omega

theorem nextW_spec {M : Nat → Nat → BitVec 64} {i j : Nat} {w : List (V 8)} (h : WInv M i j w) (hi : 16 ≤ i) (hj : j < 16) :
    ∃ x, NextW w j = (w.set j x, x) ∧ WInv M i (j + 1) (w.set j x) ∧ ∀ l, l < 4 → x l = wd alg512 (M l) (i + j) := by
  obtain ⟨x, hx⟩ : ∃ x, x = (NextW w j).2 := ⟨_, rfl⟩
  have hxl : ∀ l, l < 4 → x l = wd alg512 (M l) (i + j) := by
    intro l hl
    rw [hx]
    show GAMMA1_512 (w.getD (Sha2X.M (j + 16 - 2)) (set1 0)) l + w.getD (Sha2X.M (j + 16 - 7)) (set1 0) l +
      GAMMA0_512 (w.getD (Sha2X.M (j + 16 - 15)) (set1 0)) l + w.getD (Sha2X.M (j + 16 - 16)) (set1 0) l = _
    rw [s1_512, s0_512, winv_get h hi hj hl (by omega) (by omega), winv_get h hi hj hl (by omega) (by omega),
      winv_get h hi hj hl (by omega) (by omega), winv_get h hi hj hl (by omega) (by omega),
      wd_ge _ (show 16 ≤ i + j by omega)]
  have hm : Sha2X.M (j + 16) = j := (Nat.and_two_pow_sub_one_eq_mod _ 4).trans (by omega)
  refine ⟨x, ?_, ⟨by rw [List.length_set]; exact h.1, ?_⟩, hxl⟩
  · have : NextW w j = (w.set (Sha2X.M (j + 16)) (NextW w j).2, (NextW w j).2) := rfl
    rw [this, ← hx, hm]
  · intro l hl k hk
    have hw := h.1
    by_cases hkj : k = j
    · subst hkj
      rw [getD_lt (by rw [List.length_set]; omega), List.getElem_set_self, if_pos (by omega), hxl l hl]
    · have := h.2 l hl k hk
      rw [getD_lt (by omega)] at this
      rw [getD_lt (by rw [List.length_set]; omega), List.getElem_set_ne (by omega), this]
      congr 1
      split <;> split <;> omega

section
variable {M : Nat → Nat → BitVec 64} {v0 : Nat → Vars alg512}

theorem loop512_prefix {i : Nat} {w s : List (V 8)} (hw : WInv M i 0 w) (hs : s.length = 8) (hi : 16 ≤ i) (h8 : i % 8 = 0)
    (h80 : i ≤ 64) (hr : ∀ l, l < 4 → regs alg512 s l 0 = rounds alg512 (wd alg512 (M l)) (v0 l) i)
    (n : Nat) (hn : n ≤ 16) :
    ∃ w' s', ((List.range n).map fun j => row j ++ [j, j]).foldl (fun x r =>
      (((NextW x.1 (r.getD 9 0)).1, ROUND512 (i + r.getD 8 0) (NextW x.1 (r.getD 9 0)).2 x.2 r) : List (V 8) × List (V 8)))
        (w, s) = (w', s') ∧ WInv M i n w' ∧ s'.length = 8 ∧
      ∀ l, l < 4 → regs alg512 s' l (n % 8) = rounds alg512 (wd alg512 (M l)) (v0 l) (i + n) := by
  induction n with
  | zero => exact ⟨w, s, rfl, hw, hs, hr⟩
  | succ n ih =>
    obtain ⟨w', s', h1, h2, h3, h4⟩ := ih (by omega)
    obtain ⟨x, e1, e2, e3⟩ := nextW_spec h2 hi (show n < 16 by omega)
    refine ⟨w'.set n x, ROUND512 (i + n) x s' (row n ++ [n, n]), ?_, e2, (round512_spec h3 _ _ _ _ 0).1, ?_⟩
    · rw [List.range_succ, List.map_append, List.foldl_append, h1]
      show ((NextW w' n).1, ROUND512 (i + n) (NextW w' n).2 s' (row n ++ [n, n])) = _
      rw [e1]
    · intro l hl
      rw [(round512_spec h3 _ _ _ _ l).2, h4 l hl, rc512 (by omega), e3 l hl]
      rfl

theorem loop512_spec {i : Nat} {w s : List (V 8)} (hw : WInv M i 0 w) (hs : s.length = 8) (hi : 16 ≤ i) (h8 : i % 8 = 0)
    (h80 : i ≤ 64) (hr : ∀ l, l < 4 → regs alg512 s l 0 = rounds alg512 (wd alg512 (M l)) (v0 l) i) :
    ∃ w' s', loop512 i (w, s) = (w', s') ∧ WInv M (i + 16) 0 w' ∧ s'.length = 8 ∧
      ∀ l, l < 4 → regs alg512 s' l 0 = rounds alg512 (wd alg512 (M l)) (v0 l) (i + 16) := by
  obtain ⟨w', s', h1, h2, h3, h4⟩ := loop512_prefix hw hs hi h8 h80 hr 16 (by omega)
  refine ⟨w', s', ?_, ⟨h2.1, ?_⟩, h3, h4⟩
  · rw [loop512, loopRows512_eq]
    exact h1
  · intro l hl k hk
    rw [h2.2 l hl k hk, if_pos hk, if_neg (by omega)]
    congr 1
    omega

theorem loops512 {w s : List (V 8)} (hw : WInv M 16 0 w) (hs : s.length = 8)
    (hr : ∀ l, l < 4 → regs alg512 s l 0 = rounds alg512 (wd alg512 (M l)) (v0 l) 16) (n : Nat) (hn : n ≤ 4) :
    ∃ w' s', (List.range n).foldl (fun x k => loop512 (16 + 16 * k) x) (w, s) = (w', s') ∧
      WInv M (16 + 16 * n) 0 w' ∧ s'.length = 8 ∧
      ∀ l, l < 4 → regs alg512 s' l 0 = rounds alg512 (wd alg512 (M l)) (v0 l) (16 + 16 * n) := by
  induction n with
  | zero => exact ⟨w, s, rfl, hw, hs, hr⟩
  | succ n ih =>
    obtain ⟨w', s', h1, h2, h3, h4⟩ := ih (by omega)
    obtain ⟨w2, s2, e1, e2, e3, e4⟩ := loop512_spec h2 h3 (by omega) (by omega) (by omega) h4
    refine ⟨w2, s2, ?_, e2, e3, e4⟩
    rw [List.range_succ, List.foldl_append, h1, List.foldl_cons, List.foldl_nil]
    exact e1

theorem first512 {w s : List (V 8)} (hs : s.length = 8)
    (hw : ∀ l, l < 4 → ∀ i, i < 16 → w.getD i (set1 0) l = M l i) (n : Nat) (hn : n ≤ 16) :
    ∃ s', ((List.range n).map fun j => row j ++ [j, j]).foldl (fun s r =>
      ROUND512 (r.getD 8 0) (w.getD (r.getD 9 0) (set1 0)) s r) s = s' ∧ s'.length = 8 ∧
      ∀ l, l < 4 → regs alg512 s' l (n % 8) = rounds alg512 (wd alg512 (M l)) (regs alg512 s l 0) n := by
  induction n with
  | zero => exact ⟨s, rfl, hs, fun _ _ => rfl⟩
  | succ n ih =>
    obtain ⟨s', h1, h2, h3⟩ := ih (by omega)
    refine ⟨ROUND512 n (w.getD n (set1 0)) s' (row n ++ [n, n]), ?_, (round512_spec h2 _ _ _ _ 0).1, ?_⟩
    · rw [List.range_succ, List.map_append, List.foldl_append, h1]
      rfl
    · intro l hl
      rw [(round512_spec h2 _ _ _ _ l).2, h3 l hl, rc512 (by omega), hw l hl n (by omega), rounds,
        wd_lt _ (by omega)]

end

theorem core512 {w cs : List (V 8)} {m : Nat → Bytes} (hc : cs.length = 8) (hwl : w.length = 16)
    (hw : ∀ l, l < 4 → ∀ i, i < 16 → w.getD i (set1 0) l = word alg512 (m l) i) :
    ∃ s', ((List.range 4).foldl (fun x k => loop512 (16 + 16 * k) x)
      (w, rows512.foldl (fun s r => ROUND512 (r.getD 8 0) (w.getD (r.getD 9 0) (set1 0)) s r) cs)).2 = s' ∧
      ∀ l, l < 4 → regs alg512 s' l 0 =
        rounds alg512 (wd alg512 (word alg512 (m l))) (regs alg512 cs l 0) 80 := by
  obtain ⟨s1, h1, h2, h3⟩ := first512 hc hw 16 (by omega)
  have hwi : WInv (fun l => word alg512 (m l)) 16 0 w := by
    refine ⟨hwl, fun l hl k hk => ?_⟩
    rw [hw l hl k hk, if_neg (by omega), show 16 + k - 16 = k by omega, wd_lt _ hk]
  obtain ⟨w', s', e1, _, e3, e4⟩ := loops512 hwi h2 h3 4 (by omega)
  refine ⟨s', ?_, e4⟩
  rw [rows512_eq]
  exact (congrArg (fun s => ((List.range 4).foldl (fun x k => loop512 (16 + 16 * k) x) (w, s)).2) h1).trans
    (congrArg Prod.snd e1)

attribute [local irreducible] loop512

/-- Every lane of `sha512_transform4x` is the block function. -/
theorem transform512_spec {cs : List (V 8)} {data : List Bytes} (hc : cs.length = 8) (hd : data.length = 4)
    (hl : ∀ j, j < 4 → 128 ≤ (data.getD j []).length) :
    ∃ s, transform512 cs data = .ok s ∧ s.length = 8 ∧
      ∀ l, l < 4 → lane s l = compress alg512 (lane cs l) ((data.getD l []).take 128) := by
  have hload : ∀ q, q < 4 → ∀ j, j < 4 → ∃ v, LOAD 8 (data.getD j []) (32 * q) = .ok v ∧
      ∀ l, l < 4 → BYTESWAP512 v l = word alg512 (data.getD j []) (4 * q + l) := by
    intro q hq j hj
    exact load512 (b := data.getD j []) (off := q) (by have := hl j hj; omega)
  have hch : ∀ (Q : Nat → V 8 → Prop), (∀ j, j < 4 → ∃ v, Q j v) → ∃ F : Nat → V 8, ∀ j, j < 4 → Q j (F j) := by
    intro Q hQ
    refine ⟨fun j => if h : j < 4 then (hQ j h).choose else set1 0, fun j hj => ?_⟩
    simp only [hj, dif_pos]
    exact (hQ j hj).choose_spec
  obtain ⟨F0, hF0⟩ := hch _ (hload 0 (by omega))
  obtain ⟨F1, hF1⟩ := hch _ (hload 1 (by omega))
  obtain ⟨F2, hF2⟩ := hch _ (hload 2 (by omega))
  obtain ⟨F3, hF3⟩ := hch _ (hload 3 (by omega))
  have hr : ∀ j, j < 4 → rd1 data j = .ok (data.getD j []) := fun j hj => by
    rw [rd1_ok (by omega), getD_lt (by omega)]
  have et : ∀ (F : Nat → V 8) off, (∀ j, j < 4 → LOAD 8 (data.getD j []) off = .ok (F j)) →
      (tabulate 4 fun j => do .ok (BYTESWAP512 (← LOAD 8 (← rd1 data j) off)) : C (List (V 8))) =
      .ok ((List.range 4).map fun j => BYTESWAP512 (F j)) :=
    fun F off h => tabulate_ok fun j hj => by rw [hr j hj, ok_bind, h j hj]; rfl
  obtain ⟨w, hwd⟩ : ∃ w, w = transpose512 ((List.range 4).map fun j => BYTESWAP512 (F0 j)) ++
    transpose512 ((List.range 4).map fun j => BYTESWAP512 (F1 j)) ++
    transpose512 ((List.range 4).map fun j => BYTESWAP512 (F2 j)) ++
    transpose512 ((List.range 4).map fun j => BYTESWAP512 (F3 j)) := ⟨_, rfl⟩
  have hwl : w.length = 16 := by rw [hwd]; rfl
  have hgetm : ∀ (f : Nat → V 8) l, l < 4 → ((List.range 4).map f).getD l (set1 0) = f l := by
    intro f l hl
    rw [getD_lt (by simpa using hl), List.getElem_map, List.getElem_range]
  have hw : ∀ l, l < 4 → ∀ i, i < 16 → w.getD i (set1 0) l = word alg512 ((data.getD l []).take 128) i := by
    intro l hl i hi
    rw [word_take _ (show (i + 1) * 8 ≤ 128 by omega), hwd]
    by_cases h1 : i < 4
    · rw [getD_append_left (by show i < 12; omega), getD_append_left (by show i < 8; omega),
        getD_append_left (by show i < 4; omega), transpose512_get _ h1 hl, hgetm _ l hl, (hF0 l hl).2 i h1,
        show 4 * 0 + i = i by omega]
    · by_cases h2 : i < 8
      · rw [getD_append_left (by show i < 12; omega), getD_append_left (by show i < 8; omega),
          getD_append_right (by show 4 ≤ i; omega), transpose512_get _ (by show i - 4 < 4; omega) hl, hgetm _ l hl,
          (hF1 l hl).2 _ (by show i - 4 < 4; omega)]
        congr 1
        show 4 * 1 + (i - 4) = i
        omega
      · by_cases h3 : i < 12
        · rw [getD_append_left (by show i < 12; omega), getD_append_right (by show 8 ≤ i; omega),
            transpose512_get _ (by show i - 8 < 4; omega) hl, hgetm _ l hl, (hF2 l hl).2 _ (by show i - 8 < 4; omega)]
          congr 1
          show 4 * 2 + (i - 8) = i
          omega
        · rw [getD_append_right (by show 12 ≤ i; omega), transpose512_get _ (by show i - 12 < 4; omega) hl,
            hgetm _ l hl, (hF3 l hl).2 _ (by show i - 12 < 4; omega)]
          congr 1
          show 4 * 3 + (i - 12) = i
          omega
  obtain ⟨s', h1, e4⟩ := core512 hc hwl hw
  refine ⟨(List.range 8).map fun i => ADD (s'.getD i (set1 0)) (cs.getD i (set1 0)), ?_, by simp, ?_⟩
  · unfold transform512
    rw [et F0 0 fun j hj => (hF0 j hj).1, ok_bind, et F1 32 fun j hj => (hF1 j hj).1, ok_bind,
      et F2 64 fun j hj => (hF2 j hj).1, ok_bind, et F3 96 fun j hj => (hF3 j hj).1, ok_bind]
    simp only [← hwd]
    rw [h1]
  · intro l hl
    rw [lane_ff hc (e4 l hl), regs_zero]
    unfold compress
    rw [sha_rounds_congr _ _ fun t ht => (schedule_getD (A := alg512) _ ht).symm]

end Spx.Sha2X
