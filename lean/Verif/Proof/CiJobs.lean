import Verif.Model.Ci
/-! # Lemmas for C91: make, the jobs and the benchmarks -/

namespace Spx.Ci
open Kat Vectors

/-- What is there of the programs of a directory was built with `c`. -/
def Fresh (dir : Bytes) (c : Config) (progs : List Bytes) (s : State) : Prop :=
  ∀ p ∈ progs, s.files dir p = none ∨ s.files dir p = some c

section
variable (T : Tools) (dir : Bytes) (c : Config)

theorem build_fresh {progs : List Bytes} {s : State} (h : Fresh dir c progs s) (p : Bytes) :
    Fresh dir c progs (build T dir c p s).2 ∧ (build T dir c p s).2.log = s.log := by
  unfold build
  split
  · exact ⟨h, rfl⟩
  · split
    · refine ⟨fun q hq => ?_, rfl⟩
      dsimp only
      split
      · exact Or.inr rfl
      · exact h q hq
    · exact ⟨h, rfl⟩

/-- A program is built if it is there or can be compiled. -/
theorem build_there (p : Bytes) (s : State) : (build T dir c p s).1 = true ↔
    ((s.files dir p).isSome = true ∨ T.compiles dir p c = true) := by
  unfold build
  split
  · simp_all
  · split <;> simp_all

theorem build_some {p : Bytes} {s : State} (h : (build T dir c p s).1 = true) :
    ((build T dir c p s).2.files dir p).isSome = true := by
  unfold build at h ⊢
  split
  · assumption
  · split
    · simp
    · simp_all

theorem build_mono {p q : Bytes} {s : State} (h : (s.files dir q).isSome = true) :
    ((build T dir c p s).2.files dir q).isSome = true := by
  unfold build
  split
  · exact h
  · split
    · dsimp only
      split
      · rfl
      · exact h
    · exact h

/-- Programs that were not there before can be compiled. -/
def Sound (progs : List Bytes) (s : State) : Prop := ∀ p ∈ progs, (s.files dir p).isSome = true → T.compiles dir p c = true

theorem build_sound {progs : List Bytes} {s : State} (h : Sound T dir c progs s) (p : Bytes) :
    Sound T dir c progs (build T dir c p s).2 := by
  unfold build
  split
  · exact h
  · split
    · intro q hq hs
      dsimp only at hs
      split at hs
      · next h1 => rw [h1.2]; assumption
      · exact h q hq hs
    · exact h

theorem builds {progs : List Bytes} : ∀ (l : List Bytes) {s : State}, (∀ p ∈ l, p ∈ progs) → Fresh dir c progs s →
    Sound T dir c progs s →
    Fresh dir c progs (inOrder (build T dir c) l s).2 ∧ Sound T dir c progs (inOrder (build T dir c) l s).2 ∧
      (inOrder (build T dir c) l s).2.log = s.log ∧
      ((inOrder (build T dir c) l s).1 = true ↔ ∀ p ∈ l, T.compiles dir p c = true)
  | [], s, _, h, h' => ⟨h, h', rfl, by simp [inOrder]⟩
  | p :: l, s, hl, h, h' => by
    have h1 := build_fresh T dir c h p
    have h2 := build_sound T dir c h' p
    have h3 := build_there T dir c p s
    have h4 : (build T dir c p s).1 = true ↔ T.compiles dir p c = true :=
      h3.trans ⟨fun x => x.elim (h' p (hl p List.mem_cons_self)) id, Or.inr⟩
    unfold inOrder
    generalize build T dir c p s = r at h1 h2 h4
    obtain ⟨b, s'⟩ := r
    cases b with
    | false =>
      refine ⟨h1.1, h2, h1.2, ?_⟩
      constructor
      · intro x; cases x
      · intro x
        exact h4.mpr (x p List.mem_cons_self)
    | true =>
      have ih := builds l (s := s') (fun q hq => hl q (List.mem_cons_of_mem _ hq)) h1.1 h2
      refine ⟨ih.1, ih.2.1, ih.2.2.1.trans h1.2, ih.2.2.2.trans ?_⟩
      simp [h4.mp rfl]

theorem exec_fresh {progs : List Bytes} {s : State} (h : Fresh dir c progs s) (h' : Sound T dir c progs s) {p : Bytes}
    (hp : p ∈ progs) : Fresh dir c progs (exec T dir c p s).2 ∧ Sound T dir c progs (exec T dir c p s).2 ∧
    (exec T dir c p s).2.log = s.log ++ (if T.compiles dir p c then [.ran dir p c] else []) ∧
    ((exec T dir c p s).1 = true ↔ T.compiles dir p c = true ∧ T.runs s.log.length dir p c = true) := by
  have h1 := build_fresh T dir c h p
  have h2 := build_sound T dir c h' p
  have h3 := build_there T dir c p s
  have h4 : (build T dir c p s).1 = true ↔ T.compiles dir p c = true :=
    h3.trans ⟨fun x => x.elim (h' p hp) id, Or.inr⟩
  have h5 := build_some T dir c (p := p) (s := s)
  unfold exec
  generalize build T dir c p s = r at h1 h2 h4 h5
  obtain ⟨b, s'⟩ := r
  cases b with
  | false =>
    have h6 : T.compiles dir p c = false := by
      rw [Bool.eq_false_iff]; intro x; exact absurd (h4.mpr x) (by simp)
    refine ⟨h1.1, h2, ?_, ?_⟩
    · simpa [h6] using h1.2
    · simp [h6]
  | true =>
    have h6 := h4.mp rfl
    have h7 := h5 rfl
    dsimp only at h7 h1 h2 ⊢
    rcases h1.1 p hp with h8 | h8
    · rw [h8] at h7; cases h7
    · rw [h8]
      refine ⟨h1.1, h2, ?_, ?_⟩
      · simp [h6, h1.2]
      · simp [h6, h1.2]

theorem execs {progs : List Bytes} : ∀ (l : List Bytes) {s : State}, (∀ p ∈ l, p ∈ progs) → Fresh dir c progs s →
    Sound T dir c progs s → (∀ p ∈ l, T.compiles dir p c = true) →
    ∃ evs, (inOrder (exec T dir c) l s).2.log = s.log ++ evs ∧ evs <+: l.map (.ran dir · c) ∧
      ((inOrder (exec T dir c) l s).1 = true → evs = l.map (.ran dir · c)) ∧
      ((inOrder (exec T dir c) l s).1 = true ↔ ∀ i (hi : i < l.length), T.runs (s.log.length + i) dir l[i] c = true)
  | [], s, _, _, _, _ => ⟨[], by simp [inOrder], by simp, fun _ => rfl, by simp [inOrder]⟩
  | p :: l, s, hl, h, h', hc => by
    obtain ⟨h1, h2, h3, h4⟩ := exec_fresh T dir c h h' (hl p List.mem_cons_self)
    have h5 := hc p List.mem_cons_self
    unfold inOrder
    generalize exec T dir c p s = r at h1 h2 h3 h4
    obtain ⟨b, s'⟩ := r
    rw [if_pos h5] at h3
    cases b with
    | false =>
      refine ⟨_, h3, by simp, fun x => (by cases x), ?_⟩
      constructor
      · intro x; cases x
      · intro x
        exact h4.mpr ⟨h5, x 0 (Nat.zero_lt_succ _)⟩
    | true =>
      obtain ⟨evs, e1, e2, e3, e4⟩ := execs l (s := s') (fun q hq => hl q (List.mem_cons_of_mem _ hq)) h1 h2
        (fun q hq => hc q (List.mem_cons_of_mem _ hq))
      have h6 := (h4.mp rfl).2
      refine ⟨.ran dir p c :: evs, ?_, ?_, ?_, e4.trans ?_⟩
      · rw [e1]; dsimp only at h3; rw [h3]; simp
      · rw [List.map_cons]; exact (List.prefix_cons_inj _).mpr e2
      · intro x; rw [List.map_cons, e3 x]
      · dsimp only at h3
        rw [h3]
        constructor
        · intro x i hi
          cases i with
          | zero => exact h6
          | succ i =>
            have := x i (by simpa using hi)
            simpa [Nat.add_assoc, Nat.add_comm 1] using this
        · intro x i hi
          have := x (i + 1) (by simpa using hi)
          simpa [Nat.add_assoc, Nat.add_comm 1] using this

end

/-- A job of the workflows: the directory, what the tests are built with, what the known-answer program is built with, and
the name given to vectors.py -/
def facts : List Command → Option (Bytes × Config × Config × Bytes)
  | [.make d1 _ .clean, .make d2 v2 .tests, .make d3 v3 .test, .make d4 v4 .PQCgenKAT_sign, .vectors name d5] =>
    if d1 = d2 ∧ d1 = d3 ∧ d1 = d4 ∧ d1 = d5 ∧ config d2 v2 = config d3 v3 ∧ katProg ∉ tests d1 then
      some (d1, config d2 v2, config d4 v4, name) else none
  | _ => none

/-- A job without the commands -/
theorem facts_job {job : List Command} {d : Bytes} {c k : Config} {name : Bytes} (h : facts job = some (d, c, k, name)) :
    katProg ∉ tests d ∧ ∃ v1 v2 v3 v4, config d v2 = c ∧ config d v3 = c ∧ config d v4 = k ∧
      job = [.make d v1 .clean, .make d v2 .tests, .make d v3 .test, .make d v4 .PQCgenKAT_sign, .vectors name d] := by
  unfold facts at h
  split at h
  · split at h
    · next h1 =>
      obtain ⟨rfl, rfl, rfl, rfl, h2, h3⟩ := h1
      simp only [Option.some.injEq, Prod.mk.injEq] at h
      obtain ⟨rfl, rfl, rfl, rfl⟩ := h
      exact ⟨h3, _, _, _, _, rfl, h2.symm, rfl, rfl⟩
    · cases h
  · cases h

theorem inOrder_cons {α : Type} (f : α → State → Bool × State) (a : α) (l : List α) (s : State) :
    inOrder f (a :: l) s = if (f a s).1 then inOrder f l (f a s).2 else (false, (f a s).2) := by
  rw [inOrder]
  rcases f a s with ⟨_ | _, s'⟩ <;> rfl

theorem clean_fresh (T : Tools) (dir : Bytes) (v : List (Bytes × Bytes)) (s : State) :
    (make T dir v .clean s).1 = true ∧ (make T dir v .clean s).2.log = s.log ∧
    ∀ p ∈ tests dir ++ [benchmarkProg, katProg], (make T dir v .clean s).2.files dir p = none := by
  refine ⟨rfl, rfl, fun p hp => ?_⟩
  show (if dir = dir ∧ (tests dir ++ [benchmarkProg, katProg]).contains p then none else s.files dir p) = none
  rw [if_pos ⟨rfl, List.contains_iff_mem.mpr hp⟩]

/-- The files of other programs -/
theorem build_other (T : Tools) (dir : Bytes) (c : Config) {p q : Bytes} (h : q ≠ p) (s : State) :
    (build T dir c p s).2.files dir q = s.files dir q := by
  unfold build
  split
  · rfl
  · split
    · dsimp only
      rw [if_neg fun x => h x.2]
    · rfl

theorem exec_other (T : Tools) (dir : Bytes) (c : Config) {p q : Bytes} (h : q ≠ p) (s : State) :
    (exec T dir c p s).2.files dir q = s.files dir q := by
  have h1 := build_other T dir c h s
  unfold exec
  generalize build T dir c p s = r at h1
  obtain ⟨b, s'⟩ := r
  cases b with
  | false => exact h1
  | true =>
    dsimp only at h1 ⊢
    split <;> exact h1

theorem inOrder_other {f : Bytes → State → Bool × State} {dir q : Bytes}
    (hf : ∀ p, q ≠ p → ∀ s, (f p s).2.files dir q = s.files dir q) : ∀ (l : List Bytes), q ∉ l → ∀ s,
    (inOrder f l s).2.files dir q = s.files dir q
  | [], _, _ => rfl
  | p :: l, h, s => by
    rw [List.mem_cons, not_or] at h
    rw [inOrder_cons]
    split
    · rw [inOrder_other hf l h.2, hf p h.1]
    · exact hf p h.1 s

/-- What a job does -/
theorem job_ok {job : List Command} {d : Bytes} {c k : Config} {name : Bytes} (h : facts job = some (d, c, k, name))
    (T : Tools) (s : State) :
    ∃ evs, (runJob T job s).2.log = s.log ++ evs ∧ evs <+: (tests d).map (.ran d · c) ++ [.checked name d] ∧
      ((runJob T job s).1 = true → evs = (tests d).map (.ran d · c) ++ [.checked name d]) ∧
      ((runJob T job s).1 = true ↔ (∀ p ∈ tests d, T.compiles d p c = true) ∧
        (∀ i (hi : i < (tests d).length), T.runs (s.log.length + i) d (tests d)[i] c = true) ∧
        T.compiles d katProg k = true ∧ T.vectors name d = true) := by
  obtain ⟨hk, v1, v2, v3, v4, h2, h3, h4, rfl⟩ := facts_job h
  obtain ⟨a1, a2, a3⟩ := clean_fresh T d v1 s
  unfold runJob
  rw [inOrder_cons, if_pos (show (command T (.make d v1 .clean) s).1 = true from a1)]
  change ∃ evs, (inOrder (command T) _ (make T d v1 .clean s).2).2.log = _ ∧ _
  rw [show command T (.make d v1 .clean) s = make T d v1 .clean s from rfl]
  generalize (make T d v1 .clean s).2 = s1 at a2 a3
  rw [← a2]
  have f1 : Fresh d c (tests d) s1 := fun p hp => Or.inl (a3 p (List.mem_append_left _ hp))
  have f2 : Sound T d c (tests d) s1 := fun p hp hs => by
    rw [a3 p (List.mem_append_left _ hp)] at hs; cases hs
  have f3 : s1.files d katProg = none := a3 katProg (by simp)
  -- tests
  have b0 := builds T d c (tests d) (fun _ h => h) f1 f2
  have b5 := inOrder_other (fun p hp s => build_other T d c (p := p) (q := katProg) hp s) (tests d) hk s1
  have eb : command T (.make d v2 .tests) s1 = inOrder (build T d c) (tests d) s1 := by rw [← h2]; rfl
  rw [inOrder_cons, eb]
  generalize inOrder (build T d c) (tests d) s1 = r at b0 b5
  obtain ⟨b, s2⟩ := r
  obtain ⟨b1, b2, b3, b4⟩ := b0
  dsimp only at b1 b2 b3 b4 b5
  cases b with
  | false =>
    simp only [Bool.false_eq_true, if_false, false_iff, false_implies]
    refine ⟨[], by simp [b3], by simp, trivial, fun x => ?_⟩
    exact absurd (b4.mpr x.1) (by simp)
  | true =>
  have hcomp := b4.mp rfl
  simp only [if_true]
  -- test
  obtain ⟨evs, c1, c2, c3, c4⟩ := execs T d c (tests d) (fun _ h => h) b1 b2 hcomp
  have c5 := inOrder_other (fun p hp s => exec_other T d c (p := p) (q := katProg) hp s) (tests d) hk s2
  have ec : command T (.make d v3 .test) s2 = inOrder (exec T d c) (tests d) s2 := by rw [← h3]; rfl
  rw [inOrder_cons, ec]
  generalize inOrder (exec T d c) (tests d) s2 = r at c1 c2 c3 c4 c5
  obtain ⟨b, s3⟩ := r
  dsimp only at c1 c2 c3 c4 c5
  rw [b3] at c1 c4
  cases b with
  | false =>
    simp only [Bool.false_eq_true, if_false, false_iff, false_implies]
    refine ⟨evs, c1, c2.trans (List.prefix_append _ _), trivial, fun x => ?_⟩
    exact absurd (c4.mpr x.2.1) (by simp)
  | true =>
  simp only [if_true]
  have hruns := c4.mp rfl
  have hevs := c3 rfl
  subst hevs
  -- the known-answer program
  have d0 := build_there T d k katProg s3
  have d1 := (build_fresh T d k (progs := []) (s := s3) (fun _ h => absurd h (by simp)) katProg).2
  rw [c5, b5, f3] at d0
  have ed : command T (.make d v4 .PQCgenKAT_sign) s3 = build T d k katProg s3 := by rw [← h4]; rfl
  rw [inOrder_cons, ed]
  generalize build T d k katProg s3 = r at d0 d1
  obtain ⟨b, s4⟩ := r
  dsimp only at d0 d1
  cases b with
  | false =>
    simp only [Bool.false_eq_true, if_false, false_iff, false_implies]
    refine ⟨_, d1.trans c1, List.prefix_append _ _, trivial, fun x => ?_⟩
    exact absurd (d0.mpr (Or.inr x.2.2.1)) (by simp)
  | true =>
  simp only [if_true]
  have hkat : T.compiles d katProg k = true := (d0.mp rfl).resolve_left (by simp)
  have ee : inOrder (command T) [.vectors name d] s4 =
      (T.vectors name d, { s4 with log := s4.log ++ [.checked name d] }) := by
    unfold inOrder
    simp only [command]
    cases T.vectors name d <;> rfl
  rw [ee]
  refine ⟨(tests d).map (.ran d · c) ++ [.checked name d], ?_, List.prefix_refl _, fun _ => rfl, ?_⟩
  · dsimp only
    rw [d1, c1, List.append_assoc]
  · exact ⟨fun hv => ⟨hcomp, hruns, hkat, hv⟩, fun hv => hv.2.2.2⟩

/-! ## Other directories -/

theorem build_dir (T : Tools) {dir d : Bytes} (h : d ≠ dir) (c : Config) (q p : Bytes) (s : State) :
    (build T dir c q s).2.files d p = s.files d p := by
  unfold build
  split
  · rfl
  · split
    · dsimp only
      rw [if_neg fun x => h x.1]
    · rfl

theorem exec_dir (T : Tools) {dir d : Bytes} (h : d ≠ dir) (c : Config) (q p : Bytes) (s : State) :
    (exec T dir c q s).2.files d p = s.files d p := by
  have h1 := build_dir T h c q p s
  unfold exec
  generalize build T dir c q s = r at h1
  obtain ⟨b, s'⟩ := r
  cases b with
  | false => exact h1
  | true =>
    dsimp only at h1 ⊢
    split <;> exact h1

theorem inOrder_dir {α : Type} {f : α → State → Bool × State} {d p : Bytes} : ∀ (l : List α),
    (∀ a ∈ l, ∀ s, (f a s).2.files d p = s.files d p) → ∀ s, (inOrder f l s).2.files d p = s.files d p
  | [], _, _ => rfl
  | a :: l, hf, s => by
    rw [inOrder_cons]
    split
    · rw [inOrder_dir l (fun b hb => hf b (List.mem_cons_of_mem _ hb)), hf a List.mem_cons_self]
    · exact hf a List.mem_cons_self s

theorem make_dir (T : Tools) {dir d : Bytes} (h : d ≠ dir) (v : List (Bytes × Bytes)) (t : Target) (p : Bytes) (s : State) :
    (make T dir v t s).2.files d p = s.files d p := by
  unfold make
  cases t with
  | clean =>
    dsimp only
    rw [if_neg fun x => h x.1]
  | tests => exact inOrder_dir _ (fun q _ s => build_dir T h _ q p s) s
  | test => exact inOrder_dir _ (fun q _ s => exec_dir T h _ q p s) s
  | benchmarks => exact build_dir T h _ _ p s
  | benchmark => exact exec_dir T h _ _ p s
  | PQCgenKAT_sign => exact build_dir T h _ _ p s

/-- A job changes no other directory. -/
theorem job_dir {job : List Command} {d : Bytes} {c k : Config} {name : Bytes} (h : facts job = some (d, c, k, name))
    (T : Tools) (s : State) {d' : Bytes} (hd : d' ≠ d) (p : Bytes) : (runJob T job s).2.files d' p = s.files d' p := by
  obtain ⟨-, v1, v2, v3, v4, -, -, -, rfl⟩ := facts_job h
  refine inOrder_dir _ (fun a ha s => ?_) s
  simp only [List.mem_cons, List.not_mem_nil, or_false] at ha
  rcases ha with rfl | rfl | rfl | rfl | rfl
  · exact make_dir T hd _ _ p s
  · exact make_dir T hd _ _ p s
  · exact make_dir T hd _ _ p s
  · exact make_dir T hd _ _ p s
  · rfl

/-! ## Benchmarks -/

theorem config_bench (impl p t : Bytes) : config impl [(asc "THASH", t), (asc "PARAMS", p)] = (p, t) := by
  have h : (asc "PARAMS" == asc "THASH") = false := by decide +kernel
  have h' : (asc "PARAMS" == asc "PARAMS") = true := by decide +kernel
  have h'' : (asc "THASH" == asc "THASH") = true := by decide +kernel
  simp [config, List.lookup, h]

/-- What a turn of benchmark.py adds to the log -/
def turn (T : Tools) (impl : Bytes) (c : Config) : List Event :=
  .announced impl c :: if T.compiles impl benchmarkProg c then [.ran impl benchmarkProg c] else []

theorem bench_log (T : Tools) (impl fn opt : Bytes) (size : Nat) (thash : Bytes) (s : State) :
    (bench T impl fn opt size thash s).log = s.log ++
      turn T impl (asc "sphincs-" ++ fn ++ asc "-" ++ str size ++ opt, thash) := by
  unfold bench
  extract_lets p s1 vars s2 s3
  have hc : config impl vars = (p, thash) := config_bench impl p thash
  change (exec T impl (config impl vars) benchmarkProg s3).2.log = _
  obtain ⟨_, a2, a3⟩ := clean_fresh T impl vars s1
  have f0 : s2.files impl benchmarkProg = none := a3 benchmarkProg (by simp)
  have f1 : Fresh impl (p, thash) [benchmarkProg] s2 := fun q hq => by
    rw [List.mem_singleton] at hq; subst hq; exact Or.inl f0
  have f2 : Sound T impl (p, thash) [benchmarkProg] s2 := fun q hq hs => by
    rw [List.mem_singleton] at hq; subst hq; rw [f0] at hs; cases hs
  have e3 : s3 = (build T impl (p, thash) benchmarkProg s2).2 := by rw [← hc]; rfl
  have g1 := build_fresh T impl (p, thash) f1 benchmarkProg
  have g2 := build_sound T impl (p, thash) f2 benchmarkProg
  rw [← e3] at g1 g2
  rw [hc, (exec_fresh T impl (p, thash) g1.1 g2 (List.mem_singleton.mpr rfl)).2.2.1, g1.2]
  have : s2.log = s.log ++ [.announced impl (p, thash)] := a2
  rw [this, List.append_assoc]
  rfl

/-- The turns of benchmark.py -/
def turns : List (Bytes × Config) := implementations.flatMap fun i => i.2.flatMap fun fn => product.map fun c =>
  (i.1, asc "sphincs-" ++ fn ++ asc "-" ++ str c.2.1 ++ c.1, c.2.2)

theorem foldl_log {α : Type} {f : State → α → State} {g : α → List Event} (h : ∀ s a, (f s a).log = s.log ++ g a) :
    ∀ (l : List α) (s : State), (l.foldl f s).log = s.log ++ l.flatMap g
  | [], s => by simp
  | a :: l, s => by rw [List.foldl_cons, foldl_log h l, h, List.flatMap_cons, List.append_assoc]

theorem benchmarkPy_log (T : Tools) (s : State) :
    (benchmarkPy T s).log = s.log ++ turns.flatMap fun x => turn T x.1 x.2 := by
  unfold benchmarkPy
  rw [foldl_log (fun s i => foldl_log (fun s fn => foldl_log (fun s c => bench_log T i.1 fn c.1 c.2.1 c.2.2 s) product s) i.2 s)]
  simp only [turns, List.flatMap_assoc, List.flatMap_map]

end Spx.Ci
