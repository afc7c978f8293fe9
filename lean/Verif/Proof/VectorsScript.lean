import Verif.Proof.Vectors
/-! # The loops of vectors.py -/

namespace Spx.Vectors
open Kat

/-- The turns of the loops of vectors.py:66-67 -/
def combos : List (Bytes × Bytes × Nat × Bytes) := fns.flatMap fun fn => product.map fun c => (fn, c)

/-- What the script makes of one turn: name, `PARAMS`, `THASH` and name of the response file -/
def facts (c : Bytes × Bytes × Nat × Bytes) : Bytes × Bytes × Bytes × Bytes :=
  (nameFor c.1 c.2.1 c.2.2.1 c.2.2.2, asc "sphincs-" ++ c.1 ++ asc "-" ++ str c.2.2.1 ++ c.2.1, c.2.2.2,
    asc "PQCsignKAT_" ++ str (c.2.2.1 / 2) ++ asc ".rsp")

/-- Build, run and hash -/
def result (W : World) (impl : Bytes) (x : Bytes × Bytes × Bytes × Bytes) : Option Bytes := do
  let prog ← makeKat W impl x.2.1 x.2.2.1
  let fs ← prog fun _ => none
  let f ← fs x.2.2.2
  some (hexdigest (W.sha256 f) ++ asc " " ++ x.1)

theorem run_eq {W : World} {impl : Bytes} {bin : Bin} {c : Bytes × Bytes × Nat × Bytes}
    (h : bin (facts c).1 = makeKat W impl (facts c).2.1 (facts c).2.2.1) :
    run W ((facts c).1, c.2.2.1) bin = result W impl (facts c) := by
  unfold run result
  simp only [h]
  rfl

theorem make_eq {W : World} {impl : Bytes} {bin : Bin} {c : Bytes × Bytes × Nat × Bytes} {prog : Prog}
    (h : makeKat W impl (facts c).2.1 (facts c).2.2.1 = some prog) :
    make W c.1 c.2.1 c.2.2.1 c.2.2.2 bin impl =
      some (((facts c).1, c.2.2.1), fun f => if f = (facts c).1 then some prog else bin f) := by
  unfold make
  simp only [facts] at h
  simp only [h]
  rfl

theorem fold_make {W : World} {impl : Bytes} : ∀ {cs : List (Bytes × Bytes × Nat × Bytes)}
    {ns : List (Bytes × Nat)} {bin : Bin},
    (∀ c ∈ cs, (makeKat W impl (facts c).2.1 (facts c).2.2.1).isSome) → (cs.map fun c => (facts c).1).Nodup →
    ∃ bin', cs.foldlM (fun (st : List (Bytes × Nat) × Bin) (c : Bytes × Bytes × Nat × Bytes) => do
        let (x, bindir) ← make W c.1 c.2.1 c.2.2.1 c.2.2.2 st.2 impl
        some (st.1 ++ [x], bindir)) (ns, bin) = some (ns ++ cs.map (fun c => ((facts c).1, c.2.2.1)), bin') ∧
      (∀ c ∈ cs, bin' (facts c).1 = makeKat W impl (facts c).2.1 (facts c).2.2.1) ∧
      ∀ f, (∀ c ∈ cs, (facts c).1 ≠ f) → bin' f = bin f
  | [], ns, bin, _, _ => ⟨bin, by simp, fun _ h => by simp at h, fun _ _ => rfl⟩
  | c :: cs, ns, bin, hs, hn => by
    rw [List.map_cons, List.nodup_cons] at hn
    obtain ⟨prog, hp⟩ := Option.isSome_iff_exists.mp (hs c List.mem_cons_self)
    obtain ⟨bin', h1, h2, h3⟩ := fold_make (cs := cs) (ns := ns ++ [((facts c).1, c.2.2.1)])
      (bin := fun f => if f = (facts c).1 then some prog else bin f) (fun c h => hs c (List.mem_cons_of_mem _ h)) hn.2
    have hnc : ∀ c' ∈ cs, (facts c').1 ≠ (facts c).1 := fun c' h e => hn.1 (e ▸ List.mem_map_of_mem h)
    refine ⟨bin', ?_, fun c' h => ?_, fun f h => ?_⟩
    · rw [List.foldlM_cons, make_eq hp]
      show List.foldlM _ (ns ++ [((facts c).1, c.2.2.1)], _) cs = _
      rw [h1, List.map_cons, List.append_assoc]
      rfl
    · rcases List.mem_cons.mp h with rfl | h
      · rw [h3 _ hnc, hp]
        exact if_pos rfl
      · exact h2 c' h
    · rw [h3 f fun c' h' => h c' (List.mem_cons_of_mem _ h')]
      exact if_neg fun e => h c List.mem_cons_self e.symm

theorem mapM_some {α β : Type} {f : α → Option β} {g : α → β} : ∀ {l : List α}, (∀ x ∈ l, f x = some (g x)) →
    l.mapM f = some (l.map g)
  | [], _ => rfl
  | x :: l, h => by
    rw [List.mapM_cons, h x List.mem_cons_self, mapM_some fun y hy => h y (List.mem_cons_of_mem _ hy)]
    rfl

theorem combos_nodup : (combos.map fun c => (facts c).1).Nodup := by decide +kernel

theorem generate_eq {W : World} {l : List Bytes} (h : (combos.map fun c => result W (asc "ref") (facts c)) = l.map some) :
    generate_sums W = some (joinLines (l.mergeSort fun a b => decide (a ≤ b)) ++ asc "\n") := by
  have hs : ∀ c ∈ combos, ∃ x, result W (asc "ref") (facts c) = some x := by
    intro c hc
    have := h ▸ List.mem_map_of_mem (f := fun c => result W (asc "ref") (facts c)) hc
    obtain ⟨x, -, e⟩ := List.mem_map.mp this
    exact ⟨x, e.symm⟩
  obtain ⟨bin, h1, h2, -⟩ := fold_make (W := W) (impl := asc "ref") (cs := combos) (ns := []) (bin := fun _ => none)
    (fun c hc => by
      obtain ⟨x, e⟩ := hs c hc
      unfold result at e
      cases hm : makeKat W (asc "ref") (facts c).2.1 (facts c).2.2.1 with
      | none => rw [hm] at e; cases e
      | some p => rfl) combos_nodup
  have h3 : ([] ++ combos.map (fun c => ((facts c).1, c.2.2.1))).mapM (fun x => run W x bin) = some l := by
    rw [List.nil_append, List.mapM_map]
    have h4 : ∀ c ∈ combos, run W ((facts c).1, c.2.2.1) bin = some ((result W (asc "ref") (facts c)).getD []) := by
      intro c hc
      obtain ⟨x, e⟩ := hs c hc
      rw [run_eq (h2 c hc), e]
      rfl
    have h5 := mapM_some h4
    refine h5.trans (congrArg some ?_)
    have := congrArg (List.map fun o : Option Bytes => o.getD []) h
    rw [List.map_map, List.map_map] at this
    exact this.trans (List.map_id l)
  unfold generate_sums
  rw [show (fns.flatMap fun fn => product.map fun c => (fn, c)) = combos from rfl, h1]
  show (do
    let res ← ([] ++ combos.map (fun c => ((facts c).1, c.2.2.1))).mapM fun x => run W x bin
    some (joinLines (res.mergeSort fun a b => decide (a ≤ b)) ++ asc "\n")) = _
  rw [h3]
  rfl

/-- The instance found for a name -/
theorem find_name : ∀ c ∈ combos, (fns.map fun fn => product.find? fun c' => nameFor fn c'.1 c'.2.1 c'.2.2 == (facts c).1) =
    fns.map fun fn => if fn = c.1 then some c.2 else none := by decide +kernel

theorem check_eq {W : World} {sums impl : Bytes} {c : Bytes × Bytes × Nat × Bytes} (hc : c ∈ combos) {l : Bytes}
    (h : result W impl (facts c) = some l) :
    check_sum W sums (facts c).1 impl = some (if findstring (l ++ asc "\n") sums then 0 else 2) := by
  have hf : c.1 = asc "shake" ∨ c.1 = asc "sha2" ∨ c.1 = asc "haraka" := by
    exact (by decide +kernel : ∀ c ∈ combos, c.1 = asc "shake" ∨ c.1 = asc "sha2" ∨ c.1 = asc "haraka") c hc
  have hn := find_name c hc
  simp only [fns, List.map_cons, List.map_nil, List.cons.injEq, and_true] at hn
  obtain ⟨h1, h2, h3⟩ := hn
  obtain ⟨prog, hp⟩ : ∃ prog, makeKat W impl (facts c).2.1 (facts c).2.2.1 = some prog := by
    unfold result at h
    cases hm : makeKat W impl (facts c).2.1 (facts c).2.2.1 with
    | none => rw [hm] at h; cases h
    | some p => exact ⟨p, rfl⟩
  have hm := make_eq (bin := fun _ => none) hp
  have hr := (run_eq (bin := fun f => if f = (facts c).1 then some prog else none) ((if_pos rfl).trans hp.symm)).trans h
  have n1 : asc "shake" ≠ asc "sha2" := by decide +kernel
  have n2 : asc "shake" ≠ asc "haraka" := by decide +kernel
  have n3 : asc "sha2" ≠ asc "haraka" := by decide +kernel
  unfold check_sum
  simp only [fns, List.foldlM_cons, List.foldlM_nil, h1, h2, h3]
  rcases hf with hf | hf | hf
  · rw [hf] at hm
    simp only [hf, n1.symm, n2.symm, if_true, if_false, hm, hr, bind, Option.bind, pure]
    split <;> rfl
  · rw [hf] at hm
    simp only [hf, n1, n3.symm, if_true, if_false, hm, hr, bind, Option.bind, pure]
    split <;> rfl
  · rw [hf] at hm
    simp only [hf, n2, n3, if_true, if_false, hm, hr, bind, Option.bind, pure]
    split <;> rfl

theorem check_unknown {W : World} {sums name impl : Bytes} (h : ∀ c ∈ combos, (facts c).1 ≠ name) :
    check_sum W sums name impl = some 1 := by
  have hn : ∀ fn ∈ fns, (product.find? fun c' => nameFor fn c'.1 c'.2.1 c'.2.2 == name) = none := by
    intro fn hfn
    rw [List.find?_eq_none]
    intro c' hc' e
    exact h (fn, c') (List.mem_flatMap.mpr ⟨fn, hfn, List.mem_map_of_mem hc'⟩) (beq_iff_eq.mp e)
  unfold check_sum
  simp only [fns, List.foldlM_cons, List.foldlM_nil, hn (asc "shake") (by decide +kernel), hn (asc "sha2") (by decide +kernel),
    hn (asc "haraka") (by decide +kernel)]
  rfl

end Spx.Vectors
