import Verif.Proof.Breach
import Verif.Spec.Shared
/-! # From a forger who attacks many keys to an attacker who looks for values

As `Verif.Proof.Seek`, for the functions of all owners together.  Message hash and randomisers are fixed here. -/

namespace Spx.Rom
open Spec

section
variable {p : Par} {ι : Type} [Finite ι]

/-- The values of owner `i` -/
def ownedBy {A B : Type} (f : ι × A → B) (i : ι) : A → B := fun v => f (i, v)

/-- Where the values of all owners are used -/
noncomputable def ptAll (val : ι × Place p → Value p) (v : ι × Place p) : ι × Point p := (v.1, pt (ownedBy val v.1) v.2)

omit [Finite ι] in
theorem ptAll_rank (val val' : ι × Place p → Value p) (v : ι × Place p)
    (h : ∀ u : ι × Place p, rank p u.2.1 < rank p v.2.1 → val u = val' u) : ptAll val v = ptAll val' v :=
  Prod.ext rfl (pt_rank _ _ _ fun u hu => h (v.1, u) hu)

omit [Finite ι] in
theorem ptAll_inj (val : ι × Place p → Value p) (v v' : ι × Place p) (h : ptAll val v = ptAll val v') : v = v' := by
  obtain ⟨i, v⟩ := v
  obtain ⟨j, v'⟩ := v'
  obtain ⟨h1, h2⟩ := Prod.ext_iff.mp h
  change i = j at h1
  subst h1
  exact Prod.ext rfl (pt_inj (ownedBy val i) _ _ h2)

omit [Finite ι] in
theorem patch_owned (val : ι × Place p → Value p) (g : ι × Point p → Value p) (i : ι) :
    ownedBy (patch ptAll val g) i = patch pt (ownedBy val i) (ownedBy g i) := by
  funext z
  by_cases h : ∃ v, pt (ownedBy val i) v = z
  · obtain ⟨v, rfl⟩ := h
    rw [patch_pt pt_inj]
    exact patch_pt ptAll_inj val g (i, v)
  · rw [patch_off fun v hv => h ⟨v, hv⟩]
    refine patch_off (z := (i, z)) fun v hv => h ⟨v.2, ?_⟩
    obtain ⟨h1, h2⟩ := Prod.ext_iff.mp hv
    change v.1 = i at h1
    subst h1
    exact h2

open Classical in
/-- The places of a set of positions of each owner -/
noncomputable def placesOfAll (p : Par) (R : ι → Set Position) : List (ι × Place p) :=
  (Set.toFinite {v : ι × Place p | v.2.1 ∈ R v.1}).toFinset.toList

theorem mem_placesOfAll {R : ι → Set Position} {v : ι × Place p} : v ∈ placesOfAll p R ↔ v.2.1 ∈ R v.1 := by
  unfold placesOfAll
  rw [Finset.mem_toList, Set.Finite.mem_toFinset]
  exact Iff.rfl

/-- What is known if the secret FORS values at `R i` are opened by owner `i` -/
noncomputable def knownForAll (val : ι × Place p → Value p) (R : ι → Set Position) : ι × Place p → Option (Value p) := fun v =>
  knownFor (ownedBy val v.1) (R v.1) v.2

variable [DecidableEq ι]

theorem told_owned (val : ι × Place p → Value p) (K : ι × Place p → Option (Value p)) (R : ι → Set Position) (i : ι) :
    ownedBy (told val K (placesOfAll p R)) i = told (ownedBy val i) (ownedBy K i) (placesOf p (R i)) := by
  funext v
  unfold ownedBy told
  have e : (i, v) ∈ placesOfAll p R ↔ v ∈ placesOf p (R i) := mem_placesOfAll.trans mem_placesOf.symm
  by_cases h : v ∈ placesOf p (R i)
  · rw [if_pos (e.mpr h), if_pos h]
  · rw [if_neg fun h' => h (e.mp h'), if_neg h]

theorem told_openedAll {val : ι × Place p → Value p} {R : ι → Set Position} {i : ι} {R' : Set Position}
    (hR' : ∀ q ∈ R', ∃ t k i, q = .forsPrf t k i) :
    told val (knownForAll val R) (placesOfAll p (Function.update (fun _ => ∅) i R')) =
      knownForAll val (Function.update R i (R i ∪ R')) := by
  funext ⟨j, v⟩
  refine (congrFun (told_owned val (knownForAll val R) (Function.update (fun _ => ∅) i R') j) v).trans ?_
  unfold knownForAll
  by_cases hj : j = i
  · subst hj
    simp only [Function.update_self]
    exact congrFun (told_opened (val := ownedBy val j) (R := R j) hR') v
  · simp only [Function.update_of_ne hj]
    exact if_neg fun h => show False from mem_placesOf (R := ∅).mp h

variable {M : Type}

open Classical in
/-- The forger as an attacker who looks for values; `K` is what it knows. -/
noncomputable def seekAll (H : ι → (Fin p.n → Fin (2 ^ 8)) × M → Digest p) (G : ι → Value p × M → Value p) :
    ManyForger ι (Value p) (Fin p.n → Fin (2 ^ 8)) M (Digest p) → (ι × Place p → Option (Value p)) →
      Seeker (ι × Place p) (ι × Point p) (Value p)
  | .output _ _ _, _ => .done
  | .hash i r m next, K => seekAll H G (next (H i (r, m))) K
  | .tweak i a x next, K =>
    match pointAt p a x with
    | some z =>
      if AllKnown (ownedBy K i) z.1.1 ∧ z.1.2 = hon (known0 (ownedBy K i)) z.1.1 then
        seekAll H G (next (ext (known0 (ownedBy K i)) z.1.1)) K
      else .ask (i, z) ((guessOf z).map fun x => ((i, x.1), x.2)) (i, ⟨z.1.1, z.2.1⟩) fun y =>
        seekAll H G (next (randomiserBytes y)) K
    | none => seekAll H G (next (List.replicate p.n 0)) K
  | .sign i o m next, K =>
    revealAll (placesOfAll p (Function.update (fun _ => ∅) i (opened (H i (G i (o, m), m))))) K fun K' =>
      seekAll H G (next (sigFor (known0 (ownedBy K' i)) (G i (o, m)) (H i (G i (o, m), m)))) K'

theorem seekAll_within (H : ι → (Fin p.n → Fin (2 ^ 8)) × M → Digest p) (G : ι → Value p × M → Value p)
    (F : ManyForger ι (Value p) (Fin p.n → Fin (2 ^ 8)) M (Digest p)) :
    ∀ {q t : ι → Nat} {u : Nat}, F.WithinShared q t u → ∀ K, (seekAll H G F K).Within u := by
  induction F with
  | output i m sig => exact fun _ _ => trivial
  | hash i r m next ih => exact fun h K => ih _ (h.2 _) K
  | tweak i a x next ih =>
    intro q t u h K
    rw [seekAll]
    have up : ∀ {S : Seeker (ι × Place p) (ι × Point p) (Value p)} {n : ℕ}, S.Within (n - 1) → S.Within n := by
      intro S
      induction S with
      | done => exact fun _ => trivial
      | reveal v next ih => exact fun h y => ih y (h y)
      | ask z g v next ih => exact fun h => ⟨by have := h.1; omega, fun y => ih y (h.2 y)⟩
    split
    · split
      · exact up (ih _ (h.2 _) K)
      · exact ⟨h.1, fun y => ih _ (h.2 _) K⟩
    · exact up (ih _ (h.2 _) K)
  | sign i o m next ih => exact fun h K => revealAll_within (fun K' => ih _ (h.2 _) K') _ _

/-- The calls of the tweakable hash that the forger makes -/
def askedAll (H : ι → (Fin p.n → Fin (2 ^ 8)) × M → Digest p) (T : ι → ADRS → Bytes → Bytes)
    (signature : ι → Value p → M → Bytes) :
    ManyForger ι (Value p) (Fin p.n → Fin (2 ^ 8)) M (Digest p) → List (ι × ADRS × Bytes)
  | .output _ _ _ => []
  | .hash i r m next => askedAll H T signature (next (H i (r, m)))
  | .tweak i a x next => (i, a, x) :: askedAll H T signature (next (T i a x))
  | .sign i o m next => askedAll H T signature (next (signature i o m))

/-- The secret FORS values of each owner opened by the signatures that the forger asks for -/
def openedByAll (H : ι → (Fin p.n → Fin (2 ^ 8)) × M → Digest p) (G : ι → Value p × M → Value p)
    (T : ι → ADRS → Bytes → Bytes) (signature : ι → Value p → M → Bytes) :
    ManyForger ι (Value p) (Fin p.n → Fin (2 ^ 8)) M (Digest p) → (ι → Set Position) → ι → Set Position
  | .output _ _ _, R => R
  | .hash i r m next, R => openedByAll H G T signature (next (H i (r, m))) R
  | .tweak i a x next, R => openedByAll H G T signature (next (T i a x)) R
  | .sign i o m next, R => openedByAll H G T signature (next (signature i o m))
      (Function.update R i (R i ∪ opened (H i (G i (o, m), m))))

omit [Finite ι] in
theorem openedByAll_mono {H : ι → (Fin p.n → Fin (2 ^ 8)) × M → Digest p} {G : ι → Value p × M → Value p}
    {T : ι → ADRS → Bytes → Bytes} {signature : ι → Value p → M → Bytes}
    (F : ManyForger ι (Value p) (Fin p.n → Fin (2 ^ 8)) M (Digest p)) :
    ∀ (R : ι → Set Position) (j : ι), R j ⊆ openedByAll H G T signature F R j := by
  induction F with
  | output i m sig => exact fun _ _ _ h => h
  | hash i r m next ih => exact fun R => ih _ R
  | tweak i a x next ih => exact fun R => ih _ R
  | sign i o m next ih =>
    refine fun R j q hq => ih _ _ j ?_
    by_cases hj : j = i
    · subst hj
      rw [Function.update_self]
      exact Or.inl hq
    · rwa [Function.update_of_ne hj]

theorem seekAll_finds (Fp : Fine p) {H : ι → (Fin p.n → Fin (2 ^ 8)) × M → Digest p} {G : ι → Value p × M → Value p}
    {val : ι × Place p → Value p} {g : ι × Point p → Value p} {T : ι → ADRS → Bytes → Bytes}
    (hT : ∀ i (z : Point p), z.1.1.isPrf = false →
      T i z.1.1.adrs z.1.2 = randomiserBytes (patch pt (ownedBy val i) (ownedBy g i) z))
    (hT0 : ∀ i a x, (¬∃ z : Point p, z.1.1.isPrf = false ∧ z.1.1.adrs = a ∧ z.1.2 = x) → T i a x = List.replicate p.n 0)
    {signature : ι → Value p → M → Bytes}
    (hs : ∀ i o m, signature i o m = sigFor (ownedBy val i) (G i (o, m)) (H i (G i (o, m), m)))
    (F : ManyForger ι (Value p) (Fin p.n → Fin (2 ^ 8)) M (Digest p)) :
    ∀ {R : ι → Set Position} {L : Set (ι × Point p)},
      (∀ z ∈ L, g z ≠ val (z.1, ⟨z.2.1.1, z.2.2.1⟩)) →
      (∃ j, ∃ z : Point p, z.1.1.isPrf = false ∧ (j, z.1.1.adrs, z.1.2) ∈ askedAll H T signature F ∧
        Breach (ownedBy val j) (patch pt (ownedBy val j) (ownedBy g j)) (openedByAll H G T signature F R j) z) →
      (seekAll H G F (knownForAll val R)).Finds val g (dom (knownForAll val R)) L := by
  induction F with
  | output i m sig =>
    rintro R L - ⟨j, z, -, h, -⟩
    cases h
  | hash i r m next ih => exact fun hL h => ih _ hL h
  | sign i o m next ih =>
    intro R L hL h
    rw [seekAll]
    refine revealAll_finds _ ?_
    rw [told_openedAll (opened_fors _)]
    have e : sigFor (known0 (ownedBy (knownForAll val (Function.update R i (R i ∪ opened (H i (G i (o, m), m))))) i))
        (G i (o, m)) (H i (G i (o, m), m)) = signature i o m := by
      have e0 : ownedBy (knownForAll val (Function.update R i (R i ∪ opened (H i (G i (o, m), m))))) i =
          knownFor (ownedBy val i) (R i ∪ opened (H i (G i (o, m), m))) := by
        funext v
        unfold ownedBy knownForAll
        simp only [Function.update_self]
        rfl
      rw [hs, e0]
      unfold sigFor
      rw [← sigVal_congr (R := R i ∪ opened (H i (G i (o, m), m))) (fun q hq => Or.inr hq) fun v hv => (known0_eq hv).symm]
    rw [e]
    exact ih _ hL h
  | tweak i a x next ih =>
    intro R L hL ⟨j, z, hz, hmem, hb⟩
    rw [seekAll]
    have hK : ownedBy (knownForAll val R) i = knownFor (ownedBy val i) (R i) := rfl
    rw [hK]
    cases hp : pointAt p a x with
    | some z0 =>
      simp only
      obtain ⟨h1, h2, h3⟩ := pointAt_some hp
      subst h2 h3
      have heq : (j, z.1.1.adrs, z.1.2) = (i, z0.1.1.adrs, z0.1.2) → j = i ∧ z = z0 := fun e => by
        obtain ⟨e1, e2⟩ := Prod.ext_iff.mp e
        exact ⟨e1, Subtype.ext (Prod.ext (adrs_inj z.2.1 z0.2.1 (Prod.ext_iff.mp e2).1) (Prod.ext_iff.mp e2).2)⟩
      have hmem' := List.mem_cons.mp hmem
      change Breach _ _ (openedByAll H G T signature (next (T i z0.1.1.adrs z0.1.2)) R j) z at hb
      have hk : AllKnown (knownFor (ownedBy val i) (R i)) z0.1.1 →
          hon (known0 (knownFor (ownedBy val i) (R i))) z0.1.1 = hon (ownedBy val i) z0.1.1 := fun hall =>
        hon_congr fun c hc hv => known0_eq fun hh => hall c hc hv (knownFor_none.mpr hh)
      split
      · next hcase =>
        obtain ⟨hall, hx⟩ := hcase
        rw [hk hall] at hx
        have hnh : ¬Hidden (ownedBy val i) (R i) z0.1.1 := fun hh => by
          obtain ⟨c, hc, hv, hh⟩ := hidden_up z0.2.1 h1 hh
          exact hall c hc hv (knownFor_none.mpr hh)
        have hz0 : pt (ownedBy val i) ⟨z0.1.1, z0.2.1⟩ = z0 := Subtype.ext (Prod.ext rfl hx.symm)
        have e : ext (known0 (knownFor (ownedBy val i) (R i))) z0.1.1 = T i z0.1.1.adrs z0.1.2 := by
          have e1 := patch_pt pt_inj (ownedBy val i) (ownedBy g i) ⟨z0.1.1, z0.2.1⟩
          rw [hz0] at e1
          have e2 := ext_valid (known0 (knownFor (ownedBy val i) (R i))) ⟨z0.1.1, z0.2.1⟩
          rw [known0_eq hnh] at e2
          rw [hT i z0 h1, e1]
          exact e2
        rw [e]
        refine ih _ hL ⟨j, z, hz, ?_, hb⟩
        rcases hmem' with hm | hm
        · exfalso
          obtain ⟨rfl, rfl⟩ := heq hm
          rcases hb with ⟨hb, -⟩ | ⟨-, c, hc, hv, hh⟩
          · exact hb hx
          · exact hall c hc hv (knownFor_none.mpr (hidden_mono (openedByAll_mono _ _ _) hh))
        · exact hm
      · next hcase =>
        by_cases hx : z0.1.2 = hon (ownedBy val i) z0.1.1
        · have hall : ¬AllKnown (knownFor (ownedBy val i) (R i)) z0.1.1 := fun hall => hcase ⟨hall, by rw [hk hall]; exact hx⟩
          unfold AllKnown at hall
          push Not at hall
          obtain ⟨c, hc, hv, hn⟩ := hall
          have hh := knownFor_none.mp hn
          have hch := children_hidden Fp hc hh
          refine Or.inl ⟨(i, ⟨c, hv⟩), Game.rnd p.n z0.1.2, ?_, fun hd => hd hn, ?_⟩
          · have e : guessOf z0 = some (⟨c, hv⟩, Game.rnd p.n z0.1.2) := by
              unfold guessOf
              rw [hch]
              exact dif_pos hv
            rw [e]
            rfl
          · rw [hx, hon_single (ownedBy val i) hch, ext_valid (ownedBy val i) ⟨c, hv⟩, rnd_randomiserBytes]
            rfl
        · have hO : patch pt (ownedBy val i) (ownedBy g i) z0 = g (i, z0) := patch_off fun v hv => hx (by rw [← hv]; rfl)
          by_cases hcol : (i, z0) ∉ L ∧ g (i, z0) = val (i, ⟨z0.1.1, z0.2.1⟩)
          · exact Or.inr (Or.inl hcol)
          · refine Or.inr (Or.inr ?_)
            have e : randomiserBytes (g (i, z0)) = T i z0.1.1.adrs z0.1.2 := by rw [hT i z0 h1, hO]
            change (seekAll H G (next (randomiserBytes (g (i, z0)))) (knownForAll val R)).Finds val g
              (dom (knownForAll val R)) (insert (i, z0) L)
            rw [e]
            have hne : g (i, z0) ≠ val (i, ⟨z0.1.1, z0.2.1⟩) := fun hg => by
              by_cases hin : (i, z0) ∈ L
              · exact hL _ hin hg
              · exact hcol ⟨hin, hg⟩
            refine ih _ (fun z' hz' => ?_) ⟨j, z, hz, ?_, hb⟩
            · rcases hz' with rfl | hz'
              · exact hne
              · exact hL _ hz'
            · rcases hmem' with hm | hm
              · exfalso
                obtain ⟨rfl, rfl⟩ := heq hm
                rcases hb with ⟨-, hb⟩ | ⟨hb, -⟩
                · rw [hO] at hb
                  exact hne hb
                · exact hx hb
              · exact hm
    | none =>
      simp only
      have hp := pointAt_none hp
      have e : List.replicate p.n 0 = T i a x := (hT0 i a x hp).symm
      rw [e]
      refine ih _ hL ⟨j, z, hz, ?_, hb⟩
      rcases List.mem_cons.mp hmem with hm | hm
      · exact absurd ⟨z, hz, congrArg (fun y => y.2.1) hm, congrArg (fun y => y.2.2) hm⟩ hp
      · exact hm

/-! ## The beginning -/

/-- The forger is first told everything that signatures allow to compute whatever the message. -/
noncomputable def startAll (H : ι → (Fin p.n → Fin (2 ^ 8)) × M → Digest p) (G : ι → Value p × M → Value p) (pub : ι → Bytes)
    (F : (ι → Bytes) → ManyForger ι (Value p) (Fin p.n → Fin (2 ^ 8)) M (Digest p)) :
    Seeker (ι × Place p) (ι × Point p) (Value p) :=
  revealAll (placesOfAll p fun _ => {q | Open q}) (fun _ => none) fun K =>
    revealAll (placesOfAll p fun i => {q | ¬Hidden (known0 (ownedBy K i)) ∅ q}) K fun K' =>
      seekAll H G (F fun i => pkVal (known0 (ownedBy K' i)) (pub i)) K'

theorem startAll_within (H : ι → (Fin p.n → Fin (2 ^ 8)) × M → Digest p) (G : ι → Value p × M → Value p) (pub : ι → Bytes)
    (F : (ι → Bytes) → ManyForger ι (Value p) (Fin p.n → Fin (2 ^ 8)) M (Digest p))
    {q t : ι → Nat} {u : Nat} (h : ∀ pk, (F pk).WithinShared q t u) : (startAll H G pub F).Within u :=
  revealAll_within (fun _ => revealAll_within (fun _ => seekAll_within H G _ (h _) _) _ _) _ _

theorem told_start (val : Place p → Value p) :
    told val (told val (fun _ => none) (placesOf p {q | Open q}))
      (placesOf p {q | ¬Hidden (known0 (told val (fun _ => none) (placesOf p {q | Open q}))) ∅ q}) = knownFor val ∅ := by
  have hK : ∀ q (hq : q.Valid p), Open q → known0 (told val (fun _ => none) (placesOf p {q | Open q})) ⟨q, hq⟩ = val ⟨q, hq⟩ :=
    fun q hq ho => by
      have e : told val (fun _ => none) (placesOf p {q | Open q}) ⟨q, hq⟩ = some (val ⟨q, hq⟩) :=
        if_pos (mem_placesOf.mpr (show q ∈ {q | Open q} from ho))
      exact fill_self e _
  have hown : ∀ j t l, own (known0 (told val (fun _ => none) (placesOf p {q | Open q}))) j t l = own val j t l := by
    intro j t l
    cases j with
    | zero => exact ext_congr fun hq => hK _ hq trivial
    | succ j => exact ext_congr fun hq => hK _ hq open_treePos
  have hh : ∀ q, Hidden (known0 (told val (fun _ => none) (placesOf p {q | Open q}))) ∅ q ↔ Hidden val ∅ q := by
    intro q
    cases q <;> simp only [Hidden, digit, hown]
  funext v
  unfold told knownFor
  by_cases hv : Hidden val ∅ v.1
  · rw [if_neg (fun hm => (show ¬Hidden _ _ _ from mem_placesOf.mp hm) ((hh _).mpr hv)), if_pos hv, if_neg]
    exact fun hm => not_hidden_of_open (mem_placesOf.mp hm) hv
  · rw [if_pos (mem_placesOf.mpr (show ¬Hidden _ _ _ from fun hm => hv ((hh _).mp hm))), if_neg hv]

theorem startAll_finds {H : ι → (Fin p.n → Fin (2 ^ 8)) × M → Digest p} {G : ι → Value p × M → Value p} {pub : ι → Bytes}
    {F : (ι → Bytes) → ManyForger ι (Value p) (Fin p.n → Fin (2 ^ 8)) M (Digest p)}
    {val : ι × Place p → Value p} {g : ι × Point p → Value p}
    (h : (seekAll H G (F fun i => pkVal (ownedBy val i) (pub i)) (knownForAll val fun _ => ∅)).Finds val g
      (dom (knownForAll val fun _ => ∅)) ∅) :
    (startAll H G pub F).Finds val g ∅ ∅ := by
  have e0 : dom (fun _ : ι × Place p => (none : Option (Value p))) = ∅ := by
    ext v; simp [dom]
  rw [← e0]
  refine revealAll_finds _ (revealAll_finds _ ?_)
  have e : told val (told val (fun _ => none) (placesOfAll p fun _ => {q | Open q}))
      (placesOfAll p fun i => {q | ¬Hidden (known0 (ownedBy (told val (fun _ => none) (placesOfAll p fun _ => {q | Open q})) i)) ∅ q}) =
      knownForAll val fun _ => ∅ := by
    funext ⟨i, v⟩
    have e1 := congrFun (told_owned val (told val (fun _ => none) (placesOfAll p fun _ => {q | Open q}))
      (fun i => {q | ¬Hidden (known0 (ownedBy (told val (fun _ => none) (placesOfAll p fun _ => {q | Open q})) i)) ∅ q}) i) v
    refine e1.trans ?_
    rw [told_owned]
    exact congrFun (told_start (ownedBy val i)) v
  have epk : (fun i => pkVal (known0 (ownedBy (knownForAll val fun _ => ∅) i)) (pub i)) =
      fun i => pkVal (ownedBy val i) (pub i) := funext fun i =>
    show pkVal (known0 (knownFor (ownedBy val i) ∅)) (pub i) = _ from
      congrArg (pub i ++ ·) (ext_congr fun hq => known0_eq (v := ⟨_, hq⟩) hidden_treePos)
  rw [e, epk]
  exact h

end

end Spx.Rom
