import Verif.Proof.Hidden
/-! # From a forger to an attacker who looks for values

Message hash and randomisers are fixed here. -/

namespace Spx.Rom
open Spec

section
variable {V Z Y : Type} [DecidableEq V]

/-- Ask to be told the values of a list of nodes. -/
def revealAll : List V → (V → Option Y) → ((V → Option Y) → Seeker V Z Y) → Seeker V Z Y
  | [], K, cont => cont K
  | v :: l, K, cont => .reveal v fun y => revealAll l (Function.update K v (some y)) cont

/-- What is known then -/
def told (val : V → Y) (K : V → Option Y) (l : List V) : V → Option Y := fun v => if v ∈ l then some (val v) else K v

theorem told_cons (val : V → Y) (K : V → Option Y) (v : V) (l : List V) :
    told val (Function.update K v (some (val v))) l = told val K (v :: l) := by
  funext u
  unfold told
  by_cases hl : u ∈ l
  · rw [if_pos hl, if_pos (List.mem_cons_of_mem _ hl)]
  · by_cases hu : u = v
    · subst hu
      rw [if_neg hl, if_pos List.mem_cons_self]
      simp
    · rw [if_neg hl, if_neg (by simp [hu, hl])]
      simp [hu]

theorem revealAll_finds {val : V → Y} {g : Z → Y} {cont : (V → Option Y) → Seeker V Z Y} {L : Set Z} (l : List V) :
    ∀ {K : V → Option Y}, (cont (told val K l)).Finds val g (dom (told val K l)) L →
      (revealAll l K cont).Finds val g (dom K) L := by
  induction l with
  | nil =>
    intro K h
    have e : told val K [] = K := funext fun u => by simp [told]
    rw [e] at h
    exact h
  | cons v l ih =>
    intro K h
    rw [← told_cons] at h
    have := ih h
    rw [dom_update] at this
    exact this

theorem revealAll_within {cont : (V → Option Y) → Seeker V Z Y} {n : ℕ} (h : ∀ K, (cont K).Within n) (l : List V) :
    ∀ K, (revealAll l K cont).Within n := by
  induction l with
  | nil => exact fun K => h K
  | cons v l ih => exact fun K y => ih _

end

section
variable {p : Par} {M : Type}

/-- Values not known count as 0. -/
def known0 (K : Place p → Option (Value p)) : Place p → Value p := fill K fun _ _ => 0

/-- The values of all parts of what is hashed at a position are known. -/
def AllKnown (K : Place p → Option (Value p)) (q : Position) : Prop := ∀ c ∈ children p q, ∀ hc : c.Valid p, K ⟨c, hc⟩ ≠ none

open Classical in
/-- The guess that goes with an input: the value of the single part, if there is a single part -/
noncomputable def guessOf (z : Point p) : Option (Place p × Value p) :=
  match children p z.1.1 with
  | [c] => if h : c.Valid p then some (⟨c, h⟩, Game.rnd p.n z.1.2) else none
  | _ => none

/-- The places of a set of positions -/
noncomputable def placesOf (p : Par) (R : Set Position) : List (Place p) :=
  (@Finset.filter (Place p) (fun v => v.1 ∈ R) (Classical.decPred _) Finset.univ).toList

theorem mem_placesOf {R : Set Position} {v : Place p} : v ∈ placesOf p R ↔ v.1 ∈ R := by
  unfold placesOf
  rw [Finset.mem_toList]
  exact (@Finset.mem_filter _ _ (Classical.decPred _) _ _).trans ⟨fun h => h.2, fun h => ⟨Finset.mem_univ _, h⟩⟩

/-- Where the signature for a digest shows secret FORS values -/
def opened (d : Digest p) : Set Position :=
  selectedPlaces p (splitDigest p d.bytes).1 (splitDigest p d.bytes).2.1 (splitDigest p d.bytes).2.2

/-- The signature for a digest -/
noncomputable def sigFor (val : Place p → Value p) (r : Fin p.n → Fin (2 ^ 8)) (d : Digest p) : Bytes :=
  randomiserBytes r ++ sigVal val (splitDigest p d.bytes).1 (splitDigest p d.bytes).2.1 (splitDigest p d.bytes).2.2

open Classical in
/-- The point with an address and an input -/
noncomputable def pointAt (p : Par) (a : ADRS) (x : Bytes) : Option (Point p) :=
  if h : ∃ z : Point p, z.1.1.isPrf = false ∧ z.1.1.adrs = a ∧ z.1.2 = x then some h.choose else none

theorem pointAt_some {a : ADRS} {x : Bytes} {z : Point p} (h : pointAt p a x = some z) :
    z.1.1.isPrf = false ∧ z.1.1.adrs = a ∧ z.1.2 = x := by
  unfold pointAt at h
  split at h
  · next hz =>
    rw [← Option.some.inj h]
    exact hz.choose_spec
  · cases h

theorem pointAt_none {a : ADRS} {x : Bytes} (h : pointAt p a x = none) :
    ¬∃ z : Point p, z.1.1.isPrf = false ∧ z.1.1.adrs = a ∧ z.1.2 = x := by
  unfold pointAt at h
  split at h
  · cases h
  · assumption

open Classical in
/-- The forger as an attacker who looks for values; `K` is what it knows. -/
noncomputable def seek (H : (Fin p.n → Fin (2 ^ 8)) × M → Digest p) :
    Adversary (Fin p.n → Fin (2 ^ 8)) M (Digest p) → (Place p → Option (Value p)) → List (Fin p.n → Fin (2 ^ 8)) →
      Seeker (Place p) (Point p) (Value p)
  | .output _ _, _, _ => .done
  | .hash r m next, K, s => seek H (next (H (r, m))) K s
  | .tweak a x next, K, s =>
    match pointAt p a x with
    | some z =>
      if AllKnown K z.1.1 ∧ z.1.2 = hon (known0 K) z.1.1 then seek H (next (ext (known0 K) z.1.1)) K s
      else .ask z (guessOf z) ⟨z.1.1, z.2.1⟩ fun y => seek H (next (randomiserBytes y)) K s
    | none => seek H (next (List.replicate p.n 0)) K s
  | .sign m next, K, r :: s =>
    revealAll (placesOf p (opened (H (r, m)))) K fun K' => seek H (next (sigFor (known0 K') r (H (r, m)))) K' s
  | .sign _ _, _, [] => .done

theorem seek_within (H : (Fin p.n → Fin (2 ^ 8)) × M → Digest p) (F : Adversary (Fin p.n → Fin (2 ^ 8)) M (Digest p)) :
    ∀ {q t u : Nat}, F.Within q t u → ∀ K s, (seek H F K s).Within u := by
  induction F with
  | output m sig => exact fun _ _ _ => trivial
  | hash r m next ih => exact fun h K s => ih _ (h.2 _) K s
  | tweak a x next ih =>
    intro q t u h K s
    rw [seek]
    have up : ∀ {S : Seeker (Place p) (Point p) (Value p)} {n : ℕ}, S.Within (n - 1) → S.Within n := by
      intro S
      induction S with
      | done => exact fun _ => trivial
      | reveal v next ih => exact fun h y => ih y (h y)
      | ask z g v next ih => exact fun h => ⟨by have := h.1; omega, fun y => ih y (h.2 y)⟩
    split
    · split
      · exact up (ih _ (h.2 _) K s)
      · exact ⟨h.1, fun y => ih _ (h.2 _) K s⟩
    · exact up (ih _ (h.2 _) K s)
  | sign m next ih =>
    intro q t u h K s
    cases s with
    | nil => exact trivial
    | cons r s => exact revealAll_within (fun K' => ih _ (h.2 _) K' s) _ _

open Classical in
/-- What is known if the secret FORS values at `R` are opened -/
noncomputable def knownFor (val : Place p → Value p) (R : Set Position) : Place p → Option (Value p) := fun v =>
  if Hidden val R v.1 then none else some (val v)

theorem knownFor_none {val : Place p → Value p} {R : Set Position} {v : Place p} :
    knownFor val R v = none ↔ Hidden val R v.1 := by
  unfold knownFor
  split <;> simp [*]

theorem known0_eq {val : Place p → Value p} {R : Set Position} {v : Place p} (h : ¬Hidden val R v.1) :
    known0 (knownFor val R) v = val v := by
  have e : knownFor val R v = some (val v) := if_neg h
  exact fill_self e _

theorem told_opened {val : Place p → Value p} {R R' : Set Position} (hR' : ∀ q ∈ R', ∃ t k i, q = .forsPrf t k i) :
    told val (knownFor val R) (placesOf p R') = knownFor val (R ∪ R') := by
  funext v
  unfold told knownFor
  by_cases hv : v.1 ∈ R'
  · rw [if_pos (mem_placesOf.mpr hv), if_neg]
    obtain ⟨t, k, i, e⟩ := hR' _ hv
    rw [e] at hv ⊢
    exact fun hh => hh (Or.inr hv)
  · rw [if_neg (fun h => hv (mem_placesOf.mp h))]
    have : Hidden val R v.1 ↔ Hidden val (R ∪ R') v.1 := by
      revert hv
      generalize v.1 = q
      intro hv
      cases q <;> first | exact Iff.rfl | skip
      show _ ∉ R ↔ _ ∉ R ∪ R'
      rw [Set.mem_union]
      simp [hv]
    by_cases hh : Hidden val R v.1
    · rw [if_pos hh, if_pos (this.mp hh)]
    · rw [if_neg hh, if_neg fun h => hh (this.mpr h)]

theorem opened_fors (d : Digest p) : ∀ q ∈ opened d, ∃ t k i, q = Position.forsPrf t k i := by
  rintro q ⟨i, -, rfl⟩
  exact ⟨_, _, _, rfl⟩

theorem hidden_up {val : Place p → Value p} {R : Set Position} {q : Position} (hq : q.Valid p) (hp : q.isPrf = false)
    (hh : Hidden val R q) : ∃ c ∈ children p q, c.Valid p ∧ Hidden val R c := by
  cases q with
  | wotsHash l t k i j =>
    refine ⟨_, List.mem_singleton.mpr rfl, ?_, hidden_chainPos.mpr (Nat.lt_of_succ_lt hh)⟩
    obtain ⟨h1, h2, h3, h4, h5⟩ := hq
    cases j with
    | zero => exact ⟨h1, h2, h3, h4⟩
    | succ j => exact ⟨h1, h2, h3, h4, by omega⟩
  | wotsPrf => cases hp
  | forsPrf => cases hp
  | wotsPk => exact hh.elim
  | treeNode => exact hh.elim
  | forsLeaf => exact hh.elim
  | forsNode => exact hh.elim
  | forsRoots => exact hh.elim

variable {S : Spec.Hash}

/-- The calls of the tweakable hash that the forger makes -/
def asked (H : (Fin p.n → Fin (2 ^ 8)) × M → Digest p) (T : ADRS → Bytes → Bytes)
    (signature : (Fin p.n → Fin (2 ^ 8)) → M → Bytes) :
    Adversary (Fin p.n → Fin (2 ^ 8)) M (Digest p) → List (Fin p.n → Fin (2 ^ 8)) → List (ADRS × Bytes)
  | .output _ _, _ => []
  | .hash r m next, s => asked H T signature (next (H (r, m))) s
  | .tweak a x next, s => (a, x) :: asked H T signature (next (T a x)) s
  | .sign m next, r :: s => asked H T signature (next (signature r m)) s
  | .sign _ _, [] => []

/-- The secret FORS values opened by the signatures that the forger asks for -/
def openedBy (H : (Fin p.n → Fin (2 ^ 8)) × M → Digest p) (T : ADRS → Bytes → Bytes)
    (signature : (Fin p.n → Fin (2 ^ 8)) → M → Bytes) :
    Adversary (Fin p.n → Fin (2 ^ 8)) M (Digest p) → List (Fin p.n → Fin (2 ^ 8)) → Set Position → Set Position
  | .output _ _, _, R => R
  | .hash r m next, s, R => openedBy H T signature (next (H (r, m))) s R
  | .tweak a x next, s, R => openedBy H T signature (next (T a x)) s R
  | .sign m next, r :: s, R => openedBy H T signature (next (signature r m)) s (R ∪ opened (H (r, m)))
  | .sign _ _, [], R => R

theorem openedBy_mono {H : (Fin p.n → Fin (2 ^ 8)) × M → Digest p} {T : ADRS → Bytes → Bytes}
    {signature : (Fin p.n → Fin (2 ^ 8)) → M → Bytes} (F : Adversary (Fin p.n → Fin (2 ^ 8)) M (Digest p)) :
    ∀ (s : List (Fin p.n → Fin (2 ^ 8))) (R : Set Position), R ⊆ openedBy H T signature F s R := by
  induction F with
  | output m sig => exact fun _ _ _ h => h
  | hash r m next ih => exact fun s R => ih _ s R
  | tweak a x next ih => exact fun s R => ih _ s R
  | sign m next ih =>
    intro s R
    cases s with
    | nil => exact fun _ h => h
    | cons r s => exact fun q hq => ih _ s _ (Or.inl hq)

/-- A call that breaks the tweakable hash: a second preimage, or a hidden value -/
def Breach (val : Place p → Value p) (O : Point p → Value p) (R : Set Position) (z : Point p) : Prop :=
  (z.1.2 ≠ hon val z.1.1 ∧ O z = val ⟨z.1.1, z.2.1⟩) ∨
  (z.1.2 = hon val z.1.1 ∧ ∃ c ∈ children p z.1.1, c.Valid p ∧ Hidden val R c)

theorem rnd_randomiserBytes {n : Nat} (r : Fin n → Fin (2 ^ 8)) : Game.rnd n (randomiserBytes r) = r :=
  Game.randomiserBytes_injective (by
    rw [Game.randomiserBytes_rnd (Nat.le_of_eq (Game.length_randomiserBytes r).symm)]
    exact List.take_of_length_le (Nat.le_of_eq (Game.length_randomiserBytes r)))

theorem seek_finds (Fp : Fine p) {H : (Fin p.n → Fin (2 ^ 8)) × M → Digest p} {val : Place p → Value p}
    {g : Point p → Value p} {T : ADRS → Bytes → Bytes}
    (hT : ∀ z : Point p, z.1.1.isPrf = false → T z.1.1.adrs z.1.2 = randomiserBytes (patch pt val g z))
    (hT0 : ∀ a x, (¬∃ z : Point p, z.1.1.isPrf = false ∧ z.1.1.adrs = a ∧ z.1.2 = x) → T a x = List.replicate p.n 0)
    {signature : (Fin p.n → Fin (2 ^ 8)) → M → Bytes} (hs : ∀ r m, signature r m = sigFor val r (H (r, m)))
    (F : Adversary (Fin p.n → Fin (2 ^ 8)) M (Digest p)) :
    ∀ {s : List (Fin p.n → Fin (2 ^ 8))} {R : Set Position} {L : Set (Point p)},
      (∀ z ∈ L, g z ≠ val ⟨z.1.1, z.2.1⟩) →
      (∃ z : Point p, z.1.1.isPrf = false ∧ (z.1.1.adrs, z.1.2) ∈ asked H T signature F s ∧
        Breach val (patch pt val g) (openedBy H T signature F s R) z) →
      (seek H F (knownFor val R) s).Finds val g (dom (knownFor val R)) L := by
  induction F with
  | output m sig =>
    rintro s R L - ⟨z, -, h, -⟩
    cases h
  | hash r m next ih => exact fun hL h => ih _ hL h
  | sign m next ih =>
    intro s R L hL h
    cases s with
    | nil =>
      obtain ⟨z, -, h, -⟩ := h
      cases h
    | cons r s =>
      rw [seek]
      refine revealAll_finds _ ?_
      rw [told_opened (opened_fors _)]
      have e : sigFor (known0 (knownFor val (R ∪ opened (H (r, m))))) r (H (r, m)) = signature r m := by
        rw [hs]
        unfold sigFor
        rw [← sigVal_congr (R := R ∪ opened (H (r, m))) (fun q hq => Or.inr hq) fun v hv => (known0_eq hv).symm]
      rw [e]
      exact ih _ hL h
  | tweak a x next ih =>
    intro s R L hL ⟨z, hz, hmem, hb⟩
    rw [seek]
    cases hp : pointAt p a x with
    | some z0 =>
      simp only
      obtain ⟨h1, h2, h3⟩ := pointAt_some hp
      subst h2 h3
      have heq : (z.1.1.adrs, z.1.2) = (z0.1.1.adrs, z0.1.2) → z = z0 := fun e =>
        Subtype.ext (Prod.ext (adrs_inj z.2.1 z0.2.1 (Prod.ext_iff.mp e).1) (Prod.ext_iff.mp e).2)
      have hmem' := List.mem_cons.mp hmem
      change Breach val (patch pt val g) (openedBy H T signature (next (T z0.1.1.adrs z0.1.2)) s R) z at hb
      have hk : AllKnown (knownFor val R) z0.1.1 → hon (known0 (knownFor val R)) z0.1.1 = hon val z0.1.1 := fun hall =>
        hon_congr fun c hc hv => known0_eq fun hh => hall c hc hv (knownFor_none.mpr hh)
      split
      · next hcase =>
        obtain ⟨hall, hx⟩ := hcase
        rw [hk hall] at hx
        have hnh : ¬Hidden val R z0.1.1 := fun hh => by
          obtain ⟨c, hc, hv, hh⟩ := hidden_up z0.2.1 h1 hh
          exact hall c hc hv (knownFor_none.mpr hh)
        have hz0 : pt val ⟨z0.1.1, z0.2.1⟩ = z0 := Subtype.ext (Prod.ext rfl hx.symm)
        have e : ext (known0 (knownFor val R)) z0.1.1 = T z0.1.1.adrs z0.1.2 := by
          have e1 := patch_pt pt_inj val g ⟨z0.1.1, z0.2.1⟩
          rw [hz0] at e1
          have e2 := ext_valid (known0 (knownFor val R)) ⟨z0.1.1, z0.2.1⟩
          rw [known0_eq hnh] at e2
          rw [hT z0 h1, e1]
          exact e2
        rw [e]
        refine ih _ hL ⟨z, hz, ?_, hb⟩
        rcases hmem' with hm | hm
        · exfalso
          have := heq hm
          subst this
          rcases hb with ⟨hb, -⟩ | ⟨-, c, hc, hv, hh⟩
          · exact hb hx
          · exact hall c hc hv (knownFor_none.mpr (hidden_mono (openedBy_mono _ _ _) hh))
        · exact hm
      · next hcase =>
        by_cases hx : z0.1.2 = hon val z0.1.1
        · have hall : ¬AllKnown (knownFor val R) z0.1.1 := fun hall => hcase ⟨hall, by rw [hk hall]; exact hx⟩
          unfold AllKnown at hall
          push Not at hall
          obtain ⟨c, hc, hv, hn⟩ := hall
          have hh := knownFor_none.mp hn
          have hch := children_hidden Fp hc hh
          refine Or.inl ⟨⟨c, hv⟩, Game.rnd p.n z0.1.2, ?_, fun hd => hd hn, ?_⟩
          · unfold guessOf
            rw [hch]
            exact dif_pos hv
          · rw [hx, hon_single val hch, ext_valid val ⟨c, hv⟩, rnd_randomiserBytes]
        · have hO : patch pt val g z0 = g z0 := patch_off fun v hv => hx (by rw [← hv]; rfl)
          by_cases hcol : z0 ∉ L ∧ g z0 = val ⟨z0.1.1, z0.2.1⟩
          · exact Or.inr (Or.inl hcol)
          · refine Or.inr (Or.inr ?_)
            have e : randomiserBytes (g z0) = T z0.1.1.adrs z0.1.2 := by rw [hT z0 h1, hO]
            change (seek H (next (randomiserBytes (g z0))) (knownFor val R) s).Finds val g (dom (knownFor val R)) (insert z0 L)
            rw [e]
            have hne : g z0 ≠ val ⟨z0.1.1, z0.2.1⟩ := fun hg => by
              by_cases hin : z0 ∈ L
              · exact hL _ hin hg
              · exact hcol ⟨hin, hg⟩
            refine ih _ (fun z' hz' => ?_) ⟨z, hz, ?_, hb⟩
            · rcases hz' with rfl | hz'
              · exact hne
              · exact hL _ hz'
            · rcases hmem' with hm | hm
              · exfalso
                have := heq hm
                subst this
                rcases hb with ⟨-, hb⟩ | ⟨hb, -⟩
                · rw [hO] at hb
                  exact hne hb
                · exact hx hb
              · exact hm
    | none =>
      simp only
      have hp := pointAt_none hp
      have e : List.replicate p.n 0 = T a x := (hT0 a x hp).symm
      rw [e]
      refine ih _ hL ⟨z, hz, ?_, hb⟩
      rcases List.mem_cons.mp hmem with hm | hm
      · exact absurd ⟨z, hz, congrArg Prod.fst hm, congrArg Prod.snd hm⟩ hp
      · exact hm

/-! ## The beginning -/

/-- The positions whose values signatures always allow to compute -/
def Open : Position → Prop
  | .wotsPrf .. => False
  | .wotsHash .. => False
  | .forsPrf .. => False
  | _ => True

theorem not_hidden_of_open {val : Place p → Value p} {R : Set Position} {q : Position} (h : Open q) : ¬Hidden val R q := by
  cases q <;> first | exact id | exact h.elim

theorem open_treePos {l t h i : Nat} : Open (treePos l t h i) := by cases h <;> exact trivial

/-- The public key -/
noncomputable def pkVal (val : Place p → Value p) (pub : Bytes) : Bytes := pub ++ ext val (treePos (p.d - 1) 0 p.h' 0)

/-- The forger is first told everything that signatures allow to compute whatever the message. -/
noncomputable def start (H : (Fin p.n → Fin (2 ^ 8)) × M → Digest p) (pub : Bytes)
    (F : Bytes → Adversary (Fin p.n → Fin (2 ^ 8)) M (Digest p)) (s : List (Fin p.n → Fin (2 ^ 8))) :
    Seeker (Place p) (Point p) (Value p) :=
  revealAll (placesOf p {q | Open q}) (fun _ => none) fun K =>
    revealAll (placesOf p {q | ¬Hidden (known0 K) ∅ q}) K fun K' => seek H (F (pkVal (known0 K') pub)) K' s

theorem start_within (H : (Fin p.n → Fin (2 ^ 8)) × M → Digest p) (pub : Bytes)
    (F : Bytes → Adversary (Fin p.n → Fin (2 ^ 8)) M (Digest p))
    {q t u : Nat} (h : ∀ pk, (F pk).Within q t u) (s : List (Fin p.n → Fin (2 ^ 8))) : (start H pub F s).Within u :=
  revealAll_within (fun _ => revealAll_within (fun _ => seek_within H _ (h _) _ s) _ _) _ _

theorem start_finds {H : (Fin p.n → Fin (2 ^ 8)) × M → Digest p} {pub : Bytes}
    {F : Bytes → Adversary (Fin p.n → Fin (2 ^ 8)) M (Digest p)}
    {s : List (Fin p.n → Fin (2 ^ 8))} {val : Place p → Value p} {g : Point p → Value p}
    (h : (seek H (F (pkVal val pub)) (knownFor val ∅) s).Finds val g (dom (knownFor val ∅)) ∅) :
    (start H pub F s).Finds val g ∅ ∅ := by
  have e0 : dom (fun _ : Place p => (none : Option (Value p))) = ∅ := by
    ext v; simp [dom]
  rw [← e0]
  refine revealAll_finds _ (revealAll_finds _ ?_)
  have hK : ∀ q (hq : q.Valid p), Open q → known0 (told val (fun _ => none) (placesOf p {q | Open q})) ⟨q, hq⟩ = val ⟨q, hq⟩ :=
    fun q hq ho => by
      have e : told val (fun _ => none) (placesOf p {q | Open q}) ⟨q, hq⟩ = some (val ⟨q, hq⟩) :=
        if_pos (mem_placesOf.mpr (show q ∈ {q | Open q} from ho))
      exact fill_self e _
  have hown : ∀ j t l, own (known0 (told val (fun _ => none) (placesOf p {q | Open q}))) j t l = own val j t l := by
    intro j t l
    cases j with
    | zero => exact ext_congr fun hq => hK _ hq trivial
    | succ j => exact ext_congr fun hq => hK _ hq open_treePos
  have hh : ∀ q, Hidden (known0 (told val (fun _ => none) (placesOf p {q | Open q}))) ∅ q ↔ Hidden val ∅ q := by
    intro q
    cases q <;> simp only [Hidden, digit, hown]
  have e : told val (told val (fun _ => none) (placesOf p {q | Open q}))
      (placesOf p {q | ¬Hidden (known0 (told val (fun _ => none) (placesOf p {q | Open q}))) ∅ q}) = knownFor val ∅ := by
    funext v
    unfold told knownFor
    by_cases hv : Hidden val ∅ v.1
    · rw [if_neg (fun hm => (show ¬Hidden _ _ _ from mem_placesOf.mp hm) ((hh _).mpr hv)), if_pos hv, if_neg]
      exact fun hm => not_hidden_of_open (mem_placesOf.mp hm) hv
    · rw [if_pos (mem_placesOf.mpr (show ¬Hidden _ _ _ from fun hm => hv ((hh _).mp hm))), if_neg hv]
  have epk : pkVal (known0 (knownFor val ∅)) pub = pkVal val pub :=
    congrArg (pub ++ ·) (ext_congr fun hq => known0_eq (v := ⟨_, hq⟩) hidden_treePos)
  rw [e, epk]
  exact h

end

end Spx.Rom
