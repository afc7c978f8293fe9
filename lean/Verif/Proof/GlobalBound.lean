import Verif.Proof.GlobalRun
import Verif.Proof.KeyCongr
import Verif.Proof.SharedBound
/-! # The bound for forgers when all keys use the same hash functions -/

namespace Spx.Rom
open Spec

section
variable {p : Par}

theorem toValue_bytes (v : Value p) : toValue p (randomiserBytes v) = v := by
  funext i
  have h : (randomiserBytes v).getD i 0 = BitVec.ofFin (v i) := by
    unfold randomiserBytes
    rw [List.getD_eq_getElem?_getD, List.getElem?_eq_getElem (by rw [List.length_ofFn]; exact i.2), List.getElem_ofFn]
    rfl
  unfold toValue
  rw [h]

/-- Secret values from `F`, everything else from `O` -/
def combine (O F : Point p → Value p) : Point p → Value p := fun z => if z.1.1.isPrf then F z else O z

theorem combine_combine (O F : Point p → Value p) : combine (combine O F) (combine F O) = O := by
  funext z
  unfold combine
  split <;> rfl

theorem combine_T (O F : Point p → Value p) : (Hash.random (combine O F)).T = (Hash.random O).T := by
  funext pub a x
  unfold Hash.random
  dsimp only
  split
  · next h =>
    have := h.choose_spec.1
    unfold combine
    rw [if_neg (by rw [this]; decide)]
  · rfl

theorem combine_PRF (O F : Point p → Value p) : (Hash.random (combine O F)).PRF = (Hash.random F).PRF := by
  funext pub sk a
  unfold Hash.random
  dsimp only
  split
  · next h =>
    have := h.choose_spec.1
    unfold combine
    rw [if_pos this]
  · rfl

/-- The functions for the keys of the owners -/
abbrev Rows (p : Par) (M ι : Type) : Type :=
  (ι → (Point p → Value p) × ((Fin p.n → Fin (2 ^ 8)) × M → Digest p)) × (ι → Point p → Value p) ×
  (ι → Value p × M → Value p)

noncomputable instance (p : Par) (M ι : Type) [Fintype M] [DecidableEq M] [Fintype ι] [DecidableEq ι] : Fintype (Rows p M ι) :=
  let : Fintype ((ι → Point p → Value p) × (ι → Value p × M → Value p)) := instFintypeProd _ _
  instFintypeProd _ _

/-- The functions of each owner -/
def rowsOf {M ι : Type} (r : Rows p M ι) (i : ι) : Functions p M := (combine (r.1 i).1 (r.2.1 i), (r.1 i).2, r.2.2 i)

/-- Half of the values are not used. -/
def rowsEquiv {M ι : Type} : Rows p M ι ≃ (ι → Functions p M) × (ι → Point p → Value p) where
  toFun r := (rowsOf r, fun i => combine (r.2.1 i) (r.1 i).1)
  invFun x := (fun i => (combine (x.1 i).1 (x.2 i), (x.1 i).2.1), fun i => combine (x.2 i) (x.1 i).1, fun i => (x.1 i).2.2)
  left_inv r := by
    simp only [rowsOf, combine_combine]
  right_inv x := by
    refine Prod.ext (funext fun i => ?_) (funext fun i => combine_combine ..)
    exact Prod.ext (combine_combine ..) rfl

theorem avg_rowsOf {M ι : Type} [Fintype M] [DecidableEq M] [Fintype ι] [DecidableEq ι] (f : (ι → Functions p M) → ℚ) :
    avg (fun r : Rows p M ι => f (rowsOf r)) = avg f := by
  have : Nonempty (Value p) := ⟨fun _ => 0⟩
  let : Fintype ((ι → Functions p M) × (ι → Point p → Value p)) := instFintypeProd _ _
  rw [← avg_equiv rowsEquiv.symm, avg_prod]
  have e : ∀ a b, f (rowsOf (rowsEquiv.symm (a, b))) = f a := fun a b =>
    congrArg f (congrArg Prod.fst (rowsEquiv.apply_symm_apply (a, b)))
  simp only [e, avg_const]

end

section
variable {p : Par} {M ι : Type} {text : M → Bytes}

open Classical in
/-- The owner with a public seed -/
noncomputable def ownerOf (pubs : ι → Value p) (k : Value p) : Option ι := if h : ∃ i, pubs i = k then some h.choose else none

theorem ownerOf_some {pubs : ι → Value p} {k : Value p} {i : ι} (h : ownerOf pubs k = some i) : pubs i = k := by
  unfold ownerOf at h
  split at h
  · next h' => exact Option.some.inj h ▸ h'.choose_spec
  · cases h

theorem ownerOf_none {pubs : ι → Value p} {k : Value p} (h : ownerOf pubs k = none) (i : ι) : pubs i ≠ k := fun e => by
  unfold ownerOf at h
  rw [dif_pos ⟨i, e⟩] at h
  cases h

/-- The functions of the simulation -/
noncomputable abbrev ownScheme (text : M → Bytes) (r : Rows p M ι) (i : ι) : Spec.Hash :=
  (Hash.random (rowsOf r i).1).withRandomisers text (rowsOf r i).2.1 (rowsOf r i).2.2

/-- Seeds without secrets -/
def openSeed (pub : ι → Value p) : ι → Bytes := Seeds.bytes (fun _ _ => 0, fun _ _ => 0, pub)

noncomputable abbrev simPrf (W : World p M) (pub sk : Value p) (a : ADRS) : Bytes :=
  (Hash.random (W.2.1 (pub, sk))).PRF [] [] a

noncomputable abbrev simMsg (text : M → Bytes) (W : World p M) (k : Value p) (o : Value p) (m : M) : Bytes :=
  ((Hash.random (W.1 (fun _ => 0)).1).withRandomisers text (W.1 (fun _ => 0)).2 (W.2.2 k)).PRFmsg [] [] (randomiserBytes o)
    (text m)

/-- The forger for many keys -/
noncomputable def simForger (text : M → Bytes)
    (F : (ι → Bytes) → GlobalForger ι (Value p) (Value p) (Fin p.n → Fin (2 ^ 8)) M (Digest p)) (pub : ι → Value p)
    (W : World p M) (pk : ι → Bytes) : ManyForger ι (Value p) (Fin p.n → Fin (2 ^ 8)) M (Digest p) :=
  reduce (ownerOf pub) (fun k => (W.1 k).2) (fun k => (Hash.random (W.1 k).1).T []) (simPrf W) (simMsg text W) (F pk)

/-- The keys that the forger guesses -/
noncomputable def guessed (text : M → Bytes)
    (F : (ι → Bytes) → GlobalForger ι (Value p) (Value p) (Fin p.n → Fin (2 ^ 8)) M (Digest p)) (pub : ι → Value p)
    (W : World p M) (r : Rows p M ι) : List (Value p × Value p) × List (Value p) :=
  keysOf (joined (ownerOf pub) (fun i => (r.1 i).2) fun k => (W.1 k).2)
    (joined (ownerOf pub) (fun i => (ownScheme text r i).T []) fun k => (Hash.random (W.1 k).1).T []) (simPrf W) (simMsg text W)
    (fun i o m => sign p (ownScheme text r i) (skOf p (ownScheme text r i) (openSeed pub i)) (randomiserBytes o) (text m))
    (F fun i => pkOf p (ownScheme text r i) (openSeed pub i))

/-- A forger who succeeds and does not guess a key succeeds against the separate functions of the owners. -/
theorem global_split
    {F : (ι → Bytes) → GlobalForger ι (Value p) (Value p) (Fin p.n → Fin (2 ^ 8)) M (Digest p)} {sk k pub : ι → Value p}
    {W : World p M} {r : Rows p M ι} (h1 : Function.Injective pub) (h2 : Function.Injective k)
    (h : SucceedsGlobal p text F
      (patch (fun _ => pub) r.1 W.1, patch (fun _ i => (pub i, sk i)) r.2.1 W.2.1, patch (fun _ => k) r.2.2 W.2.2) (sk, k, pub)) :
    SucceedsMany p (openSeed pub) text (simForger text F pub W) (rowsOf r) ∨
      (∃ x ∈ (guessed text F pub W r).1, ∃ i, x = (pub i, sk i)) ∨ ∃ x ∈ (guessed text F pub W r).2, ∃ i, x = k i := by
  by_contra hn
  obtain ⟨n1, hn⟩ := not_or.mp hn
  obtain ⟨n2, n3⟩ := not_or.mp hn
  have h3 : Function.Injective fun i => (pub i, sk i) := fun i j e => h1 (Prod.ext_iff.mp e).1
  have r1 : ∀ i, patch (fun _ => pub) r.1 W.1 (pub i) = r.1 i := fun i =>
    patch_pt (pt := fun _ => pub) (fun _ _ _ e => h1 e) r.1 W.1 i
  have r2 : ∀ i, patch (fun _ i => (pub i, sk i)) r.2.1 W.2.1 (pub i, sk i) = r.2.1 i := fun i =>
    patch_pt (pt := fun _ i => (pub i, sk i)) (fun _ _ _ e => h3 e) r.2.1 W.2.1 i
  have r3 : ∀ i, patch (fun _ => k) r.2.2 W.2.2 (k i) = r.2.2 i := fun i =>
    patch_pt (pt := fun _ => k) (fun _ _ _ e => h2 e) r.2.2 W.2.2 i
  have f1 : ∀ v, (∀ i, pub i ≠ v) → patch (fun _ => pub) r.1 W.1 v = W.1 v := fun v hv => patch_off hv
  have f2 : ∀ x, (∀ i, (pub i, sk i) ≠ x) → patch (fun _ i => (pub i, sk i)) r.2.1 W.2.1 x = W.2.1 x := fun x hx => patch_off hx
  have f3 : ∀ v, (∀ i, k i ≠ v) → patch (fun _ => k) r.2.2 W.2.2 v = W.2.2 v := fun v hv => patch_off hv
  generalize patch (fun _ => pub) r.1 W.1 = W1 at *
  generalize patch (fun _ i => (pub i, sk i)) r.2.1 W.2.1 = W2 at *
  generalize patch (fun _ => k) r.2.2 W.2.2 = W3 at *
  unfold SucceedsGlobal at h
  obtain ⟨S, hS⟩ : ∃ S, Hash.global text ((W1, W2, W3) : World p M) = S := ⟨_, rfl⟩
  have sT : ∀ v : Value p, S.T (randomiserBytes v) = (Hash.random (W1 v).1).T [] := by
    intro v
    rw [← hS]
    funext a x
    change (Hash.random (W1 (toValue p (randomiserBytes v))).1).T (randomiserBytes v) a x = _
    rw [toValue_bytes]
    rfl
  have sP : ∀ v v' : Value p, S.PRF (randomiserBytes v) (randomiserBytes v') = (Hash.random (W2 (v, v'))).PRF [] [] := by
    intro v v'
    rw [← hS]
    funext a
    change (Hash.random (W2 (toValue p (randomiserBytes v), toValue p (randomiserBytes v')))).PRF (randomiserBytes v) (randomiserBytes v') a = _
    rw [toValue_bytes, toValue_bytes]
    rfl
  have sM : ∀ (O : Point p → Value p) H b b' (v : Value p) o m, S.PRFmsg b (randomiserBytes v) o m =
      ((Hash.random O).withRandomisers text H (W3 v)).PRFmsg b' [] o m := by
    intro O H b b' v o m
    rw [← hS]
    change ((Hash.random (W1 (toValue p b)).1).withRandomisers text (W1 (toValue p b)).2 (W3 (toValue p (randomiserBytes v)))).PRFmsg b
      (randomiserBytes v) o m = _
    rw [toValue_bytes]
    rfl
  have sH : ∀ (O : Point p → Value p) R (v : Value p) b root root' m l, S.Hmsg R (randomiserBytes v) root m l =
      ((Hash.random O).withOracle text (W1 v).2).Hmsg R b root' m l := by
    intro O R v b root root' m l
    rw [← hS]
    change ((Hash.random (W1 (toValue p (randomiserBytes v))).1).withOracle text (W1 (toValue p (randomiserBytes v))).2).Hmsg R
      (randomiserBytes v) root m l = _
    rw [toValue_bytes]
    rfl
  rw [hS] at h
  clear hS
  have T : ∀ i, S.T (randomiserBytes (pub i)) = (ownScheme text r i).T (randomiserBytes (pub i)) := by
    intro i
    rw [sT, r1]
    change _ = (Hash.random (combine (r.1 i).1 (r.2.1 i))).T (randomiserBytes (pub i))
    rw [combine_T]
    rfl
  have P : ∀ i, S.PRF (randomiserBytes (pub i)) (randomiserBytes (sk i)) =
      (ownScheme text r i).PRF (randomiserBytes (pub i)) (randomiserBytes (fun _ => 0 : Value p)) := by
    intro i
    rw [sP, r2]
    change _ = (Hash.random (combine (r.1 i).1 (r.2.1 i))).PRF (randomiserBytes (pub i)) (randomiserBytes (fun _ => 0 : Value p))
    rw [combine_PRF]
    rfl
  have H : ∀ i R root m l, S.Hmsg R (randomiserBytes (pub i)) root m l =
      (ownScheme text r i).Hmsg R (randomiserBytes (pub i)) root m l := by
    intro i R root m l
    rw [sH (rowsOf r i).1 R (pub i) (randomiserBytes (pub i)) root root, r1]
    rfl
  have G : ∀ i o m, S.PRFmsg (randomiserBytes (pub i)) (randomiserBytes (k i)) o m =
      (ownScheme text r i).PRFmsg (randomiserBytes (pub i)) (randomiserBytes (fun _ => 0 : Value p)) o m := by
    intro i o m
    rw [sM (rowsOf r i).1 (rowsOf r i).2.1 _ (randomiserBytes (pub i)), r3]
    rfl
  have len : ∀ v : Value p, (randomiserBytes v).length = p.n := Game.length_randomiserBytes
  have hpk : ∀ i, pkOf p S (Seeds.bytes (sk, k, pub) i) = pkOf p (ownScheme text r i) (openSeed pub i) := fun i =>
    pkOf_key (T i) (P i) (len _) (len _) (len _) (len _) (len _)
  have hsg : ∀ i o m, sign p S (skOf p S (Seeds.bytes (sk, k, pub) i)) o m =
      sign p (ownScheme text r i) (skOf p (ownScheme text r i) (openSeed pub i)) o m := fun i o m =>
    sign_key (T i) (P i) (len _) (len _) (len _) (len _) (len _) (H i) (G i o m)
  have htk : ∀ i, (pkOf p (ownScheme text r i) (openSeed pub i)).take p.n = randomiserBytes (pub i) := by
    intro i
    have : ((openSeed pub i).drop (2 * p.n)).take p.n = randomiserBytes (pub i) := by
      unfold openSeed Seeds.bytes
      rw [List.drop_left' (by simp only [List.length_append, len]; omega), List.take_of_length_le (len _).le]
    unfold pkOf
    rw [this, List.take_left' (len _)]
  have hv : ∀ i m sig, verify p S (pkOf p (ownScheme text r i) (openSeed pub i)) m sig =
      verify p (ownScheme text r i) (pkOf p (ownScheme text r i) (openSeed pub i)) m sig := fun i m sig =>
    verify_key (T i) (htk i) (H i) m sig
  have jH : (fun v => (W1 v).2) = joined (ownerOf pub) (fun i => (r.1 i).2) fun v => (W.1 v).2 := by
    funext v
    unfold joined
    split
    · next i hi => rw [← ownerOf_some hi, r1]
    · next hi => rw [f1 v (ownerOf_none hi)]
  have jT : (fun v => S.T (randomiserBytes v)) =
      joined (ownerOf pub) (fun i => (ownScheme text r i).T []) fun v => (Hash.random (W.1 v).1).T [] := by
    funext v
    unfold joined
    split
    · next i hi =>
      rw [← ownerOf_some hi, T]
      rfl
    · next hi => rw [sT, f1 v (ownerOf_none hi)]
  have hrun := run_unless (prf := simPrf W) (prfmsg := simMsg text W)
    (prf' := fun v v' => S.PRF (randomiserBytes v) (randomiserBytes v'))
    (prfmsg' := fun v o m => S.PRFmsg [] (randomiserBytes v) (randomiserBytes o) (text m))
    (H := joined (ownerOf pub) (fun i => (r.1 i).2) fun v => (W.1 v).2)
    (T := joined (ownerOf pub) (fun i => (ownScheme text r i).T []) fun v => (Hash.random (W.1 v).1).T [])
    (signature := fun i o m => sign p (ownScheme text r i) (skOf p (ownScheme text r i) (openSeed pub i)) (randomiserBytes o)
      (text m)) (F fun i => pkOf p (ownScheme text r i) (openSeed pub i)) []
    (by
      intro x hx
      rw [sP, f2 _ fun i e => n2 ⟨x, hx, i, e.symm⟩])
    (by
      intro v hv
      funext o m
      rw [sM (W.1 fun _ => 0).1 (W.1 fun _ => 0).2 [] [] v, f3 _ fun i e => n3 ⟨v, hv, i, e.symm⟩])
  refine n1 ?_
  unfold SucceedsMany
  simp only [hpk, hsg, jH, jT] at h
  rw [hrun] at h
  unfold simForger
  simp only [reduce_run]
  simp only [hv] at h
  exact h

end

section
variable {p : Par} {M ι : Type} {text : M → Bytes} [Fintype M] [DecidableEq M] [Fintype ι] [DecidableEq ι]

/-- The bound for separate functions gives one for common functions. -/
theorem global_bound {F : (ι → Bytes) → GlobalForger ι (Value p) (Value p) (Fin p.n → Fin (2 ^ 8)) M (Digest p)}
    {q : ι → Nat} {t u g g' : Nat} (hF : ∀ pk, (F pk).Within q (fun _ => t) u g g') {c : ℚ} (c0 : 0 ≤ c)
    (hc : ∀ (seed : ι → Bytes) (F' : (ι → Bytes) → ManyForger ι (Value p) (Fin p.n → Fin (2 ^ 8)) M (Digest p)),
      (∀ i, (seed i).length = 3 * p.n) → (∀ pk, (F' pk).WithinShared q (fun _ => t) u) →
      chance (SucceedsMany p seed text F') ≤ c) :
    chance (fun x : World p M × Seeds p ι => SucceedsGlobal p text F x.1 x.2) ≤
      c + (g + g' * Fintype.card ι + 2 * (Fintype.card ι : ℚ) ^ 2) / 2 ^ (8 * p.n) := by
  have : Nonempty (Value p) := ⟨fun _ => 0⟩
  have hV : (Fintype.card (Value p) : ℚ) = 2 ^ (8 * p.n) := by
    rw [Fintype.card_fun, Fintype.card_fin, Fintype.card_fin, ← pow_mul]
    push_cast
    rfl
  have h := global_avg (V := Value p) (ι := ι) (E := Point p → Value p) (H := (Fin p.n → Fin (2 ^ 8)) × M → Digest p)
    (G := Value p × M → Value p) (X := fun W sk k pub => SucceedsGlobal p text F W (sk, k, pub))
    (A := fun pub W r => SucceedsMany p (openSeed pub) text (simForger text F pub W) (rowsOf r))
    (L := fun pub W r => (guessed text F pub W r).1) (L' := fun pub W r => (guessed text F pub W r).2)
    (fun sk k pub W r h1 h2 h => global_split h1 h2 h) c0
    (fun pub W h1 => by
      refine le_trans (le_of_eq (avg_rowsOf fun w => ind (SucceedsMany p (openSeed pub) text (simForger text F pub W) w))) ?_
      rw [avg_ind]
      refine hc _ _ (fun i => ?_) fun pk => reduce_within h1 (fun _ _ => ownerOf_some) _ (hF pk) (fun _ => le_rfl) le_rfl
      unfold openSeed Seeds.bytes
      simp only [List.length_append, Game.length_randomiserBytes]
      omega)
    (g := g) (g' := g') (fun pub W r => (keysOf_length _ (hF _)).1) (fun pub W r => (keysOf_length _ (hF _)).2)
  rw [hV] at h
  rw [← avg_ind]
  refine le_trans h (le_of_eq ?_)
  ring

end

end Spx.Rom
