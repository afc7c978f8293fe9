import Verif.Model.Count
import Verif.Proof.EraseVerify
/-! # Rules for counting calls -/

namespace Spx.Leak

theorem calls_append (f : Fn) (s t : List Ev) : calls f (s ++ t) = calls f s + calls f t := List.count_append

/-- If the program ends normally, the result and the number of calls are as described. -/
def Wp {α : Type} (f : Fn) (x : L α) (Q : α → Nat → Prop) : Prop := ∀ a, x.res = .ok a → Q a (calls f x.tr)

/-- A program which calls none of the functions. -/
def Free {α : Type} (x : L α) : Prop := ∀ f, calls f x.tr = 0

section
variable {α β : Type} {f : Fn}

theorem Wp.mono {x : L α} {Q R : α → Nat → Prop} (h : Wp f x Q) (hi : ∀ a k, x.res = .ok a → Q a k → R a k) :
    Wp f x R := fun a ha => hi a _ ha (h a ha)

theorem Wp.ok {a : α} {Q : α → Nat → Prop} (h : Q a 0) : Wp f (L.ok a) Q := by
  intro b hb
  cases hb
  exact h

theorem Wp.error {e : UB} {Q : α → Nat → Prop} : Wp f (L.error e) Q := fun _ h => nomatch h

theorem Wp.L_bind {x : L α} {g : α → L β} {Q : β → Nat → Prop}
    (h : Wp f x fun a k => Wp f (g a) fun b m => Q b (k + m)) : Wp f (L.bind x g) Q := by
  intro b hb
  unfold L.bind at hb ⊢
  cases hx : x.res with
  | ok a =>
    rw [hx] at hb
    show Q b (calls f (x.tr ++ (g a).tr))
    rw [calls_append]
    exact h a hx b hb
  | error e =>
    rw [hx] at hb
    exact nomatch hb

theorem Wp.bind {x : L α} {g : α → L β} {Q : β → Nat → Prop}
    (h : Wp f x fun a k => Wp f (g a) fun b m => Q b (k + m)) : Wp f (x >>= g) Q := Wp.L_bind h

theorem Wp.free {x : L α} {Q : α → Nat → Prop} (hx : Free x) (h : ∀ a, x.res = .ok a → Q a 0) : Wp f x Q := by
  intro a ha
  rw [hx f]
  exact h a ha

theorem Wp.call {g : Fn} {r : C α} {Q : α → Nat → Prop} (h : ∀ a, r = .ok a → Q a (if g = f then 1 else 0)) :
    Wp f ⟨[.call g], r⟩ Q := by
  intro a ha
  have : calls f [Ev.call g] = if g = f then 1 else 0 := by
    unfold calls
    rw [List.count_cons, List.count_nil, Nat.zero_add]
    by_cases hg : g = f
    · subst hg; simp
    · rw [if_neg hg, if_neg]
      simp only [beq_iff_eq, Ev.call.injEq]
      exact hg
  show Q a (calls f [Ev.call g])
  rw [this]
  exact h a ha

theorem calls_br (b : Bool) : calls f [Ev.br b] = 0 := by
  unfold calls
  rw [List.count_cons, List.count_nil]
  simp

theorem calls_br2 (b c : Bool) : calls f [Ev.br b, Ev.br c] = 0 := by
  unfold calls
  rw [List.count_cons, List.count_cons, List.count_nil]
  simp

theorem calls_iter (n : Nat) : calls f [Ev.iter n] = 0 := by
  unfold calls
  rw [List.count_cons, List.count_nil]
  simp

theorem Wp.branch {p : Prop} [Decidable p] {x y : L α} {Q : α → Nat → Prop} (hx : p → Wp f x Q) (hy : ¬ p → Wp f y Q) :
    Wp f (branch p x y) Q := by
  unfold Leak.branch
  refine Wp.L_bind fun _ _ => ?_
  show Wp f _ fun b m => Q b (calls f [Ev.br (decide p)] + m)
  rw [calls_br]
  simp only [Nat.zero_add]
  by_cases h : p
  · rw [if_pos h]; exact hx h
  · rw [if_neg h]; exact hy h

theorem Wp.branchAnd {p q : Prop} [Decidable p] [Decidable q] {x y : L α} {Q : α → Nat → Prop}
    (hx : p ∧ q → Wp f x Q) (hy : ¬ (p ∧ q) → Wp f y Q) : Wp f (branchAnd p q x y) Q := by
  unfold Leak.branchAnd
  refine Wp.L_bind fun _ _ => ?_
  have e : calls f (Ev.br (decide p) :: if p then [Ev.br (decide q)] else []) = 0 := by
    split
    · exact calls_br2 ..
    · exact calls_br ..
  show Wp f _ fun b m => Q b (calls f (Ev.br (decide p) :: if p then [Ev.br (decide q)] else []) + m)
  rw [e]
  simp only [Nat.zero_add]
  by_cases h : p ∧ q
  · rw [if_pos h]; exact hx h
  · rw [if_neg h]; exact hy h

theorem Wp.withSub {b : List α} {o : Nat} {g : List α → L (List α × β)} {Q : List α × β → Nat → Prop}
    (h : ∀ p, Wp f (g p) fun r k => Q (b.take o ++ r.1, r.2) k) : Wp f (withSub b o g) Q := by
  unfold Leak.withSub
  refine Wp.L_bind fun p _ => ?_
  have e : calls f (sub b o).tr = 0 := by
    show calls f [Ev.ptr o] = 0
    unfold calls
    rw [List.count_cons, List.count_nil]
    simp
  rw [e]
  simp only [Nat.zero_add]
  refine Wp.L_bind ((h p).mono fun a k _ hq => ?_)
  exact Wp.ok hq

/-- A counted loop whose iterations cost what `κ` says, as long as the invariant holds. -/
theorem Wp.forInv {σ : Type} {n : Nat} {body : Nat → σ → L σ} {s : σ} {Q : σ → Nat → Prop} (I : Nat → σ → Prop)
    (κ : Nat → Nat) (h0 : I 0 s)
    (hb : ∀ i t, i < n → I i t → Wp f (body i t) fun t' k => I (i + 1) t' ∧ k = κ i)
    (hq : ∀ t, I n t → Q t ((List.range n).map κ).sum) : Wp f (forRange n body s) Q := by
  have key : ∀ m, m ≤ n → Wp f (iterate m body s) fun t k => I m t ∧ k = ((List.range m).map κ).sum := by
    intro m
    induction m with
    | zero => exact fun _ => Wp.ok ⟨h0, rfl⟩
    | succ m ih =>
      intro hm
      refine Wp.L_bind ((ih (by omega)).mono fun t k _ ht => ?_)
      refine (hb m t (by omega) ht.1).mono fun t' k' _ ht' => ⟨ht'.1, ?_⟩
      rw [List.range_succ, List.map_append, List.sum_append, ht.2, ht'.2]
      simp
  unfold Leak.forRange
  refine Wp.L_bind fun _ _ => ?_
  show Wp f _ fun b m => Q b (calls f [Ev.iter n] + m)
  rw [calls_iter]
  simp only [Nat.zero_add]
  refine (key n (Nat.le_refl _)).mono fun t k _ ht => ?_
  rw [ht.2]
  exact hq t ht.1

/-- A counted loop whose iterations cost the same. -/
theorem Wp.forConst {σ : Type} {n : Nat} {body : Nat → σ → L σ} {s : σ} {Q : σ → Nat → Prop} (c : Nat)
    (hb : ∀ i t, i < n → Wp f (body i t) fun _ k => k = c) (hq : ∀ t, Q t (n * c)) : Wp f (forRange n body s) Q := by
  refine Wp.forInv (fun _ _ => True) (fun _ => c) trivial
    (fun i t hi _ => (hb i t hi).mono fun _ _ _ h => ⟨trivial, h⟩) fun t _ => ?_
  rw [List.map_const', List.length_range, List.sum_replicate_nat]
  exact hq t

/-- A loop with a remaining cost. -/
theorem Wp.loop {σ ρ : Type} {n : Nat} {body : σ → L (σ ⊕ ρ)} {s : σ} {Q : ρ → Nat → Prop} (I : σ → Prop)
    (R : ρ → Prop) (κ : σ → Nat) (h0 : I s)
    (hb : ∀ t, I t → Wp f (body t) fun r k =>
      (∀ t', r = .inl t' → I t' ∧ k + κ t' = κ t) ∧ ∀ a, r = .inr a → R a ∧ k = κ t)
    (hq : ∀ a, R a → Q a (κ s)) : Wp f (loop n body s) Q := by
  have key : ∀ n t, I t → Wp f (Leak.loop n body t) fun a k => R a ∧ k = κ t := by
    intro n
    induction n with
    | zero => intro t _; rw [loop_zero]; exact Wp.error
    | succ n ih =>
      intro t ht
      rw [loop_succ]
      refine Wp.L_bind ((hb t ht).mono fun r k _ hr => ?_)
      refine Wp.L_bind fun _ _ => ?_
      show Wp f _ fun b m => R b ∧ k + (calls f [Ev.br r.isLeft] + m) = κ t
      rw [calls_br]
      simp only [Nat.zero_add]
      cases r with
      | inl t' =>
        refine (ih t' (hr.1 t' rfl).1).mono fun a m _ hm => ⟨hm.1, ?_⟩
        rw [hm.2]
        exact (hr.1 t' rfl).2
      | inr a => exact Wp.ok ⟨(hr.2 a rfl).1, (hr.2 a rfl).2⟩
  refine (key n s h0).mono fun a k _ h => ?_
  rw [h.2]
  exact hq a h.1

end

/-! ## Code without calls -/

section
variable {α β : Type}

theorem Free.L_bind {x : L α} {g : α → L β} (hx : Free x) (hg : ∀ a, Free (g a)) : Free (L.bind x g) := by
  intro f
  unfold L.bind
  cases x.res with
  | ok a => exact (calls_append ..).trans (by rw [hx f, hg a f])
  | error e => exact hx f

theorem Free.bind {x : L α} {g : α → L β} (hx : Free x) (hg : ∀ a, Free (g a)) : Free (x >>= g) := Free.L_bind hx hg
theorem Free.ok (a : α) : Free (L.ok a) := fun _ => rfl
theorem Free.error (e : UB) : Free (L.error (α := α) e) := fun _ => rfl
theorem Free.rd (b : List α) (o n : Nat) : Free (rd b o n) := fun _ => rfl
theorem Free.wr (b : List α) (o : Nat) (d : List α) : Free (wr b o d) := fun _ => rfl
theorem Free.rd1 (b : List α) (o : Nat) : Free (rd1 b o) := fun _ => rfl
theorem Free.wr1 (b : List α) (o : Nat) (d : α) : Free (wr1 b o d) := fun _ => rfl
theorem Free.sub (b : List α) (o : Nat) : Free (sub b o) := fun _ => rfl
theorem Free.shl1 (k : Nat) : Free (shl1 k) := fun _ => rfl

theorem Free.withSub {b : List α} {o : Nat} {g : List α → L (List α × β)} (hg : ∀ p, Free (g p)) :
    Free (withSub b o g) := Free.L_bind (Free.sub b o) fun p => Free.L_bind (hg p) fun _ => Free.ok _

theorem Free.forRange {σ : Type} {n : Nat} {body : Nat → σ → L σ} {s : σ} (hb : ∀ i t, Free (body i t)) :
    Free (forRange n body s) := by
  refine Free.L_bind (fun f => calls_iter n) fun _ => ?_
  generalize n = m
  induction m with
  | zero => exact Free.ok _
  | succ m ih => exact Free.L_bind ih (hb m)

theorem Free.branch {p : Prop} [Decidable p] {x y : L α} (hx : Free x) (hy : Free y) : Free (branch p x y) := by
  refine Free.L_bind (fun f => calls_br _) fun _ => ?_
  split
  · exact hx
  · exact hy

end

/-- Proves that a program contains no calls. -/
syntax "free_leaf" : tactic
macro_rules | `(tactic| free_leaf) => `(tactic| fail "no lemma")
macro "free" : tactic => `(tactic| repeat' first
  | with_reducible exact Free.ok _
  | with_reducible exact Free.error _
  | with_reducible exact Free.rd _ _ _
  | with_reducible exact Free.wr _ _ _
  | with_reducible exact Free.rd1 _ _
  | with_reducible exact Free.wr1 _ _ _
  | with_reducible exact Free.sub _ _
  | with_reducible exact Free.shl1 _
  | free_leaf
  | with_reducible apply Free.bind
  | with_reducible apply Free.withSub
  | with_reducible apply Free.forRange
  | with_reducible apply Free.branch
  | intro _
  | split)

theorem free_ull_to_bytes (out : Bytes) (l v : Nat) : Free (ull_to_bytes out l v) := by unfold ull_to_bytes; free
macro_rules | `(tactic| free_leaf) => `(tactic| with_reducible exact free_ull_to_bytes ..)
theorem free_u32_to_bytes (out : Bytes) (v : Nat) : Free (u32_to_bytes out v) := by unfold u32_to_bytes; free
macro_rules | `(tactic| free_leaf) => `(tactic| with_reducible exact free_u32_to_bytes ..)

section
variable (F : Family) (a b : Addr) (i : Nat)
theorem free_set_layer_addr : Free (set_layer_addr F a i) := by unfold set_layer_addr; free
macro_rules | `(tactic| free_leaf) => `(tactic| with_reducible exact free_set_layer_addr ..)
theorem free_set_tree_addr : Free (set_tree_addr F a i) := by unfold set_tree_addr; free
macro_rules | `(tactic| free_leaf) => `(tactic| with_reducible exact free_set_tree_addr ..)
theorem free_set_type : Free (set_type F a i) := by unfold set_type; free
macro_rules | `(tactic| free_leaf) => `(tactic| with_reducible exact free_set_type ..)
theorem free_copy_subtree_addr : Free (copy_subtree_addr F a b) := by unfold copy_subtree_addr; free
macro_rules | `(tactic| free_leaf) => `(tactic| with_reducible exact free_copy_subtree_addr ..)
theorem free_set_keypair_addr : Free (set_keypair_addr F a i) := by unfold set_keypair_addr; free
macro_rules | `(tactic| free_leaf) => `(tactic| with_reducible exact free_set_keypair_addr ..)
theorem free_copy_keypair_addr : Free (copy_keypair_addr F a b) := by unfold copy_keypair_addr; free
macro_rules | `(tactic| free_leaf) => `(tactic| with_reducible exact free_copy_keypair_addr ..)
theorem free_set_chain_addr : Free (set_chain_addr F a i) := by unfold set_chain_addr; free
macro_rules | `(tactic| free_leaf) => `(tactic| with_reducible exact free_set_chain_addr ..)
theorem free_set_hash_addr : Free (set_hash_addr F a i) := by unfold set_hash_addr; free
macro_rules | `(tactic| free_leaf) => `(tactic| with_reducible exact free_set_hash_addr ..)
theorem free_set_tree_height : Free (set_tree_height F a i) := by unfold set_tree_height; free
macro_rules | `(tactic| free_leaf) => `(tactic| with_reducible exact free_set_tree_height ..)
theorem free_set_tree_index : Free (set_tree_index F a i) := by unfold set_tree_index; free
macro_rules | `(tactic| free_leaf) => `(tactic| with_reducible exact free_set_tree_index ..)
end

section
variable (E : Env)
theorem free_base_w (P : Params) (o : List Nat) (l : Nat) (i : Bytes) (t : Nat) : Free (base_w P o l i t) := by
  unfold base_w; free
macro_rules | `(tactic| free_leaf) => `(tactic| with_reducible exact free_base_w ..)
theorem free_wots_checksum (c m : List Nat) : Free (wots_checksum E c m) := by unfold wots_checksum; free
macro_rules | `(tactic| free_leaf) => `(tactic| with_reducible exact free_wots_checksum ..)
theorem free_chain_lengths (l : List Nat) (m : Bytes) : Free (chain_lengths E l m) := by unfold chain_lengths; free
macro_rules | `(tactic| free_leaf) => `(tactic| with_reducible exact free_chain_lengths ..)
theorem free_message_to_indices (P : Params) (l : List Nat) (m : Bytes) : Free (message_to_indices P l m) := by
  unfold message_to_indices; free
macro_rules | `(tactic| free_leaf) => `(tactic| with_reducible exact free_message_to_indices ..)
theorem free_compute_root_start (l : Bytes) (i : Nat) (a : Bytes) : Free (compute_root_start E l i a) := by
  unfold compute_root_start; free
macro_rules | `(tactic| free_leaf) => `(tactic| with_reducible exact free_compute_root_start ..)
end

theorem free_tabulate {α : Type} {k : Nat} {f : Nat → L α} (hf : ∀ j, Free (f j)) : Free (tabulate k f) := by
  unfold tabulate
  exact Free.forRange fun j _ => Free.bind (hf j) fun _ => Free.ok _
macro_rules | `(tactic| free_leaf) => `(tactic| with_reducible apply free_tabulate)
theorem free_lanes {k : Nat} {f : Nat → Addr → L Addr} {a : List Addr} (hf : ∀ j a, Free (f j a)) :
    Free (lanes k f a) := by
  unfold lanes
  exact Free.forRange fun j _ => Free.bind (Free.rd1 _ _) fun _ => Free.bind (hf _ _) fun _ => Free.wr1 _ _ _
macro_rules | `(tactic| free_leaf) => `(tactic| with_reducible apply free_lanes)
theorem free_subLanes (k : Nat) (b : Bytes) (base stride : Nat) : Free (subLanes k b base stride) := by
  unfold subLanes; free
macro_rules | `(tactic| free_leaf) => `(tactic| with_reducible exact free_subLanes ..)
theorem free_wrLanes (k : Nat) (b : Bytes) (base stride : Nat) (o : List Bytes) : Free (wrLanes k b base stride o) := by
  unfold wrLanes; free
macro_rules | `(tactic| free_leaf) => `(tactic| with_reducible exact free_wrLanes ..)

/-- One step of code without calls. -/
macro "skip1" : tactic => `(tactic| (refine Wp.free (by free; done) ?_; intro _ _))
macro "skipb" : tactic => `(tactic| (refine Wp.bind ?_; skip1))

end Spx.Leak
