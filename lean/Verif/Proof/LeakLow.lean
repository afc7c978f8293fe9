import Verif.Proof.LeakBase
import Verif.Model.LeakHash
import Mathlib.Tactic.CasesM
/-! # Tactics for two runs, and the byte conversions and addresses -/

namespace Spx.Leak

theorem len_uninit {α : Type} (g : Nat → α) (n : Nat) : (uninit g n).length = n := by
  unfold uninit; rw [List.length_map, List.length_range]

/-- A counted loop over a buffer. -/
theorem Rel.forLen {α β : Type} {n n' : Nat} {body : Nat → List α → L (List α)}
    {body' : Nat → List β → L (List β)} {b : List α} {b' : List β} (hn : n = n') (h : Len b b')
    (hb : ∀ i s s', i < n → s.length = b.length → s'.length = b.length →
      Rel (fun x y => x.length = b.length ∧ y.length = b.length) (body i s) (body' i s')) :
    Rel (fun x y => x.length = b.length ∧ y.length = b.length) (Leak.forRange n body b)
      (Leak.forRange n' body' b') :=
  Rel.forRange (fun x y => x.length = b.length ∧ y.length = b.length) hn ⟨rfl, h.symm⟩
    fun i s s' hi ⟨h1, h2⟩ => hb i s s' hi h1 h2

/-- A counted loop over a value which leaves no trace. -/
theorem Rel.forAny {α β : Type} {n n' : Nat} {body : Nat → α → L α} {body' : Nat → β → L β} {b : α} {b' : β}
    (hn : n = n') (hb : ∀ i s s', i < n → Rel (fun _ _ => True) (body i s) (body' i s')) :
    Rel (fun _ _ => True) (Leak.forRange n body b) (Leak.forRange n' body' b') :=
  Rel.forRange (fun _ _ => True) hn trivial fun i s s' hi _ => hb i s s' hi

/-- `withSub` without a second result. -/
theorem Rel.withSub_unit {α α' : Type} {b : List α} {b' : List α'} {o o' : Nat} (h : Len b b')
    (ho : o = o') {f : List α → L (List α × Unit)} {f' : List α' → L (List α' × Unit)}
    (hf : ∀ p p', p.length = b.length - o → p'.length = b.length - o →
      Rel (fun r r' => r.1.length = b.length - o ∧ r'.1.length = b.length - o) (f p) (f' p')) :
    Rel (fun r r' => r.1.length = b.length ∧ r'.1.length = b.length)
      (Leak.withSub b o f) (Leak.withSub b' o' f') :=
  (Rel.withSub (R := fun _ _ => True) h ho fun p p' h1 h2 => (hf p p' h1 h2).weaken fun _ _ h => ⟨h, trivial⟩).weaken
    fun _ _ h => h.1

theorem Rel.ok_inl {σ τ ρ ρ' : Type} {R : σ → τ → Prop} {Q : ρ → ρ' → Prop} {s : σ} {s' : τ} (h : R s s') :
    Rel (SumRel R Q) (L.ok (.inl s)) (L.ok (.inl s')) := Rel.ok h

theorem Rel.ok_inr {σ τ ρ ρ' : Type} {R : σ → τ → Prop} {Q : ρ → ρ' → Prop} {s : ρ} {s' : ρ'} (h : Q s s') :
    Rel (SumRel R Q) (L.ok (.inr s)) (L.ok (.inr s')) := Rel.ok h

/-- Closes equalities of lengths and indices. -/
macro "low_side" : tactic => `(tactic| first
  | rfl
  | assumption
  | trivial
  | (simp only [Len, List.length_append, List.length_take, List.length_drop, List.length_set,
      List.length_cons, List.length_nil, List.length_replicate, len_uninit] at *; done)
  | (simp only [Len, List.length_append, List.length_take, List.length_drop, List.length_set,
      List.length_cons, List.length_nil, List.length_replicate, len_uninit] at *; omega)
  | omega)

/-- Closes `Rel ?R (f x) (f y)` by the lemma about `f`. -/
syntax "low_leaf" : tactic
/-- Runs through a program with the lemmas about the called functions. -/
syntax "low" : tactic

macro_rules | `(tactic| low_leaf) => `(tactic| fail "no lemma")
macro_rules | `(tactic| low_leaf) => `(tactic| (with_reducible apply Rel.rd) <;> low_side)
macro_rules | `(tactic| low_leaf) => `(tactic| (with_reducible apply Rel.wr) <;> low_side)
macro_rules | `(tactic| low_leaf) => `(tactic| (with_reducible apply Rel.rd1) <;> low_side)
macro_rules | `(tactic| low_leaf) => `(tactic| (with_reducible apply Rel.wr1_len) <;> low_side)
macro_rules | `(tactic| low_leaf) => `(tactic| (with_reducible apply Rel.sub_len) <;> low_side)
macro_rules | `(tactic| low_leaf) => `(tactic| (with_reducible apply Rel.shl1))
macro_rules | `(tactic| low_leaf) => `(tactic|
  (with_reducible apply Rel.forLen; (focus low_side); (focus low_side); (focus (low; done))))
macro_rules | `(tactic| low_leaf) => `(tactic|
  (with_reducible apply Rel.withSub_unit; (focus low_side); (focus low_side); (focus (low; done))))

/-- Introduces the results of a step and takes their relation apart. -/
macro "low_intro" : tactic => `(tactic|
  (intro _; intros; try casesm* _ × _, _ ∧ _; subst_vars; try dsimp only at *))

/-- Closes the relation of the results. -/
macro "low_fin" : tactic => `(tactic| (repeat' with_reducible apply And.intro) <;> low_side)

macro_rules | `(tactic| low) => `(tactic| repeat' first
  | low_intro
  | (with_reducible apply Rel.ok_inl; (try dsimp only); low_fin)
  | (with_reducible apply Rel.ok_inr; (try dsimp only); low_fin)
  | (with_reducible apply Rel.ok; (try dsimp only); low_fin)
  | with_reducible exact Rel.error _
  | (with_reducible apply Rel.bind; (focus low_leaf))
  | (with_reducible apply Rel.branch; (focus first | exact Iff.rfl | omega))
  | (with_reducible apply Rel.branchAnd; (focus first | exact Iff.rfl | omega); (focus first | exact Iff.rfl | omega))
  | with_reducible apply Rel.ite
  | with_reducible apply Rel.prim
  | (with_reducible apply Rel.weaken; (focus low_leaf))
  | low_fin)

theorem low_u32_to_bytes {x y : Bytes} {i j : Nat} (h : Len x y) :
    Rel (fun a b => a.length = x.length ∧ b.length = x.length) (u32_to_bytes x i) (u32_to_bytes y j) := by
  unfold u32_to_bytes
  low
macro_rules | `(tactic| low_leaf) => `(tactic| (with_reducible apply low_u32_to_bytes) <;> low_side)

theorem low_ull_to_bytes {x y : Bytes} {n i j : Nat} (h : Len x y) :
    Rel (fun a b => a.length = x.length ∧ b.length = x.length) (ull_to_bytes x n i) (ull_to_bytes y n j) := by
  unfold ull_to_bytes
  refine Rel.bind (Rel.forRange (fun a b => a.1.length = x.length ∧ b.1.length = x.length) rfl ⟨rfl, h.symm⟩ ?_) ?_
  all_goals low
macro_rules | `(tactic| low_leaf) => `(tactic| (with_reducible apply low_ull_to_bytes) <;> low_side)

theorem low_bytes_to_ull {x y : Bytes} {n m : Nat} (h : Len x y) (hn : n = m) :
    Rel (fun _ _ => True) (bytes_to_ull x n) (bytes_to_ull y m) := by
  subst hn
  unfold bytes_to_ull
  refine Rel.forAny rfl ?_
  low
macro_rules | `(tactic| low_leaf) => `(tactic| (with_reducible apply low_bytes_to_ull) <;> low_side)

section
variable {f : Family} {x y : Addr}

theorem low_set_layer_addr {i j : Nat} (h : Len x y) :
    Rel (fun a b => a.length = x.length ∧ b.length = x.length) (set_layer_addr f x i) (set_layer_addr f y j) := by
  unfold set_layer_addr; low
macro_rules | `(tactic| low_leaf) => `(tactic| (with_reducible apply low_set_layer_addr) <;> low_side)

theorem low_set_tree_addr {i j : Nat} (h : Len x y) :
    Rel (fun a b => a.length = x.length ∧ b.length = x.length) (set_tree_addr f x i) (set_tree_addr f y j) := by
  unfold set_tree_addr; low
macro_rules | `(tactic| low_leaf) => `(tactic| (with_reducible apply low_set_tree_addr) <;> low_side)

theorem low_set_type {i j : Nat} (h : Len x y) :
    Rel (fun a b => a.length = x.length ∧ b.length = x.length) (set_type f x i) (set_type f y j) := by
  unfold set_type; low
macro_rules | `(tactic| low_leaf) => `(tactic| (with_reducible apply low_set_type) <;> low_side)

theorem low_copy_subtree_addr {x' y' : Addr} (h : Len x y) (h' : Len x' y') :
    Rel (fun a b => a.length = x.length ∧ b.length = x.length) (copy_subtree_addr f x x') (copy_subtree_addr f y y') := by
  unfold copy_subtree_addr; low
macro_rules | `(tactic| low_leaf) => `(tactic| (with_reducible apply low_copy_subtree_addr) <;> low_side)

theorem low_set_keypair_addr {i j : Nat} (h : Len x y) :
    Rel (fun a b => a.length = x.length ∧ b.length = x.length) (set_keypair_addr f x i) (set_keypair_addr f y j) := by
  unfold set_keypair_addr; low
macro_rules | `(tactic| low_leaf) => `(tactic| (with_reducible apply low_set_keypair_addr) <;> low_side)

theorem low_copy_keypair_addr {x' y' : Addr} (h : Len x y) (h' : Len x' y') :
    Rel (fun a b => a.length = x.length ∧ b.length = x.length) (copy_keypair_addr f x x') (copy_keypair_addr f y y') := by
  unfold copy_keypair_addr; low
macro_rules | `(tactic| low_leaf) => `(tactic| (with_reducible apply low_copy_keypair_addr) <;> low_side)

theorem low_set_chain_addr {i j : Nat} (h : Len x y) :
    Rel (fun a b => a.length = x.length ∧ b.length = x.length) (set_chain_addr f x i) (set_chain_addr f y j) := by
  unfold set_chain_addr; low
macro_rules | `(tactic| low_leaf) => `(tactic| (with_reducible apply low_set_chain_addr) <;> low_side)

theorem low_set_hash_addr {i j : Nat} (h : Len x y) :
    Rel (fun a b => a.length = x.length ∧ b.length = x.length) (set_hash_addr f x i) (set_hash_addr f y j) := by
  unfold set_hash_addr; low
macro_rules | `(tactic| low_leaf) => `(tactic| (with_reducible apply low_set_hash_addr) <;> low_side)

theorem low_set_tree_height {i j : Nat} (h : Len x y) :
    Rel (fun a b => a.length = x.length ∧ b.length = x.length) (set_tree_height f x i) (set_tree_height f y j) := by
  unfold set_tree_height; low
macro_rules | `(tactic| low_leaf) => `(tactic| (with_reducible apply low_set_tree_height) <;> low_side)

theorem low_set_tree_index {i j : Nat} (h : Len x y) :
    Rel (fun a b => a.length = x.length ∧ b.length = x.length) (set_tree_index f x i) (set_tree_index f y j) := by
  unfold set_tree_index; low
macro_rules | `(tactic| low_leaf) => `(tactic| (with_reducible apply low_set_tree_index) <;> low_side)

end

theorem low_hash_message_split {P : Params} {x y : Bytes} (h : Len x y) :
    Rel (fun a b => a.1.length = P.forsMsgBytes ∧ b.1.length = P.forsMsgBytes)
      (hash_message_split P x) (hash_message_split P y) := by
  unfold hash_message_split
  refine Rel.bind (Rel.rd h rfl rfl) ?_
  low_intro
  refine Rel.bind (Rel.sub_len h rfl) ?_
  low_intro
  refine Rel.bind (R := fun _ _ => True) ?_ ?_
  · low
  low
macro_rules | `(tactic| low_leaf) => `(tactic| (with_reducible apply low_hash_message_split) <;> low_side)

/-- Two contexts whose fields have the same sizes. -/
structure CtxLow (c c' : Ctx) : Prop where
  pub_seed : Len c.pub_seed c'.pub_seed
  sk_seed : Len c.sk_seed c'.sk_seed
  state_seeded : Len c.state_seeded c'.state_seeded
  state_seeded_512 : Len c.state_seeded_512 c'.state_seeded_512
  rc64 : Len c.tweaked512_rc64 c'.tweaked512_rc64
  rc32 : Len c.tweaked256_rc32 c'.tweaked256_rc32
  rc : Len c.rc c'.rc

/-- Two contexts, related as above, of the sizes of `c`. -/
def CtxKeep (c d d' : Ctx) : Prop := CtxLow d d' ∧ CtxLow d c

/-- Two versions of the hash functions (they may differ in the contents of uninitialised memory) leave
the same trace on inputs of the same lengths and give results of the same lengths. -/
structure HashLow (P : Params) (H H' : HashImpl) : Prop where
  init : ∀ c c', CtxLow c c' → Rel (CtxKeep c) (H.initialize_hash_function c) (H'.initialize_hash_function c')
  prf : ∀ c c' a a', CtxLow c c' → Len a a' →
    Rel (fun x y => x.length = P.n ∧ y.length = P.n) (H.prf_addr c a) (H'.prf_addr c' a')
  thash : ∀ i i' k c c' a a', Len i i' → CtxLow c c' → Len a a' →
    Rel (fun x y => x.length = P.n ∧ y.length = P.n) (H.thash i k c a) (H'.thash i' k c' a')
  genR : ∀ k k' o o' m m' c c', Len k k' → Len o o' → Len m m' → CtxLow c c' →
    Rel (fun x y => x.length = P.n ∧ y.length = P.n) (H.gen_message_random k o m c)
      (H'.gen_message_random k' o' m' c')
  hmsg : ∀ R R' pk pk' m m' c c', Len R R' → Len pk pk' → Len m m' → CtxLow c c' →
    Rel (fun x y => x.1.length = P.forsMsgBytes ∧ y.1.length = P.forsMsgBytes) (H.hash_message R pk m c)
      (H'.hash_message R' pk' m' c')

end Spx.Leak
