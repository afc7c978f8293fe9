import Verif.Model.LeakParallel
import Verif.Proof.EraseSign
/-! # The definitions of Model/LeakParallel.lean without the traces are those of the model -/

namespace Spx.Leak

theorem erase_prfx (X : LaneHash) (ctx : Ctx) (a : List Addr) : (X.prf_addrx ctx a).res = X.erase.prf_addrx ctx a := rfl
macro_rules | `(tactic| erase_leaf) => `(tactic| with_reducible apply erase_prfx)
theorem erase_thashx (X : LaneHash) (ins : List Bytes) (k : Nat) (ctx : Ctx) (a : List Addr) :
    (X.thashx ins k ctx a).res = X.erase.thashx ins k ctx a := rfl
macro_rules | `(tactic| erase_leaf) => `(tactic| with_reducible apply erase_thashx)

theorem LaneHash.erase_ext {X : LaneHash} {Y : Spx.LaneHash}
    (h1 : ∀ c a, (X.prf_addrx c a).res = Y.prf_addrx c a)
    (h2 : ∀ i k c a, (X.thashx i k c a).res = Y.thashx i k c a) : X.erase = Y := by
  unfold LaneHash.erase
  cases Y
  congr 1
  · exact funext fun c => funext fun a => h1 c a
  · exact funext fun i => funext fun k => funext fun c => funext fun a => h2 i k c a

theorem erase_tabulate {α : Type} (k : Nat) {f : Nat → L α} {f' : Nat → C α} (hf : ∀ j, (f j).res = f' j) :
    (tabulate k f).res = Spx.tabulate k f' := by
  unfold tabulate Spx.tabulate
  erase
macro_rules | `(tactic| erase_leaf) => `(tactic| (with_reducible apply erase_tabulate; intro _; erase; done))

theorem erase_lanes (k : Nat) {f : Nat → Addr → L Addr} {f' : Nat → Addr → C Addr} (hf : ∀ j a, (f j a).res = f' j a)
    (addrs : List Addr) : (lanes k f addrs).res = Spx.lanes k f' addrs := by
  unfold lanes Spx.lanes
  erase
macro_rules | `(tactic| erase_leaf) => `(tactic| (with_reducible apply erase_lanes; intro _ _; erase; done))

theorem erase_subLanes (k : Nat) (b : Bytes) (base stride : Nat) :
    (subLanes k b base stride).res = Spx.subLanes k b base stride := by
  unfold subLanes Spx.subLanes
  erase
macro_rules | `(tactic| erase_leaf) => `(tactic| with_reducible apply erase_subLanes)

theorem erase_wrLanes (k : Nat) (b : Bytes) (base stride : Nat) (outs : List Bytes) :
    (wrLanes k b base stride outs).res = Spx.wrLanes k b base stride outs := by
  unfold wrLanes Spx.wrLanes
  erase
macro_rules | `(tactic| erase_leaf) => `(tactic| with_reducible apply erase_wrLanes)

section
variable (E : EnvX)

/-- Makes the fields of the two environments the same terms. -/
local macro "plain" : tactic => `(tactic| dsimp only [EnvX.L, EnvX.erase, Env.erase])

theorem erase_treehashx_ins (stack current : Bytes) (h : Nat) :
    (treehashx_ins E stack current h).res = Spx.treehashx_ins E.erase stack current h := by
  unfold treehashx_ins Spx.treehashx_ins
  plain
  erase
macro_rules | `(tactic| erase_leaf) => `(tactic| with_reducible apply erase_treehashx_ins)

theorem erase_treehashx_combine (ctx : Ctx) (idx max_idx tree_height : Nat) (stack : Bytes) (s : ThxInner) :
    (treehashx_combine E ctx idx max_idx tree_height stack s).res =
      Spx.treehashx_combine E.erase ctx idx max_idx tree_height stack s := by
  unfold treehashx_combine Spx.treehashx_combine
  generalize (2 ^ 32 : Nat) = w32
  plain
  erase
macro_rules | `(tactic| erase_leaf) => `(tactic| with_reducible apply erase_treehashx_combine)

theorem erase_treehashx_inner (ctx : Ctx) (idx max_idx tree_height : Nat) (stack : Bytes) (s : ThxInner) :
    (treehashx_inner E ctx idx max_idx tree_height stack s).res =
      Spx.treehashx_inner E.erase ctx idx max_idx tree_height stack s := by
  unfold treehashx_inner Spx.treehashx_inner
  generalize (2 ^ 32 : Nat) = w32
  plain
  erase
macro_rules | `(tactic| erase_leaf) => `(tactic| with_reducible apply erase_treehashx_inner)

theorem erase_treehashx_next {ι : Type} (s : Thx ι) (info : ι) (i : ThxInner) (r : Option Bytes) :
    (treehashx_next E s info i r).res = Spx.treehashx_next E.erase s info i r := by
  cases r with
  | some root => rfl
  | none =>
    unfold treehashx_next Spx.treehashx_next
    generalize (2 ^ 32 : Nat) = w32
    exact res_bind (res_rd ..) fun _ => res_bind (res_wr ..) fun _ => res_ok _
macro_rules | `(tactic| erase_leaf) => `(tactic| with_reducible apply erase_treehashx_next)

theorem erase_treehashx_body {ι : Type} (ctx : Ctx) (leaf_idx idx_offset tree_height max_idx : Nat)
    {gen_leaf : Bytes → Nat → ι → L (Bytes × ι)} {gen_leaf' : Bytes → Nat → ι → C (Bytes × ι)}
    (hg : ∀ b i s, (gen_leaf b i s).res = gen_leaf' b i s) (s : Thx ι) :
    (treehashx_body E ctx leaf_idx idx_offset tree_height max_idx gen_leaf s).res =
      Spx.treehashx_body E.erase ctx leaf_idx idx_offset tree_height max_idx gen_leaf' s := by
  unfold treehashx_body Spx.treehashx_body
  generalize (2 ^ 32 : Nat) = w32
  generalize (33 : Nat) = w33
  exact res_bind (hg ..) fun _ => res_bind (res_loop w33 (erase_treehashx_inner E ctx _ _ _ _) _) fun _ =>
    erase_treehashx_next E ..
macro_rules | `(tactic| erase_leaf) => `(tactic| (with_reducible apply erase_treehashx_body; (focus first | assumption | (intros; erase_leaf))))

section treehashx
variable {ι : Type} (auth_path : Bytes) (ctx : Ctx) (leaf_idx idx_offset tree_height : Nat)
    {gen_leaf : Bytes → Nat → ι → L (Bytes × ι)} {gen_leaf' : Bytes → Nat → ι → C (Bytes × ι)}
    (hg : ∀ b i s, (gen_leaf b i s).res = gen_leaf' b i s) (tree_addr : List Addr) (info : ι)
include hg

/-- the loop of `treehashx` with any fuel -/
theorem erase_treehashx_loop (w m : Nat) : 
  (loop w (treehashx_body E ctx leaf_idx idx_offset tree_height m gen_leaf)
    { idx := 0, stack := uninit (E.G 31) (tree_height * E.L * E.P.n), auth_path, tree_addr, info, left_adj := 0, prev_left_adj := 0 }).res =
  Spx.loop w (Spx.treehashx_body E.erase ctx leaf_idx idx_offset tree_height m gen_leaf')
    { idx := 0, stack := uninit (E.erase.G 31) (tree_height * E.erase.L * E.erase.P.n), auth_path, tree_addr, info, left_adj := 0, prev_left_adj := 0 } :=
  res_loop w (erase_treehashx_body E ctx _ _ _ _ hg) _
/-- the body of `treehashx` with any word size -/
theorem erase_treehashx_word (w : Nat) : (do
  let stack := uninit (E.G 31) (tree_height * E.L * E.P.n)
  let max_idx := (← shl1 ((tree_height + w - E.lg) % w)) - 1
  loop w (treehashx_body E ctx leaf_idx idx_offset tree_height max_idx gen_leaf)
    { idx := 0, stack, auth_path, tree_addr, info, left_adj := 0, prev_left_adj := 0 } : L _).res = (do
  let stack := uninit (E.erase.G 31) (tree_height * E.erase.L * E.erase.P.n)
  let max_idx := (← Spx.shl1 ((tree_height + w - E.erase.lg) % w)) - 1
  Spx.loop w (Spx.treehashx_body E.erase ctx leaf_idx idx_offset tree_height max_idx gen_leaf')
    { idx := 0, stack, auth_path, tree_addr, info, left_adj := 0, prev_left_adj := 0 } : C _) :=
  res_bind (res_shl1 ..) fun _ => erase_treehashx_loop E _ _ _ _ _ hg _ _ _ _
theorem erase_treehashx : 
    (treehashx E auth_path ctx leaf_idx idx_offset tree_height gen_leaf tree_addr info).res =
      Spx.treehashx E.erase auth_path ctx leaf_idx idx_offset tree_height gen_leaf' tree_addr info := by
  unfold treehashx Spx.treehashx
  exact erase_treehashx_word E auth_path ctx leaf_idx idx_offset tree_height hg tree_addr info _
end treehashx
macro_rules | `(tactic| erase_leaf) => `(tactic| (with_reducible apply erase_treehashx; (focus first | assumption | (intros; erase_leaf))))

theorem erase_wots_gen_leafx_chain (ctx : Ctx) (i wots_k wots_sign_index : Nat) (s : Nat × Bytes × Bytes × List Addr) :
    (wots_gen_leafx_chain E ctx i wots_k wots_sign_index s).res =
      Spx.wots_gen_leafx_chain E.erase ctx i wots_k wots_sign_index s := by
  unfold wots_gen_leafx_chain Spx.wots_gen_leafx_chain
  plain
  erase
macro_rules | `(tactic| erase_leaf) => `(tactic| with_reducible apply erase_wots_gen_leafx_chain)

theorem erase_wots_gen_leafx (ctx : Ctx) (dest : Bytes) (leaf_idx : Nat) (info : LeafInfoX) :
    (wots_gen_leafx E ctx dest leaf_idx info).res = Spx.wots_gen_leafx E.erase ctx dest leaf_idx info := by
  unfold wots_gen_leafx Spx.wots_gen_leafx
  plain
  rw [res_branch_bind]
  generalize (if (leaf_idx ^^^ info.wots_sign_leaf) &&& (2 ^ 32 - E.L) = 0 then
      (0, info.wots_sign_leaf &&& (E.L - 1)) else (2 ^ 32 - 1, 0)) = k
  obtain ⟨k1, k2⟩ := k
  dsimp only
  erase
macro_rules | `(tactic| erase_leaf) => `(tactic| with_reducible apply erase_wots_gen_leafx)

theorem erase_merkle_signx_tail (ctx : Ctx) (idx_leaf : Nat) (tree_addr : Addr) (auth_path : Bytes)
    (tree_addrx : List Addr) (info : LeafInfoX) :
    (do
      let (root, auth_path, _, info) ←
        treehashx E auth_path ctx idx_leaf 0 E.P.treeHeight (wots_gen_leafx E ctx) tree_addrx info
      .ok (info.wots_sig ++ auth_path, root, tree_addr) : L (Bytes × Bytes × Addr)).res =
    (do
      let (root, auth_path, _, info) ←
        Spx.treehashx E.erase auth_path ctx idx_leaf 0 E.erase.P.treeHeight (Spx.wots_gen_leafx E.erase ctx) tree_addrx info
      .ok (info.wots_sig ++ auth_path, root, tree_addr) : C (Bytes × Bytes × Addr)) :=
  res_bind (erase_treehashx E _ _ _ _ _ (fun _ _ _ => erase_wots_gen_leafx E ..) _ _) fun _ => rfl

theorem erase_merkle_signx_head (sig root : Bytes) (wots_addr tree_addr : Addr) (idx_leaf : Nat) {α : Type}
    (K : Bytes → List Addr → LeafInfoX → L α) (K' : Bytes → List Addr → LeafInfoX → C α)
    (hK : ∀ a t i, (K a t i).res = K' a t i) :
    (do
  let zero := List.replicate E.L zeroAddr
  let steps ← chain_lengths E.toEnv (uninit (fun i => (E.G 36 i).toNat) E.P.wotsLen) root
  let tree_addrx ← lanes E.L (fun _ a => do
    let a ← set_type E.P.fam a SPX_ADDR_TYPE_HASHTREE
    copy_subtree_addr E.P.fam a tree_addr) zero
  let leaf_addr ← lanes E.L (fun _ a => do
    let a ← set_type E.P.fam a SPX_ADDR_TYPE_WOTS
    copy_subtree_addr E.P.fam a wots_addr) zero
  let pk_addr ← lanes E.L (fun _ a => do
    let a ← set_type E.P.fam a SPX_ADDR_TYPE_WOTSPK
    copy_subtree_addr E.P.fam a wots_addr) zero
  let wots_sig ← rd sig 0 E.P.wotsBytes
  let auth_path ← sub sig E.P.wotsBytes
  K auth_path tree_addrx { wots_sig, wots_sign_leaf := idx_leaf, wots_steps := steps, leaf_addr, pk_addr } : L α).res =
    (do
  let zero := List.replicate E.erase.L zeroAddr
  let steps ← Spx.chain_lengths E.erase.toEnv (uninit (fun i => (E.erase.G 36 i).toNat) E.erase.P.wotsLen) root
  let tree_addrx ← Spx.lanes E.erase.L (fun _ a => do
    let a ← Spx.set_type E.erase.P.fam a SPX_ADDR_TYPE_HASHTREE
    Spx.copy_subtree_addr E.erase.P.fam a tree_addr) zero
  let leaf_addr ← Spx.lanes E.erase.L (fun _ a => do
    let a ← Spx.set_type E.erase.P.fam a SPX_ADDR_TYPE_WOTS
    Spx.copy_subtree_addr E.erase.P.fam a wots_addr) zero
  let pk_addr ← Spx.lanes E.erase.L (fun _ a => do
    let a ← Spx.set_type E.erase.P.fam a SPX_ADDR_TYPE_WOTSPK
    Spx.copy_subtree_addr E.erase.P.fam a wots_addr) zero
  let wots_sig ← Spx.rd sig 0 E.erase.P.wotsBytes
  let auth_path ← Spx.sub sig E.erase.P.wotsBytes
  K' auth_path tree_addrx { wots_sig, wots_sign_leaf := idx_leaf, wots_steps := steps, leaf_addr, pk_addr } : C α) := by
  refine res_bind (erase_chain_lengths E.toEnv ..) fun _ => ?_
  refine res_bind (by erase) fun _ => ?_
  refine res_bind (by erase) fun _ => ?_
  refine res_bind (by erase) fun _ => ?_
  exact res_bind (res_rd ..) fun _ => res_bind (res_sub ..) fun _ => hK ..

theorem erase_merkle_signx (sig root : Bytes) (ctx : Ctx) (wots_addr tree_addr : Addr) (idx_leaf : Nat) :
    (merkle_signx E sig root ctx wots_addr tree_addr idx_leaf).res =
      Spx.merkle_signx E.erase sig root ctx wots_addr tree_addr idx_leaf := by
  unfold merkle_signx Spx.merkle_signx
  exact erase_merkle_signx_head E sig root wots_addr tree_addr idx_leaf
    (fun auth_path tree_addrx info => do
      let (root, auth_path, _, info) ←
        treehashx E auth_path ctx idx_leaf 0 E.P.treeHeight (wots_gen_leafx E ctx) tree_addrx info
      .ok (info.wots_sig ++ auth_path, root, tree_addr))
    (fun auth_path tree_addrx info => do
      let (root, auth_path, _, info) ←
        Spx.treehashx E.erase auth_path ctx idx_leaf 0 E.erase.P.treeHeight (Spx.wots_gen_leafx E.erase ctx) tree_addrx info
      .ok (info.wots_sig ++ auth_path, root, tree_addr))
    (erase_merkle_signx_tail E ctx idx_leaf tree_addr)
macro_rules | `(tactic| erase_leaf) => `(tactic| with_reducible apply erase_merkle_signx)

theorem erase_merkle_gen_rootx (root0 : Bytes) (ctx : Ctx) :
    (merkle_gen_rootx E root0 ctx).res = Spx.merkle_gen_rootx E.erase root0 ctx := by
  unfold merkle_gen_rootx Spx.merkle_gen_rootx
  plain
  erase

theorem erase_fors_gen_leafx (ctx : Ctx) (leaf : Bytes) (addr_idx : Nat) (leaf_addr : List Addr) :
    (fors_gen_leafx E ctx leaf addr_idx leaf_addr).res = Spx.fors_gen_leafx E.erase ctx leaf addr_idx leaf_addr := by
  unfold fors_gen_leafx Spx.fors_gen_leafx
  plain
  erase
macro_rules | `(tactic| erase_leaf) => `(tactic| with_reducible apply erase_fors_gen_leafx)

theorem erase_fors_signx_body (ctx : Ctx) (indices : List Nat) (i : Nat)
    (s : Bytes × Nat × Bytes × List Addr × List Addr) :
    (fors_signx_body E ctx indices i s).res = Spx.fors_signx_body E.erase ctx indices i s := by
  unfold fors_signx_body Spx.fors_signx_body
  plain
  erase
macro_rules | `(tactic| erase_leaf) => `(tactic| with_reducible apply erase_fors_signx_body)

theorem erase_fors_signx (sig m : Bytes) (ctx : Ctx) (fors_addr : Addr) :
    (fors_signx E sig m ctx fors_addr).res = Spx.fors_signx E.erase sig m ctx fors_addr := by
  unfold fors_signx Spx.fors_signx
  plain
  erase

theorem erase_parCode : (parCode E).Erases (Spx.parCode E.erase) :=
  ⟨erase_merkle_signx E, erase_merkle_gen_rootx E, erase_fors_signx E⟩

end

end Spx.Leak
