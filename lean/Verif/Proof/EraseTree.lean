import Verif.Model.LeakTree
import Verif.Proof.EraseHash
/-! # The definitions of Model/LeakTree.lean without the traces are those of the model -/

namespace Spx.Leak

theorem erase_prf (H : HashImpl) (ctx : Ctx) (addr : Addr) : (H.prf_addr ctx addr).res = H.erase.prf_addr ctx addr := rfl
macro_rules | `(tactic| erase_leaf) => `(tactic| with_reducible apply erase_prf)
theorem erase_thash (H : HashImpl) (inp : Bytes) (k : Nat) (ctx : Ctx) (addr : Addr) :
    (H.thash inp k ctx addr).res = H.erase.thash inp k ctx addr := rfl
macro_rules | `(tactic| erase_leaf) => `(tactic| with_reducible apply erase_thash)
theorem erase_initialize (H : HashImpl) (ctx : Ctx) :
    (H.initialize_hash_function ctx).res = H.erase.initialize_hash_function ctx := rfl
macro_rules | `(tactic| erase_leaf) => `(tactic| with_reducible apply erase_initialize)
theorem erase_genR (H : HashImpl) (k o m : Bytes) (ctx : Ctx) :
    (H.gen_message_random k o m ctx).res = H.erase.gen_message_random k o m ctx := rfl
macro_rules | `(tactic| erase_leaf) => `(tactic| with_reducible apply erase_genR)
theorem erase_hmsg (H : HashImpl) (R pk m : Bytes) (ctx : Ctx) :
    (H.hash_message R pk m ctx).res = H.erase.hash_message R pk m ctx := rfl
macro_rules | `(tactic| erase_leaf) => `(tactic| with_reducible apply erase_hmsg)

theorem erase_treehashx1_inner (E : Env) (ctx : Ctx) (idx max_idx tree_height : Nat) (stack : Bytes) (s : Thx1Inner) :
    (treehashx1_inner E ctx idx max_idx tree_height stack s).res = Spx.treehashx1_inner E.erase ctx idx max_idx tree_height stack s := by
  unfold treehashx1_inner Spx.treehashx1_inner
  erase
macro_rules | `(tactic| erase_leaf) => `(tactic| with_reducible apply erase_treehashx1_inner)

theorem erase_treehashx1_body (E : Env) {ι : Type} (ctx : Ctx) (leaf_idx idx_offset tree_height max_idx : Nat) {gen_leaf : Nat → ι → L (Bytes × ι)} {gen_leaf' : Nat → ι → C (Bytes × ι)} (hg : ∀ i s, (gen_leaf i s).res = gen_leaf' i s) (s : Thx1 ι) :
    (treehashx1_body E ctx leaf_idx idx_offset tree_height max_idx gen_leaf s).res = Spx.treehashx1_body E.erase ctx leaf_idx idx_offset tree_height max_idx gen_leaf' s := by
  unfold treehashx1_body Spx.treehashx1_body
  erase
macro_rules | `(tactic| erase_leaf) => `(tactic| with_reducible apply erase_treehashx1_body <;> first | assumption | (intros; erase_leaf))

theorem erase_treehashx1 (E : Env) {ι : Type} (auth_path : Bytes) (ctx : Ctx) (leaf_idx idx_offset tree_height : Nat) {gen_leaf : Nat → ι → L (Bytes × ι)} {gen_leaf' : Nat → ι → C (Bytes × ι)} (hg : ∀ i s, (gen_leaf i s).res = gen_leaf' i s) (tree_addr : Addr) (info : ι) :
    (treehashx1 E auth_path ctx leaf_idx idx_offset tree_height gen_leaf tree_addr info).res = Spx.treehashx1 E.erase auth_path ctx leaf_idx idx_offset tree_height gen_leaf' tree_addr info := by
  unfold treehashx1 Spx.treehashx1
  erase
macro_rules | `(tactic| erase_leaf) => `(tactic| with_reducible apply erase_treehashx1 <;> first | assumption | (intros; erase_leaf))

theorem erase_base_w (P : Params) (output : List Nat) (out_len : Nat) (input : Bytes) (total0 : Nat) :
    (base_w P output out_len input total0).res = Spx.base_w P output out_len input total0 := by
  unfold base_w Spx.base_w
  erase
macro_rules | `(tactic| erase_leaf) => `(tactic| with_reducible apply erase_base_w)

theorem erase_wots_checksum (E : Env) (csum_base_w msg_base_w : List Nat) :
    (wots_checksum E csum_base_w msg_base_w).res = Spx.wots_checksum E.erase csum_base_w msg_base_w := by
  unfold wots_checksum Spx.wots_checksum
  erase
macro_rules | `(tactic| erase_leaf) => `(tactic| with_reducible apply erase_wots_checksum)

theorem erase_chain_lengths (E : Env) (lengths : List Nat) (msg : Bytes) :
    (chain_lengths E lengths msg).res = Spx.chain_lengths E.erase lengths msg := by
  unfold chain_lengths Spx.chain_lengths
  erase
macro_rules | `(tactic| erase_leaf) => `(tactic| with_reducible apply erase_chain_lengths)

theorem erase_wots_gen_leafx1_chain (E : Env) (ctx : Ctx) (i wots_k : Nat) (s : Nat × Bytes × Bytes × Addr) :
    (wots_gen_leafx1_chain E ctx i wots_k s).res = Spx.wots_gen_leafx1_chain E.erase ctx i wots_k s := by
  unfold wots_gen_leafx1_chain Spx.wots_gen_leafx1_chain
  erase
macro_rules | `(tactic| erase_leaf) => `(tactic| with_reducible apply erase_wots_gen_leafx1_chain)

theorem erase_wots_gen_leafx1 (E : Env) (ctx : Ctx) (leaf_idx : Nat) (info : LeafInfoX1) :
    (wots_gen_leafx1 E ctx leaf_idx info).res = Spx.wots_gen_leafx1 E.erase ctx leaf_idx info := by
  unfold wots_gen_leafx1 Spx.wots_gen_leafx1
  rw [res_branch_bind]
  dsimp only
  generalize (if leaf_idx = info.wots_sign_leaf then 0 else 2 ^ 32 - 1) = k
  erase
macro_rules | `(tactic| erase_leaf) => `(tactic| with_reducible apply erase_wots_gen_leafx1)

theorem erase_fors_gen_sk (E : Env) (ctx : Ctx) (fors_leaf_addr : Addr) :
    (fors_gen_sk E ctx fors_leaf_addr).res = Spx.fors_gen_sk E.erase ctx fors_leaf_addr := by
  unfold fors_gen_sk Spx.fors_gen_sk
  erase
macro_rules | `(tactic| erase_leaf) => `(tactic| with_reducible apply erase_fors_gen_sk)

theorem erase_fors_sk_to_leaf (E : Env) (sk : Bytes) (ctx : Ctx) (fors_leaf_addr : Addr) :
    (fors_sk_to_leaf E sk ctx fors_leaf_addr).res = Spx.fors_sk_to_leaf E.erase sk ctx fors_leaf_addr := by
  unfold fors_sk_to_leaf Spx.fors_sk_to_leaf
  erase
macro_rules | `(tactic| erase_leaf) => `(tactic| with_reducible apply erase_fors_sk_to_leaf)

theorem erase_fors_gen_leafx1 (E : Env) (ctx : Ctx) (addr_idx : Nat) (fors_leaf_addr : Addr) :
    (fors_gen_leafx1 E ctx addr_idx fors_leaf_addr).res = Spx.fors_gen_leafx1 E.erase ctx addr_idx fors_leaf_addr := by
  unfold fors_gen_leafx1 Spx.fors_gen_leafx1
  erase
macro_rules | `(tactic| erase_leaf) => `(tactic| with_reducible apply erase_fors_gen_leafx1)

theorem erase_message_to_indices (P : Params) (indices : List Nat) (m : Bytes) :
    (message_to_indices P indices m).res = Spx.message_to_indices P indices m := by
  unfold message_to_indices Spx.message_to_indices
  erase
macro_rules | `(tactic| erase_leaf) => `(tactic| with_reducible apply erase_message_to_indices)

theorem erase_fors_sign_body (E : Env) (ctx : Ctx) (indices : List Nat) (i : Nat) (s : Bytes × Nat × Bytes × Addr × Addr) :
    (fors_sign_body E ctx indices i s).res = Spx.fors_sign_body E.erase ctx indices i s := by
  unfold fors_sign_body Spx.fors_sign_body
  erase
macro_rules | `(tactic| erase_leaf) => `(tactic| with_reducible apply erase_fors_sign_body)

theorem erase_fors_sign (E : Env) (sig m : Bytes) (ctx : Ctx) (fors_addr : Addr) :
    (fors_sign E sig m ctx fors_addr).res = Spx.fors_sign E.erase sig m ctx fors_addr := by
  unfold fors_sign Spx.fors_sign
  erase
macro_rules | `(tactic| erase_leaf) => `(tactic| with_reducible apply erase_fors_sign)

theorem erase_merkle_sign (E : Env) (sig root : Bytes) (ctx : Ctx) (wots_addr tree_addr : Addr) (idx_leaf : Nat) :
    (merkle_sign E sig root ctx wots_addr tree_addr idx_leaf).res = Spx.merkle_sign E.erase sig root ctx wots_addr tree_addr idx_leaf := by
  unfold merkle_sign Spx.merkle_sign
  erase
macro_rules | `(tactic| erase_leaf) => `(tactic| with_reducible apply erase_merkle_sign)

theorem erase_merkle_gen_root (E : Env) (root0 : Bytes) (ctx : Ctx) :
    (merkle_gen_root E root0 ctx).res = Spx.merkle_gen_root E.erase root0 ctx := by
  unfold merkle_gen_root Spx.merkle_gen_root
  erase
macro_rules | `(tactic| erase_leaf) => `(tactic| with_reducible apply erase_merkle_gen_root)

end Spx.Leak
