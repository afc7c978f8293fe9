import Verif.Model.LeakHash
import Verif.Proof.LeakBase
/-! # The definitions of Model/LeakHash.lean without the traces are those of the model -/

namespace Spx.Leak

theorem erase_ull_to_bytes (out : Bytes) (outlen inv : Nat) :
    (ull_to_bytes out outlen inv).res = Spx.ull_to_bytes out outlen inv := by
  unfold ull_to_bytes Spx.ull_to_bytes
  erase
macro_rules | `(tactic| erase_leaf) => `(tactic| with_reducible apply erase_ull_to_bytes)

theorem erase_u32_to_bytes (out : Bytes) (inv : Nat) :
    (u32_to_bytes out inv).res = Spx.u32_to_bytes out inv := by
  unfold u32_to_bytes Spx.u32_to_bytes
  erase
macro_rules | `(tactic| erase_leaf) => `(tactic| with_reducible apply erase_u32_to_bytes)

theorem erase_bytes_to_ull (inp : Bytes) (inlen : Nat) :
    (bytes_to_ull inp inlen).res = Spx.bytes_to_ull inp inlen := by
  unfold bytes_to_ull Spx.bytes_to_ull
  erase
macro_rules | `(tactic| erase_leaf) => `(tactic| with_reducible apply erase_bytes_to_ull)

theorem erase_set_layer_addr (f : Family) (addr : Addr) (layer : Nat) :
    (set_layer_addr f addr layer).res = Spx.set_layer_addr f addr layer := by
  unfold set_layer_addr Spx.set_layer_addr
  erase
macro_rules | `(tactic| erase_leaf) => `(tactic| with_reducible apply erase_set_layer_addr)

theorem erase_set_tree_addr (f : Family) (addr : Addr) (tree : Nat) :
    (set_tree_addr f addr tree).res = Spx.set_tree_addr f addr tree := by
  unfold set_tree_addr Spx.set_tree_addr
  erase
macro_rules | `(tactic| erase_leaf) => `(tactic| with_reducible apply erase_set_tree_addr)

theorem erase_set_type (f : Family) (addr : Addr) (typ : Nat) :
    (set_type f addr typ).res = Spx.set_type f addr typ := by
  unfold set_type Spx.set_type
  erase
macro_rules | `(tactic| erase_leaf) => `(tactic| with_reducible apply erase_set_type)

theorem erase_copy_subtree_addr (f : Family) (out inp : Addr) :
    (copy_subtree_addr f out inp).res = Spx.copy_subtree_addr f out inp := by
  unfold copy_subtree_addr Spx.copy_subtree_addr
  erase
macro_rules | `(tactic| erase_leaf) => `(tactic| with_reducible apply erase_copy_subtree_addr)

theorem erase_set_keypair_addr (f : Family) (addr : Addr) (keypair : Nat) :
    (set_keypair_addr f addr keypair).res = Spx.set_keypair_addr f addr keypair := by
  unfold set_keypair_addr Spx.set_keypair_addr
  erase
macro_rules | `(tactic| erase_leaf) => `(tactic| with_reducible apply erase_set_keypair_addr)

theorem erase_copy_keypair_addr (f : Family) (out inp : Addr) :
    (copy_keypair_addr f out inp).res = Spx.copy_keypair_addr f out inp := by
  unfold copy_keypair_addr Spx.copy_keypair_addr
  erase
macro_rules | `(tactic| erase_leaf) => `(tactic| with_reducible apply erase_copy_keypair_addr)

theorem erase_set_chain_addr (f : Family) (addr : Addr) (chain : Nat) :
    (set_chain_addr f addr chain).res = Spx.set_chain_addr f addr chain := by
  unfold set_chain_addr Spx.set_chain_addr
  erase
macro_rules | `(tactic| erase_leaf) => `(tactic| with_reducible apply erase_set_chain_addr)

theorem erase_set_hash_addr (f : Family) (addr : Addr) (hash : Nat) :
    (set_hash_addr f addr hash).res = Spx.set_hash_addr f addr hash := by
  unfold set_hash_addr Spx.set_hash_addr
  erase
macro_rules | `(tactic| erase_leaf) => `(tactic| with_reducible apply erase_set_hash_addr)

theorem erase_set_tree_height (f : Family) (addr : Addr) (tree_height : Nat) :
    (set_tree_height f addr tree_height).res = Spx.set_tree_height f addr tree_height := by
  unfold set_tree_height Spx.set_tree_height
  erase
macro_rules | `(tactic| erase_leaf) => `(tactic| with_reducible apply erase_set_tree_height)

theorem erase_set_tree_index (f : Family) (addr : Addr) (tree_index : Nat) :
    (set_tree_index f addr tree_index).res = Spx.set_tree_index f addr tree_index := by
  unfold set_tree_index Spx.set_tree_index
  erase
macro_rules | `(tactic| erase_leaf) => `(tactic| with_reducible apply erase_set_tree_index)

theorem erase_hash_message_split (P : Params) (buf : Bytes) :
    (hash_message_split P buf).res = Spx.hash_message_split P buf := by
  unfold hash_message_split Spx.hash_message_split
  erase
macro_rules | `(tactic| erase_leaf) => `(tactic| with_reducible apply erase_hash_message_split)

end Spx.Leak
