import Verif.Model.Params
import Verif.Model.Utils
/-! # Model of ref/address.c

An address `uint32_t addr[8]` is only ever accessed through byte pointers and is modelled by its
32 bytes. -/

namespace Spx

/-- `uint32_t addr[8]` as 32 bytes. -/
abbrev Addr := Bytes

/-- `uint32_t addr[8] = {0}` -/
def zeroAddr : Addr := List.replicate 32 0

/-- ref/address.h:8-14 -/
def SPX_ADDR_TYPE_WOTS := 0
def SPX_ADDR_TYPE_WOTSPK := 1
def SPX_ADDR_TYPE_HASHTREE := 2
def SPX_ADDR_TYPE_FORSTREE := 3
def SPX_ADDR_TYPE_FORSPK := 4
def SPX_ADDR_TYPE_WOTSPRF := 5
def SPX_ADDR_TYPE_FORSPRF := 6

section
variable (f : Family)

/-- `set_layer_addr`, ref/address.c:11-14 -/
def set_layer_addr (addr : Addr) (layer : Nat) : C Addr := wr1 addr f.offLayer (BitVec.ofNat 8 layer)

/-- `set_tree_addr`, ref/address.c:19-25 -/
def set_tree_addr (addr : Addr) (tree : Nat) : C Addr := do
  let r ← withSub addr f.offTree (fun b => do .ok (← ull_to_bytes b 8 tree, ()))
  .ok r.1

/-- `set_type`, ref/address.c:33-36 -/
def set_type (addr : Addr) (typ : Nat) : C Addr := wr1 addr f.offType (BitVec.ofNat 8 typ)

/-- `copy_subtree_addr`, ref/address.c:42-45 -/
def copy_subtree_addr (out inp : Addr) : C Addr := do
  wr out 0 (← rd inp 0 (f.offTree + 8))

/-- `set_keypair_addr`, ref/address.c:53-56 -/
def set_keypair_addr (addr : Addr) (keypair : Nat) : C Addr := do
  let r ← withSub addr f.offKp (fun b => do .ok (← u32_to_bytes b keypair, ()))
  .ok r.1

/-- `copy_keypair_addr`, ref/address.c:62-66 -/
def copy_keypair_addr (out inp : Addr) : C Addr := do
  let out ← wr out 0 (← rd inp 0 (f.offTree + 8))
  wr out f.offKp (← rd inp f.offKp 4)

/-- `set_chain_addr`, ref/address.c:72-75 -/
def set_chain_addr (addr : Addr) (chain : Nat) : C Addr := wr1 addr f.offChain (BitVec.ofNat 8 chain)

/-- `set_hash_addr`, ref/address.c:81-84 -/
def set_hash_addr (addr : Addr) (hash : Nat) : C Addr := wr1 addr f.offHash (BitVec.ofNat 8 hash)

/-- `set_tree_height`, ref/address.c:92-95 -/
def set_tree_height (addr : Addr) (tree_height : Nat) : C Addr :=
  wr1 addr f.offTreeHgt (BitVec.ofNat 8 tree_height)

/-- `set_tree_index`, ref/address.c:101-104 -/
def set_tree_index (addr : Addr) (tree_index : Nat) : C Addr := do
  let r ← withSub addr f.offTreeIndex (fun b => do .ok (← u32_to_bytes b tree_index, ()))
  .ok r.1

end
end Spx
