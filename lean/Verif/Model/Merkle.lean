import Verif.Model.Tree
import Verif.Model.Wots
/-! # Model of ref/merkle.c -/

namespace Spx
variable (E : Env)

/-- `merkle_sign`, ref/merkle.c:18-43.  `sig` is the memory behind the pointer; its WOTS part
(`info.wots_sig = sig`) and the rest (`auth_path = sig + SPX_WOTS_BYTES`) are handed to the leaf
callback and to the tree hashing as separate buffers (writes crossing the border would be an
error here).  `root` is both input (message to sign) and output.
Returns `sig` and (root, wots_addr, tree_addr). -/
def merkle_sign (sig root : Bytes) (ctx : Ctx) (wots_addr tree_addr : Addr) (idx_leaf : Nat) :
    C (Bytes × Bytes × Addr) := do
  let steps ← chain_lengths E (uninit (fun i => (E.G 7 i).toNat) E.P.wotsLen) root
  let tree_addr ← set_type E.P.fam tree_addr SPX_ADDR_TYPE_HASHTREE
  let pk_addr ← set_type E.P.fam zeroAddr SPX_ADDR_TYPE_WOTSPK
  let leaf_addr ← copy_subtree_addr E.P.fam zeroAddr wots_addr
  let pk_addr ← copy_subtree_addr E.P.fam pk_addr wots_addr
  let wots_sig ← rd sig 0 E.P.wotsBytes
  let auth_path ← sub sig E.P.wotsBytes
  let (root, auth_path, tree_addr, info) ←
    treehashx1 E auth_path ctx idx_leaf 0 E.P.treeHeight (wots_gen_leafx1 E ctx) tree_addr
      { wots_sig, wots_sign_leaf := idx_leaf, wots_steps := steps, leaf_addr, pk_addr }
  .ok (info.wots_sig ++ auth_path, root, tree_addr)

/-- `merkle_gen_root`, ref/merkle.c:46-61.  `root0` is the previous content of the memory at
`root`, which `chain_lengths` reads although it is not initialised. -/
def merkle_gen_root (root0 : Bytes) (ctx : Ctx) : C Bytes := do
  let auth_path := uninit (E.G 8) (E.P.treeHeight * E.P.n + E.P.wotsBytes)
  let top_tree_addr ← set_layer_addr E.P.fam zeroAddr (E.P.d - 1)
  let wots_addr ← set_layer_addr E.P.fam zeroAddr (E.P.d - 1)
  let (_, root, _) ← merkle_sign E auth_path root0 ctx wots_addr top_tree_addr (2 ^ 32 - 1)
  .ok root

end Spx
