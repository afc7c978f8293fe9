import Verif.Model.LeakSign
/-! # Verification with traces

The definitions used by `crypto_sign_verify` over the monad of Model/LeakBase.lean. -/

namespace Spx.Leak

variable (E : Env)

/-- The two nodes hashed first in `compute_root`, ref/utils.c:58-67. -/
def compute_root_start (leaf : Bytes) (leaf_idx : Nat) (auth_path : Bytes) : L Bytes := do
  let n := E.P.n
  let buffer := uninit (E.G 0) (2 * n)
  cif leaf_idx &&& 1 = 1 then do
    let buffer ← wr buffer n (← rd leaf 0 n)
    wr buffer 0 (← rd auth_path 0 n)
  else do
    let buffer ← wr buffer 0 (← rd leaf 0 n)
    wr buffer n (← rd auth_path 0 n)

/-- One iteration of the loop in `compute_root`, ref/utils.c:71-86.  The state is the buffer, the
leaf index, the offset and the address; `auth_path` has been advanced `i + 1` times. -/
def compute_root_step (auth_path : Bytes) (ctx : Ctx) (i : Nat) (s : Bytes × Nat × Nat × Addr) :
    L (Bytes × Nat × Nat × Addr) := do
  let n := E.P.n
  let (buffer, leaf_idx, idx_offset, addr) := s
  let leaf_idx := leaf_idx >>> 1
  let idx_offset := idx_offset >>> 1
  let addr ← set_tree_height E.P.fam addr (i + 1)
  let addr ← set_tree_index E.P.fam addr ((leaf_idx + idx_offset) % 2 ^ 32)
  let buffer ← (
    cif leaf_idx &&& 1 = 1 then do
      let buffer ← wr buffer n (← E.H.thash buffer 2 ctx addr)
      wr buffer 0 (← rd auth_path ((i + 1) * n) n)
    else do
      let buffer ← wr buffer 0 (← E.H.thash buffer 2 ctx addr)
      wr buffer n (← rd auth_path ((i + 1) * n) n) : L Bytes)
  .ok (buffer, leaf_idx, idx_offset, addr)

/-- `compute_root`, ref/utils.c:50-95. -/
def compute_root (leaf : Bytes) (leaf_idx idx_offset : Nat) (auth_path : Bytes)
    (tree_height : Nat) (ctx : Ctx) (addr : Addr) : L (Bytes × Addr) := do
  let buffer ← compute_root_start E leaf leaf_idx auth_path
  let iters := (tree_height + 2 ^ 32 - 1) % 2 ^ 32
  let (buffer, leaf_idx, idx_offset, addr) ←
    forRange iters (compute_root_step E auth_path ctx) (buffer, leaf_idx, idx_offset, addr)
  let leaf_idx := leaf_idx >>> 1
  let idx_offset := idx_offset >>> 1
  let addr ← set_tree_height E.P.fam addr tree_height
  let addr ← set_tree_index E.P.fam addr ((leaf_idx + idx_offset) % 2 ^ 32)
  let root ← E.H.thash buffer 2 ctx addr
  .ok (root, addr)

/-- `gen_chain`, ref/wots.c:24-38.  (The test of the loop is that of the counter.) -/
def gen_chain (inp : Bytes) (start steps : Nat) (ctx : Ctx) (addr : Addr) : L (Bytes × Addr) := do
  let out ← rd inp 0 E.P.n
  let stop := min ((start + steps) % 2 ^ 32) E.P.w
  forRange (stop - start) (fun j (s : Bytes × Addr) => do
    let addr ← set_hash_addr E.P.fam s.2 (start + j)
    let out ← E.H.thash s.1 1 ctx addr
    .ok (out, addr)) (out, addr)

/-- `wots_pk_from_sig`, ref/wots.c:98-112. -/
def wots_pk_from_sig (pk sig msg : Bytes) (ctx : Ctx) (addr : Addr) : L (Bytes × Addr) := do
  let lengths ← chain_lengths E (uninit (fun i => (E.G 5 i).toNat) E.P.wotsLen) msg
  forRange E.P.wotsLen (fun i (s : Bytes × Addr) => do
    let addr ← set_chain_addr E.P.fam s.2 i
    let l ← rd1 lengths i
    let (out, addr) ← gen_chain E (← sub sig (i * E.P.n)) l ((E.P.w - 1 + 2 ^ 32 - l) % 2 ^ 32) ctx addr
    let pk ← wr s.1 (i * E.P.n) out
    .ok (pk, addr)) (pk, addr)

/-- One iteration of the loop in `fors_pk_from_sig`, ref/fors.c:144-156.  State: offset of the
moving pointer, roots, fors_tree_addr. -/
def fors_pk_body (sig : Bytes) (ctx : Ctx) (indices : List Nat) (i : Nat) (s : Nat × Bytes × Addr) :
    L (Nat × Bytes × Addr) := do
  let n := E.P.n
  let (off, roots, tree_addr) := s
  let idx_offset := (i * (← shl1 E.P.forsHeight)) % 2 ^ 32
  let idx ← rd1 indices i
  let tree_addr ← set_tree_height E.P.fam tree_addr 0
  let tree_addr ← set_tree_index E.P.fam tree_addr ((idx + idx_offset) % 2 ^ 32)
  let leaf ← fors_sk_to_leaf E (← sub sig off) ctx tree_addr
  let off := off + n
  let (root, tree_addr) ←
    compute_root E leaf idx idx_offset (← sub sig off) E.P.forsHeight ctx tree_addr
  let roots ← wr roots (i * n) root
  .ok (off + n * E.P.forsHeight, roots, tree_addr)

/-- `fors_pk_from_sig`, ref/fors.c:122-161. -/
def fors_pk_from_sig (sig m : Bytes) (ctx : Ctx) (fors_addr : Addr) : L Bytes := do
  let fors_tree_addr ← copy_keypair_addr E.P.fam zeroAddr fors_addr
  let fors_pk_addr ← copy_keypair_addr E.P.fam zeroAddr fors_addr
  let fors_tree_addr ← set_type E.P.fam fors_tree_addr SPX_ADDR_TYPE_FORSTREE
  let fors_pk_addr ← set_type E.P.fam fors_pk_addr SPX_ADDR_TYPE_FORSPK
  let indices ← message_to_indices E.P (uninit (fun i => (E.G 11 i).toNat) E.P.forsTrees) m
  let (_, roots, _) ←
    forRange E.P.forsTrees (fors_pk_body E sig ctx indices)
      (0, uninit (E.G 12) (E.P.forsTrees * E.P.n), fors_tree_addr)
  E.H.thash roots E.P.forsTrees ctx fors_pk_addr

/-- `wots_pk_from_sig` of an implementation: pk, sig, msg, ctx, addr. -/
abbrev WotsPk := Bytes → Bytes → Bytes → Ctx → Addr → L (Bytes × Addr)

/-- The loop over the layers in `crypto_sign_verify`, ref/sign.c:206-232.
State: offset of the moving pointer, root, wots_addr, tree_addr, wots_pk_addr, wots_pk, tree,
idx_leaf. -/
def verify_layerT (W : WotsPk) (sig : Bytes) (ctx : Ctx) (i : Nat)
    (s : Nat × Bytes × Addr × Addr × Addr × Bytes × Nat × Nat) :
    L (Nat × Bytes × Addr × Addr × Addr × Bytes × Nat × Nat) := do
  let (off, root, wots_addr, tree_addr, wots_pk_addr, wots_pk, tree, idx_leaf) := s
  let tree_addr ← set_layer_addr E.P.fam tree_addr i
  let tree_addr ← set_tree_addr E.P.fam tree_addr tree
  let wots_addr ← copy_subtree_addr E.P.fam wots_addr tree_addr
  let wots_addr ← set_keypair_addr E.P.fam wots_addr idx_leaf
  let wots_pk_addr ← copy_keypair_addr E.P.fam wots_pk_addr wots_addr
  let (wots_pk, wots_addr) ← W wots_pk (← sub sig off) root ctx wots_addr
  let off := off + E.P.wotsBytes
  let leaf ← E.H.thash wots_pk E.P.wotsLen ctx wots_pk_addr
  let (root, tree_addr) ←
    compute_root E leaf idx_leaf 0 (← sub sig off) E.P.treeHeight ctx tree_addr
  let off := off + E.P.treeHeight * E.P.n
  let idx_leaf := tree &&& ((← shl1 E.P.treeHeight) - 1)
  let tree := tree >>> E.P.treeHeight
  .ok (off, root, wots_addr, tree_addr, wots_pk_addr, wots_pk, tree, idx_leaf)

/-- `crypto_sign_verify`, ref/sign.c:163-240.  Returns 0 or -1.  (What `memcmp` does is recorded as the two reads and
the branch on its result.) -/
def crypto_sign_verifyT (W : WotsPk) (sig : Bytes) (siglen : Nat) (m pk : Bytes) : L Int := do
  let n := E.P.n
  cif siglen ≠ E.P.spxBytes then .ok (-1)
  else do
    let ctx := uninitCtx E.erase
    let ctx := { ctx with pub_seed := ← wr ctx.pub_seed 0 (← rd pk 0 n) }
    let ctx ← E.H.initialize_hash_function ctx
    let wots_addr ← set_type E.P.fam zeroAddr SPX_ADDR_TYPE_WOTS
    let tree_addr ← set_type E.P.fam zeroAddr SPX_ADDR_TYPE_HASHTREE
    let wots_pk_addr ← set_type E.P.fam zeroAddr SPX_ADDR_TYPE_WOTSPK
    let (mhash, tree, idx_leaf) ← E.H.hash_message sig pk m ctx
    let off := n
    let wots_addr ← set_tree_addr E.P.fam wots_addr tree
    let wots_addr ← set_keypair_addr E.P.fam wots_addr idx_leaf
    let root ← fors_pk_from_sig E (← sub sig off) mhash ctx wots_addr
    let off := off + E.P.forsBytes
    let (_, root, _) ← forRange E.P.d (verify_layerT E W sig ctx)
      (off, root, wots_addr, tree_addr, wots_pk_addr, uninit (E.G 13) E.P.wotsBytes, tree, idx_leaf)
    let a ← rd root 0 n
    let b ← rd pk n n
    cif a = b then .ok 0 else .ok (-1)

/-- The code in ref/. -/
def crypto_sign_verify (sig : Bytes) (siglen : Nat) (m pk : Bytes) : L Int :=
  crypto_sign_verifyT E (wots_pk_from_sig E) sig siglen m pk

end Spx.Leak
