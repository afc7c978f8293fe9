import Verif.Model.Env
/-! # Model of the tree code: ref/utils.c (compute_root, treehash) and ref/utilsx1.c -/

namespace Spx
variable (E : Env)

/-- The two nodes hashed first in `compute_root`, ref/utils.c:58-67. -/
def compute_root_start (leaf : Bytes) (leaf_idx : Nat) (auth_path : Bytes) : C Bytes := do
  let n := E.P.n
  let buffer := uninit (E.G 0) (2 * n)
  if leaf_idx &&& 1 = 1 then do
    let buffer ← wr buffer n (← rd leaf 0 n)
    wr buffer 0 (← rd auth_path 0 n)
  else do
    let buffer ← wr buffer 0 (← rd leaf 0 n)
    wr buffer n (← rd auth_path 0 n)

/-- One iteration of the loop in `compute_root`, ref/utils.c:71-86.  The state is the buffer, the
leaf index, the offset and the address; `auth_path` has been advanced `i + 1` times. -/
def compute_root_step (auth_path : Bytes) (ctx : Ctx) (i : Nat) (s : Bytes × Nat × Nat × Addr) :
    C (Bytes × Nat × Nat × Addr) := do
  let n := E.P.n
  let (buffer, leaf_idx, idx_offset, addr) := s
  let leaf_idx := leaf_idx >>> 1
  let idx_offset := idx_offset >>> 1
  let addr ← set_tree_height E.P.fam addr (i + 1)
  let addr ← set_tree_index E.P.fam addr ((leaf_idx + idx_offset) % 2 ^ 32)
  let buffer ← (
    if leaf_idx &&& 1 = 1 then do
      let buffer ← wr buffer n (← E.H.thash buffer 2 ctx addr)
      wr buffer 0 (← rd auth_path ((i + 1) * n) n)
    else do
      let buffer ← wr buffer 0 (← E.H.thash buffer 2 ctx addr)
      wr buffer n (← rd auth_path ((i + 1) * n) n) : C Bytes)
  .ok (buffer, leaf_idx, idx_offset, addr)

/-- `compute_root`, ref/utils.c:50-95.  Returns the root and the modified address.
`tree_height - 1` is computed in `uint32_t`. -/
def compute_root (leaf : Bytes) (leaf_idx idx_offset : Nat) (auth_path : Bytes)
    (tree_height : Nat) (ctx : Ctx) (addr : Addr) : C (Bytes × Addr) := do
  let buffer ← compute_root_start E leaf leaf_idx auth_path
  let iters := (tree_height + 2 ^ 32 - 1) % 2 ^ 32
  let (buffer, leaf_idx, idx_offset, addr) ←
    forRange iters (compute_root_step E auth_path ctx) (buffer, leaf_idx, idx_offset, addr)
  let leaf_idx := leaf_idx >>> 1
  let idx_offset := idx_offset >>> 1
  let addr ← set_tree_height E.P.fam addr tree_height
  let addr ← set_tree_index E.P.fam addr ((leaf_idx + idx_offset) % 2 ^ 32)
  let root ← E.H.thash buffer 2 ctx addr
  .ok (root, addr)

/-- State of the inner loop of `treehashx1`, ref/utilsx1.c:52-94. -/
structure Thx1Inner where
  current : Bytes
  auth_path : Bytes
  tree_addr : Addr
  h : Nat
  internal_idx : Nat
  internal_leaf : Nat
  internal_idx_offset : Nat

/-- One iteration of the inner loop of `treehashx1`, ref/utilsx1.c:52-94.  Leaves the loop either
with the root (`some`, lines 55-59) or by the `break` of line 78 (`none`). -/
def treehashx1_inner (ctx : Ctx) (idx max_idx tree_height : Nat) (stack : Bytes) (s : Thx1Inner) :
    C (Thx1Inner ⊕ (Option Bytes × Thx1Inner)) := do
  let n := E.P.n
  if s.h = tree_height then
    let root ← rd s.current n n
    .ok (.inr (some root, s))
  else
    let auth_path ← (
      if s.internal_idx ^^^ s.internal_leaf = 1 then do
        wr s.auth_path (s.h * n) (← rd s.current n n)
      else .ok s.auth_path : C Bytes)
    if s.internal_idx &&& 1 = 0 ∧ idx < max_idx then
      .ok (.inr (none, { s with auth_path }))
    else
      let internal_idx_offset := s.internal_idx_offset >>> 1
      let tree_addr ← set_tree_height E.P.fam s.tree_addr (s.h + 1)
      let tree_addr ← set_tree_index E.P.fam tree_addr
        ((s.internal_idx / 2 + internal_idx_offset) % 2 ^ 32)
      let current ← wr s.current 0 (← rd stack (s.h * n) n)
      let current ← wr current n (← E.H.thash current 2 ctx tree_addr)
      .ok (.inl { current, auth_path, tree_addr, h := s.h + 1,
                  internal_idx := s.internal_idx >>> 1,
                  internal_leaf := s.internal_leaf >>> 1, internal_idx_offset })

/-- State of the outer loop of `treehashx1`, ref/utilsx1.c:39-99. -/
structure Thx1 (ι : Type) where
  idx : Nat
  stack : Bytes
  auth_path : Bytes
  tree_addr : Addr
  info : ι

/-- One iteration of the outer loop of `treehashx1`, ref/utilsx1.c:39-99. -/
def treehashx1_body {ι : Type} (ctx : Ctx) (leaf_idx idx_offset tree_height max_idx : Nat)
    (gen_leaf : Nat → ι → C (Bytes × ι)) (s : Thx1 ι) :
    C (Thx1 ι ⊕ (Bytes × Bytes × Addr × ι)) := do
  let n := E.P.n
  let current := uninit (E.G 2) (2 * n)
  let (leaf, info) ← gen_leaf ((s.idx + idx_offset) % 2 ^ 32) s.info
  let current ← wr current n leaf
  let (res, i) ← loop 33 (treehashx1_inner E ctx s.idx max_idx tree_height s.stack)
    { current, auth_path := s.auth_path, tree_addr := s.tree_addr, h := 0,
      internal_idx := s.idx, internal_leaf := leaf_idx, internal_idx_offset := idx_offset }
  match res with
  | some root => .ok (.inr (root, i.auth_path, i.tree_addr, info))
  | none =>
    let stack ← wr s.stack (i.h * n) (← rd i.current n n)
    .ok (.inl { idx := (s.idx + 1) % 2 ^ 32, stack, auth_path := i.auth_path,
                tree_addr := i.tree_addr, info })

/-- `treehashx1`, ref/utilsx1.c:23-100.  Returns the root, the authentication path buffer, the
modified address and the final `info`.  The leaf callback returns the leaf and the new `info`. -/
def treehashx1 {ι : Type} (auth_path : Bytes) (ctx : Ctx) (leaf_idx idx_offset tree_height : Nat)
    (gen_leaf : Nat → ι → C (Bytes × ι)) (tree_addr : Addr) (info : ι) :
    C (Bytes × Bytes × Addr × ι) := do
  let stack := uninit (E.G 1) (tree_height * E.P.n)
  let max_idx := (← shl1 tree_height) - 1
  loop (2 ^ 32) (treehashx1_body E ctx leaf_idx idx_offset tree_height max_idx gen_leaf)
    { idx := 0, stack, auth_path, tree_addr, info }

end Spx
