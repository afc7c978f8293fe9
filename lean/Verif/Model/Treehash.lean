import Verif.Model.Env
/-! # Model of the exported stack-based `treehash`: ref/utils.c:105-154

No other file of ref calls it; it is declared in utils.h:39-47. -/

namespace Spx
variable (E : Env)

/-- The locals of `treehash` and the objects it writes to. -/
structure Th where
  stack : Bytes
  heights : List Nat
  offset : Nat
  auth_path : Bytes
  tree_addr : Addr

/-- `x >> k` for a `uint32_t`, undefined for `k ≥ 32`. -/
def shr32 (x k : Nat) : C Nat := if k < 32 then .ok (x >>> k) else .error .shift

/-- The `while` loop of `treehash`: one evaluation of the condition and, if it holds, of the body,
ref/utils.c:130-151. -/
def treehash_while (ctx : Ctx) (leaf_idx idx_offset idx : Nat) (s : Th) : C (Th ⊕ Th) := do
  let n := E.P.n
  if 2 ≤ s.offset then do
    let h ← rd1 s.heights (s.offset - 1)
    let h' ← rd1 s.heights (s.offset - 2)
    if h = h' then do
      let tree_idx ← shr32 idx (h + 1)
      let tree_addr ← set_tree_height E.P.fam s.tree_addr (h + 1)
      let tree_addr ← set_tree_index E.P.fam tree_addr ((tree_idx + (← shr32 idx_offset (h + 1))) % 2 ^ 32)
      let stack ← wr s.stack ((s.offset - 2) * n) (← E.H.thash (← sub s.stack ((s.offset - 2) * n)) 2 ctx tree_addr)
      let offset := s.offset - 1
      let heights ← wr1 s.heights (offset - 1) ((← rd1 s.heights (offset - 1)) + 1)
      let hn ← rd1 heights (offset - 1)
      let auth_path ← (
        if (← shr32 leaf_idx hn) ^^^ 1 = tree_idx then do
          wr s.auth_path (hn * n) (← rd stack ((offset - 1) * n) n)
        else .ok s.auth_path : C Bytes)
      .ok (.inl { stack, heights, offset, auth_path, tree_addr })
    else .ok (.inr s)
  else .ok (.inr s)

/-- One iteration of the `for` loop of `treehash`, ref/utils.c:118-152. -/
def treehash_for (ctx : Ctx) (leaf_idx idx_offset : Nat) (gen_leaf : Nat → Addr → C Bytes) (idx : Nat) (s : Th) :
    C Th := do
  let n := E.P.n
  let stack ← wr s.stack (s.offset * n) (← gen_leaf ((idx + idx_offset) % 2 ^ 32) s.tree_addr)
  let offset := s.offset + 1
  let heights ← wr1 s.heights (offset - 1) 0
  let auth_path ← (
    if leaf_idx ^^^ 1 = idx then do
      wr s.auth_path 0 (← rd stack ((offset - 1) * n) n)
    else .ok s.auth_path : C Bytes)
  loop 33 (treehash_while E ctx leaf_idx idx_offset idx) { stack, heights, offset, auth_path, tree_addr := s.tree_addr }

/-- `treehash`, ref/utils.c:105-154.  `gen_leaf` gets the leaf number and the current content of
`tree_addr` and returns the leaf.  `gst`, `gh` are the uninitialised contents of the two arrays.
Returns root, path buffer and address. -/
def treehash (gst : Nat → Byte) (gh : Nat → Nat) (auth_path : Bytes) (ctx : Ctx)
    (leaf_idx idx_offset tree_height : Nat) (gen_leaf : Nat → Addr → C Bytes) (tree_addr : Addr) :
    C (Bytes × Bytes × Addr) := do
  let stack := uninit gst ((tree_height + 1) * E.P.n)
  let heights := uninit gh (tree_height + 1)
  let s ← forRange (← shl1 tree_height) (treehash_for E ctx leaf_idx idx_offset gen_leaf)
    { stack, heights, offset := 0, auth_path, tree_addr }
  .ok (← rd s.stack 0 E.P.n, s.auth_path, s.tree_addr)

end Spx
