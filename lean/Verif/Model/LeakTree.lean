import Verif.Model.LeakHash
import Verif.Model.Merkle
import Verif.Model.Fors
/-! # The tree code used for signing with traces

The definitions of Model/Tree.lean, Model/Wots.lean, Model/Fors.lean and Model/Merkle.lean over the
monad of Model/LeakBase.lean. -/

namespace Spx.Leak

variable (E : Env)

/-- One iteration of the inner loop of `treehashx1`, ref/utilsx1.c:52-94.  Leaves the loop either
with the root (`some`, lines 55-59) or by the `break` of line 78 (`none`). -/
def treehashx1_inner (ctx : Ctx) (idx max_idx tree_height : Nat) (stack : Bytes) (s : Thx1Inner) :
    L (Thx1Inner ⊕ (Option Bytes × Thx1Inner)) := do
  let n := E.P.n
  cif s.h = tree_height then do
    let root ← rd s.current n n
    .ok (.inr (some root, s))
  else do
    let auth_path ← (
      cif s.internal_idx ^^^ s.internal_leaf = 1 then do
        wr s.auth_path (s.h * n) (← rd s.current n n)
      else .ok s.auth_path : L Bytes)
    cif s.internal_idx &&& 1 = 0 andalso idx < max_idx then do
      .ok (.inr (none, { s with auth_path }))
    else do
      let internal_idx_offset := s.internal_idx_offset >>> 1
      let tree_addr ← set_tree_height E.P.fam s.tree_addr (s.h + 1)
      let tree_addr ← set_tree_index E.P.fam tree_addr
        ((s.internal_idx / 2 + internal_idx_offset) % 2 ^ 32)
      let current ← wr s.current 0 (← rd stack (s.h * n) n)
      let current ← wr current n (← E.H.thash current 2 ctx tree_addr)
      .ok (.inl { current, auth_path, tree_addr, h := s.h + 1,
                  internal_idx := s.internal_idx >>> 1,
                  internal_leaf := s.internal_leaf >>> 1, internal_idx_offset })

/-- One iteration of the outer loop of `treehashx1`, ref/utilsx1.c:39-99. -/
def treehashx1_body {ι : Type} (ctx : Ctx) (leaf_idx idx_offset tree_height max_idx : Nat)
    (gen_leaf : Nat → ι → L (Bytes × ι)) (s : Thx1 ι) :
    L (Thx1 ι ⊕ (Bytes × Bytes × Addr × ι)) := do
  let n := E.P.n
  let current := uninit (E.G 2) (2 * n)
  let (leaf, info) ← gen_leaf ((s.idx + idx_offset) % 2 ^ 32) s.info
  let current ← wr current n leaf
  let (res, i) ← loop 33 (treehashx1_inner E ctx s.idx max_idx tree_height s.stack)
    { current, auth_path := s.auth_path, tree_addr := s.tree_addr, h := 0,
      internal_idx := s.idx, internal_leaf := leaf_idx, internal_idx_offset := idx_offset }
  match res with
  | some root => .ok (.inr (root, i.auth_path, i.tree_addr, info))
  | none =>
    let stack ← wr s.stack (i.h * n) (← rd i.current n n)
    .ok (.inl { idx := (s.idx + 1) % 2 ^ 32, stack, auth_path := i.auth_path,
                tree_addr := i.tree_addr, info })

/-- `treehashx1`, ref/utilsx1.c:23-100.  Returns the root, the authentication path buffer, the
modified address and the final `info`.  The leaf callback returns the leaf and the new `info`. -/
def treehashx1 {ι : Type} (auth_path : Bytes) (ctx : Ctx) (leaf_idx idx_offset tree_height : Nat)
    (gen_leaf : Nat → ι → L (Bytes × ι)) (tree_addr : Addr) (info : ι) :
    L (Bytes × Bytes × Addr × ι) := do
  let stack := uninit (E.G 1) (tree_height * E.P.n)
  let max_idx := (← shl1 tree_height) - 1
  loop (2 ^ 32) (treehashx1_body E ctx leaf_idx idx_offset tree_height max_idx gen_leaf)
    { idx := 0, stack, auth_path, tree_addr, info }

/-- `base_w`, ref/wots.c:45-64.  `output` is an array of `unsigned int`; `total` is uninitialised
before the first iteration (which always sets it, because `bits == 0`). -/
def base_w (P : Params) (output : List Nat) (out_len : Nat) (input : Bytes) (total0 : Nat) :
    L (List Nat) := do
  -- state: output, in, out, total, bits
  let r ← forRange out_len (fun _ (s : List Nat × Nat × Nat × Nat × Nat) => do
    let (output, inp, out, total, bits) := s
    let (total, inp, bits) ← (
      cif bits = 0 then do
        let b ← rd1 input inp
        .ok (b.toNat, inp + 1, bits + 8)
      else .ok (total, inp, bits) : L (Nat × Nat × Nat))
    -- `bits` is a signed int; a negative shift amount would be undefined
    cif P.logw ≤ bits then do
      let bits := bits - P.logw
      let output ← wr1 output out ((total >>> bits) &&& (P.w - 1))
      .ok (output, inp, out + 1, total, bits)
    else .error .shift) (output, 0, 0, total0, 0)
  .ok r.1

/-- `wots_checksum`, ref/wots.c:67-84.  All arithmetic in `unsigned int`.  `csum_base_w` points
to `lengths + SPX_WOTS_LEN1`, `msg_base_w` to `lengths`. -/
def wots_checksum (csum_base_w msg_base_w : List Nat) : L (List Nat) := do
  let csum ← forRange E.P.len1 (fun i csum => do
    let m ← rd1 msg_base_w i
    .ok ((csum + (E.P.w - 1 + 2 ^ 32 - m)) % 2 ^ 32)) 0
  let csum := (csum <<< ((8 - ((E.P.len2 * E.P.logw) % 8)) % 8)) % 2 ^ 32
  let csum_bytes ← ull_to_bytes (uninit (E.G 3) (csumBytes E.P)) (csumBytes E.P) csum
  base_w E.P csum_base_w E.P.len2 csum_bytes (E.G 4 0).toNat

/-- `chain_lengths`, ref/wots.c:87-91. -/
def chain_lengths (lengths : List Nat) (msg : Bytes) : L (List Nat) := do
  let lengths ← base_w E.P lengths E.P.len1 msg (E.G 4 1).toNat
  let r ← withSub lengths E.P.len1 (fun c => do .ok (← wots_checksum E c lengths, ()))
  .ok r.1

/-- The loop down one WOTS chain, ref/wotsx1.c:54-68, one iteration.
State: `k`, the chain value (`buffer`), `wots_sig`, `leaf_addr`. -/
def wots_gen_leafx1_chain (ctx : Ctx) (i wots_k : Nat) (s : Nat × Bytes × Bytes × Addr) :
    L ((Nat × Bytes × Bytes × Addr) ⊕ (Bytes × Bytes × Addr)) := do
  let (k, buffer, wots_sig, leaf_addr) := s
  let wots_sig ← (cif k = wots_k then wr wots_sig (i * E.P.n) buffer else .ok wots_sig : L Bytes)
  cif k = E.P.w - 1 then .ok (.inr (buffer, wots_sig, leaf_addr))
  else do
    let leaf_addr ← set_hash_addr E.P.fam leaf_addr k
    let buffer ← E.H.thash buffer 1 ctx leaf_addr
    .ok (.inl (k + 1, buffer, wots_sig, leaf_addr))

/-- `wots_gen_leafx1`, ref/wotsx1.c:17-73. -/
def wots_gen_leafx1 (ctx : Ctx) (leaf_idx : Nat) (info : LeafInfoX1) : L (Bytes × LeafInfoX1) := do
  let wots_k_mask ← (cif leaf_idx = info.wots_sign_leaf then .ok 0 else .ok (2 ^ 32 - 1) : L Nat)
  let leaf_addr ← set_keypair_addr E.P.fam info.leaf_addr leaf_idx
  let pk_addr ← set_keypair_addr E.P.fam info.pk_addr leaf_idx
  let (pk_buffer, wots_sig, leaf_addr) ←
    forRange E.P.wotsLen (fun i (s : Bytes × Bytes × Addr) => do
      let (pk_buffer, wots_sig, leaf_addr) := s
      let wots_k := (← rd1 info.wots_steps i) ||| wots_k_mask
      let leaf_addr ← set_chain_addr E.P.fam leaf_addr i
      let leaf_addr ← set_hash_addr E.P.fam leaf_addr 0
      let leaf_addr ← set_type E.P.fam leaf_addr SPX_ADDR_TYPE_WOTSPRF
      let buffer ← E.H.prf_addr ctx leaf_addr
      let leaf_addr ← set_type E.P.fam leaf_addr SPX_ADDR_TYPE_WOTS
      let (buffer, wots_sig, leaf_addr) ←
        loop (2 ^ 32) (wots_gen_leafx1_chain E ctx i wots_k) (0, buffer, wots_sig, leaf_addr)
      let pk_buffer ← wr pk_buffer (i * E.P.n) buffer
      .ok (pk_buffer, wots_sig, leaf_addr))
      (uninit (E.G 6) E.P.wotsBytes, info.wots_sig, leaf_addr)
  let dest ← E.H.thash pk_buffer E.P.wotsLen ctx pk_addr
  .ok (dest, { info with wots_sig, leaf_addr, pk_addr })

/-- `fors_gen_sk`, ref/fors.c:12-16 -/
def fors_gen_sk (ctx : Ctx) (fors_leaf_addr : Addr) : L Bytes := E.H.prf_addr ctx fors_leaf_addr

/-- `fors_sk_to_leaf`, ref/fors.c:18-23 -/
def fors_sk_to_leaf (sk : Bytes) (ctx : Ctx) (fors_leaf_addr : Addr) : L Bytes :=
  E.H.thash sk 1 ctx fors_leaf_addr

/-- `fors_gen_leafx1`, ref/fors.c:29-44; the info object is the address `leaf_addrx`. -/
def fors_gen_leafx1 (ctx : Ctx) (addr_idx : Nat) (fors_leaf_addr : Addr) : L (Bytes × Addr) := do
  let a ← set_tree_index E.P.fam fors_leaf_addr addr_idx
  let a ← set_type E.P.fam a SPX_ADDR_TYPE_FORSPRF
  let leaf ← fors_gen_sk E ctx a
  let a ← set_type E.P.fam a SPX_ADDR_TYPE_FORSTREE
  let leaf ← fors_sk_to_leaf E leaf ctx a
  .ok (leaf, a)

/-- `message_to_indices`, ref/fors.c:51-63. -/
def message_to_indices (P : Params) (indices : List Nat) (m : Bytes) : L (List Nat) := do
  let r ← forRange P.forsTrees (fun i (s : List Nat × Nat) => do
    let indices ← wr1 s.1 i 0
    forRange P.forsHeight (fun j (s : List Nat × Nat) => do
      let (indices, offset) := s
      let b ← rd1 m (offset >>> 3)
      let cur ← rd1 indices i
      -- `x << j` with `x` an unsigned int
      cif j < 32 then do
        let v := cur ^^^ ((((b.toNat >>> (offset &&& 7)) &&& 1) <<< j) % 2 ^ 32)
        let indices ← wr1 indices i v
        .ok (indices, offset + 1)
      else .error .shift) (indices, s.2)) (indices, 0)
  .ok r.1

/-- One iteration of the loop in `fors_sign`, ref/fors.c:92-108.  State: sig, offset of the moving
pointer, roots, fors_tree_addr, fors_leaf_addr. -/
def fors_sign_body (ctx : Ctx) (indices : List Nat) (i : Nat)
    (s : Bytes × Nat × Bytes × Addr × Addr) : L (Bytes × Nat × Bytes × Addr × Addr) := do
  let n := E.P.n
  let (sig, off, roots, tree_addr, leaf_addr) := s
  let idx_offset := (i * (← shl1 E.P.forsHeight)) % 2 ^ 32
  let idx ← rd1 indices i
  let tree_addr ← set_tree_height E.P.fam tree_addr 0
  let tree_addr ← set_tree_index E.P.fam tree_addr ((idx + idx_offset) % 2 ^ 32)
  let tree_addr ← set_type E.P.fam tree_addr SPX_ADDR_TYPE_FORSPRF
  let sig ← wr sig off (← fors_gen_sk E ctx tree_addr)
  let tree_addr ← set_type E.P.fam tree_addr SPX_ADDR_TYPE_FORSTREE
  let off := off + n
  let (sig, root, tree_addr, leaf_addr) ← withSub sig off (fun auth => do
    let (root, auth, tree_addr, leaf_addr) ←
      treehashx1 E auth ctx idx idx_offset E.P.forsHeight (fors_gen_leafx1 E ctx)
        tree_addr leaf_addr
    .ok (auth, root, tree_addr, leaf_addr))
  let roots ← wr roots (i * n) root
  .ok (sig, off + n * E.P.forsHeight, roots, tree_addr, leaf_addr)

/-- `fors_sign`, ref/fors.c:69-113.  Returns the memory behind `sig` and the public key. -/
def fors_sign (sig m : Bytes) (ctx : Ctx) (fors_addr : Addr) : L (Bytes × Bytes) := do
  let fors_tree_addr ← copy_keypair_addr E.P.fam zeroAddr fors_addr
  let fors_leaf_addr ← copy_keypair_addr E.P.fam zeroAddr fors_addr
  let fors_pk_addr ← copy_keypair_addr E.P.fam zeroAddr fors_addr
  let fors_pk_addr ← set_type E.P.fam fors_pk_addr SPX_ADDR_TYPE_FORSPK
  let indices ← message_to_indices E.P (uninit (fun i => (E.G 9 i).toNat) E.P.forsTrees) m
  let (sig, _, roots, _, _) ←
    forRange E.P.forsTrees (fors_sign_body E ctx indices)
      (sig, 0, uninit (E.G 10) (E.P.forsTrees * E.P.n), fors_tree_addr, fors_leaf_addr)
  let pk ← E.H.thash roots E.P.forsTrees ctx fors_pk_addr
  .ok (sig, pk)

/-- `merkle_sign`, ref/merkle.c:18-43.  `sig` is the memory behind the pointer; its WOTS part
(`info.wots_sig = sig`) and the rest (`auth_path = sig + SPX_WOTS_BYTES`) are handed to the leaf
callback and to the tree hashing as separate buffers (writes crossing the border would be an
error here).  `root` is both input (message to sign) and output.
Returns `sig` and (root, wots_addr, tree_addr). -/
def merkle_sign (sig root : Bytes) (ctx : Ctx) (wots_addr tree_addr : Addr) (idx_leaf : Nat) :
    L (Bytes × Bytes × Addr) := do
  let steps ← chain_lengths E (uninit (fun i => (E.G 7 i).toNat) E.P.wotsLen) root
  let tree_addr ← set_type E.P.fam tree_addr SPX_ADDR_TYPE_HASHTREE
  let pk_addr ← set_type E.P.fam zeroAddr SPX_ADDR_TYPE_WOTSPK
  let leaf_addr ← copy_subtree_addr E.P.fam zeroAddr wots_addr
  let pk_addr ← copy_subtree_addr E.P.fam pk_addr wots_addr
  let wots_sig ← rd sig 0 E.P.wotsBytes
  let auth_path ← sub sig E.P.wotsBytes
  let (root, auth_path, tree_addr, info) ←
    treehashx1 E auth_path ctx idx_leaf 0 E.P.treeHeight (wots_gen_leafx1 E ctx) tree_addr
      { wots_sig, wots_sign_leaf := idx_leaf, wots_steps := steps, leaf_addr, pk_addr }
  .ok (info.wots_sig ++ auth_path, root, tree_addr)

/-- `merkle_gen_root`, ref/merkle.c:46-61.  `root0` is the previous content of the memory at
`root`, which `chain_lengths` reads although it is not initialised. -/
def merkle_gen_root (root0 : Bytes) (ctx : Ctx) : L Bytes := do
  let auth_path := uninit (E.G 8) (E.P.treeHeight * E.P.n + E.P.wotsBytes)
  let top_tree_addr ← set_layer_addr E.P.fam zeroAddr (E.P.d - 1)
  let wots_addr ← set_layer_addr E.P.fam zeroAddr (E.P.d - 1)
  let (_, root, _) ← merkle_sign E auth_path root0 ctx wots_addr top_tree_addr (2 ^ 32 - 1)
  .ok root

end Spx.Leak
