import Verif.Model.Tree
/-! # Model of ref/fors.c -/

namespace Spx
variable (E : Env)

/-- `fors_gen_sk`, ref/fors.c:12-16 -/
def fors_gen_sk (ctx : Ctx) (fors_leaf_addr : Addr) : C Bytes := E.H.prf_addr ctx fors_leaf_addr

/-- `fors_sk_to_leaf`, ref/fors.c:18-23 -/
def fors_sk_to_leaf (sk : Bytes) (ctx : Ctx) (fors_leaf_addr : Addr) : C Bytes :=
  E.H.thash sk 1 ctx fors_leaf_addr

/-- `fors_gen_leafx1`, ref/fors.c:29-44; the info object is the address `leaf_addrx`. -/
def fors_gen_leafx1 (ctx : Ctx) (addr_idx : Nat) (fors_leaf_addr : Addr) : C (Bytes × Addr) := do
  let a ← set_tree_index E.P.fam fors_leaf_addr addr_idx
  let a ← set_type E.P.fam a SPX_ADDR_TYPE_FORSPRF
  let leaf ← fors_gen_sk E ctx a
  let a ← set_type E.P.fam a SPX_ADDR_TYPE_FORSTREE
  let leaf ← fors_sk_to_leaf E leaf ctx a
  .ok (leaf, a)

/-- `message_to_indices`, ref/fors.c:51-63. -/
def message_to_indices (P : Params) (indices : List Nat) (m : Bytes) : C (List Nat) := do
  let r ← forRange P.forsTrees (fun i (s : List Nat × Nat) => do
    let indices ← wr1 s.1 i 0
    forRange P.forsHeight (fun j (s : List Nat × Nat) => do
      let (indices, offset) := s
      let b ← rd1 m (offset >>> 3)
      let cur ← rd1 indices i
      -- `x << j` with `x` an unsigned int
      if j < 32 then do
        let v := cur ^^^ ((((b.toNat >>> (offset &&& 7)) &&& 1) <<< j) % 2 ^ 32)
        let indices ← wr1 indices i v
        .ok (indices, offset + 1)
      else .error .shift) (indices, s.2)) (indices, 0)
  .ok r.1

/-- One iteration of the loop in `fors_sign`, ref/fors.c:92-108.  State: sig, offset of the moving
pointer, roots, fors_tree_addr, fors_leaf_addr. -/
def fors_sign_body (ctx : Ctx) (indices : List Nat) (i : Nat)
    (s : Bytes × Nat × Bytes × Addr × Addr) : C (Bytes × Nat × Bytes × Addr × Addr) := do
  let n := E.P.n
  let (sig, off, roots, tree_addr, leaf_addr) := s
  let idx_offset := (i * (← shl1 E.P.forsHeight)) % 2 ^ 32
  let idx ← rd1 indices i
  let tree_addr ← set_tree_height E.P.fam tree_addr 0
  let tree_addr ← set_tree_index E.P.fam tree_addr ((idx + idx_offset) % 2 ^ 32)
  let tree_addr ← set_type E.P.fam tree_addr SPX_ADDR_TYPE_FORSPRF
  let sig ← wr sig off (← fors_gen_sk E ctx tree_addr)
  let tree_addr ← set_type E.P.fam tree_addr SPX_ADDR_TYPE_FORSTREE
  let off := off + n
  let (sig, root, tree_addr, leaf_addr) ← withSub sig off (fun auth => do
    let (root, auth, tree_addr, leaf_addr) ←
      treehashx1 E auth ctx idx idx_offset E.P.forsHeight (fors_gen_leafx1 E ctx)
        tree_addr leaf_addr
    .ok (auth, root, tree_addr, leaf_addr))
  let roots ← wr roots (i * n) root
  .ok (sig, off + n * E.P.forsHeight, roots, tree_addr, leaf_addr)

/-- `fors_sign`, ref/fors.c:69-113.  Returns the memory behind `sig` and the public key. -/
def fors_sign (sig m : Bytes) (ctx : Ctx) (fors_addr : Addr) : C (Bytes × Bytes) := do
  let fors_tree_addr ← copy_keypair_addr E.P.fam zeroAddr fors_addr
  let fors_leaf_addr ← copy_keypair_addr E.P.fam zeroAddr fors_addr
  let fors_pk_addr ← copy_keypair_addr E.P.fam zeroAddr fors_addr
  let fors_pk_addr ← set_type E.P.fam fors_pk_addr SPX_ADDR_TYPE_FORSPK
  let indices ← message_to_indices E.P (uninit (fun i => (E.G 9 i).toNat) E.P.forsTrees) m
  let (sig, _, roots, _, _) ←
    forRange E.P.forsTrees (fors_sign_body E ctx indices)
      (sig, 0, uninit (E.G 10) (E.P.forsTrees * E.P.n), fors_tree_addr, fors_leaf_addr)
  let pk ← E.H.thash roots E.P.forsTrees ctx fors_pk_addr
  .ok (sig, pk)

/-- One iteration of the loop in `fors_pk_from_sig`, ref/fors.c:144-156.  State: offset of the
moving pointer, roots, fors_tree_addr. -/
def fors_pk_body (sig : Bytes) (ctx : Ctx) (indices : List Nat) (i : Nat) (s : Nat × Bytes × Addr) :
    C (Nat × Bytes × Addr) := do
  let n := E.P.n
  let (off, roots, tree_addr) := s
  let idx_offset := (i * (← shl1 E.P.forsHeight)) % 2 ^ 32
  let idx ← rd1 indices i
  let tree_addr ← set_tree_height E.P.fam tree_addr 0
  let tree_addr ← set_tree_index E.P.fam tree_addr ((idx + idx_offset) % 2 ^ 32)
  let leaf ← fors_sk_to_leaf E (← sub sig off) ctx tree_addr
  let off := off + n
  let (root, tree_addr) ←
    compute_root E leaf idx idx_offset (← sub sig off) E.P.forsHeight ctx tree_addr
  let roots ← wr roots (i * n) root
  .ok (off + n * E.P.forsHeight, roots, tree_addr)

/-- `fors_pk_from_sig`, ref/fors.c:122-161. -/
def fors_pk_from_sig (sig m : Bytes) (ctx : Ctx) (fors_addr : Addr) : C Bytes := do
  let fors_tree_addr ← copy_keypair_addr E.P.fam zeroAddr fors_addr
  let fors_pk_addr ← copy_keypair_addr E.P.fam zeroAddr fors_addr
  let fors_tree_addr ← set_type E.P.fam fors_tree_addr SPX_ADDR_TYPE_FORSTREE
  let fors_pk_addr ← set_type E.P.fam fors_pk_addr SPX_ADDR_TYPE_FORSPK
  let indices ← message_to_indices E.P (uninit (fun i => (E.G 11 i).toNat) E.P.forsTrees) m
  let (_, roots, _) ←
    forRange E.P.forsTrees (fors_pk_body E sig ctx indices)
      (0, uninit (E.G 12) (E.P.forsTrees * E.P.n), fors_tree_addr)
  E.H.thash roots E.P.forsTrees ctx fors_pk_addr

end Spx
