import Verif.Model.LeakSign
import Verif.Model.Parallel
/-! # The tree code of the optimised implementations with traces

The definitions of Model/Parallel.lean which key generation and signing use, over the monad of
Model/LeakBase.lean. -/

namespace Spx.Leak

/-- The functions working on several lanes, `Spx.LaneHash` -/
structure LaneHash where
  prf_addrx : Ctx → List Addr → L (List Bytes)
  /-- `thashxL(out0, …, in0, …, inblocks, ctx, addrxL)` -/
  thashx : List Bytes → Nat → Ctx → List Addr → L (List Bytes)

/-- The functions without the traces -/
def LaneHash.erase (X : LaneHash) : Spx.LaneHash where
  prf_addrx ctx addrs := (X.prf_addrx ctx addrs).res
  thashx ins inblocks ctx addrs := (X.thashx ins inblocks ctx addrs).res

/-- Environment of a parallel implementation with `2 ^ lg` lanes, `Spx.EnvX` -/
structure EnvX extends Env where
  lg : Nat
  X : LaneHash

/-- The environment without the traces -/
abbrev EnvX.erase (E : EnvX) : Spx.EnvX := { E.toEnv.erase with lg := E.lg, X := E.X.erase }

/-- Number of lanes. -/
abbrev EnvX.L (E : EnvX) : Nat := E.erase.L

/-- `for (j = 0; j < k; j++) out[j] = f(j)` -/
def tabulate {α : Type} (k : Nat) (f : Nat → L α) : L (List α) :=
  forRange k (fun j acc => do .ok (acc ++ [← f j])) []

/-- `for (j = 0; j < k; j++) f(j, addrs + 8*j)` -/
def lanes (k : Nat) (f : Nat → Addr → L Addr) (addrs : List Addr) : L (List Addr) :=
  forRange k (fun j addrs => do wr1 addrs j (← f j (← rd1 addrs j))) addrs

/-- The `k` pointers `b + base + j*stride`, for reading. -/
def subLanes (k : Nat) (b : Bytes) (base stride : Nat) : L (List Bytes) :=
  tabulate k fun j => sub b (base + j * stride)

/-- The outputs of a `k`-way function written to `b + base + j*stride`, in lane order. -/
def wrLanes (k : Nat) (b : Bytes) (base stride : Nat) (outs : List Bytes) : L Bytes :=
  forRange k (fun j b => do wr b (base + j * stride) (← rd1 outs j)) b

variable (E : EnvX)

/-- The input pointers of the combining hash: shake-avx2/utilsx4.c:122-130,
sha2-avx2/utilsx8.c:122-138, shake-a64/utilsx2.c:118-122. -/
def treehashx_ins (stack current : Bytes) (h : Nat) : L (List Bytes) := do
  let left ← subLanes (E.L / 2) stack (h * E.L * E.P.n) (2 * E.P.n)
  let cur ← subLanes (E.L / 2) current 0 (2 * E.P.n)
  .ok (left ++ cur)

/-- The part of the inner loop behind the top-of-tree adjustment: shake-avx2/utilsx4.c:85-131,
sha2-avx2/utilsx8.c:85-139, shake-a64/utilsx2.c:81-123. -/
def treehashx_combine (ctx : Ctx) (idx max_idx tree_height : Nat) (stack : Bytes) (s : ThxInner) :
    L (ThxInner ⊕ (Option Bytes × ThxInner)) := do
  let n := E.P.n
  cif s.h = tree_height then do
    let root ← rd s.current ((E.L - 1) * n) n
    .ok (.inr (some root, s))
  else do
    let auth_path ← (
      cif (((s.internal_idx <<< E.lg) % 2 ^ 32) ^^^ s.internal_leaf) &&& (2 ^ 32 - E.L) = 0 then do
        wr s.auth_path (s.h * n)
          (← rd s.current ((((s.internal_leaf &&& (E.L - 1)) ^^^ 1) + s.prev_left_adj) * n) n)
      else .ok s.auth_path : L Bytes)
    cif s.internal_idx &&& 1 = 0 andalso idx < max_idx then do
      .ok (.inr (none, { s with auth_path }))
    else do
      let internal_idx_offset := s.internal_idx_offset >>> 1
      let tree_addr ← lanes E.L (fun j a => do
        let a ← set_tree_height E.P.fam a (s.h + 1)
        set_tree_index E.P.fam a
          (((E.L / 2) * (s.internal_idx &&& (2 ^ 32 - 2)) + j + 2 ^ 32 - s.left_adj
            + internal_idx_offset) % 2 ^ 32)) s.tree_addr
      let ins ← treehashx_ins E stack s.current s.h
      let current ← wrLanes E.L s.current 0 n (← E.X.thashx ins 2 ctx tree_addr)
      .ok (.inl { current, auth_path, tree_addr, h := s.h + 1,
                  internal_idx := s.internal_idx >>> 1,
                  internal_leaf := s.internal_leaf >>> 1, internal_idx_offset,
                  left_adj := s.left_adj, prev_left_adj := s.prev_left_adj })

/-- One iteration of the inner loop of `treehashx4`, shake-avx2/utilsx4.c:68-132
(sha2-avx2/utilsx8.c:68-140, shake-a64/utilsx2.c:64-124). -/
def treehashx_inner (ctx : Ctx) (idx max_idx tree_height : Nat) (stack : Bytes) (s : ThxInner) :
    L (ThxInner ⊕ (Option Bytes × ThxInner)) := do
  cif (tree_height + 2 ^ 32 - E.lg) % 2 ^ 32 ≤ s.h then do
    cif s.h = tree_height then do
      let root ← rd s.current ((E.L - 1) * E.P.n) E.P.n
      .ok (.inr (some root, s))
    else do
      let left_adj := (E.L + 2 ^ 32 - (← shl1 ((tree_height + 2 ^ 32 - s.h - 1) % 2 ^ 32))) % 2 ^ 32
      treehashx_combine E ctx idx max_idx tree_height stack
        { s with prev_left_adj := s.left_adj, left_adj }
  else treehashx_combine E ctx idx max_idx tree_height stack s

/-- The end of an iteration of the outer loop of `treehashx4`: either the function returned inside
the inner loop (shake-avx2/utilsx4.c:72-90), or the current nodes go to the stack
(shake-avx2/utilsx4.c:134-136; sha2-avx2/utilsx8.c:142-144, shake-a64/utilsx2.c:126-128). -/
def treehashx_next {ι : Type} (s : Thx ι) (info : ι) (i : ThxInner) :
    Option Bytes → L (Thx ι ⊕ (Bytes × Bytes × List Addr × ι))
  | some root => .ok (.inr (root, i.auth_path, i.tree_addr, info))
  | none => do
    let stack ← wr s.stack (i.h * E.L * E.P.n) (← rd i.current 0 (E.L * E.P.n))
    .ok (.inl { idx := (s.idx + 1) % 2 ^ 32, stack, auth_path := i.auth_path,
                tree_addr := i.tree_addr, info, left_adj := i.left_adj,
                prev_left_adj := i.prev_left_adj })

/-- One iteration of the outer loop of `treehashx4`, shake-avx2/utilsx4.c:57-137
(sha2-avx2/utilsx8.c:57-145, shake-a64/utilsx2.c:53-129).  `current` is indeterminate at the
start; the leaf callback writes the `L` leaves to it. -/
def treehashx_body {ι : Type} (ctx : Ctx) (leaf_idx idx_offset tree_height max_idx : Nat)
    (gen_leaf : Bytes → Nat → ι → L (Bytes × ι)) (s : Thx ι) :
    L (Thx ι ⊕ (Bytes × Bytes × List Addr × ι)) := do
  let c ← gen_leaf (uninit (E.G 30) (E.L * E.P.n)) ((E.L * s.idx + idx_offset) % 2 ^ 32) s.info
  let r ← loop 33 (treehashx_inner E ctx s.idx max_idx tree_height s.stack)
    { current := c.1, auth_path := s.auth_path, tree_addr := s.tree_addr, h := 0,
      internal_idx := s.idx, internal_leaf := leaf_idx, internal_idx_offset := idx_offset,
      left_adj := s.left_adj, prev_left_adj := s.prev_left_adj }
  treehashx_next E s c.2 r.2 r.1

/-- `treehashx4`, shake-avx2/utilsx4.c:38-138; `treehashx8`, sha2-avx2/utilsx8.c:38-146;
`treehashx2`, shake-a64/utilsx2.c:34-130.  Returns the root, the authentication path buffer, the
addresses and the final `info`. -/
def treehashx {ι : Type} (auth_path : Bytes) (ctx : Ctx) (leaf_idx idx_offset tree_height : Nat)
    (gen_leaf : Bytes → Nat → ι → L (Bytes × ι)) (tree_addr : List Addr) (info : ι) :
    L (Bytes × Bytes × List Addr × ι) := do
  let stack := uninit (E.G 31) (tree_height * E.L * E.P.n)
  let max_idx := (← shl1 ((tree_height + 2 ^ 32 - E.lg) % 2 ^ 32)) - 1
  loop (2 ^ 32) (treehashx_body E ctx leaf_idx idx_offset tree_height max_idx gen_leaf)
    { idx := 0, stack, auth_path, tree_addr, info, left_adj := 0, prev_left_adj := 0 }

/-- The loop down `L` WOTS chains, shake-avx2/wots.c:236-260 (sha2-avx2/wots.c:242-273,
shake-a64/wots.c:232-252), one iteration.  State: k, pk_buffer, wots_sig, leaf_addr;
`buffer = pk_buffer + i*SPX_N`. -/
def wots_gen_leafx_chain (ctx : Ctx) (i wots_k wots_sign_index : Nat)
    (s : Nat × Bytes × Bytes × List Addr) :
    L ((Nat × Bytes × Bytes × List Addr) ⊕ (Bytes × Bytes × List Addr)) := do
  let n := E.P.n
  let (k, pk_buffer, wots_sig, leaf_addr) := s
  let wots_sig ← (cif k = wots_k then do
      wr wots_sig (i * n) (← rd pk_buffer (i * n + wots_sign_index * E.P.wotsBytes) n)
    else .ok wots_sig : L Bytes)
  cif k = E.P.w - 1 then .ok (.inr (pk_buffer, wots_sig, leaf_addr))
  else do
    let leaf_addr ← lanes E.L (fun _ a => set_hash_addr E.P.fam a k) leaf_addr
    let ins ← subLanes E.L pk_buffer (i * n) E.P.wotsBytes
    let pk_buffer ← wrLanes E.L pk_buffer (i * n) E.P.wotsBytes (← E.X.thashx ins 1 ctx leaf_addr)
    .ok (.inl (k + 1, pk_buffer, wots_sig, leaf_addr))

/-- `wots_gen_leafx4`, shake-avx2/wots.c:185-271; `wots_gen_leafx8`, sha2-avx2/wots.c:187-293;
`wots_gen_leafx2`, shake-a64/wots.c:184-261.  `dest` is the memory behind the output pointer. -/
def wots_gen_leafx (ctx : Ctx) (dest : Bytes) (leaf_idx : Nat) (info : LeafInfoX) :
    L (Bytes × LeafInfoX) := do
  let n := E.P.n
  let (wots_k_mask, wots_sign_index) ← (
    cif (leaf_idx ^^^ info.wots_sign_leaf) &&& (2 ^ 32 - E.L) = 0 then
      .ok (0, info.wots_sign_leaf &&& (E.L - 1))
    else .ok (2 ^ 32 - 1, 0) : L (Nat × Nat))
  let leaf_addr ← lanes E.L (fun j a => set_keypair_addr E.P.fam a ((leaf_idx + j) % 2 ^ 32)) info.leaf_addr
  let pk_addr ← lanes E.L (fun j a => set_keypair_addr E.P.fam a ((leaf_idx + j) % 2 ^ 32)) info.pk_addr
  let (pk_buffer, wots_sig, leaf_addr) ←
    forRange E.P.wotsLen (fun i (s : Bytes × Bytes × List Addr) => do
      let (pk_buffer, wots_sig, leaf_addr) := s
      let wots_k := (← rd1 info.wots_steps i) ||| wots_k_mask
      let leaf_addr ← lanes E.L (fun _ a => do
        let a ← set_chain_addr E.P.fam a i
        let a ← set_hash_addr E.P.fam a 0
        set_type E.P.fam a SPX_ADDR_TYPE_WOTSPRF) leaf_addr
      let pk_buffer ← wrLanes E.L pk_buffer (i * n) E.P.wotsBytes (← E.X.prf_addrx ctx leaf_addr)
      let leaf_addr ← lanes E.L (fun _ a => set_type E.P.fam a SPX_ADDR_TYPE_WOTS) leaf_addr
      loop (2 ^ 32) (wots_gen_leafx_chain E ctx i wots_k wots_sign_index)
        (0, pk_buffer, wots_sig, leaf_addr))
      (uninit (E.G 35) (E.L * E.P.wotsBytes), info.wots_sig, leaf_addr)
  let ins ← subLanes E.L pk_buffer 0 E.P.wotsBytes
  let dest ← wrLanes E.L dest 0 n (← E.X.thashx ins E.P.wotsLen ctx pk_addr)
  .ok (dest, { info with wots_sig, leaf_addr, pk_addr })

/-- `merkle_sign`, shake-avx2/merkle.c:16-48; sha2-avx2/merkle.c:17-49; shake-a64/merkle.c:16-48.
The arguments `wots_addr` and `tree_addr` are only read.  As in the model of ref/merkle.c the two
parts of `sig` are separate buffers. -/
def merkle_signx (sig root : Bytes) (ctx : Ctx) (wots_addr tree_addr : Addr) (idx_leaf : Nat) :
    L (Bytes × Bytes × Addr) := do
  let zero := List.replicate E.L zeroAddr
  let steps ← chain_lengths E.toEnv (uninit (fun i => (E.G 36 i).toNat) E.P.wotsLen) root
  let tree_addrx ← lanes E.L (fun _ a => do
    let a ← set_type E.P.fam a SPX_ADDR_TYPE_HASHTREE
    copy_subtree_addr E.P.fam a tree_addr) zero
  let leaf_addr ← lanes E.L (fun _ a => do
    let a ← set_type E.P.fam a SPX_ADDR_TYPE_WOTS
    copy_subtree_addr E.P.fam a wots_addr) zero
  let pk_addr ← lanes E.L (fun _ a => do
    let a ← set_type E.P.fam a SPX_ADDR_TYPE_WOTSPK
    copy_subtree_addr E.P.fam a wots_addr) zero
  let wots_sig ← rd sig 0 E.P.wotsBytes
  let auth_path ← sub sig E.P.wotsBytes
  let (root, auth_path, _, info) ←
    treehashx E auth_path ctx idx_leaf 0 E.P.treeHeight (wots_gen_leafx E ctx) tree_addrx
      { wots_sig, wots_sign_leaf := idx_leaf, wots_steps := steps, leaf_addr, pk_addr }
  .ok (info.wots_sig ++ auth_path, root, tree_addr)

/-- `merkle_gen_root`, shake-avx2/merkle.c:51-67; sha2-avx2/merkle.c:52-68;
shake-a64/merkle.c:51-67. -/
def merkle_gen_rootx (root0 : Bytes) (ctx : Ctx) : L Bytes := do
  let auth_path := uninit (E.G 37) (E.P.treeHeight * E.P.n + E.P.wotsBytes)
  let top_tree_addr ← set_layer_addr E.P.fam zeroAddr (E.P.d - 1)
  let wots_addr ← set_layer_addr E.P.fam zeroAddr (E.P.d - 1)
  let (_, root, _) ← merkle_signx E auth_path root0 ctx wots_addr top_tree_addr (2 ^ 32 - 1)
  .ok root

/-- `fors_gen_leafx4`, shake-avx2/fors.c:57-90; `fors_gen_leafx8`, sha2-avx2/fors.c:69-114;
`fors_gen_leafx2`, shake-a64/fors.c:52-79.  (`fors_gen_skx4` and `fors_sk_to_leafx4` are inlined:
they pass their arguments on.) -/
def fors_gen_leafx (ctx : Ctx) (leaf : Bytes) (addr_idx : Nat) (leaf_addr : List Addr) :
    L (Bytes × List Addr) := do
  let n := E.P.n
  let a ← lanes E.L (fun j a => do
    let a ← set_tree_index E.P.fam a ((addr_idx + j) % 2 ^ 32)
    set_type E.P.fam a SPX_ADDR_TYPE_FORSPRF) leaf_addr
  let leaf ← wrLanes E.L leaf 0 n (← E.X.prf_addrx ctx a)
  let a ← lanes E.L (fun _ a => set_type E.P.fam a SPX_ADDR_TYPE_FORSTREE) a
  let ins ← subLanes E.L leaf 0 n
  let leaf ← wrLanes E.L leaf 0 n (← E.X.thashx ins 1 ctx a)
  .ok (leaf, a)

/-- One iteration of the loop in `fors_sign`, shake-avx2/fors.c:138-157 (sha2-avx2/fors.c:162-181,
shake-a64/fors.c:127-146).  Lane 0 of `fors_tree_addr` is also the address of the secret value. -/
def fors_signx_body (ctx : Ctx) (indices : List Nat) (i : Nat)
    (s : Bytes × Nat × Bytes × List Addr × List Addr) :
    L (Bytes × Nat × Bytes × List Addr × List Addr) := do
  let n := E.P.n
  let (sig, off, roots, tree_addr, leaf_addr) := s
  let idx_offset := (i * (← shl1 E.P.forsHeight)) % 2 ^ 32
  let idx ← rd1 indices i
  let a ← set_tree_height E.P.fam (← rd1 tree_addr 0) 0
  let a ← set_tree_index E.P.fam a ((idx + idx_offset) % 2 ^ 32)
  let a ← set_type E.P.fam a SPX_ADDR_TYPE_FORSPRF
  let sig ← wr sig off (← fors_gen_sk E.toEnv ctx a)
  let a ← set_type E.P.fam a SPX_ADDR_TYPE_FORSTREE
  let tree_addr ← wr1 tree_addr 0 a
  let off := off + n
  let (sig, root, tree_addr, leaf_addr) ← withSub sig off (fun auth => do
    let (root, auth, tree_addr, leaf_addr) ←
      treehashx E auth ctx idx idx_offset E.P.forsHeight (fors_gen_leafx E ctx)
        tree_addr leaf_addr
    .ok (auth, root, tree_addr, leaf_addr))
  let roots ← wr roots (i * n) root
  .ok (sig, off + n * E.P.forsHeight, roots, tree_addr, leaf_addr)

/-- `fors_sign`, shake-avx2/fors.c:115-161; sha2-avx2/fors.c:139-185; shake-a64/fors.c:104-150. -/
def fors_signx (sig m : Bytes) (ctx : Ctx) (fors_addr : Addr) : L (Bytes × Bytes) := do
  let zero := List.replicate E.L zeroAddr
  let fors_tree_addr ← lanes E.L (fun _ a => do
    let a ← copy_keypair_addr E.P.fam a fors_addr
    set_type E.P.fam a SPX_ADDR_TYPE_FORSTREE) zero
  let fors_leaf_addr ← lanes E.L (fun _ a => copy_keypair_addr E.P.fam a fors_addr) zero
  let fors_pk_addr ← copy_keypair_addr E.P.fam zeroAddr fors_addr
  let fors_pk_addr ← set_type E.P.fam fors_pk_addr SPX_ADDR_TYPE_FORSPK
  let indices ← message_to_indices E.P (uninit (fun i => (E.G 38 i).toNat) E.P.forsTrees) m
  let (sig, _, roots, _, _) ←
    forRange E.P.forsTrees (fors_signx_body E ctx indices)
      (sig, 0, uninit (E.G 39) (E.P.forsTrees * E.P.n), fors_tree_addr, fors_leaf_addr)
  let pk ← E.H.thash roots E.P.forsTrees ctx fors_pk_addr
  .ok (sig, pk)

/-- The functions of an optimised implementation called by sign.c. -/
def parCode : TreeCode where
  merkle_sign := merkle_signx E
  merkle_gen_root := merkle_gen_rootx E
  fors_sign := fors_signx E

end Spx.Leak
