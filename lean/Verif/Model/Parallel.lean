import Verif.Model.ParamSets
import Verif.Model.Sign
/-! # Model of the parallel tree, WOTS+ and FORS code

The optimised implementations replace ref/utilsx1.c, ref/wots.c, ref/wotsx1.c, ref/merkle.c and
ref/fors.c by versions working on `L` lanes: `L = 4` in shake-avx2 (whose files are symlinked by
haraka-aesni), `L = 8` in sha2-avx2, `L = 2` in shake-a64.  The three copies differ in the lane
count only, so there is one model with `L = 2 ^ lg`.  Line numbers refer to shake-avx2; the other
copies are listed beside them.

Simplifications:
* `uint32_t addrx[L*8]` is a list of `L` addresses of 32 bytes.
* A loop over the lanes which sets fields of two or three distinct address arrays is written as
  one loop per array.
* An `L`-way hash call takes the list of the memory behind its `L` input pointers and returns the
  list of its `L` outputs, which the caller writes in lane order.  (All inputs are read before
  the first output is written in every `L`-way function.)
* Type-based aliasing and alignment of the buffers are not modelled. -/

namespace Spx

/-- The functions declared in `hashx2.h`/`hashx4.h`/`hashx8.h` and `thashx2.h`/`thashx4.h`/
`thashx8.h`. -/
structure LaneHash where
  prf_addrx : Ctx → List Addr → C (List Bytes)
  /-- `thashxL(out0, …, in0, …, inblocks, ctx, addrxL)` -/
  thashx : List Bytes → Nat → Ctx → List Addr → C (List Bytes)

/-- Environment of a parallel implementation with `2 ^ lg` lanes. -/
structure EnvX extends Env where
  lg : Nat
  X : LaneHash

/-- Number of lanes. -/
def EnvX.L (E : EnvX) : Nat := 2 ^ E.lg

/-- `for (j = 0; j < k; j++) out[j] = f(j)` -/
def tabulate {α : Type} (k : Nat) (f : Nat → C α) : C (List α) :=
  forRange k (fun j acc => do .ok (acc ++ [← f j])) []

/-- `for (j = 0; j < k; j++) f(j, addrs + 8*j)` -/
def lanes (k : Nat) (f : Nat → Addr → C Addr) (addrs : List Addr) : C (List Addr) :=
  forRange k (fun j addrs => do wr1 addrs j (← f j (← rd1 addrs j))) addrs

/-- The `k` pointers `b + base + j*stride`, for reading. -/
def subLanes (k : Nat) (b : Bytes) (base stride : Nat) : C (List Bytes) :=
  tabulate k fun j => sub b (base + j * stride)

/-- The outputs of a `k`-way function written to `b + base + j*stride`, in lane order. -/
def wrLanes (k : Nat) (b : Bytes) (base stride : Nat) (outs : List Bytes) : C Bytes :=
  forRange k (fun j b => do wr b (base + j * stride) (← rd1 outs j)) b

variable (E : EnvX)

/-- State of the inner loop of `treehashx4`, shake-avx2/utilsx4.c:68-132. -/
structure ThxInner where
  current : Bytes
  auth_path : Bytes
  tree_addr : List Addr
  h : Nat
  internal_idx : Nat
  internal_leaf : Nat
  internal_idx_offset : Nat
  left_adj : Nat
  prev_left_adj : Nat

/-- The input pointers of the combining hash: shake-avx2/utilsx4.c:122-130,
sha2-avx2/utilsx8.c:122-138, shake-a64/utilsx2.c:118-122. -/
def treehashx_ins (stack current : Bytes) (h : Nat) : C (List Bytes) := do
  let left ← subLanes (E.L / 2) stack (h * E.L * E.P.n) (2 * E.P.n)
  let cur ← subLanes (E.L / 2) current 0 (2 * E.P.n)
  .ok (left ++ cur)

/-- The part of the inner loop behind the top-of-tree adjustment: shake-avx2/utilsx4.c:85-131,
sha2-avx2/utilsx8.c:85-139, shake-a64/utilsx2.c:81-123. -/
def treehashx_combine (ctx : Ctx) (idx max_idx tree_height : Nat) (stack : Bytes) (s : ThxInner) :
    C (ThxInner ⊕ (Option Bytes × ThxInner)) := do
  let n := E.P.n
  let L := E.L
  if s.h = tree_height then
    let root ← rd s.current ((L - 1) * n) n
    .ok (.inr (some root, s))
  else
    let auth_path ← (
      if (((s.internal_idx <<< E.lg) % 2 ^ 32) ^^^ s.internal_leaf) &&& (2 ^ 32 - L) = 0 then do
        wr s.auth_path (s.h * n)
          (← rd s.current ((((s.internal_leaf &&& (L - 1)) ^^^ 1) + s.prev_left_adj) * n) n)
      else .ok s.auth_path : C Bytes)
    if s.internal_idx &&& 1 = 0 ∧ idx < max_idx then
      .ok (.inr (none, { s with auth_path }))
    else
      let internal_idx_offset := s.internal_idx_offset >>> 1
      let tree_addr ← lanes L (fun j a => do
        let a ← set_tree_height E.P.fam a (s.h + 1)
        set_tree_index E.P.fam a
          (((L / 2) * (s.internal_idx &&& (2 ^ 32 - 2)) + j + 2 ^ 32 - s.left_adj
            + internal_idx_offset) % 2 ^ 32)) s.tree_addr
      let ins ← treehashx_ins E stack s.current s.h
      let current ← wrLanes L s.current 0 n (← E.X.thashx ins 2 ctx tree_addr)
      .ok (.inl { current, auth_path, tree_addr, h := s.h + 1,
                  internal_idx := s.internal_idx >>> 1,
                  internal_leaf := s.internal_leaf >>> 1, internal_idx_offset,
                  left_adj := s.left_adj, prev_left_adj := s.prev_left_adj })

/-- One iteration of the inner loop of `treehashx4`, shake-avx2/utilsx4.c:68-132
(sha2-avx2/utilsx8.c:68-140, shake-a64/utilsx2.c:64-124). -/
def treehashx_inner (ctx : Ctx) (idx max_idx tree_height : Nat) (stack : Bytes) (s : ThxInner) :
    C (ThxInner ⊕ (Option Bytes × ThxInner)) := do
  if (tree_height + 2 ^ 32 - E.lg) % 2 ^ 32 ≤ s.h then
    if s.h = tree_height then
      let root ← rd s.current ((E.L - 1) * E.P.n) E.P.n
      .ok (.inr (some root, s))
    else
      let left_adj := (E.L + 2 ^ 32 - (← shl1 ((tree_height + 2 ^ 32 - s.h - 1) % 2 ^ 32))) % 2 ^ 32
      treehashx_combine E ctx idx max_idx tree_height stack
        { s with prev_left_adj := s.left_adj, left_adj }
  else treehashx_combine E ctx idx max_idx tree_height stack s

/-- State of the outer loop of `treehashx4`, shake-avx2/utilsx4.c:57-137. -/
structure Thx (ι : Type) where
  idx : Nat
  stack : Bytes
  auth_path : Bytes
  tree_addr : List Addr
  info : ι
  left_adj : Nat
  prev_left_adj : Nat

/-- The end of an iteration of the outer loop of `treehashx4`: either the function returned inside
the inner loop (shake-avx2/utilsx4.c:72-90), or the current nodes go to the stack
(shake-avx2/utilsx4.c:134-136; sha2-avx2/utilsx8.c:142-144, shake-a64/utilsx2.c:126-128). -/
def treehashx_next {ι : Type} (s : Thx ι) (info : ι) (i : ThxInner) :
    Option Bytes → C (Thx ι ⊕ (Bytes × Bytes × List Addr × ι))
  | some root => .ok (.inr (root, i.auth_path, i.tree_addr, info))
  | none => do
    let stack ← wr s.stack (i.h * E.L * E.P.n) (← rd i.current 0 (E.L * E.P.n))
    .ok (.inl { idx := (s.idx + 1) % 2 ^ 32, stack, auth_path := i.auth_path,
                tree_addr := i.tree_addr, info, left_adj := i.left_adj,
                prev_left_adj := i.prev_left_adj })

/-- One iteration of the outer loop of `treehashx4`, shake-avx2/utilsx4.c:57-137
(sha2-avx2/utilsx8.c:57-145, shake-a64/utilsx2.c:53-129).  `current` is indeterminate at the
start; the leaf callback writes the `L` leaves to it. -/
def treehashx_body {ι : Type} (ctx : Ctx) (leaf_idx idx_offset tree_height max_idx : Nat)
    (gen_leaf : Bytes → Nat → ι → C (Bytes × ι)) (s : Thx ι) :
    C (Thx ι ⊕ (Bytes × Bytes × List Addr × ι)) := do
  let c ← gen_leaf (uninit (E.G 30) (E.L * E.P.n)) ((E.L * s.idx + idx_offset) % 2 ^ 32) s.info
  let r ← loop 33 (treehashx_inner E ctx s.idx max_idx tree_height s.stack)
    { current := c.1, auth_path := s.auth_path, tree_addr := s.tree_addr, h := 0,
      internal_idx := s.idx, internal_leaf := leaf_idx, internal_idx_offset := idx_offset,
      left_adj := s.left_adj, prev_left_adj := s.prev_left_adj }
  treehashx_next E s c.2 r.2 r.1

/-- `treehashx4`, shake-avx2/utilsx4.c:38-138; `treehashx8`, sha2-avx2/utilsx8.c:38-146;
`treehashx2`, shake-a64/utilsx2.c:34-130.  Returns the root, the authentication path buffer, the
addresses and the final `info`. -/
def treehashx {ι : Type} (auth_path : Bytes) (ctx : Ctx) (leaf_idx idx_offset tree_height : Nat)
    (gen_leaf : Bytes → Nat → ι → C (Bytes × ι)) (tree_addr : List Addr) (info : ι) :
    C (Bytes × Bytes × List Addr × ι) := do
  let stack := uninit (E.G 31) (tree_height * E.L * E.P.n)
  let max_idx := (← shl1 ((tree_height + 2 ^ 32 - E.lg) % 2 ^ 32)) - 1
  loop (2 ^ 32) (treehashx_body E ctx leaf_idx idx_offset tree_height max_idx gen_leaf)
    { idx := 0, stack, auth_path, tree_addr, info, left_adj := 0, prev_left_adj := 0 }

/-! ## WOTS+ -/

/-- What an element of `unsigned char *bufs[L]` in `gen_chains` points to. -/
inductive Buf
  /-- not yet assigned -/
  | none
  /-- `&empty[0]` -/
  | empty
  /-- `out + SPX_N * idx` -/
  | out (idx : Nat)
  deriving DecidableEq

/-- The counting sort of `gen_chains`, shake-avx2/wots.c:48-61 (sha2-avx2/wots.c:48-61,
shake-a64/wots.c:47-60): `counts` and `idxs` are arrays of `uint16_t`.  Returns `idxs`. -/
def sort_chains (steps : List Nat) : C (List Nat) := do
  let len := E.P.wotsLen
  let counts ← forRange len (fun i (counts : List Nat) => do
    let st ← rd1 steps i
    wr1 counts st (((← rd1 counts st) + 1) % 2 ^ 16)) (List.replicate E.P.w 0)
  -- for (l = SPX_WOTS_W - 1; l >= 0; l--)
  let (counts, _) ← forRange E.P.w (fun t (s : List Nat × Nat) => do
    let (counts, total) := s
    let l := E.P.w - 1 - t
    let newTotal := ((← rd1 counts l) + total) % 2 ^ 16
    let counts ← wr1 counts l total
    .ok (counts, newTotal)) (counts, 0)
  let (idxs, _) ← forRange len (fun i (s : List Nat × List Nat) => do
    let (idxs, counts) := s
    let st ← rd1 steps i
    let c ← rd1 counts st
    let idxs ← wr1 idxs c (i % 2 ^ 16)
    let counts ← wr1 counts st ((c + 1) % 2 ^ 16)
    .ok (idxs, counts)) (uninit (fun i => (E.G 32 i).toNat) len, counts)
  .ok idxs

/-- The memory an element of `bufs` points to. -/
def readBuf (out empty : Bytes) : Buf → C Bytes
  | .none => .error .oob
  | .empty => .ok empty
  | .out idx => sub out (E.P.n * idx)

/-- One output of the hash call written through `bufs[j]`. -/
def writeBuf (out empty : Bytes) (b : Buf) (d : Bytes) : C (Bytes × Bytes) :=
  match b with
  | .none => .error .oob
  | .empty => do .ok (out, ← wr empty 0 d)
  | .out idx => do .ok (← wr out (E.P.n * idx) d, empty)

/-- State of the loop over `k` in `gen_chains`. -/
structure ChainsK where
  out : Bytes
  empty : Bytes
  addrs : List Addr
  bufs : List Buf
  watching : Nat
  k : Nat

/-- `while (k == steps[idxs[i+watching]]) …`, shake-avx2/wots.c:83-90 (sha2-avx2/wots.c:83-90,
shake-a64/wots.c:82-89), one iteration.  State: bufs, watching.  The result has the value of
`done`. -/
def chains_watch (steps idxs : List Nat) (i k : Nat) (s : List Buf × Nat) :
    C ((List Buf × Nat) ⊕ (Bool × List Buf × Nat)) := do
  let (bufs, watching) := s
  let st ← rd1 steps (← rd1 idxs (i + watching))
  if k = st then do
    let bufs ← wr1 bufs watching .empty
    if watching = 0 then .ok (.inr (true, bufs, watching))
    else .ok (.inl (bufs, watching - 1))
  else .ok (.inr (false, bufs, watching))

/-- One iteration of `for (k = 0;; k++)` in `gen_chains`, shake-avx2/wots.c:82-101
(sha2-avx2/wots.c:82-103, shake-a64/wots.c:81-100). -/
def chains_step (start steps idxs : List Nat) (ctx : Ctx) (i : Nat) (s : ChainsK) :
    C (ChainsK ⊕ (Bytes × Bytes × List Addr × List Buf)) := do
  let (done, bufs, watching) ← loop (E.L + 1) (chains_watch steps idxs i s.k) (s.bufs, s.watching)
  if done then .ok (.inr (s.out, s.empty, s.addrs, bufs))
  else
    let addrs ← lanes (watching + 1) (fun j a => do
      let st ← rd1 start (← rd1 idxs (i + j))
      set_hash_addr E.P.fam a ((s.k + st) % 2 ^ 32)) s.addrs
    let ins ← tabulate E.L (fun j => do readBuf E s.out s.empty (← rd1 bufs j))
    let outs ← E.X.thashx ins 1 ctx addrs
    let (out, empty) ← forRange E.L (fun j (s : Bytes × Bytes) => do
      writeBuf E s.1 s.2 (← rd1 bufs j) (← rd1 outs j)) (s.out, s.empty)
    .ok (.inl { out, empty, addrs, bufs, watching, k := s.k + 1 })

/-- `while (i + watching >= SPX_WOTS_LEN) …`, shake-avx2/wots.c:77-80 (sha2-avx2/wots.c:77-80,
shake-a64/wots.c:76-79), one iteration. -/
def chains_trim (i : Nat) (s : List Buf × Nat) : C ((List Buf × Nat) ⊕ (List Buf × Nat)) := do
  let (bufs, watching) := s
  if E.P.wotsLen ≤ i + watching then do
    let bufs ← wr1 bufs watching .empty
    if watching = 0 then .error .overflow else .ok (.inl (bufs, watching - 1))
  else .ok (.inr (bufs, watching))

/-- One iteration of the loop over groups of `L` chains, shake-avx2/wots.c:64-102
(sha2-avx2/wots.c:64-104, shake-a64/wots.c:63-101).  State: out, empty, addrs, bufs. -/
def chains_group (start steps idxs : List Nat) (ctx : Ctx) (i : Nat)
    (s : Bytes × Bytes × List Addr × List Buf) : C (Bytes × Bytes × List Addr × List Buf) := do
  let (out, empty, addrs, bufs) := s
  -- for (j = 0; j < L && i+j < SPX_WOTS_LEN; j++)
  let g := min E.L (E.P.wotsLen - i)
  let addrs ← lanes g (fun j a => do set_chain_addr E.P.fam a (← rd1 idxs (i + j))) addrs
  let bufs ← forRange g (fun j bufs => do wr1 bufs j (.out (← rd1 idxs (i + j)))) bufs
  let (bufs, watching) ← loop (E.L + 1) (chains_trim E i) (bufs, E.L - 1)
  loop (2 ^ 32) (chains_step E start steps idxs ctx i) { out, empty, addrs, bufs, watching, k := 0 }

/-- `gen_chains`, shake-avx2/wots.c:21-103; sha2-avx2/wots.c:22-105; shake-a64/wots.c:20-102.
Returns the memory behind `out`.  (`addr` is only read.) -/
def gen_chains (out inp : Bytes) (start steps : List Nat) (ctx : Ctx) (addr : Addr) : C Bytes := do
  let addrs := List.replicate E.L addr
  let out ← wr out 0 (← rd inp 0 (E.P.wotsLen * E.P.n))
  let idxs ← sort_chains E steps
  -- for (i = 0; i < SPX_WOTS_LEN; i += L)
  let (out, _) ← forRange ((E.P.wotsLen + (E.L - 1)) / E.L) (fun t s =>
      chains_group E start steps idxs ctx (t * E.L) s)
    (out, uninit (E.G 33) E.P.n, addrs, List.replicate E.L Buf.none)
  .ok out

/-- `wots_pk_from_sig`, shake-avx2/wots.c:163-178; sha2-avx2/wots.c:165-180;
shake-a64/wots.c:162-177.  (`base_w`, `wots_checksum` and `chain_lengths` are the same as in
ref/wots.c.) -/
def wots_pk_from_sigx (pk sig msg : Bytes) (ctx : Ctx) (addr : Addr) : C (Bytes × Addr) := do
  let start ← chain_lengths E.toEnv (uninit (fun i => (E.G 34 i).toNat) E.P.wotsLen) msg
  let steps ← tabulate E.P.wotsLen (fun i => do
    .ok ((E.P.w - 1 + 2 ^ 32 - (← rd1 start i)) % 2 ^ 32))
  let pk ← gen_chains E pk sig start steps ctx addr
  .ok (pk, addr)

/-- `struct leaf_info_x4`, shake-avx2/wotsx4.h:13-19 (sha2-avx2/wotsx8.h, shake-a64/wotsx2.h). -/
structure LeafInfoX where
  wots_sig : Bytes
  wots_sign_leaf : Nat
  wots_steps : List Nat
  leaf_addr : List Addr
  pk_addr : List Addr

/-- The loop down `L` WOTS chains, shake-avx2/wots.c:236-260 (sha2-avx2/wots.c:242-273,
shake-a64/wots.c:232-252), one iteration.  State: k, pk_buffer, wots_sig, leaf_addr;
`buffer = pk_buffer + i*SPX_N`. -/
def wots_gen_leafx_chain (ctx : Ctx) (i wots_k wots_sign_index : Nat)
    (s : Nat × Bytes × Bytes × List Addr) :
    C ((Nat × Bytes × Bytes × List Addr) ⊕ (Bytes × Bytes × List Addr)) := do
  let n := E.P.n
  let (k, pk_buffer, wots_sig, leaf_addr) := s
  let wots_sig ← (if k = wots_k then do
      wr wots_sig (i * n) (← rd pk_buffer (i * n + wots_sign_index * E.P.wotsBytes) n)
    else .ok wots_sig : C Bytes)
  if k = E.P.w - 1 then .ok (.inr (pk_buffer, wots_sig, leaf_addr))
  else
    let leaf_addr ← lanes E.L (fun _ a => set_hash_addr E.P.fam a k) leaf_addr
    let ins ← subLanes E.L pk_buffer (i * n) E.P.wotsBytes
    let pk_buffer ← wrLanes E.L pk_buffer (i * n) E.P.wotsBytes (← E.X.thashx ins 1 ctx leaf_addr)
    .ok (.inl (k + 1, pk_buffer, wots_sig, leaf_addr))

/-- `wots_gen_leafx4`, shake-avx2/wots.c:185-271; `wots_gen_leafx8`, sha2-avx2/wots.c:187-293;
`wots_gen_leafx2`, shake-a64/wots.c:184-261.  `dest` is the memory behind the output pointer. -/
def wots_gen_leafx (ctx : Ctx) (dest : Bytes) (leaf_idx : Nat) (info : LeafInfoX) :
    C (Bytes × LeafInfoX) := do
  let n := E.P.n
  let L := E.L
  let (wots_k_mask, wots_sign_index) :=
    if (leaf_idx ^^^ info.wots_sign_leaf) &&& (2 ^ 32 - L) = 0 then
      (0, info.wots_sign_leaf &&& (L - 1))
    else (2 ^ 32 - 1, 0)
  let leaf_addr ← lanes L (fun j a => set_keypair_addr E.P.fam a ((leaf_idx + j) % 2 ^ 32)) info.leaf_addr
  let pk_addr ← lanes L (fun j a => set_keypair_addr E.P.fam a ((leaf_idx + j) % 2 ^ 32)) info.pk_addr
  let (pk_buffer, wots_sig, leaf_addr) ←
    forRange E.P.wotsLen (fun i (s : Bytes × Bytes × List Addr) => do
      let (pk_buffer, wots_sig, leaf_addr) := s
      let wots_k := (← rd1 info.wots_steps i) ||| wots_k_mask
      let leaf_addr ← lanes L (fun _ a => do
        let a ← set_chain_addr E.P.fam a i
        let a ← set_hash_addr E.P.fam a 0
        set_type E.P.fam a SPX_ADDR_TYPE_WOTSPRF) leaf_addr
      let pk_buffer ← wrLanes L pk_buffer (i * n) E.P.wotsBytes (← E.X.prf_addrx ctx leaf_addr)
      let leaf_addr ← lanes L (fun _ a => set_type E.P.fam a SPX_ADDR_TYPE_WOTS) leaf_addr
      loop (2 ^ 32) (wots_gen_leafx_chain E ctx i wots_k wots_sign_index)
        (0, pk_buffer, wots_sig, leaf_addr))
      (uninit (E.G 35) (L * E.P.wotsBytes), info.wots_sig, leaf_addr)
  let ins ← subLanes L pk_buffer 0 E.P.wotsBytes
  let dest ← wrLanes L dest 0 n (← E.X.thashx ins E.P.wotsLen ctx pk_addr)
  .ok (dest, { info with wots_sig, leaf_addr, pk_addr })

/-! ## Hypertree -/

/-- `merkle_sign`, shake-avx2/merkle.c:16-48; sha2-avx2/merkle.c:17-49; shake-a64/merkle.c:16-48.
The arguments `wots_addr` and `tree_addr` are only read.  As in the model of ref/merkle.c the two
parts of `sig` are separate buffers. -/
def merkle_signx (sig root : Bytes) (ctx : Ctx) (wots_addr tree_addr : Addr) (idx_leaf : Nat) :
    C (Bytes × Bytes × Addr) := do
  let zero := List.replicate E.L zeroAddr
  let steps ← chain_lengths E.toEnv (uninit (fun i => (E.G 36 i).toNat) E.P.wotsLen) root
  let tree_addrx ← lanes E.L (fun _ a => do
    let a ← set_type E.P.fam a SPX_ADDR_TYPE_HASHTREE
    copy_subtree_addr E.P.fam a tree_addr) zero
  let leaf_addr ← lanes E.L (fun _ a => do
    let a ← set_type E.P.fam a SPX_ADDR_TYPE_WOTS
    copy_subtree_addr E.P.fam a wots_addr) zero
  let pk_addr ← lanes E.L (fun _ a => do
    let a ← set_type E.P.fam a SPX_ADDR_TYPE_WOTSPK
    copy_subtree_addr E.P.fam a wots_addr) zero
  let wots_sig ← rd sig 0 E.P.wotsBytes
  let auth_path ← sub sig E.P.wotsBytes
  let (root, auth_path, _, info) ←
    treehashx E auth_path ctx idx_leaf 0 E.P.treeHeight (wots_gen_leafx E ctx) tree_addrx
      { wots_sig, wots_sign_leaf := idx_leaf, wots_steps := steps, leaf_addr, pk_addr }
  .ok (info.wots_sig ++ auth_path, root, tree_addr)

/-- `merkle_gen_root`, shake-avx2/merkle.c:51-67; sha2-avx2/merkle.c:52-68;
shake-a64/merkle.c:51-67. -/
def merkle_gen_rootx (root0 : Bytes) (ctx : Ctx) : C Bytes := do
  let auth_path := uninit (E.G 37) (E.P.treeHeight * E.P.n + E.P.wotsBytes)
  let top_tree_addr ← set_layer_addr E.P.fam zeroAddr (E.P.d - 1)
  let wots_addr ← set_layer_addr E.P.fam zeroAddr (E.P.d - 1)
  let (_, root, _) ← merkle_signx E auth_path root0 ctx wots_addr top_tree_addr (2 ^ 32 - 1)
  .ok root

/-! ## FORS -/

/-- `fors_gen_leafx4`, shake-avx2/fors.c:57-90; `fors_gen_leafx8`, sha2-avx2/fors.c:69-114;
`fors_gen_leafx2`, shake-a64/fors.c:52-79.  (`fors_gen_skx4` and `fors_sk_to_leafx4` are inlined:
they pass their arguments on.) -/
def fors_gen_leafx (ctx : Ctx) (leaf : Bytes) (addr_idx : Nat) (leaf_addr : List Addr) :
    C (Bytes × List Addr) := do
  let n := E.P.n
  let a ← lanes E.L (fun j a => do
    let a ← set_tree_index E.P.fam a ((addr_idx + j) % 2 ^ 32)
    set_type E.P.fam a SPX_ADDR_TYPE_FORSPRF) leaf_addr
  let leaf ← wrLanes E.L leaf 0 n (← E.X.prf_addrx ctx a)
  let a ← lanes E.L (fun _ a => set_type E.P.fam a SPX_ADDR_TYPE_FORSTREE) a
  let ins ← subLanes E.L leaf 0 n
  let leaf ← wrLanes E.L leaf 0 n (← E.X.thashx ins 1 ctx a)
  .ok (leaf, a)

/-- One iteration of the loop in `fors_sign`, shake-avx2/fors.c:138-157 (sha2-avx2/fors.c:162-181,
shake-a64/fors.c:127-146).  Lane 0 of `fors_tree_addr` is also the address of the secret value. -/
def fors_signx_body (ctx : Ctx) (indices : List Nat) (i : Nat)
    (s : Bytes × Nat × Bytes × List Addr × List Addr) :
    C (Bytes × Nat × Bytes × List Addr × List Addr) := do
  let n := E.P.n
  let (sig, off, roots, tree_addr, leaf_addr) := s
  let idx_offset := (i * (← shl1 E.P.forsHeight)) % 2 ^ 32
  let idx ← rd1 indices i
  let a ← set_tree_height E.P.fam (← rd1 tree_addr 0) 0
  let a ← set_tree_index E.P.fam a ((idx + idx_offset) % 2 ^ 32)
  let a ← set_type E.P.fam a SPX_ADDR_TYPE_FORSPRF
  let sig ← wr sig off (← fors_gen_sk E.toEnv ctx a)
  let a ← set_type E.P.fam a SPX_ADDR_TYPE_FORSTREE
  let tree_addr ← wr1 tree_addr 0 a
  let off := off + n
  let (sig, root, tree_addr, leaf_addr) ← withSub sig off (fun auth => do
    let (root, auth, tree_addr, leaf_addr) ←
      treehashx E auth ctx idx idx_offset E.P.forsHeight (fors_gen_leafx E ctx)
        tree_addr leaf_addr
    .ok (auth, root, tree_addr, leaf_addr))
  let roots ← wr roots (i * n) root
  .ok (sig, off + n * E.P.forsHeight, roots, tree_addr, leaf_addr)

/-- `fors_sign`, shake-avx2/fors.c:115-161; sha2-avx2/fors.c:139-185; shake-a64/fors.c:104-150. -/
def fors_signx (sig m : Bytes) (ctx : Ctx) (fors_addr : Addr) : C (Bytes × Bytes) := do
  let zero := List.replicate E.L zeroAddr
  let fors_tree_addr ← lanes E.L (fun _ a => do
    let a ← copy_keypair_addr E.P.fam a fors_addr
    set_type E.P.fam a SPX_ADDR_TYPE_FORSTREE) zero
  let fors_leaf_addr ← lanes E.L (fun _ a => copy_keypair_addr E.P.fam a fors_addr) zero
  let fors_pk_addr ← copy_keypair_addr E.P.fam zeroAddr fors_addr
  let fors_pk_addr ← set_type E.P.fam fors_pk_addr SPX_ADDR_TYPE_FORSPK
  let indices ← message_to_indices E.P (uninit (fun i => (E.G 38 i).toNat) E.P.forsTrees) m
  let (sig, _, roots, _, _) ←
    forRange E.P.forsTrees (fors_signx_body E ctx indices)
      (sig, 0, uninit (E.G 39) (E.P.forsTrees * E.P.n), fors_tree_addr, fors_leaf_addr)
  let pk ← E.H.thash roots E.P.forsTrees ctx fors_pk_addr
  .ok (sig, pk)

/-- The functions of an optimised implementation called by sign.c. -/
def parCode : TreeCode where
  merkle_sign := merkle_signx E
  merkle_gen_root := merkle_gen_rootx E
  fors_sign := fors_signx E
  wots_pk_from_sig := wots_pk_from_sigx E

/-- A build of an optimised implementation: `2 ^ lg` lanes, lane hash code `X`. -/
def buildX (P : Params) (lg : Nat) (X : LaneHash) (G g : Nat → Nat → Byte) : EnvX :=
  { build P G g with lg, X }

/-- A build of an optimised implementation with one-way hash functions `H` of its own. -/
def optBuild (P : Params) (H : HashImpl) (lg : Nat) (X : LaneHash) (G : Nat → Nat → Byte) : EnvX :=
  { P, H, G, lg, X }

/-- Lane hash code calling the one-way functions lane after lane. -/
def seqLanes (L : Nat) (H : HashImpl) : LaneHash where
  prf_addrx ctx addrs := tabulate L fun j => do H.prf_addr ctx (← rd1 addrs j)
  thashx ins blocks ctx addrs := tabulate L fun j => do H.thash (← rd1 ins j) blocks ctx (← rd1 addrs j)

end Spx
