import Verif.Model.Merkle
import Verif.Model.Fors
/-! # Model of ref/sign.c, with one buffer per argument

(The functions whose pointer arguments may overlap are modelled over flat memory in
Model/Api.lean.) -/

namespace Spx

/-- The functions which ref/sign.c calls and which the optimised implementations replace: sign.c
is the same file in all of them.  (`fors_pk_from_sig` has the same text in all copies of fors.c,
and `compute_root` is in the shared utils.c.) -/
structure TreeCode where
  /-- sig, root, ctx, wots_addr, tree_addr, idx_leaf -/
  merkle_sign : Bytes → Bytes → Ctx → Addr → Addr → Nat → C (Bytes × Bytes × Addr)
  /-- root, ctx -/
  merkle_gen_root : Bytes → Ctx → C Bytes
  /-- sig, m, ctx, fors_addr -/
  fors_sign : Bytes → Bytes → Ctx → Addr → C (Bytes × Bytes)
  /-- pk, sig, msg, ctx, addr -/
  wots_pk_from_sig : Bytes → Bytes → Bytes → Ctx → Addr → C (Bytes × Addr)

variable (E : Env)

/-- The code in ref/. -/
def refCode : TreeCode where
  merkle_sign := merkle_sign E
  merkle_gen_root := merkle_gen_root E
  fors_sign := fors_sign E
  wots_pk_from_sig := wots_pk_from_sig E

/-- `crypto_sign_secretkeybytes`, ref/sign.c:19-22 -/
def crypto_sign_secretkeybytes (P : Params) : Nat := P.skBytes
/-- `crypto_sign_publickeybytes`, ref/sign.c:27-30 -/
def crypto_sign_publickeybytes (P : Params) : Nat := P.pkBytes
/-- `crypto_sign_bytes`, ref/sign.c:35-38 -/
def crypto_sign_bytes (P : Params) : Nat := P.spxBytes
/-- `crypto_sign_seedbytes`, ref/sign.c:43-46 -/
def crypto_sign_seedbytes (P : Params) : Nat := P.seedBytes

/-- `spx_ctx ctx;` — an uninitialised local context.  The contents of the fields of other
families do not exist in C; all are arbitrary. -/
def uninitCtx : Ctx where
  pub_seed := uninit (E.G 20) E.P.n
  sk_seed := uninit (E.G 21) E.P.n
  state_seeded := uninit (E.G 22) 40
  state_seeded_512 := uninit (E.G 23) 72
  tweaked512_rc64 := uninit (fun i => (E.G 24 i).zeroExtend 64) 80
  tweaked256_rc32 := uninit (fun i => (E.G 25 i).zeroExtend 32) 80
  rc := uninit (E.G 26) 640

variable (T : TreeCode)

/-- `crypto_sign_seed_keypair`, ref/sign.c:53-76.  `pk0`, `sk0` are the previous contents of the
output buffers.  `merkle_gen_root` works on `sk + 3*SPX_N` in place; it is given exactly the
`SPX_N` bytes there, so any access beyond them is an error.  Returns `pk`, `sk` (the return value
is always 0). -/
def crypto_sign_seed_keypairT (pk0 sk0 seed : Bytes) : C (Bytes × Bytes) := do
  let n := E.P.n
  let ctx := uninitCtx E
  let sk ← wr sk0 0 (← rd seed 0 E.P.seedBytes)
  let pk ← wr pk0 0 (← rd sk (2 * n) n)
  let ctx := { ctx with pub_seed := ← wr ctx.pub_seed 0 (← rd pk 0 n) }
  let ctx := { ctx with sk_seed := ← wr ctx.sk_seed 0 (← rd sk 0 n) }
  let ctx ← E.H.initialize_hash_function ctx
  let root ← T.merkle_gen_root (← rd sk (3 * n) n) ctx
  let sk ← wr sk (3 * n) root
  let pk ← wr pk n (← rd sk (3 * n) n)
  .ok (pk, sk)

/-- The loop over the hypertree layers in `crypto_sign_signature`, ref/sign.c:140-153.
State: sig, offset of the moving pointer, root, wots_addr, tree_addr, tree, idx_leaf. -/
def sign_layerT (ctx : Ctx) (i : Nat) (s : Bytes × Nat × Bytes × Addr × Addr × Nat × Nat) :
    C (Bytes × Nat × Bytes × Addr × Addr × Nat × Nat) := do
  let (sig, off, root, wots_addr, tree_addr, tree, idx_leaf) := s
  let tree_addr ← set_layer_addr E.P.fam tree_addr i
  let tree_addr ← set_tree_addr E.P.fam tree_addr tree
  let wots_addr ← copy_subtree_addr E.P.fam wots_addr tree_addr
  let wots_addr ← set_keypair_addr E.P.fam wots_addr idx_leaf
  let (sig, root, tree_addr) ← withSub sig off (fun b =>
    T.merkle_sign b root ctx wots_addr tree_addr idx_leaf)
  let off := off + (E.P.wotsBytes + E.P.treeHeight * E.P.n)
  let idx_leaf := tree &&& ((← shl1 E.P.treeHeight) - 1)
  let tree := tree >>> E.P.treeHeight
  .ok (sig, off, root, wots_addr, tree_addr, tree, idx_leaf)

/-- Lines 119-155 of `crypto_sign_signature` after R has been written and the digest computed:
ref/sign.c:119-120 and 131-153. -/
def sign_restT (sig : Bytes) (ctx : Ctx) (mhash : Bytes) (tree idx_leaf : Nat) : C Bytes := do
  let wots_addr ← set_type E.P.fam zeroAddr SPX_ADDR_TYPE_WOTS
  let tree_addr ← set_type E.P.fam zeroAddr SPX_ADDR_TYPE_HASHTREE
  let off := E.P.n
  let wots_addr ← set_tree_addr E.P.fam wots_addr tree
  let wots_addr ← set_keypair_addr E.P.fam wots_addr idx_leaf
  let (sig, root) ← withSub sig off (fun b => T.fors_sign b mhash ctx wots_addr)
  let off := off + E.P.forsBytes
  let (sig, _) ← forRange E.P.d (sign_layerT E T ctx) (sig, off, root, wots_addr, tree_addr, tree, idx_leaf)
  .ok sig

/-- `crypto_sign_signature`, ref/sign.c:95-158.  `sig0` is the previous content of the memory
behind `sig`, `optrand` the output of `randombytes` (line 125).  Returns `sig` and `*siglen`
(the return value is always 0). -/
def crypto_sign_signatureT (sig0 m sk optrand : Bytes) : C (Bytes × Nat) := do
  let n := E.P.n
  let ctx := uninitCtx E
  let sk_prf ← sub sk n
  let pk ← sub sk (2 * n)
  let ctx := { ctx with sk_seed := ← wr ctx.sk_seed 0 (← rd sk 0 n) }
  let ctx := { ctx with pub_seed := ← wr ctx.pub_seed 0 (← rd pk 0 n) }
  let ctx ← E.H.initialize_hash_function ctx
  let sig ← wr sig0 0 (← E.H.gen_message_random sk_prf optrand m ctx)
  let (mhash, tree, idx_leaf) ← E.H.hash_message sig pk m ctx
  let sig ← sign_restT E T sig ctx mhash tree idx_leaf
  .ok (sig, E.P.spxBytes)

/-- The loop over the layers in `crypto_sign_verify`, ref/sign.c:206-232.
State: offset of the moving pointer, root, wots_addr, tree_addr, wots_pk_addr, wots_pk, tree,
idx_leaf. -/
def verify_layerT (sig : Bytes) (ctx : Ctx) (i : Nat)
    (s : Nat × Bytes × Addr × Addr × Addr × Bytes × Nat × Nat) :
    C (Nat × Bytes × Addr × Addr × Addr × Bytes × Nat × Nat) := do
  let (off, root, wots_addr, tree_addr, wots_pk_addr, wots_pk, tree, idx_leaf) := s
  let tree_addr ← set_layer_addr E.P.fam tree_addr i
  let tree_addr ← set_tree_addr E.P.fam tree_addr tree
  let wots_addr ← copy_subtree_addr E.P.fam wots_addr tree_addr
  let wots_addr ← set_keypair_addr E.P.fam wots_addr idx_leaf
  let wots_pk_addr ← copy_keypair_addr E.P.fam wots_pk_addr wots_addr
  let (wots_pk, wots_addr) ← T.wots_pk_from_sig wots_pk (← sub sig off) root ctx wots_addr
  let off := off + E.P.wotsBytes
  let leaf ← E.H.thash wots_pk E.P.wotsLen ctx wots_pk_addr
  let (root, tree_addr) ←
    compute_root E leaf idx_leaf 0 (← sub sig off) E.P.treeHeight ctx tree_addr
  let off := off + E.P.treeHeight * E.P.n
  let idx_leaf := tree &&& ((← shl1 E.P.treeHeight) - 1)
  let tree := tree >>> E.P.treeHeight
  .ok (off, root, wots_addr, tree_addr, wots_pk_addr, wots_pk, tree, idx_leaf)

/-- `crypto_sign_verify`, ref/sign.c:163-240.  Returns 0 or -1. -/
def crypto_sign_verifyT (sig : Bytes) (siglen : Nat) (m pk : Bytes) : C Int := do
  let n := E.P.n
  if siglen ≠ E.P.spxBytes then .ok (-1)
  else
    let ctx := uninitCtx E
    let ctx := { ctx with pub_seed := ← wr ctx.pub_seed 0 (← rd pk 0 n) }
    let ctx ← E.H.initialize_hash_function ctx
    let wots_addr ← set_type E.P.fam zeroAddr SPX_ADDR_TYPE_WOTS
    let tree_addr ← set_type E.P.fam zeroAddr SPX_ADDR_TYPE_HASHTREE
    let wots_pk_addr ← set_type E.P.fam zeroAddr SPX_ADDR_TYPE_WOTSPK
    let (mhash, tree, idx_leaf) ← E.H.hash_message sig pk m ctx
    let off := n
    let wots_addr ← set_tree_addr E.P.fam wots_addr tree
    let wots_addr ← set_keypair_addr E.P.fam wots_addr idx_leaf
    let root ← fors_pk_from_sig E (← sub sig off) mhash ctx wots_addr
    let off := off + E.P.forsBytes
    let (_, root, _) ← forRange E.P.d (verify_layerT E T sig ctx)
      (off, root, wots_addr, tree_addr, wots_pk_addr, uninit (E.G 13) E.P.wotsBytes, tree, idx_leaf)
    let a ← rd root 0 n
    let b ← rd pk n n
    if a = b then .ok 0 else .ok (-1)

/-! The reference implementation. -/

/-- `crypto_sign_seed_keypair` of ref/ -/
def crypto_sign_seed_keypair (pk0 sk0 seed : Bytes) : C (Bytes × Bytes) :=
  crypto_sign_seed_keypairT E (refCode E) pk0 sk0 seed
/-- `crypto_sign_signature` of ref/ -/
def crypto_sign_signature (sig0 m sk optrand : Bytes) : C (Bytes × Nat) :=
  crypto_sign_signatureT E (refCode E) sig0 m sk optrand
/-- `crypto_sign_verify` of ref/ -/
def crypto_sign_verify (sig : Bytes) (siglen : Nat) (m pk : Bytes) : C Int :=
  crypto_sign_verifyT E (refCode E) sig siglen m pk

end Spx
