import Verif.Model.LeakTree
import Verif.Model.LeakShake
import Verif.Model.LeakSha2
import Verif.Model.LeakHaraka
import Verif.Model.Sign
import Verif.Model.ParamSets
/-! # Key generation and signing with traces

The definitions of Model/Sign.lean over the monad of Model/LeakBase.lean. -/

namespace Spx.Leak

/-- The functions called by key generation and signing which the optimised implementations replace,
`Spx.TreeCode` -/
structure TreeCode where
  /-- sig, root, ctx, wots_addr, tree_addr, idx_leaf -/
  merkle_sign : Bytes → Bytes → Ctx → Addr → Addr → Nat → L (Bytes × Bytes × Addr)
  /-- root, ctx -/
  merkle_gen_root : Bytes → Ctx → L Bytes
  /-- sig, m, ctx, fors_addr -/
  fors_sign : Bytes → Bytes → Ctx → Addr → L (Bytes × Bytes)

/-- The code in ref/, `Spx.refCode` -/
def refCode (E : Env) : TreeCode where
  merkle_sign := merkle_sign E
  merkle_gen_root := merkle_gen_root E
  fors_sign := fors_sign E

variable (E : Env) (T : TreeCode)

/-- `crypto_sign_seed_keypair`, ref/sign.c:53-76.  `pk0`, `sk0` are the previous contents of the
output buffers.  `merkle_gen_root` works on `sk + 3*SPX_N` in place; it is given exactly the
`SPX_N` bytes there, so any access beyond them is an error.  Returns `pk`, `sk` (the return value
is always 0). -/
def crypto_sign_seed_keypairT (pk0 sk0 seed : Bytes) : L (Bytes × Bytes) := do
  let n := E.P.n
  let ctx := uninitCtx E.erase
  let sk ← wr sk0 0 (← rd seed 0 E.P.seedBytes)
  let pk ← wr pk0 0 (← rd sk (2 * n) n)
  let ctx := { ctx with pub_seed := ← wr ctx.pub_seed 0 (← rd pk 0 n) }
  let ctx := { ctx with sk_seed := ← wr ctx.sk_seed 0 (← rd sk 0 n) }
  let ctx ← E.H.initialize_hash_function ctx
  let root ← T.merkle_gen_root (← rd sk (3 * n) n) ctx
  let sk ← wr sk (3 * n) root
  let pk ← wr pk n (← rd sk (3 * n) n)
  .ok (pk, sk)

/-- The loop over the hypertree layers in `crypto_sign_signature`, ref/sign.c:140-153.
State: sig, offset of the moving pointer, root, wots_addr, tree_addr, tree, idx_leaf. -/
def sign_layerT (ctx : Ctx) (i : Nat) (s : Bytes × Nat × Bytes × Addr × Addr × Nat × Nat) :
    L (Bytes × Nat × Bytes × Addr × Addr × Nat × Nat) := do
  let (sig, off, root, wots_addr, tree_addr, tree, idx_leaf) := s
  let tree_addr ← set_layer_addr E.P.fam tree_addr i
  let tree_addr ← set_tree_addr E.P.fam tree_addr tree
  let wots_addr ← copy_subtree_addr E.P.fam wots_addr tree_addr
  let wots_addr ← set_keypair_addr E.P.fam wots_addr idx_leaf
  let (sig, root, tree_addr) ← withSub sig off (fun b =>
    T.merkle_sign b root ctx wots_addr tree_addr idx_leaf)
  let off := off + (E.P.wotsBytes + E.P.treeHeight * E.P.n)
  let idx_leaf := tree &&& ((← shl1 E.P.treeHeight) - 1)
  let tree := tree >>> E.P.treeHeight
  .ok (sig, off, root, wots_addr, tree_addr, tree, idx_leaf)

/-- Lines 119-155 of `crypto_sign_signature` after R has been written and the digest computed:
ref/sign.c:119-120 and 131-153. -/
def sign_restT (sig : Bytes) (ctx : Ctx) (mhash : Bytes) (tree idx_leaf : Nat) : L Bytes := do
  let wots_addr ← set_type E.P.fam zeroAddr SPX_ADDR_TYPE_WOTS
  let tree_addr ← set_type E.P.fam zeroAddr SPX_ADDR_TYPE_HASHTREE
  let off := E.P.n
  let wots_addr ← set_tree_addr E.P.fam wots_addr tree
  let wots_addr ← set_keypair_addr E.P.fam wots_addr idx_leaf
  let (sig, root) ← withSub sig off (fun b => T.fors_sign b mhash ctx wots_addr)
  let off := off + E.P.forsBytes
  let (sig, _) ← forRange E.P.d (sign_layerT E T ctx) (sig, off, root, wots_addr, tree_addr, tree, idx_leaf)
  .ok sig

/-- `crypto_sign_signature`, ref/sign.c:95-158.  `sig0` is the previous content of the memory
behind `sig`, `optrand` the output of `randombytes` (line 125).  Returns `sig` and `*siglen`
(the return value is always 0). -/
def crypto_sign_signatureT (sig0 m sk optrand : Bytes) : L (Bytes × Nat) := do
  let n := E.P.n
  let ctx := uninitCtx E.erase
  let sk_prf ← sub sk n
  let pk ← sub sk (2 * n)
  let ctx := { ctx with sk_seed := ← wr ctx.sk_seed 0 (← rd sk 0 n) }
  let ctx := { ctx with pub_seed := ← wr ctx.pub_seed 0 (← rd pk 0 n) }
  let ctx ← E.H.initialize_hash_function ctx
  let sig ← wr sig0 0 (← E.H.gen_message_random sk_prf optrand m ctx)
  let (mhash, tree, idx_leaf) ← E.H.hash_message sig pk m ctx
  let sig ← sign_restT E T sig ctx mhash tree idx_leaf
  .ok (sig, E.P.spxBytes)

/-- `crypto_sign_seed_keypair` of the reference implementation -/
def crypto_sign_seed_keypair (pk0 sk0 seed : Bytes) : L (Bytes × Bytes) :=
  crypto_sign_seed_keypairT E (refCode E) pk0 sk0 seed

/-- `crypto_sign_signature` of the reference implementation -/
def crypto_sign_signature (sig0 m sk optrand : Bytes) : L (Bytes × Nat) :=
  crypto_sign_signatureT E (refCode E) sig0 m sk optrand

/-- The hash functions linked for the parameter set, `Spx.implOf` -/
def implOf (P : Params) (g : Nat → Nat → Byte) : HashImpl :=
  match P.fam with
  | .sha2 => Sha2.impl P g
  | .shake => Shake.impl P g
  | .haraka => Haraka.impl P g

/-- The reference implementation of a parameter set, `Spx.build` -/
def build (P : Params) (G g : Nat → Nat → Byte) : Env := ⟨P, implOf P g, G⟩

end Spx.Leak
