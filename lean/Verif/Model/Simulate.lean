import Verif.Model.LeakSign
import Verif.Spec.Sphincs
/-!
# The trace of signing, computed from public values

`simulate` is given the public key, the message and the signature.  It runs the signing code on a secret
key whose two secret parts are zero, with zero randomness and zero buffers.  It replaces the message
randomizer by the one in the signature, and the roots signed on each layer of the hypertree by the ones
a verifier computes from the signature.  It knows nothing else, so whatever it computes can be computed by
anyone who has seen the signature.
-/

namespace Spx.Leak
open Spec

section
variable (E : Env) (T : TreeCode) (S : Spec.Hash)

/-- `sign_layerT` with the given root instead of the one in the state. -/
def simulate_layer (ctx : Ctx) (root : Nat → Bytes) (i : Nat) (s : Bytes × Nat × Bytes × Addr × Addr × Nat × Nat) :
    L (Bytes × Nat × Bytes × Addr × Addr × Nat × Nat) :=
  sign_layerT E T ctx i (s.1, s.2.1, root i, s.2.2.2)

/-- `sign_restT` with the roots a verifier computes from the signature `sig` under the public seed `pub`. -/
def simulate_rest (pub sig buf : Bytes) (ctx : Ctx) (mhash : Bytes) (tree idx_leaf : Nat) : L Unit := do
  let wots_addr ← set_type E.P.fam zeroAddr SPX_ADDR_TYPE_WOTS
  let tree_addr ← set_type E.P.fam zeroAddr SPX_ADDR_TYPE_HASHTREE
  let off := E.P.n
  let wots_addr ← set_tree_addr E.P.fam wots_addr tree
  let wots_addr ← set_keypair_addr E.P.fam wots_addr idx_leaf
  let (buf, _) ← withSub buf off (fun b => T.fors_sign b mhash ctx wots_addr)
  let off := off + E.P.forsBytes
  let fpk := forsPkFromSig E.P.toSpec S pub tree idx_leaf (sig.drop E.P.n) mhash
  let root := htRoot E.P.toSpec S pub tree idx_leaf (sig.drop (E.P.n + E.P.forsBytes)) fpk
  let _ ← forRange E.P.d (simulate_layer E T ctx root) (buf, off, fpk, wots_addr, tree_addr, tree, idx_leaf)
  .ok ()

/-- `crypto_sign_signature` without the secrets; `siglen` is the size of the buffer for the signature. -/
def simulateWith (pk m sig : Bytes) (siglen : Nat) : L Unit := do
  let n := E.P.n
  let ctx := uninitCtx E.erase
  let sk := List.replicate (2 * n) 0#8 ++ pk
  let sk_prf ← sub sk n
  let pk ← sub sk (2 * n)
  let ctx := { ctx with sk_seed := ← wr ctx.sk_seed 0 (← rd sk 0 n) }
  let ctx := { ctx with pub_seed := ← wr ctx.pub_seed 0 (← rd pk 0 n) }
  let ctx ← E.H.initialize_hash_function ctx
  let _ ← E.H.gen_message_random sk_prf (List.replicate n 0#8) m ctx
  let buf ← wr (List.replicate siglen 0#8) 0 (sig.take n)
  let (mhash, tree, idx_leaf) ← E.H.hash_message buf pk m ctx
  simulate_rest E T S (pk.take n) sig buf ctx mhash tree idx_leaf

end

/-- The trace of `crypto_sign_signature` for parameter set `P`, from the public key, the message, the
signature and the size of the buffer for the signature. -/
def simulate (P : Params) (S : Spec.Hash) (pk m sig : Bytes) (siglen : Nat) : List Ev :=
  (simulateWith (build P (fun _ _ => 0) (fun _ _ => 0)) (refCode (build P (fun _ _ => 0) (fun _ _ => 0))) S pk m sig siglen).tr

end Spx.Leak
