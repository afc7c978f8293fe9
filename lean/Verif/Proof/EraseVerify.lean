import Verif.Model.LeakVerify
import Verif.Proof.EraseSign
/-! # The definitions of Model/LeakVerify.lean without the traces are those of the model -/

namespace Spx.Leak

theorem keepAll {α : Sort _} {p : α → Prop} (h : ∀ x, p x) : ∀ x, p x := h

/-- Keeps the number out of the proof term. -/
local macro "hide32" : tactic =>
  `(tactic| (generalize (2 ^ 32 : Nat) = w32; revert w32; refine keepAll ?_; intro w32))

variable (E : Env)

theorem erase_compute_root_start (leaf : Bytes) (leaf_idx : Nat) (auth_path : Bytes) :
    (compute_root_start E leaf leaf_idx auth_path).res = Spx.compute_root_start E.erase leaf leaf_idx auth_path := by
  unfold compute_root_start Spx.compute_root_start
  erase
macro_rules | `(tactic| erase_leaf) => `(tactic| with_reducible apply erase_compute_root_start)

theorem erase_compute_root_step (auth_path : Bytes) (ctx : Ctx) (i : Nat) (s : Bytes × Nat × Nat × Addr) :
    (compute_root_step E auth_path ctx i s).res = Spx.compute_root_step E.erase auth_path ctx i s := by
  unfold compute_root_step Spx.compute_root_step
  hide32
  erase
macro_rules | `(tactic| erase_leaf) => `(tactic| with_reducible apply erase_compute_root_step)

theorem erase_compute_root (leaf : Bytes) (leaf_idx idx_offset : Nat) (auth_path : Bytes) (h : Nat) (ctx : Ctx)
    (addr : Addr) : (compute_root E leaf leaf_idx idx_offset auth_path h ctx addr).res =
      Spx.compute_root E.erase leaf leaf_idx idx_offset auth_path h ctx addr := by
  unfold compute_root Spx.compute_root
  hide32
  erase
macro_rules | `(tactic| erase_leaf) => `(tactic| with_reducible apply erase_compute_root)

theorem erase_gen_chain (inp : Bytes) (start steps : Nat) (ctx : Ctx) (addr : Addr) :
    (gen_chain E inp start steps ctx addr).res = Spx.gen_chain E.erase inp start steps ctx addr := by
  unfold gen_chain Spx.gen_chain
  hide32
  erase
macro_rules | `(tactic| erase_leaf) => `(tactic| with_reducible apply erase_gen_chain)

theorem erase_wots_pk_from_sig (pk sig msg : Bytes) (ctx : Ctx) (addr : Addr) :
    (wots_pk_from_sig E pk sig msg ctx addr).res = Spx.wots_pk_from_sig E.erase pk sig msg ctx addr := by
  unfold wots_pk_from_sig Spx.wots_pk_from_sig
  hide32
  erase
macro_rules | `(tactic| erase_leaf) => `(tactic| with_reducible apply erase_wots_pk_from_sig)

theorem erase_fors_pk_body (sig : Bytes) (ctx : Ctx) (indices : List Nat) (i : Nat) (s : Nat × Bytes × Addr) :
    (fors_pk_body E sig ctx indices i s).res = Spx.fors_pk_body E.erase sig ctx indices i s := by
  unfold fors_pk_body Spx.fors_pk_body
  hide32
  erase
macro_rules | `(tactic| erase_leaf) => `(tactic| with_reducible apply erase_fors_pk_body)

theorem erase_fors_pk_from_sig (sig m : Bytes) (ctx : Ctx) (a : Addr) :
    (fors_pk_from_sig E sig m ctx a).res = Spx.fors_pk_from_sig E.erase sig m ctx a := by
  unfold fors_pk_from_sig Spx.fors_pk_from_sig
  erase
macro_rules | `(tactic| erase_leaf) => `(tactic| with_reducible apply erase_fors_pk_from_sig)

section
variable {W : WotsPk} {T : Spx.TreeCode}
  (hW : ∀ pk sig msg ctx a, (W pk sig msg ctx a).res = T.wots_pk_from_sig pk sig msg ctx a)
include hW

theorem erase_verify_layerT (sig : Bytes) (ctx : Ctx) (i : Nat)
    (s : Nat × Bytes × Addr × Addr × Addr × Bytes × Nat × Nat) :
    (verify_layerT E W sig ctx i s).res = Spx.verify_layerT E.erase T sig ctx i s := by
  unfold verify_layerT Spx.verify_layerT
  erase

theorem erase_crypto_sign_verifyT (sig : Bytes) (siglen : Nat) (m pk : Bytes) :
    (crypto_sign_verifyT E W sig siglen m pk).res = Spx.crypto_sign_verifyT E.erase T sig siglen m pk := by
  have h := erase_verify_layerT E hW
  unfold crypto_sign_verifyT Spx.crypto_sign_verifyT
  erase

end

theorem erase_crypto_sign_verify (sig : Bytes) (siglen : Nat) (m pk : Bytes) :
    (crypto_sign_verify E sig siglen m pk).res = Spx.crypto_sign_verify E.erase sig siglen m pk :=
  erase_crypto_sign_verifyT E (T := Spx.refCode E.erase) (erase_wots_pk_from_sig E) sig siglen m pk

end Spx.Leak
