import Verif.Model.LeakVerifyX
import Verif.Proof.EraseParallel
import Verif.Proof.EraseVerify
/-! # The definitions of Model/LeakVerifyX.lean without the traces are those of the model -/

namespace Spx.Leak

variable (E : EnvX)

/-- Keeps the number out of the proof term. -/
local macro "hide32" : tactic =>
  `(tactic| (generalize (2 ^ 32 : Nat) = w32; revert w32; refine keepAll ?_; intro w32))

theorem erase_sort_chains (steps : List Nat) : (sort_chains E steps).res = Spx.sort_chains E.erase steps := by
  unfold sort_chains Spx.sort_chains
  erase
macro_rules | `(tactic| erase_leaf) => `(tactic| with_reducible apply erase_sort_chains)

theorem erase_readBuf (out empty : Bytes) (b : Buf) : (readBuf E out empty b).res = Spx.readBuf E.erase out empty b := by
  cases b <;> rfl
macro_rules | `(tactic| erase_leaf) => `(tactic| with_reducible apply erase_readBuf)

theorem erase_writeBuf (out empty : Bytes) (b : Buf) (d : Bytes) :
    (writeBuf E out empty b d).res = Spx.writeBuf E.erase out empty b d := by
  unfold writeBuf Spx.writeBuf
  cases b <;> dsimp only <;> erase
macro_rules | `(tactic| erase_leaf) => `(tactic| with_reducible apply erase_writeBuf)

theorem erase_chains_watch (steps idxs : List Nat) (i k : Nat) (s : List Buf × Nat) :
    (chains_watch steps idxs i k s).res = Spx.chains_watch steps idxs i k s := by
  unfold chains_watch Spx.chains_watch
  erase
macro_rules | `(tactic| erase_leaf) => `(tactic| with_reducible apply erase_chains_watch)

theorem erase_chains_step (start steps idxs : List Nat) (ctx : Ctx) (i : Nat) (s : ChainsK) :
    (chains_step E start steps idxs ctx i s).res = Spx.chains_step E.erase start steps idxs ctx i s := by
  unfold chains_step Spx.chains_step
  hide32
  erase
macro_rules | `(tactic| erase_leaf) => `(tactic| with_reducible apply erase_chains_step)

theorem erase_chains_trim (i : Nat) (s : List Buf × Nat) :
    (chains_trim E i s).res = Spx.chains_trim E.erase i s := by
  unfold chains_trim Spx.chains_trim
  erase
macro_rules | `(tactic| erase_leaf) => `(tactic| with_reducible apply erase_chains_trim)

theorem erase_chains_group (start steps idxs : List Nat) (ctx : Ctx) (i : Nat)
    (s : Bytes × Bytes × List Addr × List Buf) :
    (chains_group E start steps idxs ctx i s).res = Spx.chains_group E.erase start steps idxs ctx i s := by
  unfold chains_group Spx.chains_group
  hide32
  erase
macro_rules | `(tactic| erase_leaf) => `(tactic| with_reducible apply erase_chains_group)

theorem erase_gen_chains (out inp : Bytes) (start steps : List Nat) (ctx : Ctx) (addr : Addr) :
    (gen_chains E out inp start steps ctx addr).res = Spx.gen_chains E.erase out inp start steps ctx addr := by
  unfold gen_chains Spx.gen_chains
  erase
macro_rules | `(tactic| erase_leaf) => `(tactic| with_reducible apply erase_gen_chains)

theorem erase_wots_pk_from_sigx (pk sig msg : Bytes) (ctx : Ctx) (addr : Addr) :
    (wots_pk_from_sigx E pk sig msg ctx addr).res = Spx.wots_pk_from_sigx E.erase pk sig msg ctx addr := by
  unfold wots_pk_from_sigx Spx.wots_pk_from_sigx
  hide32
  erase

end Spx.Leak
