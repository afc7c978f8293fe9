import Verif.Model.LeakSha2
import Verif.Proof.EraseHash
/-! # The definitions of Model/LeakSha2.lean without the traces are those of the model -/

namespace Spx.Leak

theorem erase_load_bigendian_32 (x : Bytes) :
    (load_bigendian_32 x).res = Spx.load_bigendian_32 x := by
  unfold load_bigendian_32 Spx.load_bigendian_32
  erase
macro_rules | `(tactic| erase_leaf) => `(tactic| with_reducible apply erase_load_bigendian_32)

theorem erase_load_bigendian_64 (x : Bytes) :
    (load_bigendian_64 x).res = Spx.load_bigendian_64 x := by
  unfold load_bigendian_64 Spx.load_bigendian_64
  erase
macro_rules | `(tactic| erase_leaf) => `(tactic| with_reducible apply erase_load_bigendian_64)

theorem erase_store_bigendian_32 (x : Bytes) (u : BitVec 64) :
    (store_bigendian_32 x u).res = Spx.store_bigendian_32 x u := by
  unfold store_bigendian_32 Spx.store_bigendian_32
  erase
macro_rules | `(tactic| erase_leaf) => `(tactic| with_reducible apply erase_store_bigendian_32)

theorem erase_store_bigendian_64 (x : Bytes) (u : BitVec 64) :
    (store_bigendian_64 x u).res = Spx.store_bigendian_64 x u := by
  unfold store_bigendian_64 Spx.store_bigendian_64
  erase
macro_rules | `(tactic| erase_leaf) => `(tactic| with_reducible apply erase_store_bigendian_64)

namespace Sha2
open Spx.Sha2

/-- Loading and storing words without the traces -/
structure Cfg.OK {wb : Nat} (c : Cfg wb) : Prop where
  load : ∀ x, (c.loadL x).res = c.load x
  store : ∀ x u, (c.storeL x u).res = c.store x u

theorem erase_load {wb : Nat} {c : Cfg wb} (hc : c.OK) (x : Bytes) : (c.loadL x).res = c.load x := hc.load x
macro_rules | `(tactic| erase_leaf) => `(tactic| with_reducible apply Sha2.erase_load <;> assumption)

theorem erase_store {wb : Nat} {c : Cfg wb} (hc : c.OK) (x : Bytes) (u : BitVec (8 * wb)) :
    (c.storeL x u).res = c.store x u := hc.store x u
macro_rules | `(tactic| erase_leaf) => `(tactic| with_reducible apply Sha2.erase_store <;> assumption)

theorem ok256 : cfg256.OK := ⟨erase_load_bigendian_32, fun x u => erase_store_bigendian_32 x (u.zeroExtend 64)⟩
theorem ok512 : cfg512.OK := ⟨erase_load_bigendian_64, erase_store_bigendian_64⟩

theorem erase_loadWords {wb : Nat} {c : Cfg wb} (hc : c.OK) (x : Bytes) (k : Nat) :
    (Sha2.loadWords c x k).res = Spx.Sha2.loadWords c.toCfg x k := by
  unfold Sha2.loadWords Spx.Sha2.loadWords
  erase
macro_rules | `(tactic| erase_leaf) => `(tactic| with_reducible apply Sha2.erase_loadWords <;> first | assumption | (intros; erase_leaf))

theorem erase_blockStep {wb : Nat} {c : Cfg wb} (hc : c.OK) (s : Bytes × Nat × Vars wb × Vars wb) :
    (Sha2.blockStep c s).res = Spx.Sha2.blockStep c.toCfg s := by
  unfold Sha2.blockStep Spx.Sha2.blockStep
  erase
macro_rules | `(tactic| erase_leaf) => `(tactic| with_reducible apply Sha2.erase_blockStep <;> first | assumption | (intros; erase_leaf))

theorem erase_hashblocks {wb : Nat} {c : Cfg wb} (hc : c.OK) (statebytes inp : Bytes) (inlen : Nat) :
    (Sha2.hashblocks c statebytes inp inlen).res = Spx.Sha2.hashblocks c.toCfg statebytes inp inlen := by
  unfold Sha2.hashblocks Spx.Sha2.hashblocks
  erase
macro_rules | `(tactic| erase_leaf) => `(tactic| with_reducible apply Sha2.erase_hashblocks <;> first | assumption | (intros; erase_leaf))

theorem erase_inc_init {wb : Nat} {c : Cfg wb} (hc : c.OK) (state : Bytes) :
    (Sha2.inc_init c state).res = Spx.Sha2.inc_init c.toCfg state := by
  unfold Sha2.inc_init Spx.Sha2.inc_init
  erase
macro_rules | `(tactic| erase_leaf) => `(tactic| with_reducible apply Sha2.erase_inc_init <;> first | assumption | (intros; erase_leaf))

theorem erase_inc_blocks {wb : Nat} {c : Cfg wb} (hc : c.OK) (state inp : Bytes) (inblocks : Nat) :
    (Sha2.inc_blocks c state inp inblocks).res = Spx.Sha2.inc_blocks c.toCfg state inp inblocks := by
  unfold Sha2.inc_blocks Spx.Sha2.inc_blocks
  erase
macro_rules | `(tactic| erase_leaf) => `(tactic| with_reducible apply Sha2.erase_inc_blocks <;> first | assumption | (intros; erase_leaf))

theorem erase_padTail {wb : Nat} {c : Cfg wb} (hc : c.OK) (padded : Bytes) (inlen zend : Nat) (bytes : BitVec 64) :
    (Sha2.padTail c padded inlen zend bytes).res = Spx.Sha2.padTail c.toCfg padded inlen zend bytes := by
  unfold Sha2.padTail Spx.Sha2.padTail
  erase
macro_rules | `(tactic| erase_leaf) => `(tactic| with_reducible apply Sha2.erase_padTail <;> first | assumption | (intros; erase_leaf))

theorem erase_inc_finalize {wb : Nat} {c : Cfg wb} (hc : c.OK) (g : Nat → Nat → Byte) (out state inp : Bytes) (inlen : Nat) :
    (Sha2.inc_finalize c g out state inp inlen).res = Spx.Sha2.inc_finalize c.toCfg g out state inp inlen := by
  unfold Sha2.inc_finalize Spx.Sha2.inc_finalize
  erase
macro_rules | `(tactic| erase_leaf) => `(tactic| with_reducible apply Sha2.erase_inc_finalize <;> first | assumption | (intros; erase_leaf))

theorem erase_sha {wb : Nat} {c : Cfg wb} (hc : c.OK) (g : Nat → Nat → Byte) (out inp : Bytes) (inlen : Nat) :
    (Sha2.sha c g out inp inlen).res = Spx.Sha2.sha c.toCfg g out inp inlen := by
  unfold Sha2.sha Spx.Sha2.sha
  erase
macro_rules | `(tactic| erase_leaf) => `(tactic| with_reducible apply Sha2.erase_sha <;> first | assumption | (intros; erase_leaf))

theorem erase_mgfStep {wb : Nat} {c : Cfg wb} (hc : c.OK) (g : Nat → Nat → Byte) (outlen inlen : Nat) (s : Nat × Bytes × Bytes) :
    (Sha2.mgfStep c g outlen inlen s).res = Spx.Sha2.mgfStep c.toCfg g outlen inlen s := by
  unfold Sha2.mgfStep Spx.Sha2.mgfStep
  erase
macro_rules | `(tactic| erase_leaf) => `(tactic| with_reducible apply Sha2.erase_mgfStep <;> first | assumption | (intros; erase_leaf))

theorem erase_mgf1 {wb : Nat} {c : Cfg wb} (hc : c.OK) (g : Nat → Nat → Byte) (out : Bytes) (outlen : Nat) (inp : Bytes) (inlen : Nat) :
    (Sha2.mgf1 c g out outlen inp inlen).res = Spx.Sha2.mgf1 c.toCfg g out outlen inp inlen := by
  unfold Sha2.mgf1 Spx.Sha2.mgf1
  erase
macro_rules | `(tactic| erase_leaf) => `(tactic| with_reducible apply Sha2.erase_mgf1 <;> first | assumption | (intros; erase_leaf))

macro_rules | `(tactic| erase_leaf) => `(tactic| (with_reducible refine (Sha2.erase_loadWords Sha2.ok256 ..).trans ?_); rfl)
macro_rules | `(tactic| erase_leaf) => `(tactic| (with_reducible refine (Sha2.erase_loadWords Sha2.ok512 ..).trans ?_); rfl)
macro_rules | `(tactic| erase_leaf) => `(tactic| (with_reducible refine (Sha2.erase_blockStep Sha2.ok256 ..).trans ?_); rfl)
macro_rules | `(tactic| erase_leaf) => `(tactic| (with_reducible refine (Sha2.erase_blockStep Sha2.ok512 ..).trans ?_); rfl)
macro_rules | `(tactic| erase_leaf) => `(tactic| (with_reducible refine (Sha2.erase_hashblocks Sha2.ok256 ..).trans ?_); rfl)
macro_rules | `(tactic| erase_leaf) => `(tactic| (with_reducible refine (Sha2.erase_hashblocks Sha2.ok512 ..).trans ?_); rfl)
macro_rules | `(tactic| erase_leaf) => `(tactic| (with_reducible refine (Sha2.erase_inc_init Sha2.ok256 ..).trans ?_); rfl)
macro_rules | `(tactic| erase_leaf) => `(tactic| (with_reducible refine (Sha2.erase_inc_init Sha2.ok512 ..).trans ?_); rfl)
macro_rules | `(tactic| erase_leaf) => `(tactic| (with_reducible refine (Sha2.erase_inc_blocks Sha2.ok256 ..).trans ?_); rfl)
macro_rules | `(tactic| erase_leaf) => `(tactic| (with_reducible refine (Sha2.erase_inc_blocks Sha2.ok512 ..).trans ?_); rfl)
macro_rules | `(tactic| erase_leaf) => `(tactic| (with_reducible refine (Sha2.erase_padTail Sha2.ok256 ..).trans ?_); rfl)
macro_rules | `(tactic| erase_leaf) => `(tactic| (with_reducible refine (Sha2.erase_padTail Sha2.ok512 ..).trans ?_); rfl)
macro_rules | `(tactic| erase_leaf) => `(tactic| (with_reducible refine (Sha2.erase_inc_finalize Sha2.ok256 ..).trans ?_); rfl)
macro_rules | `(tactic| erase_leaf) => `(tactic| (with_reducible refine (Sha2.erase_inc_finalize Sha2.ok512 ..).trans ?_); rfl)
macro_rules | `(tactic| erase_leaf) => `(tactic| (with_reducible refine (Sha2.erase_sha Sha2.ok256 ..).trans ?_); rfl)
macro_rules | `(tactic| erase_leaf) => `(tactic| (with_reducible refine (Sha2.erase_sha Sha2.ok512 ..).trans ?_); rfl)
macro_rules | `(tactic| erase_leaf) => `(tactic| (with_reducible refine (Sha2.erase_mgfStep Sha2.ok256 ..).trans ?_); rfl)
macro_rules | `(tactic| erase_leaf) => `(tactic| (with_reducible refine (Sha2.erase_mgfStep Sha2.ok512 ..).trans ?_); rfl)
macro_rules | `(tactic| erase_leaf) => `(tactic| (with_reducible refine (Sha2.erase_mgf1 Sha2.ok256 ..).trans ?_); rfl)
macro_rules | `(tactic| erase_leaf) => `(tactic| (with_reducible refine (Sha2.erase_mgf1 Sha2.ok512 ..).trans ?_); rfl)

theorem erase_seed_state (P : Params) (g : Nat → Nat → Byte) (ctx : Ctx) :
    (Sha2.seed_state P g ctx).res = Spx.Sha2.seed_state P g ctx := by
  unfold Sha2.seed_state Spx.Sha2.seed_state
  erase
macro_rules | `(tactic| erase_leaf) => `(tactic| with_reducible apply Sha2.erase_seed_state)

theorem erase_initialize_hash_function (P : Params) (g : Nat → Nat → Byte) (ctx : Ctx) :
    (Sha2.initialize_hash_function P g ctx).res = Spx.Sha2.initialize_hash_function P g ctx := by
  unfold Sha2.initialize_hash_function Spx.Sha2.initialize_hash_function
  erase
macro_rules | `(tactic| erase_leaf) => `(tactic| with_reducible apply Sha2.erase_initialize_hash_function)

theorem erase_prf_addr (P : Params) (g : Nat → Nat → Byte) (ctx : Ctx) (addr : Addr) :
    (Sha2.prf_addr P g ctx addr).res = Spx.Sha2.prf_addr P g ctx addr := by
  unfold Sha2.prf_addr Spx.Sha2.prf_addr
  erase
macro_rules | `(tactic| erase_leaf) => `(tactic| with_reducible apply Sha2.erase_prf_addr)

theorem erase_gen_message_random_X (P : Params) (g : Nat → Nat → Byte) {wb : Nat} {c : Cfg wb} (hc : c.OK) (sk_prf optrand m : Bytes) (_ctx : Ctx) :
    (Sha2.gen_message_random_X P g c sk_prf optrand m _ctx).res = Spx.Sha2.gen_message_random_X P g c.toCfg sk_prf optrand m _ctx := by
  unfold Sha2.gen_message_random_X Spx.Sha2.gen_message_random_X
  erase
macro_rules | `(tactic| erase_leaf) => `(tactic| with_reducible apply Sha2.erase_gen_message_random_X <;> first | assumption | (intros; erase_leaf))

macro_rules | `(tactic| erase_leaf) => `(tactic| (with_reducible refine (Sha2.erase_gen_message_random_X (hc := Sha2.ok256) ..).trans ?_); rfl)
macro_rules | `(tactic| erase_leaf) => `(tactic| (with_reducible refine (Sha2.erase_gen_message_random_X (hc := Sha2.ok512) ..).trans ?_); rfl)

theorem erase_gen_message_random (P : Params) (g : Nat → Nat → Byte) (sk_prf optrand m : Bytes) (ctx : Ctx) :
    (Sha2.gen_message_random P g sk_prf optrand m ctx).res = Spx.Sha2.gen_message_random P g sk_prf optrand m ctx := by
  unfold Sha2.gen_message_random Spx.Sha2.gen_message_random
  erase
macro_rules | `(tactic| erase_leaf) => `(tactic| with_reducible apply Sha2.erase_gen_message_random)

theorem erase_hash_message_X (P : Params) (g : Nat → Nat → Byte) {wb : Nat} {c : Cfg wb} (hc : c.OK) (R pk m : Bytes) (_ctx : Ctx) :
    (Sha2.hash_message_X P g c R pk m _ctx).res = Spx.Sha2.hash_message_X P g c.toCfg R pk m _ctx := by
  unfold Sha2.hash_message_X Spx.Sha2.hash_message_X
  erase
macro_rules | `(tactic| erase_leaf) => `(tactic| with_reducible apply Sha2.erase_hash_message_X <;> first | assumption | (intros; erase_leaf))

macro_rules | `(tactic| erase_leaf) => `(tactic| (with_reducible refine (Sha2.erase_hash_message_X (hc := Sha2.ok256) ..).trans ?_); rfl)
macro_rules | `(tactic| erase_leaf) => `(tactic| (with_reducible refine (Sha2.erase_hash_message_X (hc := Sha2.ok512) ..).trans ?_); rfl)

theorem erase_hash_message (P : Params) (g : Nat → Nat → Byte) (R pk m : Bytes) (ctx : Ctx) :
    (Sha2.hash_message P g R pk m ctx).res = Spx.Sha2.hash_message P g R pk m ctx := by
  unfold Sha2.hash_message Spx.Sha2.hash_message
  erase
macro_rules | `(tactic| erase_leaf) => `(tactic| with_reducible apply Sha2.erase_hash_message)

theorem erase_thash_simple_X (P : Params) (g : Nat → Nat → Byte) {wb : Nat} {c : Cfg wb} (hc : c.OK) (inp : Bytes) (inblocks : Nat) (seeded : Bytes) (addr : Addr) :
    (Sha2.thash_simple_X P g c inp inblocks seeded addr).res = Spx.Sha2.thash_simple_X P g c.toCfg inp inblocks seeded addr := by
  unfold Sha2.thash_simple_X Spx.Sha2.thash_simple_X
  erase
macro_rules | `(tactic| erase_leaf) => `(tactic| with_reducible apply Sha2.erase_thash_simple_X <;> first | assumption | (intros; erase_leaf))

macro_rules | `(tactic| erase_leaf) => `(tactic| (with_reducible refine (Sha2.erase_thash_simple_X (hc := Sha2.ok256) ..).trans ?_); rfl)
macro_rules | `(tactic| erase_leaf) => `(tactic| (with_reducible refine (Sha2.erase_thash_simple_X (hc := Sha2.ok512) ..).trans ?_); rfl)

theorem erase_thash_simple (P : Params) (g : Nat → Nat → Byte) (inp : Bytes) (inblocks : Nat) (ctx : Ctx) (addr : Addr) :
    (Sha2.thash_simple P g inp inblocks ctx addr).res = Spx.Sha2.thash_simple P g inp inblocks ctx addr := by
  unfold Sha2.thash_simple Spx.Sha2.thash_simple
  erase
macro_rules | `(tactic| erase_leaf) => `(tactic| with_reducible apply Sha2.erase_thash_simple)

theorem erase_thash_robust_X (P : Params) (g : Nat → Nat → Byte) {wb : Nat} {c : Cfg wb} (hc : c.OK) (extra : Nat) (inp : Bytes) (inblocks : Nat) (seeded pub_seed : Bytes) (addr : Addr) :
    (Sha2.thash_robust_X P g c extra inp inblocks seeded pub_seed addr).res = Spx.Sha2.thash_robust_X P g c.toCfg extra inp inblocks seeded pub_seed addr := by
  unfold Sha2.thash_robust_X Spx.Sha2.thash_robust_X
  erase
macro_rules | `(tactic| erase_leaf) => `(tactic| with_reducible apply Sha2.erase_thash_robust_X <;> first | assumption | (intros; erase_leaf))

macro_rules | `(tactic| erase_leaf) => `(tactic| (with_reducible refine (Sha2.erase_thash_robust_X (hc := Sha2.ok256) ..).trans ?_); rfl)
macro_rules | `(tactic| erase_leaf) => `(tactic| (with_reducible refine (Sha2.erase_thash_robust_X (hc := Sha2.ok512) ..).trans ?_); rfl)

theorem erase_thash_robust (P : Params) (g : Nat → Nat → Byte) (inp : Bytes) (inblocks : Nat) (ctx : Ctx) (addr : Addr) :
    (Sha2.thash_robust P g inp inblocks ctx addr).res = Spx.Sha2.thash_robust P g inp inblocks ctx addr := by
  unfold Sha2.thash_robust Spx.Sha2.thash_robust
  erase
macro_rules | `(tactic| erase_leaf) => `(tactic| with_reducible apply Sha2.erase_thash_robust)

end Sha2

end Spx.Leak
