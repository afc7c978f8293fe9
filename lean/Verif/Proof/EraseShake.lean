import Verif.Model.LeakShake
import Verif.Proof.EraseHash
/-! # The definitions of Model/LeakShake.lean without the traces are those of the model -/

namespace Spx.Leak

theorem erase_load64 (x : Bytes) :
    (load64 x).res = Spx.load64 x := by
  unfold load64 Spx.load64
  erase
macro_rules | `(tactic| erase_leaf) => `(tactic| with_reducible apply erase_load64)

theorem erase_store64 (x : Bytes) (u : BitVec 64) :
    (store64 x u).res = Spx.store64 x u := by
  unfold store64 Spx.store64
  erase
macro_rules | `(tactic| erase_leaf) => `(tactic| with_reducible apply erase_store64)

theorem erase_keccak_loop_body (i : Nat) (A : Lanes) :
    (keccak_loop_body i A).res = Spx.keccak_loop_body i A := by
  unfold keccak_loop_body Spx.keccak_loop_body
  erase
macro_rules | `(tactic| erase_leaf) => `(tactic| with_reducible apply erase_keccak_loop_body)

theorem erase_Lanes_load (s : List (BitVec 64)) :
    (Lanes.load s).res = Spx.Lanes.load s := by
  unfold Lanes.load Spx.Lanes.load
  erase
macro_rules | `(tactic| erase_leaf) => `(tactic| with_reducible apply erase_Lanes_load)

theorem erase_KeccakF1600_StatePermute (state : List (BitVec 64)) :
    (KeccakF1600_StatePermute state).res = Spx.KeccakF1600_StatePermute state := by
  unfold KeccakF1600_StatePermute Spx.KeccakF1600_StatePermute
  erase
macro_rules | `(tactic| erase_leaf) => `(tactic| with_reducible apply erase_KeccakF1600_StatePermute)

theorem erase_keccak_absorb_block (r : Nat) (st : List (BitVec 64) × Bytes × Nat) :
    (keccak_absorb_block r st).res = Spx.keccak_absorb_block r st := by
  unfold keccak_absorb_block Spx.keccak_absorb_block
  erase
macro_rules | `(tactic| erase_leaf) => `(tactic| with_reducible apply erase_keccak_absorb_block)

theorem erase_keccak_absorb (g : Nat → Byte) (s : List (BitVec 64)) (r : Nat) (m : Bytes) (mlen : Nat) (p : Byte) :
    (keccak_absorb g s r m mlen p).res = Spx.keccak_absorb g s r m mlen p := by
  unfold keccak_absorb Spx.keccak_absorb
  erase
macro_rules | `(tactic| erase_leaf) => `(tactic| with_reducible apply erase_keccak_absorb)

theorem erase_keccak_squeezeblocks (h : Bytes) (nblocks : Nat) (s : List (BitVec 64)) (r : Nat) :
    (keccak_squeezeblocks h nblocks s r).res = Spx.keccak_squeezeblocks h nblocks s r := by
  unfold keccak_squeezeblocks Spx.keccak_squeezeblocks
  erase
macro_rules | `(tactic| erase_leaf) => `(tactic| with_reducible apply erase_keccak_squeezeblocks)

theorem erase_keccak_inc_init (s_inc : List (BitVec 64)) :
    (keccak_inc_init s_inc).res = Spx.keccak_inc_init s_inc := by
  unfold keccak_inc_init Spx.keccak_inc_init
  erase
macro_rules | `(tactic| erase_leaf) => `(tactic| with_reducible apply erase_keccak_inc_init)

theorem erase_keccak_xor_byte (s_inc : List (BitVec 64)) (k : Nat) (b : Byte) :
    (keccak_xor_byte s_inc k b).res = Spx.keccak_xor_byte s_inc k b := by
  unfold keccak_xor_byte Spx.keccak_xor_byte
  erase
macro_rules | `(tactic| erase_leaf) => `(tactic| with_reducible apply erase_keccak_xor_byte)

theorem erase_keccak_inc_xor (s_inc : List (BitVec 64)) (m : Bytes) (len : Nat) :
    (keccak_inc_xor s_inc m len).res = Spx.keccak_inc_xor s_inc m len := by
  unfold keccak_inc_xor Spx.keccak_inc_xor
  erase
macro_rules | `(tactic| erase_leaf) => `(tactic| with_reducible apply erase_keccak_inc_xor)

theorem erase_keccak_inc_absorb_block (r : Nat) (st : List (BitVec 64) × Bytes × Nat) :
    (keccak_inc_absorb_block r st).res = Spx.keccak_inc_absorb_block r st := by
  unfold keccak_inc_absorb_block Spx.keccak_inc_absorb_block
  erase
macro_rules | `(tactic| erase_leaf) => `(tactic| with_reducible apply erase_keccak_inc_absorb_block)

theorem erase_keccak_inc_absorb (s_inc : List (BitVec 64)) (r : Nat) (m : Bytes) (mlen : Nat) :
    (keccak_inc_absorb s_inc r m mlen).res = Spx.keccak_inc_absorb s_inc r m mlen := by
  unfold keccak_inc_absorb Spx.keccak_inc_absorb
  erase
macro_rules | `(tactic| erase_leaf) => `(tactic| with_reducible apply erase_keccak_inc_absorb)

theorem erase_keccak_inc_finalize (s_inc : List (BitVec 64)) (r : Nat) (p : Byte) :
    (keccak_inc_finalize s_inc r p).res = Spx.keccak_inc_finalize s_inc r p := by
  unfold keccak_inc_finalize Spx.keccak_inc_finalize
  erase
macro_rules | `(tactic| erase_leaf) => `(tactic| with_reducible apply erase_keccak_inc_finalize)

theorem erase_keccak_get_byte (s_inc : List (BitVec 64)) (k : Nat) :
    (keccak_get_byte s_inc k).res = Spx.keccak_get_byte s_inc k := by
  unfold keccak_get_byte Spx.keccak_get_byte
  erase
macro_rules | `(tactic| erase_leaf) => `(tactic| with_reducible apply erase_keccak_get_byte)

theorem erase_keccak_inc_squeeze_block (r : Nat) (st : Bytes × Nat × Nat × List (BitVec 64)) :
    (keccak_inc_squeeze_block r st).res = Spx.keccak_inc_squeeze_block r st := by
  unfold keccak_inc_squeeze_block Spx.keccak_inc_squeeze_block
  erase
macro_rules | `(tactic| erase_leaf) => `(tactic| with_reducible apply erase_keccak_inc_squeeze_block)

theorem erase_keccak_inc_squeeze (h : Bytes) (outlen : Nat) (s_inc : List (BitVec 64)) (r : Nat) :
    (keccak_inc_squeeze h outlen s_inc r).res = Spx.keccak_inc_squeeze h outlen s_inc r := by
  unfold keccak_inc_squeeze Spx.keccak_inc_squeeze
  erase
macro_rules | `(tactic| erase_leaf) => `(tactic| with_reducible apply erase_keccak_inc_squeeze)

theorem erase_shake256_inc_init (s_inc : List (BitVec 64)) :
    (shake256_inc_init s_inc).res = Spx.shake256_inc_init s_inc := by
  unfold shake256_inc_init Spx.shake256_inc_init
  erase
macro_rules | `(tactic| erase_leaf) => `(tactic| with_reducible apply erase_shake256_inc_init)

theorem erase_shake256_inc_absorb (s_inc : List (BitVec 64)) (input : Bytes) (inlen : Nat) :
    (shake256_inc_absorb s_inc input inlen).res = Spx.shake256_inc_absorb s_inc input inlen := by
  unfold shake256_inc_absorb Spx.shake256_inc_absorb
  erase
macro_rules | `(tactic| erase_leaf) => `(tactic| with_reducible apply erase_shake256_inc_absorb)

theorem erase_shake256_inc_finalize (s_inc : List (BitVec 64)) :
    (shake256_inc_finalize s_inc).res = Spx.shake256_inc_finalize s_inc := by
  unfold shake256_inc_finalize Spx.shake256_inc_finalize
  erase
macro_rules | `(tactic| erase_leaf) => `(tactic| with_reducible apply erase_shake256_inc_finalize)

theorem erase_shake256_inc_squeeze (output : Bytes) (outlen : Nat) (s_inc : List (BitVec 64)) :
    (shake256_inc_squeeze output outlen s_inc).res = Spx.shake256_inc_squeeze output outlen s_inc := by
  unfold shake256_inc_squeeze Spx.shake256_inc_squeeze
  erase
macro_rules | `(tactic| erase_leaf) => `(tactic| with_reducible apply erase_shake256_inc_squeeze)

theorem erase_shake256_absorb (g : Nat → Byte) (s : List (BitVec 64)) (input : Bytes) (inlen : Nat) :
    (shake256_absorb g s input inlen).res = Spx.shake256_absorb g s input inlen := by
  unfold shake256_absorb Spx.shake256_absorb
  erase
macro_rules | `(tactic| erase_leaf) => `(tactic| with_reducible apply erase_shake256_absorb)

theorem erase_shake256_squeezeblocks (output : Bytes) (nblocks : Nat) (s : List (BitVec 64)) :
    (shake256_squeezeblocks output nblocks s).res = Spx.shake256_squeezeblocks output nblocks s := by
  unfold shake256_squeezeblocks Spx.shake256_squeezeblocks
  erase
macro_rules | `(tactic| erase_leaf) => `(tactic| with_reducible apply erase_shake256_squeezeblocks)

theorem erase_shake256 (g : Nat → Nat → Byte) (output : Bytes) (outlen : Nat) (input : Bytes) (inlen : Nat) :
    (shake256 g output outlen input inlen).res = Spx.shake256 g output outlen input inlen := by
  unfold shake256 Spx.shake256
  erase
macro_rules | `(tactic| erase_leaf) => `(tactic| with_reducible apply erase_shake256)

namespace Shake
open Spx.Shake

theorem erase_initialize_hash_function (ctx : Ctx) :
    (Shake.initialize_hash_function ctx).res = Spx.Shake.initialize_hash_function ctx := by
  unfold Shake.initialize_hash_function Spx.Shake.initialize_hash_function
  erase
macro_rules | `(tactic| erase_leaf) => `(tactic| with_reducible apply Shake.erase_initialize_hash_function)

theorem erase_prf_addr (P : Params) (g : Nat → Nat → Byte) (ctx : Ctx) (addr : Addr) :
    (Shake.prf_addr P g ctx addr).res = Spx.Shake.prf_addr P g ctx addr := by
  unfold Shake.prf_addr Spx.Shake.prf_addr
  erase
macro_rules | `(tactic| erase_leaf) => `(tactic| with_reducible apply Shake.erase_prf_addr)

theorem erase_gen_message_random (P : Params) (g : Nat → Nat → Byte) (sk_prf optrand m : Bytes) (_ctx : Ctx) :
    (Shake.gen_message_random P g sk_prf optrand m _ctx).res = Spx.Shake.gen_message_random P g sk_prf optrand m _ctx := by
  unfold Shake.gen_message_random Spx.Shake.gen_message_random
  erase
macro_rules | `(tactic| erase_leaf) => `(tactic| with_reducible apply Shake.erase_gen_message_random)

theorem erase_hash_message (P : Params) (g : Nat → Nat → Byte) (R pk m : Bytes) (_ctx : Ctx) :
    (Shake.hash_message P g R pk m _ctx).res = Spx.Shake.hash_message P g R pk m _ctx := by
  unfold Shake.hash_message Spx.Shake.hash_message
  erase
macro_rules | `(tactic| erase_leaf) => `(tactic| with_reducible apply Shake.erase_hash_message)

theorem erase_thash_simple (P : Params) (g : Nat → Nat → Byte) (inp : Bytes) (inblocks : Nat) (ctx : Ctx) (addr : Addr) :
    (Shake.thash_simple P g inp inblocks ctx addr).res = Spx.Shake.thash_simple P g inp inblocks ctx addr := by
  unfold Shake.thash_simple Spx.Shake.thash_simple
  erase
macro_rules | `(tactic| erase_leaf) => `(tactic| with_reducible apply Shake.erase_thash_simple)

theorem erase_thash_robust (P : Params) (g : Nat → Nat → Byte) (inp : Bytes) (inblocks : Nat) (ctx : Ctx) (addr : Addr) :
    (Shake.thash_robust P g inp inblocks ctx addr).res = Spx.Shake.thash_robust P g inp inblocks ctx addr := by
  unfold Shake.thash_robust Spx.Shake.thash_robust
  erase
macro_rules | `(tactic| erase_leaf) => `(tactic| with_reducible apply Shake.erase_thash_robust)

end Shake

end Spx.Leak
