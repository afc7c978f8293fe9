import Verif.Model.LeakHaraka
import Verif.Proof.EraseHash
/-! # The definitions of Model/LeakHaraka.lean without the traces are those of the model -/

namespace Spx.Leak

namespace Haraka
open Spx.Haraka

theorem erase_Q8_load {w : Nat} (s : List (BitVec w)) (i : Nat) :
    (Haraka.Q8.load s i).res = Spx.Haraka.Q8.load s i := by
  unfold Haraka.Q8.load Spx.Haraka.Q8.load
  erase
macro_rules | `(tactic| erase_leaf) => `(tactic| with_reducible apply Haraka.erase_Q8_load)

theorem erase_br_dec32le (src : Bytes) :
    (Haraka.br_dec32le src).res = Spx.Haraka.br_dec32le src := by
  unfold Haraka.br_dec32le Spx.Haraka.br_dec32le
  erase
macro_rules | `(tactic| erase_leaf) => `(tactic| with_reducible apply Haraka.erase_br_dec32le)

theorem erase_br_range_dec32le (num : Nat) (src : Bytes) :
    (Haraka.br_range_dec32le num src).res = Spx.Haraka.br_range_dec32le num src := by
  unfold Haraka.br_range_dec32le Spx.Haraka.br_range_dec32le
  erase
macro_rules | `(tactic| erase_leaf) => `(tactic| with_reducible apply Haraka.erase_br_range_dec32le)

theorem erase_br_range_enc32le (num : Nat) (v : List (BitVec 32)) :
    (Haraka.br_range_enc32le num v).res = Spx.Haraka.br_range_enc32le num v := by
  unfold Haraka.br_range_enc32le Spx.Haraka.br_range_enc32le
  erase
macro_rules | `(tactic| erase_leaf) => `(tactic| with_reducible apply Haraka.erase_br_range_enc32le)

theorem erase_slice64 (src : Bytes) :
    (Haraka.slice64 src).res = Spx.Haraka.slice64 src := by
  unfold Haraka.slice64 Spx.Haraka.slice64
  erase
macro_rules | `(tactic| erase_leaf) => `(tactic| with_reducible apply Haraka.erase_slice64)

theorem erase_slice32 (src : Bytes) :
    (Haraka.slice32 src).res = Spx.Haraka.slice32 src := by
  unfold Haraka.slice32 Spx.Haraka.slice32
  erase
macro_rules | `(tactic| erase_leaf) => `(tactic| with_reducible apply Haraka.erase_slice32)

theorem erase_interleave_constant (out : List (BitVec 64)) (i : Nat) (inp : Bytes) :
    (Haraka.interleave_constant out i inp).res = Spx.Haraka.interleave_constant out i inp := by
  unfold Haraka.interleave_constant Spx.Haraka.interleave_constant
  erase
macro_rules | `(tactic| erase_leaf) => `(tactic| with_reducible apply Haraka.erase_interleave_constant)

theorem erase_interleave_constant32 (out : List (BitVec 32)) (i : Nat) (inp : Bytes) :
    (Haraka.interleave_constant32 out i inp).res = Spx.Haraka.interleave_constant32 out i inp := by
  unfold Haraka.interleave_constant32 Spx.Haraka.interleave_constant32
  erase
macro_rules | `(tactic| erase_leaf) => `(tactic| with_reducible apply Haraka.erase_interleave_constant32)

theorem erase_aes64 (rc : List (BitVec 64)) (k : Nat) (q : Q8 64) :
    (Haraka.aes64 rc k q).res = Spx.Haraka.aes64 rc k q := by
  unfold Haraka.aes64 Spx.Haraka.aes64
  erase
macro_rules | `(tactic| erase_leaf) => `(tactic| with_reducible apply Haraka.erase_aes64)

theorem erase_haraka512_perm (inp : Bytes) (ctx : Ctx) :
    (Haraka.haraka512_perm inp ctx).res = Spx.Haraka.haraka512_perm inp ctx := by
  unfold Haraka.haraka512_perm Spx.Haraka.haraka512_perm
  erase
macro_rules | `(tactic| erase_leaf) => `(tactic| with_reducible apply Haraka.erase_haraka512_perm)

theorem erase_haraka512 (inp : Bytes) (ctx : Ctx) :
    (Haraka.haraka512 inp ctx).res = Spx.Haraka.haraka512 inp ctx := by
  unfold Haraka.haraka512 Spx.Haraka.haraka512
  erase
macro_rules | `(tactic| erase_leaf) => `(tactic| with_reducible apply Haraka.erase_haraka512)

theorem erase_aes32 (rc : List (BitVec 32)) (k : Nat) (q : Q8 32) :
    (Haraka.aes32 rc k q).res = Spx.Haraka.aes32 rc k q := by
  unfold Haraka.aes32 Spx.Haraka.aes32
  erase
macro_rules | `(tactic| erase_leaf) => `(tactic| with_reducible apply Haraka.erase_aes32)

theorem erase_haraka256 (inp : Bytes) (ctx : Ctx) :
    (Haraka.haraka256 inp ctx).res = Spx.Haraka.haraka256 inp ctx := by
  unfold Haraka.haraka256 Spx.Haraka.haraka256
  erase
macro_rules | `(tactic| erase_leaf) => `(tactic| with_reducible apply Haraka.erase_haraka256)

theorem erase_haraka_S_absorb_block {perm : Bytes → Ctx → L Bytes} {perm' : Bytes → Ctx → C Bytes} (hp : ∀ s c, (perm s c).res = perm' s c) (r : Nat) (ctx : Ctx) (st : Bytes × Bytes × Nat) :
    (Haraka.haraka_S_absorb_block perm r ctx st).res = Spx.Haraka.haraka_S_absorb_block perm' r ctx st := by
  unfold Haraka.haraka_S_absorb_block Spx.Haraka.haraka_S_absorb_block
  erase
macro_rules | `(tactic| erase_leaf) => `(tactic| with_reducible apply Haraka.erase_haraka_S_absorb_block <;> first | assumption | (intros; erase_leaf))

theorem erase_haraka_S_absorb {perm : Bytes → Ctx → L Bytes} {perm' : Bytes → Ctx → C Bytes} (hp : ∀ s c, (perm s c).res = perm' s c) (g : Nat → Byte) (s : Bytes) (r : Nat) (m : Bytes) (mlen : Nat) (p : Byte) (ctx : Ctx) :
    (Haraka.haraka_S_absorb perm g s r m mlen p ctx).res = Spx.Haraka.haraka_S_absorb perm' g s r m mlen p ctx := by
  unfold Haraka.haraka_S_absorb Spx.Haraka.haraka_S_absorb
  erase
macro_rules | `(tactic| erase_leaf) => `(tactic| with_reducible apply Haraka.erase_haraka_S_absorb <;> first | assumption | (intros; erase_leaf))

theorem erase_haraka_S_squeezeblocks {perm : Bytes → Ctx → L Bytes} {perm' : Bytes → Ctx → C Bytes} (hp : ∀ s c, (perm s c).res = perm' s c) (h : Bytes) (nblocks : Nat) (s : Bytes) (r : Nat) (ctx : Ctx) :
    (Haraka.haraka_S_squeezeblocks perm h nblocks s r ctx).res = Spx.Haraka.haraka_S_squeezeblocks perm' h nblocks s r ctx := by
  unfold Haraka.haraka_S_squeezeblocks Spx.Haraka.haraka_S_squeezeblocks
  erase
macro_rules | `(tactic| erase_leaf) => `(tactic| with_reducible apply Haraka.erase_haraka_S_squeezeblocks <;> first | assumption | (intros; erase_leaf))

theorem erase_haraka_S_inc_init (s_inc : Bytes) :
    (Haraka.haraka_S_inc_init s_inc).res = Spx.Haraka.haraka_S_inc_init s_inc := by
  unfold Haraka.haraka_S_inc_init Spx.Haraka.haraka_S_inc_init
  erase
macro_rules | `(tactic| erase_leaf) => `(tactic| with_reducible apply Haraka.erase_haraka_S_inc_init)

theorem erase_haraka_S_inc_xor (s_inc : Bytes) (m : Bytes) (len : Nat) :
    (Haraka.haraka_S_inc_xor s_inc m len).res = Spx.Haraka.haraka_S_inc_xor s_inc m len := by
  unfold Haraka.haraka_S_inc_xor Spx.Haraka.haraka_S_inc_xor
  erase
macro_rules | `(tactic| erase_leaf) => `(tactic| with_reducible apply Haraka.erase_haraka_S_inc_xor)

theorem erase_haraka_S_inc_absorb_block {perm : Bytes → Ctx → L Bytes} {perm' : Bytes → Ctx → C Bytes} (hp : ∀ s c, (perm s c).res = perm' s c) (ctx : Ctx) (st : Bytes × Bytes × Nat) :
    (Haraka.haraka_S_inc_absorb_block perm ctx st).res = Spx.Haraka.haraka_S_inc_absorb_block perm' ctx st := by
  unfold Haraka.haraka_S_inc_absorb_block Spx.Haraka.haraka_S_inc_absorb_block
  erase
macro_rules | `(tactic| erase_leaf) => `(tactic| with_reducible apply Haraka.erase_haraka_S_inc_absorb_block <;> first | assumption | (intros; erase_leaf))

theorem erase_haraka_S_inc_absorb {perm : Bytes → Ctx → L Bytes} {perm' : Bytes → Ctx → C Bytes} (hp : ∀ s c, (perm s c).res = perm' s c) (s_inc : Bytes) (m : Bytes) (mlen : Nat) (ctx : Ctx) :
    (Haraka.haraka_S_inc_absorb perm s_inc m mlen ctx).res = Spx.Haraka.haraka_S_inc_absorb perm' s_inc m mlen ctx := by
  unfold Haraka.haraka_S_inc_absorb Spx.Haraka.haraka_S_inc_absorb
  erase
macro_rules | `(tactic| erase_leaf) => `(tactic| with_reducible apply Haraka.erase_haraka_S_inc_absorb <;> first | assumption | (intros; erase_leaf))

theorem erase_haraka_S_inc_finalize (s_inc : Bytes) :
    (Haraka.haraka_S_inc_finalize s_inc).res = Spx.Haraka.haraka_S_inc_finalize s_inc := by
  unfold Haraka.haraka_S_inc_finalize Spx.Haraka.haraka_S_inc_finalize
  erase
macro_rules | `(tactic| erase_leaf) => `(tactic| with_reducible apply Haraka.erase_haraka_S_inc_finalize)

theorem erase_haraka_S_inc_squeeze_block {perm : Bytes → Ctx → L Bytes} {perm' : Bytes → Ctx → C Bytes} (hp : ∀ s c, (perm s c).res = perm' s c) (ctx : Ctx) (st : Bytes × Nat × Nat × Bytes) :
    (Haraka.haraka_S_inc_squeeze_block perm ctx st).res = Spx.Haraka.haraka_S_inc_squeeze_block perm' ctx st := by
  unfold Haraka.haraka_S_inc_squeeze_block Spx.Haraka.haraka_S_inc_squeeze_block
  erase
macro_rules | `(tactic| erase_leaf) => `(tactic| with_reducible apply Haraka.erase_haraka_S_inc_squeeze_block <;> first | assumption | (intros; erase_leaf))

theorem erase_haraka_S_inc_squeeze {perm : Bytes → Ctx → L Bytes} {perm' : Bytes → Ctx → C Bytes} (hp : ∀ s c, (perm s c).res = perm' s c) (out : Bytes) (outlen : Nat) (s_inc : Bytes) (ctx : Ctx) :
    (Haraka.haraka_S_inc_squeeze perm out outlen s_inc ctx).res = Spx.Haraka.haraka_S_inc_squeeze perm' out outlen s_inc ctx := by
  unfold Haraka.haraka_S_inc_squeeze Spx.Haraka.haraka_S_inc_squeeze
  erase
macro_rules | `(tactic| erase_leaf) => `(tactic| with_reducible apply Haraka.erase_haraka_S_inc_squeeze <;> first | assumption | (intros; erase_leaf))

theorem erase_haraka_S {perm : Bytes → Ctx → L Bytes} {perm' : Bytes → Ctx → C Bytes} (hp : ∀ s c, (perm s c).res = perm' s c) (g : Nat → Nat → Byte) (out : Bytes) (outlen : Nat) (inp : Bytes) (inlen : Nat) (ctx : Ctx) :
    (Haraka.haraka_S perm g out outlen inp inlen ctx).res = Spx.Haraka.haraka_S perm' g out outlen inp inlen ctx := by
  unfold Haraka.haraka_S Spx.Haraka.haraka_S
  erase
macro_rules | `(tactic| erase_leaf) => `(tactic| with_reducible apply Haraka.erase_haraka_S <;> first | assumption | (intros; erase_leaf))

theorem erase_tweak_constants (g : Nat → Nat → Byte) (n : Nat) (ctx : Ctx) :
    (Haraka.tweak_constants g n ctx).res = Spx.Haraka.tweak_constants g n ctx := by
  unfold Haraka.tweak_constants Spx.Haraka.tweak_constants
  erase
macro_rules | `(tactic| erase_leaf) => `(tactic| with_reducible apply Haraka.erase_tweak_constants)

section
variable (K : Haraka.Lib)

theorem erase_lib_perm (s : Bytes) (c : Ctx) : (K.haraka512_perm s c).res = K.erase.haraka512_perm s c := rfl
macro_rules | `(tactic| erase_leaf) => `(tactic| with_reducible apply Haraka.erase_lib_perm)

theorem erase_lib_512 (s : Bytes) (c : Ctx) : (K.haraka512 s c).res = K.erase.haraka512 s c := rfl
macro_rules | `(tactic| erase_leaf) => `(tactic| with_reducible apply Haraka.erase_lib_512)

theorem erase_lib_256 (s : Bytes) (c : Ctx) : (K.haraka256 s c).res = K.erase.haraka256 s c := rfl
macro_rules | `(tactic| erase_leaf) => `(tactic| with_reducible apply Haraka.erase_lib_256)

theorem erase_lib_S (g : Nat → Nat → Byte) (o : Bytes) (ol : Nat) (i : Bytes) (il : Nat) (c : Ctx) :
    (K.haraka_S g o ol i il c).res = K.erase.haraka_S g o ol i il c := rfl
macro_rules | `(tactic| erase_leaf) => `(tactic| with_reducible apply Haraka.erase_lib_S)

theorem erase_lib_tweak (g : Nat → Nat → Byte) (n : Nat) (c : Ctx) :
    (K.tweak_constants g n c).res = K.erase.tweak_constants g n c := rfl
macro_rules | `(tactic| erase_leaf) => `(tactic| with_reducible apply Haraka.erase_lib_tweak)

end

theorem Lib.erase_ext {K : Haraka.Lib} {K' : Spx.Haraka.Lib}
    (h1 : ∀ s c, (K.haraka512_perm s c).res = K'.haraka512_perm s c)
    (h2 : ∀ s c, (K.haraka512 s c).res = K'.haraka512 s c)
    (h3 : ∀ s c, (K.haraka256 s c).res = K'.haraka256 s c)
    (h4 : ∀ g o ol i il c, (K.haraka_S g o ol i il c).res = K'.haraka_S g o ol i il c)
    (h5 : ∀ g n c, (K.tweak_constants g n c).res = K'.tweak_constants g n c) : K.erase = K' := by
  unfold Haraka.Lib.erase
  cases K'
  congr 1
  · exact funext fun s => funext fun c => h1 s c
  · exact funext fun s => funext fun c => h2 s c
  · exact funext fun s => funext fun c => h3 s c
  · exact funext fun g => funext fun o => funext fun ol => funext fun i => funext fun il => funext fun c =>
      h4 g o ol i il c
  · exact funext fun g => funext fun n => funext fun c => h5 g n c

theorem erase_refLib : Haraka.refLib.erase = Spx.Haraka.refLib := by
  apply Lib.erase_ext
  · exact erase_haraka512_perm
  · exact erase_haraka512
  · exact erase_haraka256
  · exact erase_haraka_S erase_haraka512_perm
  · exact erase_tweak_constants

theorem erase_initialize_hash_function (K : Haraka.Lib) (P : Params) (g : Nat → Nat → Byte) (ctx : Ctx) :
    (Haraka.initialize_hash_function K P g ctx).res = Spx.Haraka.initialize_hash_function K.erase P g ctx := by
  unfold Haraka.initialize_hash_function Spx.Haraka.initialize_hash_function
  erase
macro_rules | `(tactic| erase_leaf) => `(tactic| with_reducible apply Haraka.erase_initialize_hash_function)

theorem erase_prf_addr (K : Haraka.Lib) (P : Params) (ctx : Ctx) (addr : Addr) :
    (Haraka.prf_addr K P ctx addr).res = Spx.Haraka.prf_addr K.erase P ctx addr := by
  unfold Haraka.prf_addr Spx.Haraka.prf_addr
  erase
macro_rules | `(tactic| erase_leaf) => `(tactic| with_reducible apply Haraka.erase_prf_addr)

theorem erase_gen_message_random (K : Haraka.Lib) (P : Params) (g : Nat → Nat → Byte) (sk_prf optrand m : Bytes) (ctx : Ctx) :
    (Haraka.gen_message_random K P g sk_prf optrand m ctx).res = Spx.Haraka.gen_message_random K.erase P g sk_prf optrand m ctx := by
  unfold Haraka.gen_message_random Spx.Haraka.gen_message_random
  erase
macro_rules | `(tactic| erase_leaf) => `(tactic| with_reducible apply Haraka.erase_gen_message_random)

theorem erase_hash_message (K : Haraka.Lib) (P : Params) (g : Nat → Nat → Byte) (R pk m : Bytes) (ctx : Ctx) :
    (Haraka.hash_message K P g R pk m ctx).res = Spx.Haraka.hash_message K.erase P g R pk m ctx := by
  unfold Haraka.hash_message Spx.Haraka.hash_message
  erase
macro_rules | `(tactic| erase_leaf) => `(tactic| with_reducible apply Haraka.erase_hash_message)

theorem erase_thash_simple (K : Haraka.Lib) (P : Params) (g : Nat → Nat → Byte) (inp : Bytes) (inblocks : Nat) (ctx : Ctx) (addr : Addr) :
    (Haraka.thash_simple K P g inp inblocks ctx addr).res = Spx.Haraka.thash_simple K.erase P g inp inblocks ctx addr := by
  unfold Haraka.thash_simple Spx.Haraka.thash_simple
  erase
macro_rules | `(tactic| erase_leaf) => `(tactic| with_reducible apply Haraka.erase_thash_simple)

theorem erase_thash_robust (K : Haraka.Lib) (P : Params) (g : Nat → Nat → Byte) (inp : Bytes) (inblocks : Nat) (ctx : Ctx) (addr : Addr) :
    (Haraka.thash_robust K P g inp inblocks ctx addr).res = Spx.Haraka.thash_robust K.erase P g inp inblocks ctx addr := by
  unfold Haraka.thash_robust Spx.Haraka.thash_robust
  erase
macro_rules | `(tactic| erase_leaf) => `(tactic| with_reducible apply Haraka.erase_thash_robust)

end Haraka

end Spx.Leak
