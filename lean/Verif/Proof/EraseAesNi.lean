import Verif.Model.LeakAesNi
import Verif.Proof.EraseHaraka
import Verif.Proof.EraseParallel
/-! # The definitions of Model/LeakAesNi.lean without the traces are those of the model -/

namespace Spx.Leak

namespace AesNi
open Spx.AesNi

theorem erase_LOAD (b : Bytes) (off : Nat) :
    (AesNi.LOAD b off).res = Spx.AesNi.LOAD b off := by
  unfold AesNi.LOAD Spx.AesNi.LOAD
  erase
macro_rules | `(tactic| erase_leaf) => `(tactic| with_reducible apply AesNi.erase_LOAD)

theorem erase_STORE (b : Bytes) (off : Nat) (r : Bytes) :
    (AesNi.STORE b off r).res = Spx.AesNi.STORE b off r := by
  unfold AesNi.STORE Spx.AesNi.STORE
  erase
macro_rules | `(tactic| erase_leaf) => `(tactic| with_reducible apply AesNi.erase_STORE)

theorem erase_rcAt (rc : Bytes) (k : Nat) :
    (AesNi.rcAt rc k).res = Spx.AesNi.rcAt rc k := by
  unfold AesNi.rcAt Spx.AesNi.rcAt
  erase
macro_rules | `(tactic| erase_leaf) => `(tactic| with_reducible apply AesNi.erase_rcAt)

theorem erase_AES2 (rc : Bytes) (r : Nat) (s : S2) :
    (AesNi.AES2 rc r s).res = Spx.AesNi.AES2 rc r s := by
  unfold AesNi.AES2 Spx.AesNi.AES2
  erase
macro_rules | `(tactic| erase_leaf) => `(tactic| with_reducible apply AesNi.erase_AES2)

theorem erase_AES4 (rc : Bytes) (r : Nat) (s : S4) :
    (AesNi.AES4 rc r s).res = Spx.AesNi.AES4 rc r s := by
  unfold AesNi.AES4 Spx.AesNi.AES4
  erase
macro_rules | `(tactic| erase_leaf) => `(tactic| with_reducible apply AesNi.erase_AES4)

theorem erase_AES2_4x (rc : Bytes) (r : Nat) (s : List S2) :
    (AesNi.AES2_4x rc r s).res = Spx.AesNi.AES2_4x rc r s := by
  unfold AesNi.AES2_4x Spx.AesNi.AES2_4x
  erase
macro_rules | `(tactic| erase_leaf) => `(tactic| with_reducible apply AesNi.erase_AES2_4x)

theorem erase_AES4_4x (rc : Bytes) (r : Nat) (s : List S4) :
    (AesNi.AES4_4x rc r s).res = Spx.AesNi.AES4_4x rc r s := by
  unfold AesNi.AES4_4x Spx.AesNi.AES4_4x
  erase
macro_rules | `(tactic| erase_leaf) => `(tactic| with_reducible apply AesNi.erase_AES4_4x)

theorem erase_load4 (inp : Bytes) (off : Nat) :
    (AesNi.load4 inp off).res = Spx.AesNi.load4 inp off := by
  unfold AesNi.load4 Spx.AesNi.load4
  erase
macro_rules | `(tactic| erase_leaf) => `(tactic| with_reducible apply AesNi.erase_load4)

theorem erase_load2 (inp : Bytes) (off : Nat) :
    (AesNi.load2 inp off).res = Spx.AesNi.load2 inp off := by
  unfold AesNi.load2 Spx.AesNi.load2
  erase
macro_rules | `(tactic| erase_leaf) => `(tactic| with_reducible apply AesNi.erase_load2)

theorem erase_feed4 (inp : Bytes) (off : Nat) (s : S4) :
    (AesNi.feed4 inp off s).res = Spx.AesNi.feed4 inp off s := by
  unfold AesNi.feed4 Spx.AesNi.feed4
  erase
macro_rules | `(tactic| erase_leaf) => `(tactic| with_reducible apply AesNi.erase_feed4)

theorem erase_feed2 (inp : Bytes) (off : Nat) (s : S2) :
    (AesNi.feed2 inp off s).res = Spx.AesNi.feed2 inp off s := by
  unfold AesNi.feed2 Spx.AesNi.feed2
  erase
macro_rules | `(tactic| erase_leaf) => `(tactic| with_reducible apply AesNi.erase_feed2)

theorem erase_rounds4 (rc : Bytes) (s : S4) :
    (AesNi.rounds4 rc s).res = Spx.AesNi.rounds4 rc s := by
  unfold AesNi.rounds4 Spx.AesNi.rounds4
  erase
macro_rules | `(tactic| erase_leaf) => `(tactic| with_reducible apply AesNi.erase_rounds4)

theorem erase_rounds4_4x (rc : Bytes) (s : List S4) :
    (AesNi.rounds4_4x rc s).res = Spx.AesNi.rounds4_4x rc s := by
  unfold AesNi.rounds4_4x Spx.AesNi.rounds4_4x
  erase
macro_rules | `(tactic| erase_leaf) => `(tactic| with_reducible apply AesNi.erase_rounds4_4x)

theorem erase_rounds2 (rc : Bytes) (s : S2) :
    (AesNi.rounds2 rc s).res = Spx.AesNi.rounds2 rc s := by
  unfold AesNi.rounds2 Spx.AesNi.rounds2
  erase
macro_rules | `(tactic| erase_leaf) => `(tactic| with_reducible apply AesNi.erase_rounds2)

theorem erase_rounds2_4x (rc : Bytes) (s : List S2) :
    (AesNi.rounds2_4x rc s).res = Spx.AesNi.rounds2_4x rc s := by
  unfold AesNi.rounds2_4x Spx.AesNi.rounds2_4x
  erase
macro_rules | `(tactic| erase_leaf) => `(tactic| with_reducible apply AesNi.erase_rounds2_4x)

theorem erase_haraka512_perm (inp : Bytes) (ctx : Ctx) :
    (AesNi.haraka512_perm inp ctx).res = Spx.AesNi.haraka512_perm inp ctx := by
  unfold AesNi.haraka512_perm Spx.AesNi.haraka512_perm
  erase
macro_rules | `(tactic| erase_leaf) => `(tactic| with_reducible apply AesNi.erase_haraka512_perm)

theorem erase_haraka512_perm_x4 (inp : Bytes) (ctx : Ctx) :
    (AesNi.haraka512_perm_x4 inp ctx).res = Spx.AesNi.haraka512_perm_x4 inp ctx := by
  unfold AesNi.haraka512_perm_x4 Spx.AesNi.haraka512_perm_x4
  erase
macro_rules | `(tactic| erase_leaf) => `(tactic| with_reducible apply AesNi.erase_haraka512_perm_x4)

theorem erase_haraka512 (inp : Bytes) (ctx : Ctx) :
    (AesNi.haraka512 inp ctx).res = Spx.AesNi.haraka512 inp ctx := by
  unfold AesNi.haraka512 Spx.AesNi.haraka512
  erase
macro_rules | `(tactic| erase_leaf) => `(tactic| with_reducible apply AesNi.erase_haraka512)

theorem erase_haraka512x4 (inp : Bytes) (ctx : Ctx) :
    (AesNi.haraka512x4 inp ctx).res = Spx.AesNi.haraka512x4 inp ctx := by
  unfold AesNi.haraka512x4 Spx.AesNi.haraka512x4
  erase
macro_rules | `(tactic| erase_leaf) => `(tactic| with_reducible apply AesNi.erase_haraka512x4)

theorem erase_haraka256 (inp : Bytes) (ctx : Ctx) :
    (AesNi.haraka256 inp ctx).res = Spx.AesNi.haraka256 inp ctx := by
  unfold AesNi.haraka256 Spx.AesNi.haraka256
  erase
macro_rules | `(tactic| erase_leaf) => `(tactic| with_reducible apply AesNi.erase_haraka256)

theorem erase_haraka256x4 (inp : Bytes) (ctx : Ctx) :
    (AesNi.haraka256x4 inp ctx).res = Spx.AesNi.haraka256x4 inp ctx := by
  unfold AesNi.haraka256x4 Spx.AesNi.haraka256x4
  erase
macro_rules | `(tactic| erase_leaf) => `(tactic| with_reducible apply AesNi.erase_haraka256x4)

theorem erase_xorBlock (s : Bytes) (off : Nat) (m : Bytes) :
    (AesNi.xorBlock s off m).res = Spx.AesNi.xorBlock s off m := by
  unfold AesNi.xorBlock Spx.AesNi.xorBlock
  erase
macro_rules | `(tactic| erase_leaf) => `(tactic| with_reducible apply AesNi.erase_xorBlock)

theorem erase_xorBlocks (k : Nat) (s : Bytes) (ms : List Bytes) :
    (AesNi.xorBlocks k s ms).res = Spx.AesNi.xorBlocks k s ms := by
  unfold AesNi.xorBlocks Spx.AesNi.xorBlocks
  erase
macro_rules | `(tactic| erase_leaf) => `(tactic| with_reducible apply AesNi.erase_xorBlocks)

theorem erase_haraka_S_absorbx_block (k : Nat) {perm : Bytes → Ctx → L Bytes} {perm' : Bytes → Ctx → C Bytes} (hperm : ∀ s c, (perm s c).res = perm' s c) (r : Nat) (ctx : Ctx) (st : Bytes × List Bytes × Nat) :
    (AesNi.haraka_S_absorbx_block k perm r ctx st).res = Spx.AesNi.haraka_S_absorbx_block k perm' r ctx st := by
  unfold AesNi.haraka_S_absorbx_block Spx.AesNi.haraka_S_absorbx_block
  erase
macro_rules | `(tactic| erase_leaf) => `(tactic| with_reducible apply AesNi.erase_haraka_S_absorbx_block <;> first | assumption | (intros; erase_leaf))

theorem erase_haraka_S_last (g : Nat → Byte) (r : Nat) (m : Bytes) (mlen : Nat) (p : Byte) :
    (AesNi.haraka_S_last g r m mlen p).res = Spx.AesNi.haraka_S_last g r m mlen p := by
  unfold AesNi.haraka_S_last Spx.AesNi.haraka_S_last
  erase
macro_rules | `(tactic| erase_leaf) => `(tactic| with_reducible apply AesNi.erase_haraka_S_last)

theorem erase_haraka_S_absorbx (k : Nat) {perm : Bytes → Ctx → L Bytes} {perm' : Bytes → Ctx → C Bytes} (hperm : ∀ s c, (perm s c).res = perm' s c) (g : Nat → Nat → Byte) (s : Bytes) (r : Nat) (ms : List Bytes) (mlen : Nat) (p : Byte) (ctx : Ctx) :
    (AesNi.haraka_S_absorbx k perm g s r ms mlen p ctx).res = Spx.AesNi.haraka_S_absorbx k perm' g s r ms mlen p ctx := by
  unfold AesNi.haraka_S_absorbx Spx.AesNi.haraka_S_absorbx
  erase
macro_rules | `(tactic| erase_leaf) => `(tactic| with_reducible apply AesNi.erase_haraka_S_absorbx <;> first | assumption | (intros; erase_leaf))

theorem erase_haraka_S_squeezeblocksx (k : Nat) {perm : Bytes → Ctx → L Bytes} {perm' : Bytes → Ctx → C Bytes} (hperm : ∀ s c, (perm s c).res = perm' s c) (hs : List Bytes) (nblocks : Nat) (s : Bytes) (r : Nat) (ctx : Ctx) :
    (AesNi.haraka_S_squeezeblocksx k perm hs nblocks s r ctx).res = Spx.AesNi.haraka_S_squeezeblocksx k perm' hs nblocks s r ctx := by
  unfold AesNi.haraka_S_squeezeblocksx Spx.AesNi.haraka_S_squeezeblocksx
  erase
macro_rules | `(tactic| erase_leaf) => `(tactic| with_reducible apply AesNi.erase_haraka_S_squeezeblocksx <;> first | assumption | (intros; erase_leaf))

theorem erase_haraka_Sx (k : Nat) {perm : Bytes → Ctx → L Bytes} {perm' : Bytes → Ctx → C Bytes} (hperm : ∀ s c, (perm s c).res = perm' s c) (g : Nat → Nat → Byte) (outs : List Bytes) (outlen : Nat) (ins : List Bytes) (inlen : Nat) (ctx : Ctx) :
    (AesNi.haraka_Sx k perm g outs outlen ins inlen ctx).res = Spx.AesNi.haraka_Sx k perm' g outs outlen ins inlen ctx := by
  unfold AesNi.haraka_Sx Spx.AesNi.haraka_Sx
  erase
macro_rules | `(tactic| erase_leaf) => `(tactic| with_reducible apply AesNi.erase_haraka_Sx <;> first | assumption | (intros; erase_leaf))

theorem erase_haraka_S (g : Nat → Nat → Byte) (out : Bytes) (outlen : Nat) (inp : Bytes) (inlen : Nat) (ctx : Ctx) :
    (AesNi.haraka_S g out outlen inp inlen ctx).res = Spx.AesNi.haraka_S g out outlen inp inlen ctx := by
  unfold AesNi.haraka_S Spx.AesNi.haraka_S
  erase
macro_rules | `(tactic| erase_leaf) => `(tactic| with_reducible apply AesNi.erase_haraka_S)

theorem erase_haraka_Sx4 (g : Nat → Nat → Byte) (outs : List Bytes) (outlen : Nat) (ins : List Bytes) (inlen : Nat) (ctx : Ctx) :
    (AesNi.haraka_Sx4 g outs outlen ins inlen ctx).res = Spx.AesNi.haraka_Sx4 g outs outlen ins inlen ctx := by
  unfold AesNi.haraka_Sx4 Spx.AesNi.haraka_Sx4
  exact erase_haraka_Sx 4 erase_haraka512_perm_x4 ..
macro_rules | `(tactic| erase_leaf) => `(tactic| with_reducible apply AesNi.erase_haraka_Sx4)

theorem erase_load_haraka_constants (rc : Bytes) :
    (AesNi.load_haraka_constants rc).res = Spx.AesNi.load_haraka_constants rc := by
  unfold AesNi.load_haraka_constants Spx.AesNi.load_haraka_constants
  erase
macro_rules | `(tactic| erase_leaf) => `(tactic| with_reducible apply AesNi.erase_load_haraka_constants)

theorem erase_tweak_constants (g : Nat → Nat → Byte) (n : Nat) (ctx : Ctx) :
    (AesNi.tweak_constants g n ctx).res = Spx.AesNi.tweak_constants g n ctx := by
  unfold AesNi.tweak_constants Spx.AesNi.tweak_constants
  erase
macro_rules | `(tactic| erase_leaf) => `(tactic| with_reducible apply AesNi.erase_tweak_constants)

theorem erase_outs32 (P : Params) (outbuf : Bytes) :
    (AesNi.outs32 P outbuf).res = Spx.AesNi.outs32 P outbuf := by
  unfold AesNi.outs32 Spx.AesNi.outs32
  erase
macro_rules | `(tactic| erase_leaf) => `(tactic| with_reducible apply AesNi.erase_outs32)

theorem erase_prf_addrx4 (P : Params) (ctx : Ctx) (addrs : List Addr) :
    (AesNi.prf_addrx4 P ctx addrs).res = Spx.AesNi.prf_addrx4 P ctx addrs := by
  unfold AesNi.prf_addrx4 Spx.AesNi.prf_addrx4
  erase
macro_rules | `(tactic| erase_leaf) => `(tactic| with_reducible apply AesNi.erase_prf_addrx4)

theorem erase_thashx4_simple (P : Params) (g : Nat → Nat → Byte) (ins : List Bytes) (inblocks : Nat) (ctx : Ctx) (addrs : List Addr) :
    (AesNi.thashx4_simple P g ins inblocks ctx addrs).res = Spx.AesNi.thashx4_simple P g ins inblocks ctx addrs := by
  unfold AesNi.thashx4_simple Spx.AesNi.thashx4_simple
  erase
macro_rules | `(tactic| erase_leaf) => `(tactic| with_reducible apply AesNi.erase_thashx4_simple)

theorem erase_thashx4_robust (P : Params) (g : Nat → Nat → Byte) (ins : List Bytes) (inblocks : Nat) (ctx : Ctx) (addrs : List Addr) :
    (AesNi.thashx4_robust P g ins inblocks ctx addrs).res = Spx.AesNi.thashx4_robust P g ins inblocks ctx addrs := by
  unfold AesNi.thashx4_robust Spx.AesNi.thashx4_robust
  erase
macro_rules | `(tactic| erase_leaf) => `(tactic| with_reducible apply AesNi.erase_thashx4_robust)

theorem erase_lib : AesNi.lib.erase = Spx.AesNi.lib := by
  apply Haraka.Lib.erase_ext
  · exact erase_haraka512_perm
  · exact erase_haraka512
  · exact erase_haraka256
  · exact erase_haraka_S
  · exact erase_tweak_constants

theorem erase_impl (P : Params) (g : Nat → Nat → Byte) : (AesNi.impl P g).erase = Spx.AesNi.impl P g := by
  unfold AesNi.impl Spx.AesNi.impl
  rw [Haraka.erase_implWith, erase_lib]

theorem erase_lanes (P : Params) (g : Nat → Nat → Byte) : (AesNi.lanes P g).erase = Spx.AesNi.lanes P g := by
  apply LaneHash.erase_ext
  · exact erase_prf_addrx4 P
  · intro i b c a
    simp only [AesNi.lanes, Spx.AesNi.lanes]
    split
    · exact erase_thashx4_robust P g i b c a
    · exact erase_thashx4_simple P g i b c a

end AesNi

end Spx.Leak
