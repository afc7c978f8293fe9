import Verif.Model.LeakShakeX
import Verif.Proof.EraseShake
import Verif.Proof.EraseParallel
/-! # The definitions of Model/LeakShakeX.lean without the traces are those of the model -/

namespace Spx.Leak

theorem erase_getw (ln : Nat) (s : List (BitVec 64)) (i : Nat) :
    (Leak.getw ln s i).res = Spx.getw ln s i := by
  unfold Leak.getw Spx.getw
  erase
macro_rules | `(tactic| erase_leaf) => `(tactic| with_reducible apply erase_getw)

theorem erase_setw (ln : Nat) (s : List (BitVec 64)) (i : Nat) (w : VReg) :
    (Leak.setw ln s i w).res = Spx.setw ln s i w := by
  unfold Leak.setw Spx.setw
  erase
macro_rules | `(tactic| erase_leaf) => `(tactic| with_reducible apply erase_setw)

theorem erase_VLanes_load (ln : Nat) (s : List (BitVec 64)) :
    (Leak.VLanes.load ln s).res = Spx.VLanes.load ln s := by
  unfold Leak.VLanes.load Spx.VLanes.load
  erase
macro_rules | `(tactic| erase_leaf) => `(tactic| with_reducible apply erase_VLanes_load)

theorem erase_VLanes_store (ln : Nat) (A : VLanes) (s : List (BitVec 64)) :
    (Leak.VLanes.store ln A s).res = Spx.VLanes.store ln A s := by
  unfold Leak.VLanes.store Spx.VLanes.store
  erase
macro_rules | `(tactic| erase_leaf) => `(tactic| with_reducible apply erase_VLanes_store)

theorem erase_f1600x2 (s : List (BitVec 64)) :
    (Leak.f1600x2 s).res = Spx.f1600x2 s := by
  unfold Leak.f1600x2 Spx.f1600x2
  erase
macro_rules | `(tactic| erase_leaf) => `(tactic| with_reducible apply erase_f1600x2)

theorem erase_KeccakP1600times4_PermuteAll_24rounds (s : List (BitVec 64)) :
    (Leak.KeccakP1600times4_PermuteAll_24rounds s).res = Spx.KeccakP1600times4_PermuteAll_24rounds s := by
  unfold Leak.KeccakP1600times4_PermuteAll_24rounds Spx.KeccakP1600times4_PermuteAll_24rounds
  erase
macro_rules | `(tactic| erase_leaf) => `(tactic| with_reducible apply erase_KeccakP1600times4_PermuteAll_24rounds)

theorem erase_ldLanes (ln : Nat) (ms : List Bytes) (i : Nat) :
    (Leak.ldLanes ln ms i).res = Spx.ldLanes ln ms i := by
  unfold Leak.ldLanes Spx.ldLanes
  erase
macro_rules | `(tactic| erase_leaf) => `(tactic| with_reducible apply erase_ldLanes)

theorem erase_addrWord (addr : Addr) (k : Nat) :
    (Leak.addrWord addr k).res = Spx.addrWord addr k := by
  unfold Leak.addrWord Spx.addrWord
  erase
macro_rules | `(tactic| erase_leaf) => `(tactic| with_reducible apply erase_addrWord)

theorem erase_addrLanes (ln : Nat) (addrs : List Addr) (i : Nat) :
    (Leak.addrLanes ln addrs i).res = Spx.addrLanes ln addrs i := by
  unfold Leak.addrLanes Spx.addrLanes
  erase
macro_rules | `(tactic| erase_leaf) => `(tactic| with_reducible apply erase_addrLanes)

theorem erase_xorLanes (ln r : Nat) (s : List (BitVec 64)) (ms : List Bytes) :
    (Leak.xorLanes ln r s ms).res = Spx.xorLanes ln r s ms := by
  unfold Leak.xorLanes Spx.xorLanes
  erase
macro_rules | `(tactic| erase_leaf) => `(tactic| with_reducible apply erase_xorLanes)

theorem erase_keccak_absorbx_block (ln : Nat) {perm : List (BitVec 64) → L (List (BitVec 64))} {perm' : List (BitVec 64) → C (List (BitVec 64))} (hperm : ∀ a, (perm a).res = perm' a) (r : Nat) (st : List (BitVec 64) × List Bytes × Nat) :
    (Leak.keccak_absorbx_block ln perm r st).res = Spx.keccak_absorbx_block ln perm' r st := by
  unfold Leak.keccak_absorbx_block Spx.keccak_absorbx_block
  erase
macro_rules | `(tactic| erase_leaf) => `(tactic| with_reducible apply erase_keccak_absorbx_block <;> first | assumption | (intros; erase_leaf))

theorem erase_keccak_absorbx_last (g : Nat → Byte) (r : Nat) (m : Bytes) (mlen : Nat) (p : Byte) :
    (Leak.keccak_absorbx_last g r m mlen p).res = Spx.keccak_absorbx_last g r m mlen p := by
  unfold Leak.keccak_absorbx_last Spx.keccak_absorbx_last
  erase
macro_rules | `(tactic| erase_leaf) => `(tactic| with_reducible apply erase_keccak_absorbx_last)

theorem erase_keccak_absorbx (ln : Nat) {perm : List (BitVec 64) → L (List (BitVec 64))} {perm' : List (BitVec 64) → C (List (BitVec 64))} (hperm : ∀ a, (perm a).res = perm' a) (g : Nat → Nat → Byte) (s : List (BitVec 64)) (r : Nat) (ms : List Bytes) (mlen : Nat) (p : Byte) :
    (Leak.keccak_absorbx ln perm g s r ms mlen p).res = Spx.keccak_absorbx ln perm' g s r ms mlen p := by
  unfold Leak.keccak_absorbx Spx.keccak_absorbx
  erase
macro_rules | `(tactic| erase_leaf) => `(tactic| with_reducible apply erase_keccak_absorbx <;> first | assumption | (intros; erase_leaf))

theorem erase_storeLane (ln : Nat) (s : List (BitVec 64)) (j k : Nat) (h : Bytes) :
    (Leak.storeLane ln s j k h).res = Spx.storeLane ln s j k h := by
  unfold Leak.storeLane Spx.storeLane
  erase
macro_rules | `(tactic| erase_leaf) => `(tactic| with_reducible apply erase_storeLane)

theorem erase_keccak_squeezeblocksx (ln : Nat) {perm : List (BitVec 64) → L (List (BitVec 64))} {perm' : List (BitVec 64) → C (List (BitVec 64))} (hperm : ∀ a, (perm a).res = perm' a) (hs : List Bytes) (nblocks : Nat) (s : List (BitVec 64)) (r : Nat) :
    (Leak.keccak_squeezeblocksx ln perm hs nblocks s r).res = Spx.keccak_squeezeblocksx ln perm' hs nblocks s r := by
  unfold Leak.keccak_squeezeblocksx Spx.keccak_squeezeblocksx
  erase
macro_rules | `(tactic| erase_leaf) => `(tactic| with_reducible apply erase_keccak_squeezeblocksx <;> first | assumption | (intros; erase_leaf))

theorem erase_shake256x (ln : Nat) {perm : List (BitVec 64) → L (List (BitVec 64))} {perm' : List (BitVec 64) → C (List (BitVec 64))} (hperm : ∀ a, (perm a).res = perm' a) (g : Nat → Nat → Byte) (s : List (BitVec 64)) (outs : List Bytes) (outlen : Nat) (ins : List Bytes) (inlen : Nat) :
    (Leak.shake256x ln perm g s outs outlen ins inlen).res = Spx.shake256x ln perm' g s outs outlen ins inlen := by
  unfold Leak.shake256x Spx.shake256x
  erase
macro_rules | `(tactic| erase_leaf) => `(tactic| with_reducible apply erase_shake256x <;> first | assumption | (intros; erase_leaf))

theorem erase_shake256x2 (g : Nat → Nat → Byte) (outs : List Bytes) (outlen : Nat) (ins : List Bytes) (inlen : Nat) :
    (Leak.shake256x2 g outs outlen ins inlen).res = Spx.shake256x2 g outs outlen ins inlen := by
  unfold Leak.shake256x2 Spx.shake256x2
  exact erase_shake256x 2 erase_f1600x2 ..
macro_rules | `(tactic| erase_leaf) => `(tactic| with_reducible apply erase_shake256x2)

theorem erase_shake256x4 (g : Nat → Nat → Byte) (outs : List Bytes) (outlen : Nat) (ins : List Bytes) (inlen : Nat) :
    (Leak.shake256x4 g outs outlen ins inlen).res = Spx.shake256x4 g outs outlen ins inlen := by
  unfold Leak.shake256x4 Spx.shake256x4
  erase
macro_rules | `(tactic| erase_leaf) => `(tactic| with_reducible apply erase_shake256x4)

theorem erase_thashx_simple_long (ln : Nat) {shk : List Bytes → Nat → List Bytes → Nat → L (List Bytes)} {shk' : List Bytes → Nat → List Bytes → Nat → C (List Bytes)} (hshk : ∀ a b c d, (shk a b c d).res = shk' a b c d) (P : Params) (g : Nat → Nat → Byte) (ins : List Bytes) (inblocks : Nat) (ctx : Ctx) (addrs : List Addr) :
    (Leak.thashx_simple_long ln shk P g ins inblocks ctx addrs).res = Spx.thashx_simple_long ln shk' P g ins inblocks ctx addrs := by
  unfold Leak.thashx_simple_long Spx.thashx_simple_long
  erase
macro_rules | `(tactic| erase_leaf) => `(tactic| with_reducible apply erase_thashx_simple_long <;> first | assumption | (intros; erase_leaf))

theorem erase_thashx_robust_long (ln : Nat) {shk : List Bytes → Nat → List Bytes → Nat → L (List Bytes)} {shk' : List Bytes → Nat → List Bytes → Nat → C (List Bytes)} (hshk : ∀ a b c d, (shk a b c d).res = shk' a b c d) (P : Params) (g : Nat → Nat → Byte) (ins : List Bytes) (inblocks : Nat) (ctx : Ctx) (addrs : List Addr) :
    (Leak.thashx_robust_long ln shk P g ins inblocks ctx addrs).res = Spx.thashx_robust_long ln shk' P g ins inblocks ctx addrs := by
  unfold Leak.thashx_robust_long Spx.thashx_robust_long
  erase
macro_rules | `(tactic| erase_leaf) => `(tactic| with_reducible apply erase_thashx_robust_long <;> first | assumption | (intros; erase_leaf))

theorem erase_seedLanes (ln n at0 : Nat) (seed : Bytes) (s : List (BitVec 64)) :
    (Leak.seedLanes ln n at0 seed s).res = Spx.seedLanes ln n at0 seed s := by
  unfold Leak.seedLanes Spx.seedLanes
  erase
macro_rules | `(tactic| erase_leaf) => `(tactic| with_reducible apply erase_seedLanes)

theorem erase_putAddrs (ln at0 : Nat) (addrs : List Addr) (s : List (BitVec 64)) :
    (Leak.putAddrs ln at0 addrs s).res = Spx.putAddrs ln at0 addrs s := by
  unfold Leak.putAddrs Spx.putAddrs
  erase
macro_rules | `(tactic| erase_leaf) => `(tactic| with_reducible apply erase_putAddrs)

theorem erase_outLanes (ln n : Nat) (g : Nat → Nat → Byte) (s : List (BitVec 64)) :
    (Leak.outLanes ln n g s).res = Spx.outLanes ln n g s := by
  unfold Leak.outLanes Spx.outLanes
  erase
macro_rules | `(tactic| erase_leaf) => `(tactic| with_reducible apply erase_outLanes)

theorem erase_zeroWords (ln a b : Nat) (s : List (BitVec 64)) :
    (Leak.zeroWords ln a b s).res = Spx.zeroWords ln a b s := by
  unfold Leak.zeroWords Spx.zeroWords
  erase
macro_rules | `(tactic| erase_leaf) => `(tactic| with_reducible apply erase_zeroWords)

theorem erase_xorWord (ln : Nat) (s : List (BitVec 64)) (i : Nat) (w : BitVec 64) :
    (Leak.xorWord ln s i w).res = Spx.xorWord ln s i w := by
  unfold Leak.xorWord Spx.xorWord
  erase
macro_rules | `(tactic| erase_leaf) => `(tactic| with_reducible apply erase_xorWord)

namespace A64

theorem erase_prf_addrx2 (P : Params) (g : Nat → Nat → Byte) (ctx : Ctx) (addrs : List Addr) :
    (Leak.A64.prf_addrx2 P g ctx addrs).res = Spx.A64.prf_addrx2 P g ctx addrs := by
  unfold Leak.A64.prf_addrx2 Spx.A64.prf_addrx2
  erase
macro_rules | `(tactic| erase_leaf) => `(tactic| with_reducible apply A64.erase_prf_addrx2)

theorem erase_thashx2_simple (P : Params) (g : Nat → Nat → Byte) (ins : List Bytes) (inblocks : Nat) (ctx : Ctx) (addrs : List Addr) :
    (Leak.A64.thashx2_simple P g ins inblocks ctx addrs).res = Spx.A64.thashx2_simple P g ins inblocks ctx addrs := by
  unfold Leak.A64.thashx2_simple Spx.A64.thashx2_simple
  erase
macro_rules | `(tactic| erase_leaf) => `(tactic| with_reducible apply A64.erase_thashx2_simple)

theorem erase_thashx2_robust (P : Params) (g : Nat → Nat → Byte) (ins : List Bytes) (inblocks : Nat) (ctx : Ctx) (addrs : List Addr) :
    (Leak.A64.thashx2_robust P g ins inblocks ctx addrs).res = Spx.A64.thashx2_robust P g ins inblocks ctx addrs := by
  unfold Leak.A64.thashx2_robust Spx.A64.thashx2_robust
  erase
macro_rules | `(tactic| erase_leaf) => `(tactic| with_reducible apply A64.erase_thashx2_robust)

theorem erase_lanes (P : Params) (g : Nat → Nat → Byte) : (Leak.A64.lanes P g).erase = Spx.A64.lanes P g := by
  apply LaneHash.erase_ext
  · exact erase_prf_addrx2 P g
  · intro i b c a
    simp only [Leak.A64.lanes, Spx.A64.lanes]
    split
    · exact erase_thashx2_robust P g i b c a
    · exact erase_thashx2_simple P g i b c a

theorem erase_thash (P : Params) (g : Nat → Nat → Byte) (inp : Bytes) (inblocks : Nat) (ctx : Ctx) (addr : Addr) :
    (Leak.A64.thash P g inp inblocks ctx addr).res = Spx.A64.thash P g inp inblocks ctx addr := by
  unfold Leak.A64.thash Spx.A64.thash
  rw [← erase_lanes P g]
  erase
macro_rules | `(tactic| erase_leaf) => `(tactic| with_reducible apply A64.erase_thash)

theorem erase_impl (P : Params) (g : Nat → Nat → Byte) : (Leak.A64.impl P g).erase = Spx.A64.impl P g := by
  apply HashImpl.erase_ext
  · exact Shake.erase_initialize_hash_function
  · exact Shake.erase_prf_addr P g
  · exact erase_thash P g
  · exact Shake.erase_gen_message_random P g
  · exact Shake.erase_hash_message P g

end A64

namespace Avx2

theorem erase_prf_addrx4 (P : Params) (g : Nat → Nat → Byte) (ctx : Ctx) (addrs : List Addr) :
    (Leak.Avx2.prf_addrx4 P g ctx addrs).res = Spx.Avx2.prf_addrx4 P g ctx addrs := by
  unfold Leak.Avx2.prf_addrx4 Spx.Avx2.prf_addrx4
  erase
macro_rules | `(tactic| erase_leaf) => `(tactic| with_reducible apply Avx2.erase_prf_addrx4)

theorem erase_thashx4_simple (P : Params) (g : Nat → Nat → Byte) (ins : List Bytes) (inblocks : Nat) (ctx : Ctx) (addrs : List Addr) :
    (Leak.Avx2.thashx4_simple P g ins inblocks ctx addrs).res = Spx.Avx2.thashx4_simple P g ins inblocks ctx addrs := by
  unfold Leak.Avx2.thashx4_simple Spx.Avx2.thashx4_simple
  erase
macro_rules | `(tactic| erase_leaf) => `(tactic| with_reducible apply Avx2.erase_thashx4_simple)

theorem erase_thashx4_robust (P : Params) (g : Nat → Nat → Byte) (ins : List Bytes) (inblocks : Nat) (ctx : Ctx) (addrs : List Addr) :
    (Leak.Avx2.thashx4_robust P g ins inblocks ctx addrs).res = Spx.Avx2.thashx4_robust P g ins inblocks ctx addrs := by
  unfold Leak.Avx2.thashx4_robust Spx.Avx2.thashx4_robust
  erase
macro_rules | `(tactic| erase_leaf) => `(tactic| with_reducible apply Avx2.erase_thashx4_robust)

theorem erase_lanes (P : Params) (g : Nat → Nat → Byte) : (Leak.Avx2.lanes P g).erase = Spx.Avx2.lanes P g := by
  apply LaneHash.erase_ext
  · exact erase_prf_addrx4 P g
  · intro i b c a
    simp only [Leak.Avx2.lanes, Spx.Avx2.lanes]
    split
    · exact erase_thashx4_robust P g i b c a
    · exact erase_thashx4_simple P g i b c a

end Avx2

end Spx.Leak
