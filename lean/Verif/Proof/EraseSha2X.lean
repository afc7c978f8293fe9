import Verif.Model.LeakSha2X
import Verif.Proof.EraseSha2
import Verif.Proof.EraseParallel
/-! # The definitions of Model/LeakSha2X.lean without the traces are those of the model -/

namespace Spx.Leak
namespace Sha2X
open Spx.Sha2X (V)

theorem erase_LOAD (wb : Nat) (b : Bytes) (off : Nat) :
    (Leak.Sha2X.LOAD wb b off).res = Spx.Sha2X.LOAD wb b off := by
  unfold Leak.Sha2X.LOAD Spx.Sha2X.LOAD
  erase
macro_rules | `(tactic| erase_leaf) => `(tactic| with_reducible apply Sha2X.erase_LOAD)

theorem erase_transform256 (cs : List (V 4)) (data : List Bytes) :
    (Leak.Sha2X.transform256 cs data).res = Spx.Sha2X.transform256 cs data := by
  unfold Leak.Sha2X.transform256 Spx.Sha2X.transform256
  erase
macro_rules | `(tactic| erase_leaf) => `(tactic| with_reducible apply Sha2X.erase_transform256)

theorem erase_transform512 (cs : List (V 8)) (data : List Bytes) :
    (Leak.Sha2X.transform512 cs data).res = Spx.Sha2X.transform512 cs data := by
  unfold Leak.Sha2X.transform512 Spx.Sha2X.transform512
  erase
macro_rules | `(tactic| erase_leaf) => `(tactic| with_reducible apply Sha2X.erase_transform512)

/-- Transforming and loading without the traces -/
structure XCfg.OK {wb : Nat} (c : XCfg wb) : Prop where
  transform : ∀ s d, (c.transformL s d).res = c.transform s d
  load : ∀ x, (c.loadL x).res = c.load x

theorem erase_transform {wb : Nat} {c : XCfg wb} (hc : c.OK) (s : List (V wb)) (d : List Bytes) :
    (c.transformL s d).res = c.transform s d := hc.transform s d
macro_rules | `(tactic| erase_leaf) => `(tactic| with_reducible apply Sha2X.erase_transform <;> assumption)

theorem erase_xload {wb : Nat} {c : XCfg wb} (hc : c.OK) (x : Bytes) : (c.loadL x).res = c.load x := hc.load x
macro_rules | `(tactic| erase_leaf) => `(tactic| with_reducible apply Sha2X.erase_xload <;> assumption)

theorem ok256 : x256.OK := ⟨erase_transform256, erase_load_bigendian_32⟩
theorem ok512 : x512.OK := ⟨erase_transform512, erase_load_bigendian_64⟩

theorem toX256 : x256.toXCfg = Spx.Sha2X.x256 := rfl
theorem toX512 : x512.toXCfg = Spx.Sha2X.x512 := rfl

theorem erase_absorbStep {wb : Nat} {c : XCfg wb} (hc : c.OK) (ins : List Bytes) (inlen : Nat) (x : Nat × List (V wb) × BitVec 64) :
    (Leak.Sha2X.absorbStep c ins inlen x).res = Spx.Sha2X.absorbStep c.toXCfg ins inlen x := by
  unfold Leak.Sha2X.absorbStep Spx.Sha2X.absorbStep
  erase
macro_rules | `(tactic| erase_leaf) => `(tactic| with_reducible apply Sha2X.erase_absorbStep <;> first | assumption | (intros; erase_leaf))

theorem erase_padBlocks {wb : Nat} {c : XCfg wb} (mb : Bytes) (datalen : Nat) :
    (Leak.Sha2X.padBlocks c mb datalen).res = Spx.Sha2X.padBlocks c.toXCfg mb datalen := by
  unfold Leak.Sha2X.padBlocks Spx.Sha2X.padBlocks
  erase
macro_rules | `(tactic| erase_leaf) => `(tactic| with_reducible apply Sha2X.erase_padBlocks <;> first | assumption | (intros; erase_leaf))

theorem erase_lenBlocks {wb : Nat} {c : XCfg wb} (mb : Bytes) (msglen : BitVec 64) :
    (Leak.Sha2X.lenBlocks c mb msglen).res = Spx.Sha2X.lenBlocks c.toXCfg mb msglen := by
  unfold Leak.Sha2X.lenBlocks Spx.Sha2X.lenBlocks
  erase
macro_rules | `(tactic| erase_leaf) => `(tactic| with_reducible apply Sha2X.erase_lenBlocks <;> first | assumption | (intros; erase_leaf))

/-- `run` from the end of the loop, for any result of the loop -/
theorem erase_run' {wb : Nat} {c : XCfg wb} (hc : c.OK) (g : Nat → Nat → Byte) (ins : List Bytes) (inlen M : Nat)
    (X : L (Nat × List (V wb) × BitVec 64)) (X' : C (Nat × List (V wb) × BitVec 64)) (hX : X.res = X') :
    (do
      let msgblocks := uninit (g 90) (c.L * c.blk)
      let (i, s, msglen) ← X
      let datalen := (inlen + M - i) % M
      let msgblocks ← forRange c.L (fun j mb => do wr mb (c.blk * j) (← rd (← rd1 ins j) i datalen)) msgblocks
      let msgblocks ← padBlocks c msgblocks datalen
      let (s, msgblocks) ← (cif datalen < c.thr then .ok (s, msgblocks)
        else do
          let s ← c.transformL s (← subLanes c.L msgblocks 0 c.blk)
          .ok (s, List.replicate (c.L * c.blk) 0#8) : L (List (V wb) × Bytes))
      let msglen := msglen + BitVec.ofNat 64 (datalen * 8)
      let msgblocks ← lenBlocks c msgblocks msglen
      let s ← c.transformL s (← subLanes c.L msgblocks 0 c.blk)
      .ok (c.outs s) : L (List Bytes)).res =
    (do
      let msgblocks := uninit (g 90) (c.L * c.blk)
      let (i, s, msglen) ← X'
      let datalen := (inlen + M - i) % M
      let msgblocks ← Spx.forRange c.L (fun j mb => do
        Spx.wr mb (c.blk * j) (← Spx.rd (← Spx.rd1 ins j) i datalen)) msgblocks
      let msgblocks ← Spx.Sha2X.padBlocks c.toXCfg msgblocks datalen
      let (s, msgblocks) ← (if datalen < c.thr then .ok (s, msgblocks)
        else do
          let s ← c.transform s (← Spx.subLanes c.L msgblocks 0 c.blk)
          .ok (s, List.replicate (c.L * c.blk) 0#8) : C (List (V wb) × Bytes))
      let msglen := msglen + BitVec.ofNat 64 (datalen * 8)
      let msgblocks ← Spx.Sha2X.lenBlocks c.toXCfg msgblocks msglen
      let s ← c.transform s (← Spx.subLanes c.L msgblocks 0 c.blk)
      .ok (c.outs s) : C (List Bytes)) := by
  refine res_bind hX ?_
  rintro ⟨i, s, m⟩
  dsimp only
  erase

theorem erase_run {wb : Nat} {c : XCfg wb} (hc : c.OK) (g : Nat → Nat → Byte) (s : List (V wb)) (msglen : BitVec 64) (ins : List Bytes) (inlen : Nat) :
    (Leak.Sha2X.run c g s msglen ins inlen).res = Spx.Sha2X.run c.toXCfg g s msglen ins inlen :=
  erase_run' hc g ins inlen (2 ^ 64) _ _ (by erase)
macro_rules | `(tactic| erase_leaf) => `(tactic| with_reducible apply Sha2X.erase_run <;> first | assumption | (intros; erase_leaf))

theorem erase_seeded {wb : Nat} {c : XCfg wb} (hc : c.OK) (g : Nat → Nat → Byte) (seed : Bytes) (seedlen : Nat) (ins : List Bytes) (inlen : Nat) :
    (Leak.Sha2X.seeded c g seed seedlen ins inlen).res = Spx.Sha2X.seeded c.toXCfg g seed seedlen ins inlen := by
  unfold Leak.Sha2X.seeded Spx.Sha2X.seeded
  erase
macro_rules | `(tactic| erase_leaf) => `(tactic| with_reducible apply Sha2X.erase_seeded <;> first | assumption | (intros; erase_leaf))

theorem erase_seeded256 (g : Nat → Nat → Byte) (seed : Bytes) (seedlen : Nat) (ins : List Bytes) (inlen : Nat) :
    (Leak.Sha2X.seeded x256 g seed seedlen ins inlen).res = Spx.Sha2X.seeded Spx.Sha2X.x256 g seed seedlen ins inlen := by
  rw [← toX256]
  exact erase_seeded ok256 g seed seedlen ins inlen
macro_rules | `(tactic| erase_leaf) => `(tactic| with_reducible apply Sha2X.erase_seeded256)

theorem erase_seeded512 (g : Nat → Nat → Byte) (seed : Bytes) (seedlen : Nat) (ins : List Bytes) (inlen : Nat) :
    (Leak.Sha2X.seeded x512 g seed seedlen ins inlen).res = Spx.Sha2X.seeded Spx.Sha2X.x512 g seed seedlen ins inlen := by
  rw [← toX512]
  exact erase_seeded ok512 g seed seedlen ins inlen
macro_rules | `(tactic| erase_leaf) => `(tactic| with_reducible apply Sha2X.erase_seeded512)

theorem erase_hashx {wb : Nat} {c : XCfg wb} (hc : c.OK) (g : Nat → Nat → Byte) (ins : List Bytes) (inlen : Nat) :
    (Leak.Sha2X.hashx c g ins inlen).res = Spx.Sha2X.hashx c.toXCfg g ins inlen := by
  unfold Leak.Sha2X.hashx Spx.Sha2X.hashx
  erase
macro_rules | `(tactic| erase_leaf) => `(tactic| with_reducible apply Sha2X.erase_hashx <;> first | assumption | (intros; erase_leaf))

theorem erase_hashx256 (g : Nat → Nat → Byte) (ins : List Bytes) (inlen : Nat) :
    (Leak.Sha2X.hashx x256 g ins inlen).res = Spx.Sha2X.hashx Spx.Sha2X.x256 g ins inlen := by
  rw [← toX256]
  exact erase_hashx ok256 g ins inlen
macro_rules | `(tactic| erase_leaf) => `(tactic| with_reducible apply Sha2X.erase_hashx256)

theorem erase_hashx512 (g : Nat → Nat → Byte) (ins : List Bytes) (inlen : Nat) :
    (Leak.Sha2X.hashx x512 g ins inlen).res = Spx.Sha2X.hashx Spx.Sha2X.x512 g ins inlen := by
  rw [← toX512]
  exact erase_hashx ok512 g ins inlen
macro_rules | `(tactic| erase_leaf) => `(tactic| with_reducible apply Sha2X.erase_hashx512)

theorem erase_setCounter {wb : Nat} {c : XCfg wb} (inbuf : Bytes) (inlen i : Nat) :
    (Leak.Sha2X.setCounter c inbuf inlen i).res = Spx.Sha2X.setCounter c.toXCfg inbuf inlen i := by
  unfold Leak.Sha2X.setCounter Spx.Sha2X.setCounter
  erase
macro_rules | `(tactic| erase_leaf) => `(tactic| with_reducible apply Sha2X.erase_setCounter <;> first | assumption | (intros; erase_leaf))

theorem erase_setCounter256 (inbuf : Bytes) (inlen i : Nat) :
    (Leak.Sha2X.setCounter x256 inbuf inlen i).res = Spx.Sha2X.setCounter Spx.Sha2X.x256 inbuf inlen i := by
  rw [← toX256]
  exact erase_setCounter (c := x256) inbuf inlen i
macro_rules | `(tactic| erase_leaf) => `(tactic| with_reducible apply Sha2X.erase_setCounter256)

theorem erase_setCounter512 (inbuf : Bytes) (inlen i : Nat) :
    (Leak.Sha2X.setCounter x512 inbuf inlen i).res = Spx.Sha2X.setCounter Spx.Sha2X.x512 inbuf inlen i := by
  rw [← toX512]
  exact erase_setCounter (c := x512) inbuf inlen i
macro_rules | `(tactic| erase_leaf) => `(tactic| with_reducible apply Sha2X.erase_setCounter512)

/-- `mgfStep8` for any hash function -/
theorem erase_mgfStep8' (outlen inlen : Nat) {H : List Bytes → Nat → L (List Bytes)}
    {H' : List Bytes → Nat → C (List Bytes)} (e : ∀ x n, (H x n).res = H' x n) (i : Nat) (out inbuf : Bytes) :
    (cif (i + 1) * 32 ≤ outlen then do
      let inbuf ← setCounter x256 inbuf inlen i
      let outs ← H (← subLanes 8 inbuf 0 (inlen + 4)) (inlen + 4)
      let out ← wrLanes 8 out (32 * i) outlen outs
      L.ok (.inl (i + 1, out, inbuf))
    else L.ok (.inr (i, out, inbuf)) : L ((Nat × Bytes × Bytes) ⊕ (Nat × Bytes × Bytes))).res =
    (if (i + 1) * 32 ≤ outlen then do
      let inbuf ← Spx.Sha2X.setCounter Spx.Sha2X.x256 inbuf inlen i
      let outs ← H' (← Spx.subLanes 8 inbuf 0 (inlen + 4)) (inlen + 4)
      let out ← Spx.wrLanes 8 out (32 * i) outlen outs
      .ok (.inl (i + 1, out, inbuf))
    else .ok (.inr (i, out, inbuf)) : C ((Nat × Bytes × Bytes) ⊕ (Nat × Bytes × Bytes))) := by
  refine res_branch ?_ (res_ok _)
  refine res_bind (erase_setCounter256 ..) fun b => ?_
  refine res_bind (erase_subLanes ..) fun x => ?_
  refine res_bind (e ..) fun x => ?_
  exact res_bind (erase_wrLanes ..) fun x => res_ok _

theorem erase_mgfStep8 (g : Nat → Nat → Byte) (outlen inlen : Nat) (s : Nat × Bytes × Bytes) :
    (Leak.Sha2X.mgfStep8 g outlen inlen s).res = Spx.Sha2X.mgfStep8 g outlen inlen s :=
  erase_mgfStep8' outlen inlen (erase_hashx256 g) s.1 s.2.1 s.2.2
macro_rules | `(tactic| erase_leaf) => `(tactic| with_reducible apply Sha2X.erase_mgfStep8)

/-- `mgf1x8` for any hash function and any loop -/
theorem erase_mgf1x8' (g : Nat → Nat → Byte) (outlen inlen : Nat) (ins : List Bytes)
    {H : List Bytes → Nat → L (List Bytes)} {H' : List Bytes → Nat → C (List Bytes)} (e : ∀ x n, (H x n).res = H' x n)
    {X : Bytes → L (Nat × Bytes × Bytes)} {X' : Bytes → C (Nat × Bytes × Bytes)} (hX : ∀ b, (X b).res = X' b) :
    (do
      let inbuf := uninit (g 91) (8 * (inlen + 4))
      let outbuf := uninit (g 92) (8 * 32)
      let inbuf ← forRange 8 (fun j b => do wr b (j * (inlen + 4)) (← rd (← rd1 ins j) 0 inlen)) inbuf
      let (i, out, inbuf) ← X inbuf
      let inbuf ← setCounter x256 inbuf inlen i
      let outs ← H (← subLanes 8 inbuf 0 (inlen + 4)) (inlen + 4)
      let outbuf ← wrLanes 8 outbuf 0 32 outs
      forRange 8 (fun j out => do wr out (32 * i + j * outlen) (← rd outbuf (j * 32) (outlen - i * 32))) out : L Bytes).res =
    (do
      let inbuf := uninit (g 91) (8 * (inlen + 4))
      let outbuf := uninit (g 92) (8 * 32)
      let inbuf ← Spx.forRange 8 (fun j b => do
        Spx.wr b (j * (inlen + 4)) (← Spx.rd (← Spx.rd1 ins j) 0 inlen)) inbuf
      let (i, out, inbuf) ← X' inbuf
      let inbuf ← Spx.Sha2X.setCounter Spx.Sha2X.x256 inbuf inlen i
      let outs ← H' (← Spx.subLanes 8 inbuf 0 (inlen + 4)) (inlen + 4)
      let outbuf ← Spx.wrLanes 8 outbuf 0 32 outs
      Spx.forRange 8 (fun j out => do
        Spx.wr out (32 * i + j * outlen) (← Spx.rd outbuf (j * 32) (outlen - i * 32))) out : C Bytes) := by
  refine res_bind (by erase) fun b => ?_
  refine res_bind (hX b) ?_
  rintro ⟨i, o, b⟩
  dsimp only
  refine res_bind (erase_setCounter256 ..) fun b => ?_
  refine res_bind (erase_subLanes ..) fun x => ?_
  refine res_bind (e ..) fun x => ?_
  refine res_bind (erase_wrLanes ..) fun x => ?_
  erase

theorem erase_mgf1x8 (g : Nat → Nat → Byte) (out : Bytes) (outlen : Nat) (ins : List Bytes) (inlen : Nat) :
    (Leak.Sha2X.mgf1x8 g out outlen ins inlen).res = Spx.Sha2X.mgf1x8 g out outlen ins inlen :=
  erase_mgf1x8' g outlen inlen ins (erase_hashx256 g)
    (fun b => res_loop _ (fun s => erase_mgfStep8 g outlen inlen s) (0, out, b))
macro_rules | `(tactic| erase_leaf) => `(tactic| with_reducible apply Sha2X.erase_mgf1x8)

/-- `mgfStep4` for any hash function -/
theorem erase_mgfStep4' (outlen inlen : Nat) {H : List Bytes → Nat → L (List Bytes)}
    {H' : List Bytes → Nat → C (List Bytes)} (e : ∀ x n, (H x n).res = H' x n) (i remaining pos : Nat)
    (out inbuf outbuf : Bytes) :
    (cif remaining > 0 then do
      let this_step ← cif 64 > remaining then .ok remaining else .ok 64
      let remaining := remaining - this_step
      let inbuf ← setCounter x512 inbuf inlen i
      let outs ← H (← subLanes 4 inbuf 0 (inlen + 4)) (inlen + 4)
      let outbuf ← wrLanes 4 outbuf 0 64 outs
      let out ← forRange 4 (fun j out => do wr out (pos + j * outlen) (← rd outbuf (j * 64) this_step)) out
      L.ok (.inl (i + 1, remaining, pos + this_step, out, inbuf, outbuf))
    else L.ok (.inr out) : L ((Nat × Nat × Nat × Bytes × Bytes × Bytes) ⊕ Bytes)).res =
    (if remaining > 0 then do
      let this_step := if 64 > remaining then remaining else 64
      let remaining := remaining - this_step
      let inbuf ← Spx.Sha2X.setCounter Spx.Sha2X.x512 inbuf inlen i
      let outs ← H' (← Spx.subLanes 4 inbuf 0 (inlen + 4)) (inlen + 4)
      let outbuf ← Spx.wrLanes 4 outbuf 0 64 outs
      let out ← Spx.forRange 4 (fun j out => do
        Spx.wr out (pos + j * outlen) (← Spx.rd outbuf (j * 64) this_step)) out
      .ok (.inl (i + 1, remaining, pos + this_step, out, inbuf, outbuf))
    else .ok (.inr out) : C ((Nat × Nat × Nat × Bytes × Bytes × Bytes) ⊕ Bytes)) := by
  refine res_branch ?_ (res_ok _)
  refine (res_branch_bind _ _ _).trans ?_
  dsimp only
  refine res_bind (erase_setCounter512 ..) fun b => ?_
  refine res_bind (erase_subLanes ..) fun x => ?_
  refine res_bind (e ..) fun x => ?_
  refine res_bind (erase_wrLanes ..) fun x => ?_
  erase

theorem erase_mgfStep4 (g : Nat → Nat → Byte) (outlen inlen : Nat) (s : Nat × Nat × Nat × Bytes × Bytes × Bytes) :
    (Leak.Sha2X.mgfStep4 g outlen inlen s).res = Spx.Sha2X.mgfStep4 g outlen inlen s :=
  erase_mgfStep4' outlen inlen (erase_hashx512 g) s.1 s.2.1 s.2.2.1 s.2.2.2.1 s.2.2.2.2.1 s.2.2.2.2.2
macro_rules | `(tactic| erase_leaf) => `(tactic| with_reducible apply Sha2X.erase_mgfStep4)

theorem erase_mgf1x4_512 (g : Nat → Nat → Byte) (out : Bytes) (outlen : Nat) (ins : List Bytes) (inlen : Nat) :
    (Leak.Sha2X.mgf1x4_512 g out outlen ins inlen).res = Spx.Sha2X.mgf1x4_512 g out outlen ins inlen := by
  unfold Leak.Sha2X.mgf1x4_512 Spx.Sha2X.mgf1x4_512
  erase
macro_rules | `(tactic| erase_leaf) => `(tactic| with_reducible apply Sha2X.erase_mgf1x4_512)

theorem erase_prf_addrx8 (P : Params) (g : Nat → Nat → Byte) (ctx : Ctx) (addrs : List Addr) :
    (Leak.Sha2X.prf_addrx8 P g ctx addrs).res = Spx.Sha2X.prf_addrx8 P g ctx addrs := by
  unfold Leak.Sha2X.prf_addrx8 Spx.Sha2X.prf_addrx8
  erase
macro_rules | `(tactic| erase_leaf) => `(tactic| with_reducible apply Sha2X.erase_prf_addrx8)

theorem erase_simpleBufs (P : Params) (g : Nat → Nat → Byte) (ins : List Bytes) (inblocks : Nat) (addrs : List Addr) :
    (Leak.Sha2X.simpleBufs P g ins inblocks addrs).res = Spx.Sha2X.simpleBufs P g ins inblocks addrs := by
  unfold Leak.Sha2X.simpleBufs Spx.Sha2X.simpleBufs
  erase
macro_rules | `(tactic| erase_leaf) => `(tactic| with_reducible apply Sha2X.erase_simpleBufs)

theorem erase_outs512 (P : Params) (g : Nat → Nat → Byte) (seed bufx8 : Bytes) (base stride len : Nat) :
    (Leak.Sha2X.outs512 P g seed bufx8 base stride len).res = Spx.Sha2X.outs512 P g seed bufx8 base stride len := by
  unfold Leak.Sha2X.outs512 Spx.Sha2X.outs512
  erase
macro_rules | `(tactic| erase_leaf) => `(tactic| with_reducible apply Sha2X.erase_outs512)

theorem erase_outs256 (P : Params) (g : Nat → Nat → Byte) (seed bufx8 : Bytes) (base stride len : Nat) :
    (Leak.Sha2X.outs256 P g seed bufx8 base stride len).res = Spx.Sha2X.outs256 P g seed bufx8 base stride len := by
  unfold Leak.Sha2X.outs256 Spx.Sha2X.outs256
  erase
macro_rules | `(tactic| erase_leaf) => `(tactic| with_reducible apply Sha2X.erase_outs256)

theorem erase_thashx8_simple (P : Params) (g : Nat → Nat → Byte) (ins : List Bytes) (inblocks : Nat) (ctx : Ctx) (addrs : List Addr) :
    (Leak.Sha2X.thashx8_simple P g ins inblocks ctx addrs).res = Spx.Sha2X.thashx8_simple P g ins inblocks ctx addrs := by
  unfold Leak.Sha2X.thashx8_simple Spx.Sha2X.thashx8_simple
  erase
macro_rules | `(tactic| erase_leaf) => `(tactic| with_reducible apply Sha2X.erase_thashx8_simple)

theorem erase_robustBufs (P : Params) (g : Nat → Nat → Byte) (inblocks : Nat) (ctx : Ctx) (addrs : List Addr) :
    (Leak.Sha2X.robustBufs P g inblocks ctx addrs).res = Spx.Sha2X.robustBufs P g inblocks ctx addrs := by
  unfold Leak.Sha2X.robustBufs Spx.Sha2X.robustBufs
  erase
macro_rules | `(tactic| erase_leaf) => `(tactic| with_reducible apply Sha2X.erase_robustBufs)

theorem erase_maskBufs (P : Params) (k l0 : Nat) (ins : List Bytes) (inblocks : Nat) (bitmask bufx8 : Bytes) :
    (Leak.Sha2X.maskBufs P k l0 ins inblocks bitmask bufx8).res = Spx.Sha2X.maskBufs P k l0 ins inblocks bitmask bufx8 := by
  unfold Leak.Sha2X.maskBufs Spx.Sha2X.maskBufs
  erase
macro_rules | `(tactic| erase_leaf) => `(tactic| with_reducible apply Sha2X.erase_maskBufs)

theorem erase_thashx8_robust (P : Params) (g : Nat → Nat → Byte) (ins : List Bytes) (inblocks : Nat) (ctx : Ctx) (addrs : List Addr) :
    (Leak.Sha2X.thashx8_robust P g ins inblocks ctx addrs).res = Spx.Sha2X.thashx8_robust P g ins inblocks ctx addrs := by
  unfold Leak.Sha2X.thashx8_robust Spx.Sha2X.thashx8_robust
  erase
macro_rules | `(tactic| erase_leaf) => `(tactic| with_reducible apply Sha2X.erase_thashx8_robust)

theorem erase_lanes (P : Params) (g : Nat → Nat → Byte) : (lanes P g).erase = Spx.Sha2X.lanes P g := by
  refine LaneHash.erase_ext (fun c a => erase_prf_addrx8 P g c a) fun i k c a => ?_
  unfold lanes Spx.Sha2X.lanes
  dsimp only
  by_cases h : P.robust = true
  · rw [if_pos h, if_pos h]; exact erase_thashx8_robust P g i k c a
  · rw [if_neg h, if_neg h]; exact erase_thashx8_simple P g i k c a

end Sha2X
end Spx.Leak

