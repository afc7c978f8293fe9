import Verif.Proof.CountShakeX
import Verif.Proof.CountAesNi
import Verif.Proof.CountSha2X
import Verif.Props.Prims
import Verif.Props.Sha2Lanes
/-!
# C79: how many compression functions and permutations the optimised implementations compute
-/

namespace Spx
open Spec Leak

theorem shipped_n_pos {P : Params} (hP : P ∈ shipped) : 0 < P.n := by
  revert P
  decide +kernel

theorem opt_cost (o : Opt) {P : Params} (hP : P ∈ shipped) (hf : P.fam = o.fam) (g : Nat → Nat → Byte) (f : Fn)
    (ml : Nat) :
    HashCost f (o.hash P g) (fun h => total (o.specPrims P ml h) f) ml ∧
    LaneCost f (o.lanes P g) fun h => total (o.specPrims P ml h) f := by
  have h0 := shipped_n_pos hP
  have hn := shipped_n hP
  simp only [total_eq]
  cases o with
  | shakeA64 => exact ⟨a64_cost h0 (by omega) g ml, a64_lanes_cost h0 (by omega) g ml⟩
  | shakeAvx2 => exact ⟨shake_costX f P g ml, avx2_lanes_cost h0 (by omega) g ml⟩
  | harakaAesni => exact ⟨AesNi.aesni_cost f P g ml, AesNi.lanes_cost f P g ml⟩
  | sha2Avx2 =>
    exact ⟨Sha2X.sha2_costX f P (by omega) (shipped_sha512 hP hf) g ml,
      Sha2X.lanes_cost f P (by omega) (shipped_sha512 hP hf) g ml⟩

section
variable {P : Params} (hP : P ∈ shipped) (o : Opt) (hf : P.fam = o.fam)
include hP hf

/-- C79, the functions for several lanes -/
theorem C79_lane_prims (g : Nat → Nat → Byte) (f : Fn) :
    (∀ c a r, ((o.lanes P g).prf_addrx c a).res = .ok r →
      calls f ((o.lanes P g).prf_addrx c a).tr = total (o.specPrims P 0 .prfx) f) ∧
    (∀ i b c a r, b ≤ 256 → ((o.lanes P g).thashx i b c a).res = .ok r →
      calls f ((o.lanes P g).thashx i b c a).tr = total (o.specPrims P 0 (.thashx b)) f) :=
  ⟨fun c a r h => (opt_cost o hP hf g f 0).2.prfx c a r h,
    fun i b c a r hb h => (opt_cost o hP hf g f 0).2.thashx i b c a hb r h⟩

/-- C79, the functions for one lane which are linked to the optimised implementations -/
theorem C79_hash_prims (g : Nat → Nat → Byte) (f : Fn) :
    (∀ c r, ((o.hash P g).initialize_hash_function c).res = .ok r →
      calls f ((o.hash P g).initialize_hash_function c).tr = total (o.specPrims P 0 .init) f) ∧
    (∀ c a r, ((o.hash P g).prf_addr c a).res = .ok r →
      calls f ((o.hash P g).prf_addr c a).tr = total (o.specPrims P 0 .prf) f) ∧
    (∀ i b c a r, ((o.hash P g).thash i b c a).res = .ok r →
      calls f ((o.hash P g).thash i b c a).tr = total (o.specPrims P 0 (.thash b)) f) ∧
    (∀ s r m c x, ((o.hash P g).gen_message_random s r m c).res = .ok x →
      calls f ((o.hash P g).gen_message_random s r m c).tr = total (o.specPrims P m.length .rand) f) ∧
    (∀ R pk m c x, ((o.hash P g).hash_message R pk m c).res = .ok x →
      calls f ((o.hash P g).hash_message R pk m c).tr = total (o.specPrims P m.length .msg) f) :=
  ⟨fun c r h => (opt_cost o hP hf g f 0).1.init c r h, fun c a r h => (opt_cost o hP hf g f 0).1.prf c a r h,
    fun i b c a r h => (opt_cost o hP hf g f 0).1.thash i b c a r h,
    fun s r m c x h => (opt_cost o hP hf g f m.length).1.rand s r m c rfl x h,
    fun R pk m c x h => (opt_cost o hP hf g f m.length).1.msg R pk m c rfl x h⟩

/-- C79, key generation -/
theorem C79_keypair_prims (G g : Nat → Nat → Byte) {pk0 sk0 seed : Bytes} (hpk0 : P.pkBytes ≤ pk0.length)
    (hsk0 : P.skBytes ≤ sk0.length) (hseed : P.seedBytes ≤ seed.length) (f : Fn) :
    o.keypairPrims P G g pk0 sk0 seed f =
      weigh (fun h => total (o.specPrims P 0 h) f) (keygenCostX P.toSpec o.lg) := by
  have hV := shipped_valid hP
  have hl := lanes_le o hP
  have h1 := hV.th_le
  have h2 := hV.fh_le
  obtain ⟨hκ, hx⟩ := opt_cost o hP hf g f 0
  obtain ⟨R, hT⟩ := o.erase_refines hP hf G g
  have e := erase_crypto_sign_seed_keypairT (o.build P G g).toEnv (erase_parCode (o.build P G g)) pk0 sk0 seed
  have e := e.trans (crypto_sign_seed_keypairT_spec (E := Env.erase ⟨P, o.hash P g, G⟩) R hV hT hpk0 hsk0 hseed)
  rw [weigh_keygenX hV]
  exact (count_keypair (E := (o.build P G g).toEnv) hκ
    (parCode_cost (E := o.build P G g) hκ hx hV.len_le hl.1 (show P.treeHeight < 2 ^ 32 by omega) hl.2
      (show P.forsHeight < 2 ^ 32 by omega))).calls_eq e

/-- C79, signing: as in the reference implementation the number depends on the length of the message only. -/
theorem C79_sign_prims (G g : Nat → Nat → Byte) {sig0 m sk optrand : Bytes} (hsk : P.skBytes ≤ sk.length)
    (hm : m.length < 2 ^ 60) (hopt : P.n ≤ optrand.length) (hsig0 : P.spxBytes ≤ sig0.length) (f : Fn) :
    o.signPrims P G g sig0 m sk optrand f =
      weigh (fun h => total (o.specPrims P m.length h) f) (signCostX P.toSpec o.lg) := by
  have hV := shipped_valid hP
  have hl := lanes_le o hP
  have h1 := hV.th_le
  have h2 := hV.fh_le
  obtain ⟨hκ, hx⟩ := opt_cost o hP hf g f m.length
  obtain ⟨R, hT⟩ := o.erase_refines hP hf G g
  have e := erase_crypto_sign_signatureT (o.build P G g).toEnv (erase_parCode (o.build P G g)) sig0 m sk optrand
  have e := e.trans (crypto_sign_signatureT_spec (E := Env.erase ⟨P, o.hash P g, G⟩) R hV hT hsk hm hopt hsig0)
  rw [weigh_signX hV]
  exact (count_sign (E := (o.build P G g).toEnv) hκ
    (parCode_cost (E := o.build P G g) hκ hx hV.len_le hl.1 (show P.treeHeight < 2 ^ 32 by omega) hl.2
      (show P.forsHeight < 2 ^ 32 by omega)) rfl).calls_eq e

/-- C79, verification -/
theorem C79_verify_prims (G g : Nat → Nat → Byte) {sig m pk : Bytes} (hpk : P.pkBytes ≤ pk.length)
    (hm : m.length < 2 ^ 60) (hsig : P.spxBytes ≤ sig.length) (f : Fn) :
    o.verifyPrims P G g sig P.spxBytes m pk f =
      weigh (fun h => total (o.specPrims P m.length h) f) (verifyCostX P.toSpec o.lg (specHash P) pk m sig) := by
  have hV := shipped_valid hP
  obtain ⟨hκ, hx⟩ := opt_cost o hP hf g f m.length
  obtain ⟨R, hT⟩ := o.erase_refines hP hf G g
  have e := erase_crypto_sign_verifyT (o.build P G g).toEnv (T := parCode (o.build P G g).erase)
    (erase_wots_pk_from_sigx (o.build P G g)) sig P.spxBytes m pk
  have e := e.trans (crypto_sign_verifyT_spec (E := Env.erase ⟨P, o.hash P g, G⟩) R hV hT hpk hm hsig)
  exact (count_verify (E := Env.erase ⟨P, o.hash P g, G⟩) (H := o.hash P g) hκ rfl R hV hT
    (erase_wots_pk_from_sigx (o.build P G g))
    (count_wots_pk_from_sigx (E := o.build P G g) hx hV) hpk hm rfl hsig).calls_eq e

/-- C79, the most expensive verification: all chains from end to end, in groups of as many chains as there are lanes. -/
theorem C79_verify_bound (G g : Nat → Nat → Byte) {sig m pk : Bytes} (hpk : P.pkBytes ≤ pk.length)
    (hm : m.length < 2 ^ 60) (hsig : P.spxBytes ≤ sig.length) (f : Fn) :
    o.verifyPrims P G g sig P.spxBytes m pk f ≤
      weigh (fun h => total (o.specPrims P m.length h) f)
        ([(1, .init), (1, .msg), (P.forsTrees, .thash 1), (P.forsTrees * P.forsHeight, .thash 2), (1, .thash P.forsTrees)] ++
          times P.d [((P.wotsLen + 2 ^ o.lg - 1) / 2 ^ o.lg * (P.w - 1), .thashx 1), (1, .thash P.wotsLen),
            (P.treeHeight, .thash 2)]) := by
  have hV := shipped_valid hP
  rw [C79_verify_prims hP o hf G g hpk hm hsig f]
  unfold verifyCostX
  generalize (fun h => total (o.specPrims P m.length h) f) = κ
  have ht := fun md tree leaf fpk => weigh_verify (κ := κ) hV (S := specHash P) (pk := pk) (m := m) (sig := sig) (md := md)
    (tree := tree) (leaf := leaf) (fpk := fpk) fun m => [(chainRestX P.toSpec o.lg m, .thashx 1)]
  generalize splitDigest P.toSpec
    ((specHash P).Hmsg (sig.take P.n) (pk.take P.n) ((pk.drop P.n).take P.n) m (digestBytes P.toSpec)) = sd at ht
  obtain ⟨md, tree, leaf⟩ := sd
  rw [ht md tree leaf _ rfl rfl]
  generalize forsPkFromSig P.toSpec (specHash P) (pk.take P.n) tree leaf (sig.drop P.n) md = fpk
  have hs := sum_le (n := P.d) (b := (P.wotsLen + 2 ^ o.lg - 1) / 2 ^ o.lg * (P.w - 1) * κ (.thashx 1) +
      (κ (.thash P.wotsLen) + P.treeHeight * κ (.thash 2))) fun i => Nat.add_le_add_right (Nat.mul_le_mul_right (κ (.thashx 1))
    (chainRestX_le hV o.lg (htRoot P.toSpec (specHash P) (pk.take P.n) tree leaf (sig.drop (P.n + P.forsBytes)) fpk i)))
      (κ (.thash P.wotsLen) + P.treeHeight * κ (.thash 2))
  simp only [weigh_append, weigh_times, weigh_cons, weigh_nil, Nat.add_zero, Nat.one_mul, Nat.mul_add] at hs ⊢
  simp only [Nat.mul_assoc] at hs ⊢
  omega

end

/-- C79, a hash which is not needed: `mgf1x8` of sha2-avx2 hashes the input once more after the last whole block, also if
the mask is complete.  With `thash` of the reference implementation on the right, the vectorised function for eight lanes
takes as many compressions as the other for one lane if the length of the mask is no multiple of 32, and the blocks of one
hash of `SPX_N + 26` bytes more if it is. -/
theorem C79_mgf_excess {P : Params} (hP : P ∈ shipped) (hf : P.fam = .sha2) (hr : P.robust = true) (g g' : Nat → Nat → Byte)
    {ins : List Bytes} {i : Bytes} {b : Nat} (hb : P.n < 24 ∨ b ≤ 1) (hb' : b ≤ 256) {c c' : Ctx} {as : List Addr} {a : Addr}
    {r : List Bytes} {r' : Bytes} (h : ((Leak.Sha2X.lanes P g).thashx ins b c as).res = .ok r)
    (h' : ((Leak.implOf P g').thash i b c' a).res = .ok r') :
    calls .sha256x ((Leak.Sha2X.lanes P g).thashx ins b c as).tr = calls .sha256 ((Leak.implOf P g').thash i b c' a).tr +
      if b * P.n % 32 = 0 then (P.n + 34) / 64 + 1 else 0 := by
  have e1 := (C79_lane_prims hP .sha2Avx2 hf g .sha256x).2 ins b c as r hb' h
  have e2 := (C78_hash_prims hP g' .sha256).2.2.1 i b c' a r' h'
  have hd : decide (24 ≤ P.n ∧ 1 < b) = false := decide_eq_false (by omega)
  refine e1.trans (Eq.trans ?_ (congrArg (· + _) e2.symm))
  unfold specPrims
  rw [hf, total_eq, total_eq]
  show weigh _ ((if P.robust then mgfx (decide (24 ≤ P.n ∧ 1 < b)) (P.n + 22) (b * P.n) else []) ++
      shax (decide (24 ≤ P.n ∧ 1 < b)) (22 + b * P.n)) =
    weigh _ ((if P.robust then mgf (decide (24 ≤ P.n ∧ 1 < b)) (P.n + 22) (b * P.n) else []) ++
      sha (decide (24 ≤ P.n ∧ 1 < b)) (22 + b * P.n)) + _
  rw [hd, hr]
  simp only [if_true]
  rw [weigh_append, weigh_append, Sha2X.weigh_mgfx256, Sha2X.weigh_shax256, Sha2.weigh_mgf256, Sha2.weigh_sha256]
  show (b * P.n / 32 + 1) * (((P.n + 22 + 4 + 8) / 64 + 1) * 1) + ((22 + b * P.n + 8) / 64 + 1) * 1 =
    (b * P.n + 32 - 1) / 32 * (((P.n + 22 + 4 + 8) / 64 + 1) * 1) + ((22 + b * P.n + 8) / 64 + 1) * 1 + _
  generalize b * P.n = x
  split
  · rw [show (x + 32 - 1) / 32 = x / 32 by omega, Nat.succ_mul, show P.n + 22 + 4 + 8 = P.n + 34 by omega]
    omega
  · rw [show (x + 32 - 1) / 32 = x / 32 + 1 by omega]
    rfl

/-! ## Concrete cases -/

/-- Signing 1000 bytes with SHA2-128f-simple: 13464 compressions of eight lanes and 84 of one lane, against 106861 of one
lane in the reference implementation. -/
example (m sk : Bytes) (hm : m.length = 1000) (hsk : sk.length = 64) :
    Opt.signPrims .sha2Avx2 (sha2_128f false) (fun _ _ => 0) (fun _ _ => 0) (List.replicate 17088 0) m sk
      (List.replicate 16 0) .sha256x = 13464 ∧
    Opt.signPrims .sha2Avx2 (sha2_128f false) (fun _ _ => 0) (fun _ _ => 0) (List.replicate 17088 0) m sk
      (List.replicate 16 0) .sha256 = 84 := by
  have h := C79_sign_prims (P := sha2_128f false) (by decide) .sha2Avx2 rfl (fun _ _ => 0) (fun _ _ => 0) (m := m) (sk := sk)
    (optrand := List.replicate 16 0) (sig0 := List.replicate 17088 0) (by rw [hsk]; decide) (by rw [hm]; decide)
    (by decide) (by rw [List.length_replicate]; decide)
  rw [h, h, hm]
  decide +kernel

/-- Key generation for SHAKE-192f-robust on two lanes takes 6408 permutations of two lanes and no other. -/
example (seed : Bytes) (h : seed.length = 72) :
    Opt.keypairPrims .shakeA64 (shake_192f true) (fun _ _ => 0) (fun _ _ => 0) (List.replicate 48 0) (List.replicate 96 0)
      seed .keccakx = 6408 ∧
    Opt.keypairPrims .shakeA64 (shake_192f true) (fun _ _ => 0) (fun _ _ => 0) (List.replicate 48 0) (List.replicate 96 0)
      seed .keccak = 0 := by
  have h := C79_keypair_prims (P := shake_192f true) (by decide) .shakeA64 rfl (fun _ _ => 0) (fun _ _ => 0) (seed := seed)
    (pk0 := List.replicate 48 0) (sk0 := List.replicate 96 0) (by decide) (by decide) (by rw [h]; decide)
  rw [h, h]
  decide +kernel

/-- Signing 3 bytes with Haraka-128f-robust. -/
example (sk : Bytes) (hsk : sk.length = 64) :
    Opt.signPrims .harakaAesni (haraka_128f true) (fun _ _ => 0) (fun _ _ => 0) (List.replicate 17088 0) [1, 2, 3] sk
      (List.replicate 16 0) .haraka256x = 23628 := by
  rw [C79_sign_prims (P := haraka_128f true) (by decide) .harakaAesni rfl _ _ (by rw [hsk]; decide) (by decide)
    (by decide) (by rw [List.length_replicate]; decide)]
  decide +kernel

/-- `thashx8` on one block in SHA2-256f-robust takes five compressions, `thash` three. -/
example : total (Opt.specPrims .sha2Avx2 (sha2_256f true) 0 (.thashx 1)) .sha256x = 5 ∧
    total (specPrims (sha2_256f true) 0 (.thash 1)) .sha256 = 3 := by
  decide +kernel

/-- Both calls succeed, so that `C79_mgf_excess` applies to them. -/
example : ∃ ctx : Ctx, ctx.pub_seed = List.replicate 32 2 ∧
    calls .sha256x ((Leak.Sha2X.lanes (sha2_256f true) fun _ _ => 9).thashx
      ((List.range 8).map fun j => List.replicate 32 (BitVec.ofNat 8 j)) 1 ctx
      ((List.range 8).map fun j => List.replicate 32 (BitVec.ofNat 8 (200 + j)))).tr =
    calls .sha256 ((Leak.implOf (sha2_256f true) fun _ _ => 7).thash (List.replicate 32 5) 1 ctx (List.replicate 32 6)).tr
      + 2 := by
  obtain ⟨ctx, -, hr, hp, -⟩ := (Ctx.zeroed_sized (P := sha2_256f true) (pub := List.replicate 32 2)
    (sk := List.replicate 32 0) List.length_replicate List.length_replicate).ready (by decide) (fun _ _ => 7)
  have ok : ∀ {i a}, i.length = 32 → a.length = 32 →
      ∃ r, (Spx.implOf (sha2_256f true) fun _ _ => 7).thash i 1 ctx a = .ok r := fun {i a} hi ha => by
    obtain ⟨a, he⟩ := exists_encodes .sha2 ha
    exact ⟨_, thash_any (P := sha2_256f true) (by decide) hr he (by decide) (by rw [hi]; decide) (by decide)⟩
  have hl := (C52_avx2_lanes (P := sha2_256f true) (by decide) rfl (fun _ _ => 7) (fun _ _ => 9)).thashx hr
    (as := fun j => List.replicate 32 (BitVec.ofNat 8 (200 + j))) (I := fun j => List.replicate 32 (BitVec.ofNat 8 j))
    (blocks := 1) (fun j _ => List.length_replicate) (by decide) (fun j _ => by rw [List.length_replicate]; decide)
    (by decide)
  obtain ⟨o, ho⟩ := Classical.axiomOfChoice fun j : Nat => ok (i := List.replicate 32 (BitVec.ofNat 8 j))
    (a := List.replicate 32 (BitVec.ofNat 8 (200 + j))) List.length_replicate List.length_replicate
  have hl := hl.trans (tabulate_ok fun j _ => ho j)
  obtain ⟨r, hr1⟩ := ok (i := List.replicate 32 5) (a := List.replicate 32 6) List.length_replicate List.length_replicate
  have e1 : ∀ i b c a, ((Leak.Sha2X.lanes (sha2_256f true) fun _ _ => 9).thashx i b c a).res =
      (Spx.Sha2X.lanes (sha2_256f true) fun _ _ => 9).thashx i b c a := fun i b c a => by
    rw [← Leak.Sha2X.erase_lanes]; rfl
  have e2 : ∀ i b c a, ((Leak.implOf (sha2_256f true) fun _ _ => 7).thash i b c a).res =
      (Spx.implOf (sha2_256f true) fun _ _ => 7).thash i b c a := fun i b c a => by
    rw [← Leak.erase_implOf]; rfl
  exact ⟨ctx, hp, C79_mgf_excess (P := sha2_256f true) (by decide) rfl rfl _ _ (.inr (by decide)) (by decide)
    ((e1 _ _ _ _).trans hl) ((e2 _ _ _ _).trans hr1)⟩

/-- Verifying a short message with SHA2-256s-robust takes at most that many compressions of eight lanes. -/
example : Opt.verifyPrims .sha2Avx2 (sha2_256s true) (fun _ _ => 0) (fun _ _ => 0) (List.replicate 29792 0) 29792 [1, 2, 3]
    (List.replicate 64 9) .sha256x ≤ 5400 :=
  (C79_verify_bound (P := sha2_256s true) (by decide) .sha2Avx2 rfl _ _ (by decide) (by decide)
    (by rw [List.length_replicate]; decide) _).trans (by decide +kernel)

end Spx
