import Verif.Proof.CountParallel
import Verif.Proof.CountVerifyX
import Verif.Props.LeakOpt
import Verif.Props.Sign
/-!
# C73–C76: how many calls of the hash functions key generation, signing and verification make
-/

namespace Spx
open Spec Leak

/-! ## What is counted -/

/-- The counted programs are those of the model: without the record of the calls they compute what those compute. -/
theorem C73_same_programs (E : Env) :
    (∀ pk sk seed, (Leak.crypto_sign_seed_keypair (countedEnv E) pk sk seed).res = crypto_sign_seed_keypair E pk sk seed) ∧
    (∀ sig m sk r, (Leak.crypto_sign_signature (countedEnv E) sig m sk r).res = crypto_sign_signature E sig m sk r) ∧
    (∀ sig len m pk, (Leak.crypto_sign_verify (countedEnv E) sig len m pk).res = crypto_sign_verify E sig len m pk) :=
  ⟨erase_crypto_sign_seed_keypair (countedEnv E), erase_crypto_sign_signature (countedEnv E),
    erase_crypto_sign_verify (countedEnv E)⟩

/-- The same for the optimised implementations. -/
theorem C75_same_programs (E : EnvX) :
    (∀ pk sk seed, (Leak.crypto_sign_seed_keypairT (countedEnvX E).toEnv (Leak.parCode (countedEnvX E)) pk sk seed).res =
      crypto_sign_seed_keypairT E.toEnv (parCode E) pk sk seed) ∧
    (∀ sig m sk r, (Leak.crypto_sign_signatureT (countedEnvX E).toEnv (Leak.parCode (countedEnvX E)) sig m sk r).res =
      crypto_sign_signatureT E.toEnv (parCode E) sig m sk r) ∧
    (∀ sig len m pk, (Leak.crypto_sign_verifyT (countedEnvX E).toEnv (Leak.wots_pk_from_sigx (countedEnvX E)) sig len
      m pk).res = crypto_sign_verifyT E.toEnv (parCode E) sig len m pk) :=
  ⟨erase_crypto_sign_seed_keypairT (countedEnvX E).toEnv (erase_parCode (countedEnvX E)),
    erase_crypto_sign_signatureT (countedEnvX E).toEnv (erase_parCode (countedEnvX E)),
    erase_crypto_sign_verifyT (countedEnvX E).toEnv (T := parCode E) (erase_wots_pk_from_sigx (countedEnvX E))⟩

section
variable {P : Params} (hP : P ∈ shipped)
include hP

/-! ## Key generation and signing -/

/-- C73, key generation: whatever the seed and the buffers contain, each function of the hash library is called exactly
as often as it takes to compute the topmost subtree. -/
theorem C73_keypair_calls (G g : Nat → Nat → Byte) {pk0 sk0 seed : Bytes} (hpk0 : P.pkBytes ≤ pk0.length)
    (hsk0 : P.skBytes ≤ sk0.length) (hseed : P.seedBytes ≤ seed.length) (f : Fn) :
    keypairCalls (build P G g) pk0 sk0 seed f = total (keygenCost P.toSpec) f := by
  have hV := shipped_valid hP
  have e := (C73_same_programs (build P G g)).1 pk0 sk0 seed
  rw [crypto_sign_seed_keypair_spec (buildRefines hP G g) hV hpk0 hsk0 hseed] at e
  rw [total_eq, weigh_keygen hV]
  exact (count_keypair (counted_cost f _ 0) (refCode_cost (counted_cost f _ 0))).calls_eq e

/-- C73, signing: whatever the message, the key and the randomness are, each function is called exactly as often as it
takes to compute a FORS signature and `d` subtrees. -/
theorem C73_sign_calls (G g : Nat → Nat → Byte) {sig0 m sk optrand : Bytes} (hsk : P.skBytes ≤ sk.length)
    (hm : m.length < 2 ^ 60) (hopt : P.n ≤ optrand.length) (hsig0 : P.spxBytes ≤ sig0.length) (f : Fn) :
    signCalls (build P G g) sig0 m sk optrand f = total (signCost P.toSpec) f := by
  have hV := shipped_valid hP
  have e := (C73_same_programs (build P G g)).2.1 sig0 m sk optrand
  rw [crypto_sign_signature_spec (buildRefines hP G g) hV hsk hm hopt hsig0] at e
  rw [total_eq, weigh_sign hV]
  exact (count_sign (counted_cost f _ _) (refCode_cost (counted_cost f _ m.length)) rfl).calls_eq e

/-! ## Verification -/

/-- C74: verification calls the functions as often as it takes to follow the signature, on each layer from the chain
positions which the value of the layer below prescribes to the ends of the chains, whether the signature is valid or
not. -/
theorem C74_verify_calls (G g : Nat → Nat → Byte) {sig m pk : Bytes} (hpk : P.pkBytes ≤ pk.length)
    (hm : m.length < 2 ^ 60) (hsig : P.spxBytes ≤ sig.length) (f : Fn) :
    verifyCalls (build P G g) sig P.spxBytes m pk f = total (verifyCost P.toSpec (specHash P) pk m sig) f := by
  have hV := shipped_valid hP
  have R := buildRefines hP G g
  have e := (C73_same_programs (build P G g)).2.2 sig P.spxBytes m pk
  have e' := e.trans (crypto_sign_verify_spec R hV hpk hm hsig)
  have hW : ∀ f, WotsCost f P (Leak.wots_pk_from_sig (countedEnv (build P G g)))
      fun m => weigh (one f) [(chainRest P.toSpec m, .thash 1)] := by
    intro f
    have h := ref_wotsCost (E := countedEnv (build P G g)) (counted_cost f _ 0) hV
    simp only [weigh_cons, weigh_nil, Nat.add_zero]
    exact h
  rw [total_eq]
  exact (count_verify (counted_cost f _ _) rfl R hV (refCode_ok R hV) (erase_wots_pk_from_sig (countedEnv (build P G g)))
    (hW f) hpk hm rfl hsig).calls_eq e'

omit hP in
/-- C74, wrong length: a signature of another length is refused without a call. -/
theorem C74_wrong_length_no_calls (G g : Nat → Nat → Byte) {sig m pk : Bytes} {siglen : Nat} (h : siglen ≠ P.spxBytes)
    (f : Fn) : verifyCalls (build P G g) sig siglen m pk f = 0 := by
  have e : Wp f (Leak.crypto_sign_verify (countedEnv (build P G g)) sig siglen m pk) fun _ k => k = 0 := by
    unfold Leak.crypto_sign_verify Leak.crypto_sign_verifyT
    exact Wp.branch (fun _ => Wp.ok rfl) fun h' => absurd h h'
  refine e.calls_eq (a := -1) ?_
  rw [(C73_same_programs (build P G g)).2.2]
  exact (C04_wrong_length_rejected G g ⟨fun _ => none⟩ 0 0 0 0 sig m pk h).2

omit hP in
theorem chainRest_le {P : Params} (hP : P.Valid) (m : Bytes) :
    chainRest P.toSpec m ≤ P.wotsLen * (P.w - 1) := by
  rw [← lengths_length hP.wots m]
  unfold chainRest
  rw [toSpec_w hP.w]
  generalize lengths P.toSpec m = L
  induction L with
  | nil => simp
  | cons x L ih =>
    rw [List.map_cons, List.sum_cons, List.length_cons, Nat.succ_mul]
    omega

omit hP in
theorem sum_le {n b : Nat} {g : Nat → Nat} (h : ∀ i, g i ≤ b) : ((List.range n).map g).sum ≤ n * b := by
  induction n with
  | zero => simp
  | succ n ih =>
    rw [List.range_succ, List.map_append, List.sum_append, Nat.succ_mul]
    have := h n
    simp only [List.map_cons, List.map_nil, List.sum_cons, List.sum_nil]
    omega

/-- C74, bounds: whatever it is given, verification calls the tweakable hash on one block at most
`k + d * len * (w - 1)` times, on two blocks exactly `k * a + d * h'` times, the digest and the initialisation once and
the functions which need a secret never. -/
theorem C74_verify_bounds (G g : Nat → Nat → Byte) {sig m pk : Bytes} (hpk : P.pkBytes ≤ pk.length)
    (hm : m.length < 2 ^ 60) (hsig : P.spxBytes ≤ sig.length) :
    verifyCalls (build P G g) sig P.spxBytes m pk (.thash 1) ≤ P.forsTrees + P.d * (P.wotsLen * (P.w - 1)) ∧
    P.forsTrees ≤ verifyCalls (build P G g) sig P.spxBytes m pk (.thash 1) ∧
    verifyCalls (build P G g) sig P.spxBytes m pk (.thash 2) = P.forsTrees * P.forsHeight + P.d * P.treeHeight ∧
    verifyCalls (build P G g) sig P.spxBytes m pk (.thash P.forsTrees) = 1 ∧
    verifyCalls (build P G g) sig P.spxBytes m pk (.thash P.wotsLen) = P.d ∧
    verifyCalls (build P G g) sig P.spxBytes m pk .init = 1 ∧
    verifyCalls (build P G g) sig P.spxBytes m pk .msg = 1 ∧
    verifyCalls (build P G g) sig P.spxBytes m pk .prf = 0 ∧
    verifyCalls (build P G g) sig P.spxBytes m pk .rand = 0 := by
  have hV := shipped_valid hP
  have hk : P.forsTrees ≠ 1 ∧ P.forsTrees ≠ 2 ∧ P.wotsLen ≠ 1 ∧ P.wotsLen ≠ 2 ∧ P.forsTrees ≠ P.wotsLen := by
    clear hpk hsig hV
    revert P
    decide +kernel
  obtain ⟨k1, k2, l1, l2, kl⟩ := hk
  have c := fun f => C74_verify_calls hP G g hpk hm hsig f
  have ht := fun f md tree leaf fpk => weigh_verify (κ := one f) hV (S := specHash P) (pk := pk) (m := m) (sig := sig) (md := md)
    (tree := tree) (leaf := leaf) (fpk := fpk) fun m => [(chainRest P.toSpec m, .thash 1)]
  generalize splitDigest P.toSpec
    ((specHash P).Hmsg (sig.take P.n) (pk.take P.n) ((pk.drop P.n).take P.n) m (digestBytes P.toSpec)) = sd at ht
  obtain ⟨md, tree, leaf⟩ := sd
  have ht := fun f => ht f md tree leaf _ rfl rfl
  generalize forsPkFromSig P.toSpec (specHash P) (pk.take P.n) tree leaf (sig.drop P.n) md = fpk at ht
  have hs := sum_le (n := P.d) fun i => chainRest_le hV
    (htRoot P.toSpec (specHash P) (pk.take P.n) tree leaf (sig.drop (P.n + P.forsBytes)) fpk i)
  simp only [weigh_cons, weigh_nil, Nat.add_zero, sum_add, sum_const, sum_mul] at ht
  generalize ((List.range P.d).map fun i => chainRest P.toSpec
    (htRoot P.toSpec (specHash P) (pk.take P.n) tree leaf (sig.drop (P.n + P.forsBytes)) fpk i)).sum = s at ht hs
  unfold verifyCost at c
  simp only [c, total_eq, ht]
  clear c ht
  simp [one, k1, k2, l1, l2, kl, kl.symm, k1.symm, k2.symm, l1.symm, l2.symm]
  omega

/-! ## The optimised implementations -/

omit hP in
theorem lanes_le (o : Opt) {P : Params} (hP : P ∈ shipped) : o.lg ≤ P.treeHeight ∧ o.lg ≤ P.forsHeight := by
  have h : 3 ≤ P.treeHeight ∧ 3 ≤ P.forsHeight := by
    revert P
    decide +kernel
  have := o.lg_le
  omega

/-- C75, key generation: the functions for several lanes are called as often as it takes to compute the topmost
subtree, all lanes at a time, and no function for one lane but the initialisation is. -/
theorem C75_keypair_calls (o : Opt) (hf : P.fam = o.fam) (G g : Nat → Nat → Byte) {pk0 sk0 seed : Bytes}
    (hpk0 : P.pkBytes ≤ pk0.length) (hsk0 : P.skBytes ≤ sk0.length) (hseed : P.seedBytes ≤ seed.length) (f : Fn) :
    keypairCallsX (o.plain P G g) pk0 sk0 seed f = total (keygenCostX P.toSpec o.lg) f := by
  have hV := shipped_valid hP
  have hl := lanes_le o hP
  have h1 := hV.th_le
  have h2 := hV.fh_le
  obtain ⟨R, hT⟩ := o.refines hP hf G g
  have ep : (o.plain P G g).P = P := by cases o <;> rfl
  have el : (o.plain P G g).lg = o.lg := by cases o <;> rfl
  generalize o.plain P G g = E at *
  subst ep
  rw [← el] at hl ⊢
  have h3 : E.P.treeHeight < 2 ^ 32 := by omega
  have h4 : E.P.forsHeight < 2 ^ 32 := by omega
  have e := (C75_same_programs E).1 pk0 sk0 seed
  rw [crypto_sign_seed_keypairT_spec R hV hT hpk0 hsk0 hseed] at e
  rw [total_eq, weigh_keygenX hV]
  exact (count_keypair (counted_cost f _ 0) (parCode_cost (counted_cost f _ 0) (countedX_cost f _) hV.len_le hl.1 h3 hl.2 h4)).calls_eq e

/-- C75, signing -/
theorem C75_sign_calls (o : Opt) (hf : P.fam = o.fam) (G g : Nat → Nat → Byte) {sig0 m sk optrand : Bytes}
    (hsk : P.skBytes ≤ sk.length) (hm : m.length < 2 ^ 60) (hopt : P.n ≤ optrand.length)
    (hsig0 : P.spxBytes ≤ sig0.length) (f : Fn) :
    signCallsX (o.plain P G g) sig0 m sk optrand f = total (signCostX P.toSpec o.lg) f := by
  have hV := shipped_valid hP
  have hl := lanes_le o hP
  have h1 := hV.th_le
  have h2 := hV.fh_le
  obtain ⟨R, hT⟩ := o.refines hP hf G g
  have ep : (o.plain P G g).P = P := by cases o <;> rfl
  have el : (o.plain P G g).lg = o.lg := by cases o <;> rfl
  generalize o.plain P G g = E at *
  subst ep
  rw [← el] at hl ⊢
  have h3 : E.P.treeHeight < 2 ^ 32 := by omega
  have h4 : E.P.forsHeight < 2 ^ 32 := by omega
  have e := (C75_same_programs E).2.1 sig0 m sk optrand
  rw [crypto_sign_signatureT_spec R hV hT hsk hm hopt hsig0] at e
  rw [total_eq, weigh_signX hV]
  exact (count_sign (counted_cost f _ _) (parCode_cost (counted_cost f _ m.length) (countedX_cost f _) hV.len_le hl.1 h3 hl.2 h4) rfl).calls_eq e

/-- C76: the optimised verification completes the chains in groups of `2 ^ lg`, longest first, with as many calls of the
vectorised hash as the longest in each group needs, and makes the calls of the reference implementation otherwise. -/
theorem C76_verify_calls (o : Opt) (hf : P.fam = o.fam) (G g : Nat → Nat → Byte) {sig m pk : Bytes}
    (hpk : P.pkBytes ≤ pk.length) (hm : m.length < 2 ^ 60) (hsig : P.spxBytes ≤ sig.length) (f : Fn) :
    verifyCallsX (o.plain P G g) sig P.spxBytes m pk f =
      total (verifyCostX P.toSpec o.lg (specHash P) pk m sig) f := by
  have hV := shipped_valid hP
  obtain ⟨R, hT⟩ := o.refines hP hf G g
  have ep : (o.plain P G g).P = P := by cases o <;> rfl
  have el : (o.plain P G g).lg = o.lg := by cases o <;> rfl
  generalize o.plain P G g = E at *
  subst ep
  rw [← el]
  have e := (C75_same_programs E).2.2 sig E.P.spxBytes m pk
  rw [crypto_sign_verifyT_spec R hV hT hpk hm hsig] at e
  rw [total_eq]
  exact (count_verify (counted_cost f _ _) rfl R hV hT (erase_wots_pk_from_sigx (countedEnvX E))
    (count_wots_pk_from_sigx (E := countedEnvX E) (countedX_cost f _) hV) hpk hm rfl hsig).calls_eq e

omit hP in
theorem chainRestX_le {P : Params} (hP : P.Valid) (lg : Nat) (m : Bytes) :
    chainRestX P.toSpec lg m ≤ (P.wotsLen + 2 ^ lg - 1) / 2 ^ lg * (P.w - 1) := by
  unfold chainRestX
  rw [toSpec_w hP.w, toSpec_len hP.wots]
  refine sum_le fun t => ?_
  have h : ∀ x ∈ ((lengths P.toSpec m).map fun x => P.w - 1 - x).mergeSort fun a b => b ≤ a, x ≤ P.w - 1 := by
    intro x hx
    rw [(List.mergeSort_perm _ _).mem_iff] at hx
    obtain ⟨y, _, rfl⟩ := List.mem_map.mp hx
    omega
  rw [List.getD_eq_getElem?_getD]
  cases e : (((lengths P.toSpec m).map fun x => P.w - 1 - x).mergeSort fun a b => b ≤ a)[t * 2 ^ lg]? with
  | none => exact Nat.zero_le _
  | some x => exact h x (List.mem_of_getElem? e)

/-- C76, bound: at most `d * ⌈len / 2 ^ lg⌉ * (w - 1)` calls of the vectorised hash, and `k` on one block. -/
theorem C76_verify_bounds (o : Opt) (hf : P.fam = o.fam) (G g : Nat → Nat → Byte) {sig m pk : Bytes}
    (hpk : P.pkBytes ≤ pk.length) (hm : m.length < 2 ^ 60) (hsig : P.spxBytes ≤ sig.length) :
    verifyCallsX (o.plain P G g) sig P.spxBytes m pk (.thashx 1) ≤
      P.d * ((P.wotsLen + 2 ^ o.lg - 1) / 2 ^ o.lg * (P.w - 1)) ∧
    verifyCallsX (o.plain P G g) sig P.spxBytes m pk (.thash 1) = P.forsTrees ∧
    verifyCallsX (o.plain P G g) sig P.spxBytes m pk (.thash 2) = P.forsTrees * P.forsHeight + P.d * P.treeHeight ∧
    verifyCallsX (o.plain P G g) sig P.spxBytes m pk .prf = 0 ∧
    verifyCallsX (o.plain P G g) sig P.spxBytes m pk .prfx = 0 ∧
    verifyCallsX (o.plain P G g) sig P.spxBytes m pk .rand = 0 := by
  have hV := shipped_valid hP
  have hk : P.forsTrees ≠ 1 ∧ P.forsTrees ≠ 2 ∧ P.wotsLen ≠ 1 ∧ P.wotsLen ≠ 2 := by
    clear hpk hsig hV hf
    revert P
    decide +kernel
  obtain ⟨k1, k2, l1, l2⟩ := hk
  have c := fun f => C76_verify_calls hP o hf G g hpk hm hsig f
  have ht := fun f md tree leaf fpk => weigh_verify (κ := one f) hV (S := specHash P) (pk := pk) (m := m) (sig := sig) (md := md)
    (tree := tree) (leaf := leaf) (fpk := fpk) fun m => [(chainRestX P.toSpec o.lg m, .thashx 1)]
  generalize splitDigest P.toSpec
    ((specHash P).Hmsg (sig.take P.n) (pk.take P.n) ((pk.drop P.n).take P.n) m (digestBytes P.toSpec)) = sd at ht
  obtain ⟨md, tree, leaf⟩ := sd
  have ht := fun f => ht f md tree leaf _ rfl rfl
  generalize forsPkFromSig P.toSpec (specHash P) (pk.take P.n) tree leaf (sig.drop P.n) md = fpk at ht
  have hs := sum_le (n := P.d) fun i => chainRestX_le hV o.lg
    (htRoot P.toSpec (specHash P) (pk.take P.n) tree leaf (sig.drop (P.n + P.forsBytes)) fpk i)
  simp only [weigh_cons, weigh_nil, Nat.add_zero, sum_add, sum_const, sum_mul] at ht
  generalize ((List.range P.d).map fun i => chainRestX P.toSpec o.lg
    (htRoot P.toSpec (specHash P) (pk.take P.n) tree leaf (sig.drop (P.n + P.forsBytes)) fpk i)).sum = s at ht hs
  unfold verifyCostX at c
  simp only [c, total_eq, ht]
  clear c ht
  simp [one, k1, k2, l1, l2]
  omega

omit hP in
/-- C76, wrong length -/
theorem C76_wrong_length_no_calls (E : EnvX) {sig m pk : Bytes} {siglen : Nat} (h : siglen ≠ E.P.spxBytes)
    (f : Fn) : verifyCallsX E sig siglen m pk f = 0 := by
  have e : Wp f (Leak.crypto_sign_verifyT (countedEnvX E).toEnv (Leak.wots_pk_from_sigx (countedEnvX E)) sig siglen m pk)
      fun _ k => k = 0 := by
    unfold Leak.crypto_sign_verifyT
    exact Wp.branch (fun _ => Wp.ok rfl) fun h' => absurd h h'
  refine e.calls_eq (a := -1) ?_
  rw [(C75_same_programs E).2.2]
  unfold crypto_sign_verifyT
  rw [if_pos h]

end

/-! ## Concrete cases -/

/-- C73: signing with 128f calls the tweakable hash on one block 94512 times. -/
example : signCalls (build (sha2_128f true) (fun _ _ => 0) (fun _ _ => 0)) (List.replicate 17088 0) [1, 2, 3]
    (List.replicate 64 1) (List.replicate 16 0) (.thash 1) = 94512 :=
  (C73_sign_calls (P := sha2_128f true) (by decide) _ _ (by decide) (by decide) (by decide)
    (by rw [List.length_replicate]; decide) _).trans (by decide)

example : total (signCost (sha2_128f true).toSpec) .prf = 33 + 33 * 64 + 22 * 8 * 35 ∧
    total (keygenCost (shake_256s false).toSpec) (.thash 1) = 256 * 67 * 15 ∧
    total (keygenCost (shake_256s false).toSpec) (.thash 2) = 255 := by decide

/-- C74: a signature of zeros costs at least the 33 FORS leaves. -/
example : 33 ≤ verifyCalls (build (shake_192f true) (fun _ _ => 0) (fun _ _ => 0)) (List.replicate 35664 0) 35664 [1, 2]
    (List.replicate 48 1) (.thash 1) :=
  (C74_verify_bounds (P := shake_192f true) (by decide) (fun _ _ => 0) (fun _ _ => 0) (sig := List.replicate 35664 0)
    (m := [1, 2]) (pk := List.replicate 48 1) (by decide) (by decide) (by rw [List.length_replicate]; decide)).2.1

/-- C75: eight lanes of sha2-avx2, one batch of leaves for each tree of height 3. -/
example : keypairCallsX (Opt.sha2Avx2.plain (sha2_128f true) (fun _ _ => 0) (fun _ _ => 0)) (List.replicate 32 0)
    (List.replicate 64 0) (List.replicate 48 5) (.thashx 1) = 35 * 15 :=
  (C75_keypair_calls (P := sha2_128f true) (by decide) .sha2Avx2 rfl _ _ (by decide) (by decide) (by decide) _).trans
    (by decide)

/-- C76: sha2-avx2 verifies a 256s signature with at most `8 * 9 * 15` calls for the chains. -/
example : verifyCallsX (Opt.sha2Avx2.plain (sha2_256s true) (fun _ _ => 0) (fun _ _ => 0)) (List.replicate 29792 0) 29792
    [1, 2] (List.replicate 64 1) (.thashx 1) ≤ 8 * (9 * 15) :=
  (C76_verify_bounds (P := sha2_256s true) (by decide) .sha2Avx2 rfl (fun _ _ => 0) (fun _ _ => 0)
    (sig := List.replicate 29792 0) (m := [1, 2]) (pk := List.replicate 64 1) (by decide) (by decide)
    (by rw [List.length_replicate]; decide)).1

end Spx
