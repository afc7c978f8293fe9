import Verif.Proof.LeakSign
import Verif.Proof.ShippedSign
/-!
# C58–C61: which memory is accessed and which branches are taken does not depend on secrets

`Spx.Leak` contains the code of the reference implementation with a record of every memory access (offset and
length), every pointer computed, the outcome of every branch and the number of iterations of every loop.
-/

namespace Spx.Leak
open Spec

/-- The sizes of the arrays in `spx_ctx`, ref/context.h. -/
structure Sized (P : Params) (c : Ctx) : Prop where
  pub_seed : c.pub_seed.length = P.n
  sk_seed : c.sk_seed.length = P.n
  state_seeded : c.state_seeded.length = 40
  state_seeded_512 : c.state_seeded_512.length = 72
  rc64 : c.tweaked512_rc64.length = 80
  rc32 : c.tweaked256_rc32.length = 80
  rc : c.rc.length = 640

theorem Sized.low {P : Params} {c c' : Ctx} (h : Sized P c) (h' : Sized P c') : CtxLow c c' :=
  ⟨h.1.trans h'.1.symm, h.2.trans h'.2.symm, h.3.trans h'.3.symm, h.4.trans h'.4.symm, h.5.trans h'.5.symm,
    h.6.trans h'.6.symm, h.7.trans h'.7.symm⟩

/-- A context as it is declared in sign.c. -/
theorem sized_uninit (P : Params) (G g : Nat → Nat → Byte) : Sized P (uninitCtx (Spx.build P G g)) := by
  refine ⟨?_, ?_, ?_, ?_, ?_, ?_, ?_⟩ <;>
  · unfold uninitCtx
    dsimp only
    rw [len_uninit]
    try rfl

/-! ## What the traces are traces of -/

/-- Without the traces the programs are those of the model. -/
theorem C58_same_programs (P : Params) (G g : Nat → Nat → Byte) :
    (∀ c, ((implOf P g).initialize_hash_function c).res = (Spx.implOf P g).initialize_hash_function c) ∧
    (∀ c a, ((implOf P g).prf_addr c a).res = (Spx.implOf P g).prf_addr c a) ∧
    (∀ i b c a, ((implOf P g).thash i b c a).res = (Spx.implOf P g).thash i b c a) ∧
    (∀ k o m c, ((implOf P g).gen_message_random k o m c).res = (Spx.implOf P g).gen_message_random k o m c) ∧
    (∀ R pk m c, ((implOf P g).hash_message R pk m c).res = (Spx.implOf P g).hash_message R pk m c) ∧
    (∀ sig m c a, (fors_sign (build P G g) sig m c a).res = Spx.fors_sign (Spx.build P G g) sig m c a) ∧
    (∀ sig r c w t i, (merkle_sign (build P G g) sig r c w t i).res =
      Spx.merkle_sign (Spx.build P G g) sig r c w t i) ∧
    (∀ pk sk seed, (crypto_sign_seed_keypair (build P G g) pk sk seed).res =
      Spx.crypto_sign_seed_keypair (Spx.build P G g) pk sk seed) ∧
    (∀ sig m sk o, (crypto_sign_signature (build P G g) sig m sk o).res =
      Spx.crypto_sign_signature (Spx.build P G g) sig m sk o) := by
  rw [← erase_implOf, ← erase_build]
  exact ⟨fun _ => rfl, fun _ _ => rfl, fun _ _ _ _ => rfl, fun _ _ _ _ => rfl, fun _ _ _ _ => rfl,
    erase_fors_sign _, erase_merkle_sign _, erase_crypto_sign_seed_keypair _, erase_crypto_sign_signature _⟩

/-- Equal traces mean equal memory accesses, equal pointers, equal conditions and equally many iterations, for each
of the operations the programs are made of. -/
theorem C58_traces_tell_apart {α β σ τ : Type} :
    (∀ (b : List α) (b' : List β) (o l o' l' : Nat), (rd b o l).tr = (rd b' o' l').tr → o = o' ∧ l = l') ∧
    (∀ (b d : List α) (b' d' : List β) (o o' : Nat), (wr b o d).tr = (wr b' o' d').tr →
      o = o' ∧ d.length = d'.length) ∧
    (∀ (b : List α) (b' : List β) (i i' : Nat), (rd1 b i).tr = (rd1 b' i').tr → i = i') ∧
    (∀ (b : List α) (b' : List β) (i i' : Nat) (x : α) (x' : β), (wr1 b i x).tr = (wr1 b' i' x').tr → i = i') ∧
    (∀ (b : List α) (b' : List β) (o o' : Nat), (sub b o).tr = (sub b' o').tr → o = o') ∧
    (∀ (b : List α) (b' : List β) (o o' : Nat) (f : List α → L (List α × σ)) (f' : List β → L (List β × τ)),
      (withSub b o f).tr = (withSub b' o' f').tr → o = o') ∧
    (∀ (p q : Prop) [Decidable p] [Decidable q] (x y : L α) (x' y' : L β),
      (cif p then x else y : L α).tr = (cif q then x' else y' : L β).tr → (p ↔ q)) ∧
    (∀ (p q p' q' : Prop) [Decidable p] [Decidable q] [Decidable p'] [Decidable q'] (x y : L α) (x' y' : L β),
      (cif p andalso q then x else y : L α).tr = (cif p' andalso q' then x' else y' : L β).tr →
      (p ↔ p') ∧ (p ∧ q ↔ p' ∧ q')) ∧
    (∀ (p q p' q' : Prop) [Decidable p] [Decidable q] [Decidable p'] [Decidable q'] (x y : L α) (x' y' : L β),
      (cif p orelse q then x else y : L α).tr = (cif p' orelse q' then x' else y' : L β).tr →
      (p ↔ p') ∧ (p ∨ q ↔ p' ∨ q')) ∧
    (∀ (n n' : Nat) (f : Nat → σ → L σ) (f' : Nat → τ → L τ) (s : σ) (s' : τ),
      (forRange n f s).tr = (forRange n' f' s').tr → n = n') := by
  refine ⟨?_, ?_, ?_, ?_, ?_, ?_, ?_, ?_, ?_, ?_⟩
  · intro b b' o l o' l' h
    exact Ev.rd.inj (List.cons.inj h).1
  · intro b d b' d' o o' h
    exact Ev.wr.inj (List.cons.inj h).1
  · intro b b' i i' h
    exact (Ev.rd.inj (List.cons.inj h).1).1
  · intro b b' i i' x x' h
    exact (Ev.wr.inj (List.cons.inj h).1).1
  · intro b b' o o' h
    exact Ev.ptr.inj (List.cons.inj h).1
  · intro b b' o o' f f' h
    have hd : ∀ {γ ρ : Type} (b : List γ) (o : Nat) (f : List γ → L (List γ × ρ)),
        ∃ r, (withSub b o f).tr = .ptr o :: r := by
      intro γ ρ b o f
      unfold withSub
      generalize (fun p => L.bind (f p) fun r => L.ok (b.take o ++ r.1, r.2)) = k
      unfold L.bind
      cases (sub b o).res with
      | ok v => exact ⟨_, rfl⟩
      | error e => exact ⟨_, rfl⟩
    obtain ⟨r, e⟩ := hd b o f
    obtain ⟨r', e'⟩ := hd b' o' f'
    rw [e, e'] at h
    exact Ev.ptr.inj (List.cons.inj h).1
  · intro p q _ _ x y x' y' h
    exact decide_eq_decide.mp (Ev.br.inj (List.cons.inj h).1)
  · intro p q p' q' _ _ _ _ x y x' y' h
    have hp : p ↔ p' := decide_eq_decide.mp (Ev.br.inj (List.cons.inj h).1)
    have h2 := (List.cons.inj h).2
    refine ⟨hp, ?_⟩
    by_cases hp1 : p
    · have hp2 := hp.mp hp1
      simp only [if_pos hp1, if_pos hp2] at h2
      have hq : q ↔ q' := decide_eq_decide.mp (Ev.br.inj (List.cons.inj h2).1)
      rw [hp, hq]
    · have hp2 := fun h => hp1 (hp.mpr h)
      exact ⟨fun h => absurd h.1 hp1, fun h => absurd h.1 hp2⟩
  · intro p q p' q' _ _ _ _ x y x' y' h
    have hp : p ↔ p' := decide_eq_decide.mp (Ev.br.inj (List.cons.inj h).1)
    have h2 := (List.cons.inj h).2
    refine ⟨hp, ?_⟩
    by_cases hp1 : p
    · exact ⟨fun _ => .inl (hp.mp hp1), fun _ => .inl hp1⟩
    · have hp2 := fun h => hp1 (hp.mpr h)
      simp only [if_neg hp1, if_neg hp2] at h2
      have hq : q ↔ q' := decide_eq_decide.mp (Ev.br.inj (List.cons.inj h2).1)
      rw [hp, hq]
  · intro n n' f f' s s' h
    exact Ev.iter.inj (List.cons.inj h).1

/-- The trace of a sequence of steps is the trace of the first followed by that of the rest, and what was recorded
before undefined behaviour stays recorded. -/
theorem C58_traces_compose {α β : Type} (x : L α) (f : α → L β) :
    (∀ a, x.res = .ok a → (x >>= f).tr = x.tr ++ (f a).tr) ∧ (∀ e, x.res = .error e → (x >>= f).tr = x.tr) := by
  rw [bind_def]
  unfold L.bind
  constructor
  · intro a h
    rw [h]
  · intro e h
    rw [h]

/-- A loop ended by its condition shows how often it ran: `k` times on and once out. -/
theorem C58_trace_of_loop {k fuel : Nat} (hf : k < fuel) :
    (loop fuel (fun i => if i < k then L.ok (.inl (i + 1)) else .ok (.inr ())) 0).tr =
      List.replicate k (.br true) ++ [.br false] := by
  have h : ∀ (d i fuel : Nat), i + d = k → d < fuel →
      (loop fuel (fun i => if i < k then L.ok (.inl (i + 1)) else .ok (.inr ())) i).tr =
        List.replicate d (.br true) ++ [.br false] := by
    intro d
    induction d with
    | zero =>
      intro i fuel hi hf
      obtain ⟨fuel, rfl⟩ := Nat.exists_eq_succ_of_ne_zero (Nat.ne_of_gt hf)
      rw [loop_succ, if_neg (by omega)]
      rfl
    | succ d ih =>
      intro i fuel hi hf
      obtain ⟨fuel, rfl⟩ := Nat.exists_eq_succ_of_ne_zero (Nat.ne_of_gt (Nat.lt_of_le_of_lt (Nat.zero_le _) hf))
      rw [loop_succ, if_pos (by omega)]
      have := ih (i + 1) fuel (by omega) (by omega)
      show Ev.br true :: (loop fuel _ (i + 1)).tr = _
      rw [this]
      rfl
  exact h k 0 fuel (Nat.zero_add k) hf

example : (loop 9 (fun i => if i < 2 then L.ok (.inl (i + 1)) else .ok (.inr ())) 0).tr =
    [.br true, .br true, .br false] := C58_trace_of_loop (by decide)

/-! ## The hash functions -/

/-- `initialize_hash_function` accesses the same memory and takes the same branches for all seeds. -/
theorem C58_initialize_trace (P : Params) (g g' : Nat → Nat → Byte) {c c' : Ctx} (h : Sized P c) (h' : Sized P c') :
    ((implOf P g).initialize_hash_function c).tr = ((implOf P g').initialize_hash_function c').tr :=
  ((low_implOf P g g').init c c' (h.low h')).1

/-- `prf_addr` accesses the same memory and takes the same branches for all seeds and addresses. -/
theorem C58_prf_addr_trace (P : Params) (g g' : Nat → Nat → Byte) {c c' : Ctx} (h : Sized P c) (h' : Sized P c')
    {a a' : Addr} (ha : a.length = 32) (ha' : a'.length = 32) :
    ((implOf P g).prf_addr c a).tr = ((implOf P g').prf_addr c' a').tr :=
  ((low_implOf P g g').prf c c' a a' (h.low h') (ha.trans ha'.symm)).1

/-- `thash` accesses the same memory and takes the same branches for all inputs of the same length. -/
theorem C58_thash_trace (P : Params) (g g' : Nat → Nat → Byte) {c c' : Ctx} (h : Sized P c) (h' : Sized P c')
    {a a' : Addr} (ha : a.length = 32) (ha' : a'.length = 32) (blocks : Nat) {inp inp' : Bytes}
    (hi : inp.length = inp'.length) :
    ((implOf P g).thash inp blocks c a).tr = ((implOf P g').thash inp' blocks c' a').tr :=
  ((low_implOf P g g').thash inp inp' blocks c c' a a' hi (h.low h') (ha.trans ha'.symm)).1

/-- `gen_message_random` accesses the same memory and takes the same branches for all keys, all randomness and
all messages of the same length. -/
theorem C58_gen_message_random_trace (P : Params) (g g' : Nat → Nat → Byte) {c c' : Ctx} (h : Sized P c)
    (h' : Sized P c') {k k' o o' m m' : Bytes} (hk : k.length = k'.length) (ho : o.length = o'.length)
    (hm : m.length = m'.length) :
    ((implOf P g).gen_message_random k o m c).tr = ((implOf P g').gen_message_random k' o' m' c').tr :=
  ((low_implOf P g g').genR k k' o o' m m' c c' hk ho hm (h.low h')).1

/-- `hash_message` accesses the same memory and takes the same branches for all messages of the same length. -/
theorem C58_hash_message_trace (P : Params) (g g' : Nat → Nat → Byte) {c c' : Ctx} (h : Sized P c)
    (h' : Sized P c') {R R' pk pk' m m' : Bytes} (hR : R.length = R'.length) (hpk : pk.length = pk'.length)
    (hm : m.length = m'.length) :
    ((implOf P g).hash_message R pk m c).tr = ((implOf P g').hash_message R' pk' m' c').tr :=
  ((low_implOf P g g').hmsg R R' pk pk' m m' c c' hR hpk hm (h.low h')).1

/-- Two contexts with different seeds. -/
example : ∃ c c' : Ctx, Sized (haraka_128f true) c ∧ Sized (haraka_128f true) c' ∧ c.sk_seed ≠ c'.sk_seed := by
  refine ⟨_, _, sized_uninit _ (fun _ _ => 0) (fun _ _ => 0), sized_uninit _ (fun _ _ => 1) (fun _ _ => 0), ?_⟩
  show uninit (fun _ => 0#8) 16 ≠ uninit (fun _ => 1#8) 16
  decide

/-- The traces tell table lookups with different indices and different branches apart: an S-box as a table
would leave different traces for different bytes. -/
example (table : Bytes) : (rd1 table (0x53#8).toNat).tr ≠ (rd1 table (0x54#8).toNat).tr := by
  show [Ev.rd _ 1] ≠ [Ev.rd _ 1]
  decide

example (x : L Unit) : (cif (3 = 3) then x else x : L Unit).tr ≠ (cif (3 = 4) then x else x : L Unit).tr := by
  intro h
  exact absurd (List.cons.inj h).1 (by decide)

/-! ## Key generation -/

theorem shipped_w {P : Params} (hP : P ∈ shipped) : P.w ≤ 256 := (shipped_valid hP).w_le.2

/-- `crypto_sign_seed_keypair` accesses the same memory and takes the same branches for all seeds, whatever the
buffers and uninitialised memory contained. -/
theorem C59_keypair_trace {P : Params} (hP : P ∈ shipped) (G G' g g' : Nat → Nat → Byte)
    {pk pk' sk sk' seed seed' : Bytes} (hpk : pk.length = pk'.length) (hsk : sk.length = sk'.length)
    (hseed : seed.length = P.seedBytes) (hseed' : seed'.length = P.seedBytes) :
    (crypto_sign_seed_keypair (build P G g) pk sk seed).tr =
      (crypto_sign_seed_keypair (build P G' g') pk' sk' seed').tr :=
  (low_seed_keypair (low_implOf P g g') (low_refCode (low_implOf P g g') (shipped_valid hP)) hpk hsk (hseed.trans hseed'.symm)).1

example : ∃ seed seed' : Bytes, seed.length = (sha2_128f true).seedBytes ∧ seed'.length = (sha2_128f true).seedBytes ∧
    seed ≠ seed' :=
  ⟨List.replicate 48 0, List.replicate 48 1, rfl, rfl, by decide⟩

/-! ## FORS and Merkle trees -/

/-- What `fors_sign` accesses and the branches it takes depend on the digest it signs and on nothing else. -/
theorem C60_fors_sign_trace {P : Params} (hP : P ∈ shipped) (G G' g g' : Nat → Nat → Byte) {c c' : Ctx}
    (h : Sized P c) (h' : Sized P c') {a a' : Addr} (ha : a.length = 32) (ha' : a'.length = 32)
    {sig sig' md : Bytes} (hs : sig.length = sig'.length) (hmd : md.length = P.forsMsgBytes) :
    (fors_sign (build P G g) sig md c a).tr = (fors_sign (build P G' g') sig' md c' a').tr := by
  have hv := shipped_valid hP
  refine (low_fors_sign (low_implOf P g g') (h.low h') (by have := hv.fh_le; omega) hs ?_ (ha.trans ha'.symm)).1
  rw [hmd]
  unfold Params.forsMsgBytes
  rw [Nat.mul_comm]
  omega

/-- What `merkle_sign` accesses and the branches it takes depend on the value it signs and the index of the leaf
and on nothing else. -/
theorem C60_merkle_sign_trace {P : Params} (hP : P ∈ shipped) (G G' g g' : Nat → Nat → Byte) {c c' : Ctx}
    (h : Sized P c) (h' : Sized P c') {wa wa' ta ta' : Addr} (hw : wa.length = 32) (hw' : wa'.length = 32)
    (ht : ta.length = 32) (ht' : ta'.length = 32) {sig sig' root : Bytes} (hs : sig.length = sig'.length)
    (hr : root.length = P.n) (idx : Nat) :
    (merkle_sign (build P G g) sig root c wa ta idx).tr = (merkle_sign (build P G' g') sig' root c' wa' ta' idx).tr :=
  (low_merkle_sign (low_implOf P g g') (h.low h') (shipped_w hP) hs ⟨hr, hr⟩ (.inl ⟨(shipped_valid hP).wots, rfl⟩)
    (hw.trans hw'.symm) (ht.trans ht'.symm)).1

/-- `merkle_gen_root` accesses the same memory and takes the same branches for all seeds. -/
theorem C60_merkle_gen_root_trace {P : Params} (hP : P ∈ shipped) (G G' g g' : Nat → Nat → Byte) {c c' : Ctx}
    (h : Sized P c) (h' : Sized P c') {root root' : Bytes} (hr : root.length = P.n) (hr' : root'.length = P.n) :
    (merkle_gen_root (build P G g) root c).tr = (merkle_gen_root (build P G' g') root' c').tr :=
  (low_merkle_gen_root (low_implOf P g g') (h.low h') (shipped_w hP) ⟨hr, hr'⟩).1

example : (List.replicate (shake_128f true).n 0#8).length = (shake_128f true).n ∧
    (List.replicate (shake_128f true).forsMsgBytes 0#8).length = (shake_128f true).forsMsgBytes ∧
    (zeroAddr).length = 32 := by decide

/-- The value signed is visible in the trace: at the position where a chain is published the branch is taken, and
nowhere else. -/
example (E : Env) (c : Ctx) (i : Nat) (b s : Bytes) (a : Addr) :
    (wots_gen_leafx1_chain E c i 3 (3, b, s, a)).tr ≠ (wots_gen_leafx1_chain E c i 4 (3, b, s, a)).tr := by
  have hd : ∀ k, ∃ r, (wots_gen_leafx1_chain E c i k (3, b, s, a)).tr = .br (decide (3 = k)) :: r := by
    intro k
    unfold wots_gen_leafx1_chain
    dsimp only
    rw [bind_def]
    have hh : ∃ r, (cif 3 = k then wr s (i * E.P.n) b else .ok s : L Bytes).tr = .br (decide (3 = k)) :: r := ⟨_, rfl⟩
    obtain ⟨r, hr⟩ := hh
    generalize (cif 3 = k then wr s (i * E.P.n) b else .ok s : L Bytes) = x at hr
    unfold L.bind
    cases x.res with
    | ok v => exact ⟨_, by rw [hr]; rfl⟩
    | error e => exact ⟨_, hr⟩
  obtain ⟨r, h3⟩ := hd 3
  obtain ⟨r', h4⟩ := hd 4
  rw [h3, h4]
  intro h
  exact absurd (List.cons.inj h).1 (by decide)

/-! ## Signing -/

/-- Refinement of the hash functions with traces. -/
noncomputable def leakRefines {P : Params} (hP : P ∈ shipped) (g : Nat → Nat → Byte) :
    Refines P (implOf P g).erase (specHash P) := by
  rw [erase_implOf]
  exact shippedRefines hP g

/-- What `crypto_sign_signature` accesses and the branches it takes can be computed from the public key, the
message and the signature it makes; the secret key, the randomness, the previous contents of the buffer and
uninitialised memory leave no other mark in them. -/
theorem C61_sign_trace {P : Params} (hP : P ∈ shipped) (G g : Nat → Nat → Byte) {sig0 m sk optrand : Bytes}
    (hsk : sk.length = P.skBytes) (hm : m.length < 2 ^ 60) (hopt : optrand.length = P.n)
    (hsig : P.spxBytes ≤ sig0.length) :
    ∃ sig, sig.length = P.spxBytes ∧
      (crypto_sign_signature (build P G g) sig0 m sk optrand).res = .ok (sig ++ sig0.drop P.spxBytes, P.spxBytes) ∧
      (crypto_sign_signature (build P G g) sig0 m sk optrand).tr =
        simulate P (specHash P) (sk.drop (2 * P.n)) m sig sig0.length := by
  refine ⟨Spec.sign P.toSpec (specHash P) sk optrand m, ship_sign_len hP .., ?_, ?_⟩
  · rw [erase_crypto_sign_signature, erase_build]
    exact ship_sign hP G g hsk hm hopt hsig
  · exact (low_sign (G := G) (G' := fun _ _ => 0) (low_implOf P g (fun _ _ => 0)) (leakRefines hP g)
      (leakRefines hP _) (shipped_valid hP) (low_refCode (low_implOf P g _) (shipped_valid hP)) (erase_refCode _)
      (refCode_ok (E := Env.erase (build P G g)) (leakRefines hP g) (shipped_valid hP)) hsk hm hopt hsig).1

/-- Two runs which make the same signature of the same message for the same public key access the same memory
and take the same branches. -/
theorem C61_same_signature_same_trace {P : Params} (hP : P ∈ shipped) (G G' g g' : Nat → Nat → Byte)
    {sig0 sig0' m sk sk' optrand optrand' sig : Bytes} (hsk : sk.length = P.skBytes) (hsk' : sk'.length = P.skBytes)
    (hm : m.length < 2 ^ 60) (hopt : optrand.length = P.n) (hopt' : optrand'.length = P.n)
    (hsig : sig0.length = P.spxBytes) (hsig' : sig0'.length = P.spxBytes)
    (hpk : sk.drop (2 * P.n) = sk'.drop (2 * P.n))
    (h : (crypto_sign_signature (build P G g) sig0 m sk optrand).res = .ok (sig, P.spxBytes))
    (h' : (crypto_sign_signature (build P G' g') sig0' m sk' optrand').res = .ok (sig, P.spxBytes)) :
    (crypto_sign_signature (build P G g) sig0 m sk optrand).tr =
      (crypto_sign_signature (build P G' g') sig0' m sk' optrand').tr := by
  obtain ⟨s, _, e, t⟩ := C61_sign_trace hP G g hsk hm hopt (Nat.le_of_eq hsig.symm)
  obtain ⟨s', _, e', t'⟩ := C61_sign_trace hP G' g' hsk' hm hopt' (Nat.le_of_eq hsig'.symm)
  rw [h, List.drop_of_length_le (Nat.le_of_eq hsig), List.append_nil] at e
  rw [h', List.drop_of_length_le (Nat.le_of_eq hsig'), List.append_nil] at e'
  cases e
  cases e'
  rw [t, t', hpk, hsig, hsig']

/-- A secret key, a message, randomness and a buffer of the sizes assumed. -/
example : ∃ (P : Params) (sig0 m sk optrand : Bytes), P ∈ shipped ∧ sk.length = P.skBytes ∧ m.length < 2 ^ 60 ∧
    optrand.length = P.n ∧ P.spxBytes ≤ sig0.length :=
  ⟨(haraka_128f true), List.replicate (haraka_128f true).spxBytes 0, [1, 2, 3],
    List.replicate (haraka_128f true).skBytes 7, List.replicate (haraka_128f true).n 9, by decide, by rw [List.length_replicate],
    by decide, by rw [List.length_replicate], by rw [List.length_replicate]⟩

end Spx.Leak
