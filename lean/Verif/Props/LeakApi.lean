import Verif.Proof.LeakApi
import Verif.Props.LeakOpt
import Verif.Props.Randombytes
/-!
# C88: the functions of the API with their random bytes

Traces of `crypto_sign_keypair` and `crypto_sign` as a whole: from the call of `open` to the copy of the message, in the
reference implementation and in the optimised ones.
-/

namespace Spx.Leak
open Spec
open Randombytes (Read Outcome delivered NoFail)

/-! ## `randombytes` -/

/-- Without the trace it is the `randombytes` of C33. -/
theorem C88_same_program (fd : Int) (opens : List Int) (reads : List Read) (M : Mem) (x xlen : Nat) :
    (randombytes fd opens reads M x xlen).res = Randombytes.randombytes fd opens reads M x xlen :=
  erase_randombytes fd opens reads M x xlen

/-- What `randombytes` accesses and the branches it takes do not depend on the bytes it delivers, whether reads fail, are
short or empty, and whether it returns or still waits. -/
theorem C88_randombytes_trace {o o' : OS} (h : o.Alike o') (len : Nat) :
    (randombytes o.fd o.opens o.reads o.M o.x len).tr = (randombytes o'.fd o'.opens o'.reads o'.M o'.x len).tr :=
  (low_randombytes h len).1

/-- The bytes in the array, when the operating system delivers enough of them -/
theorem C88_random {o : OS} {len : Nat} {fd' : Int} (ho : Randombytes.openFd o.fd o.opens = some fd') (hr : NoFail o.reads)
    (hM : o.M.Alloc o.x len) (hx : o.x + len ≤ 2 ^ 64) (hd : (delivered o.reads len).length = len) :
    (random o len).res = .ok (some (delivered o.reads len)) := by
  obtain ⟨M', rest, h1, h2, -⟩ := Randombytes.C33_randombytes o.fd o.opens ho o.reads hr o.M o.x len hM hx hd
  unfold random
  rw [bind_def, res_L_ok ((erase_randombytes ..).trans h1)]
  dsimp only
  rw [bind_def, res_L_ok h2]
  rfl

/-- Two histories which look alike: a failed `open`, an empty read, a short one and a long one. -/
def calm (k : Byte) : OS :=
  ⟨-1, [-1, 3], [.data [], .data (List.replicate 10 k), .data (List.replicate 100 k)], Mem.filled fun _ => k, 1000⟩

/-- Two histories which look alike, with a read that fails. -/
def rough (k : Byte) : OS := { calm k with reads := .fail :: (calm k).reads }

theorem calm_alike (k k' : Byte) : (calm k).Alike (calm k') :=
  ⟨rfl, rfl, ⟨rfl, by rw [List.length_replicate, List.length_replicate],
    by rw [List.length_replicate, List.length_replicate], trivial⟩, fun _ => ⟨nofun, nofun⟩, rfl⟩

theorem rough_alike (k k' : Byte) : (rough k).Alike (rough k') :=
  ⟨rfl, rfl, (calm_alike k k').reads, fun _ => ⟨nofun, nofun⟩, rfl⟩

/-- They differ, and the first one delivers enough for a seed or for the randomness of a signature. -/
theorem calm_random (k : Byte) {len : Nat} (h : len ≤ 96) :
    ∃ b, (random (calm k) len).res = .ok (some b) ∧ b = List.replicate len k := by
  have hd : delivered (calm k).reads len = List.replicate len k := by
    have e : ∀ a b, (List.replicate a k).take b = List.replicate (min b a) k := fun a b => List.take_replicate
    show ([] : Bytes).take _ ++ ((List.replicate 10 k).take _ ++ ((List.replicate 100 k).take _ ++ [])) = _
    simp only [List.take_nil, List.length_nil, List.nil_append, List.append_nil, e, List.length_replicate,
      List.replicate_append_replicate]
    congr 1
    omega
  refine ⟨_, C88_random (o := calm k) (fd' := 3) rfl ?_ (Mem.filled_alloc _ _ _) (by show 1000 + len ≤ _; omega)
    (by rw [hd, List.length_replicate]), hd⟩
  intro r hr
  simp only [calm, List.mem_cons, List.not_mem_nil, or_false] at hr
  rcases hr with rfl | rfl | rfl <;> simp

/-- Different bytes, equal traces, also with a failed read. -/
example : (∃ b b', (random (calm 0) 16).res = .ok (some b) ∧ (random (calm 1) 16).res = .ok (some b') ∧ b ≠ b') ∧
    (random (calm 0) 16).tr = (random (calm 1) 16).tr ∧ (random (rough 0) 16).tr = (random (rough 1) 16).tr := by
  obtain ⟨b, h, rfl⟩ := calm_random 0 (len := 16) (by decide)
  obtain ⟨b', h', rfl⟩ := calm_random 1 (len := 16) (by decide)
  exact ⟨⟨_, _, h, h', by decide⟩, (low_random (calm_alike 0 1) 16).1, (low_random (rough_alike 0 1) 16).1⟩

/-! ## Key generation -/

/-- `crypto_sign_keypair` gives the key pair of the delivered seed. -/
theorem C88_keypair_result {P : Params} (hP : P ∈ shipped) (G g : Nat → Nat → Byte) {o : OS} {pk0 sk0 seed : Bytes}
    (hpk : pk0.length = P.pkBytes) (hsk : sk0.length = P.skBytes) (hr : (random o P.seedBytes).res = .ok (some seed))
    (hseed : seed.length = P.seedBytes) :
    (crypto_sign_keypairT (build P G g) (refCode (build P G g)) o pk0 sk0).res =
      .ok (some (pkOf P.toSpec (specHash P) seed, skOf P.toSpec (specHash P) seed)) := by
  have e : (crypto_sign_seed_keypair (build P G g) pk0 sk0 seed).res =
      .ok (pkOf P.toSpec (specHash P) seed ++ pk0.drop P.pkBytes, skOf P.toSpec (specHash P) seed ++ sk0.drop P.skBytes) := by
    rw [erase_crypto_sign_seed_keypair, erase_build]
    exact ship_keypair hP G g (Nat.le_of_eq hpk.symm) (Nat.le_of_eq hsk.symm) hseed
  rw [List.drop_of_length_le (Nat.le_of_eq hpk), List.drop_of_length_le (Nat.le_of_eq hsk), List.append_nil,
    List.append_nil] at e
  exact (res_L_ok hr _).trans (res_L_ok e _)

/-- The same for the optimised implementations. -/
theorem C88_keypair_result_opt (i : Opt) {P : Params} (hP : P ∈ shipped) (hf : P.fam = i.fam) (G g : Nat → Nat → Byte)
    {o : OS} {pk0 sk0 seed : Bytes} (hpk : pk0.length = P.pkBytes) (hsk : sk0.length = P.skBytes)
    (hr : (random o P.seedBytes).res = .ok (some seed)) (hseed : seed.length = P.seedBytes) :
    (crypto_sign_keypairT (i.build P G g).toEnv (parCode (i.build P G g)) o pk0 sk0).res =
      .ok (some (pkOf P.toSpec (specHash P) seed, skOf P.toSpec (specHash P) seed)) := by
  obtain ⟨R, hT⟩ := i.erase_refines hP hf G g
  have e : (crypto_sign_seed_keypairT (i.build P G g).toEnv (parCode (i.build P G g)) pk0 sk0 seed).res =
      .ok (pkOf P.toSpec (specHash P) seed ++ pk0.drop P.pkBytes, skOf P.toSpec (specHash P) seed ++ sk0.drop P.skBytes) := by
    refine (erase_crypto_sign_seed_keypairT _ (erase_parCode _) ..).trans ?_
    have e := crypto_sign_seed_keypairT_spec (E := Env.erase ⟨P, i.hash P g, G⟩) R (shipped_valid hP) hT
      (Nat.le_of_eq hpk.symm) (Nat.le_of_eq hsk.symm) (Nat.le_of_eq hseed.symm)
    rw [show seed.take (Env.erase ⟨P, i.hash P g, G⟩).P.seedBytes = seed from
      List.take_of_length_le (Nat.le_of_eq hseed)] at e
    exact e
  rw [List.drop_of_length_le (Nat.le_of_eq hpk), List.drop_of_length_le (Nat.le_of_eq hsk), List.append_nil,
    List.append_nil] at e
  exact (res_L_ok hr _).trans (res_L_ok e _)

/-- `crypto_sign_keypair` accesses the same memory and takes the same branches whatever random bytes it gets. -/
theorem C88_keypair_trace {P : Params} (hP : P ∈ shipped) (G G' g g' : Nat → Nat → Byte) {o o' : OS} (h : o.Alike o')
    {pk pk' sk sk' : Bytes} (hpk : pk.length = pk'.length) (hsk : sk.length = sk'.length) :
    (crypto_sign_keypairT (build P G g) (refCode (build P G g)) o pk sk).tr =
      (crypto_sign_keypairT (build P G' g') (refCode (build P G' g')) o' pk' sk').tr :=
  (low_keypair (low_implOf P g g') (low_refCode (low_implOf P g g') (shipped_valid hP)) h hpk hsk).1

/-- The same for the optimised implementations. -/
theorem C88_keypair_trace_opt (i : Opt) {P : Params} (hP : P ∈ shipped) (G G' g g' : Nat → Nat → Byte) {o o' : OS}
    (h : o.Alike o') {pk pk' sk sk' : Bytes} (hpk : pk.length = pk'.length) (hsk : sk.length = sk'.length) :
    (crypto_sign_keypairT (i.build P G g).toEnv (parCode (i.build P G g)) o pk sk).tr =
      (crypto_sign_keypairT (i.build P G' g').toEnv (parCode (i.build P G' g')) o' pk' sk').tr :=
  (low_keypair (i.low_hash P g g') (i.low_parCode (shipped_valid hP) G G' g g') h hpk hsk).1

/-- Two runs with different seeds -/
example : ∃ (o o' : OS) (s s' : Bytes), o.Alike o' ∧ s ≠ s' ∧
    (random o (shake_128f true).seedBytes).res = .ok (some s) ∧ s.length = (shake_128f true).seedBytes ∧
    (random o' (shake_128f true).seedBytes).res = .ok (some s') ∧ s'.length = (shake_128f true).seedBytes := by
  obtain ⟨b, h, rfl⟩ := calm_random 0 (len := (shake_128f true).seedBytes) (by decide)
  obtain ⟨b', h', rfl⟩ := calm_random 1 (len := (shake_128f true).seedBytes) (by decide)
  exact ⟨_, _, _, _, calm_alike 0 1, by decide, h, List.length_replicate, h', List.length_replicate⟩

/-! ## Signing -/

theorem simulates {P : Params} (hP : P ∈ shipped) (G g : Nat → Nat → Byte) :
    Simulates P (implOf P g) G (refCode (build P G g)) (Spec.sign P.toSpec (specHash P)) (simulate P (specHash P)) := by
  intro sig0 m sk optrand hsk hm hopt hsig
  have e : (crypto_sign_signature (build P G g) sig0 m sk optrand).res =
      .ok (Spec.sign P.toSpec (specHash P) sk optrand m ++ sig0.drop P.spxBytes, P.spxBytes) := by
    rw [erase_crypto_sign_signature, erase_build]
    exact ship_sign hP G g hsk hm hopt hsig
  obtain ⟨sig, hl, h1, h2⟩ := C61_sign_trace hP G g hsk hm hopt hsig
  have hs : sig = Spec.sign P.toSpec (specHash P) sk optrand m := by
    have hh := congrArg (fun r : C (Bytes × Nat) => match r with
      | .ok x => x.1
      | _ => []) (h1.symm.trans e)
    exact List.append_cancel_right hh
  subst hs
  exact ⟨hl, h1, h2⟩

theorem simulatesOpt (i : Opt) {P : Params} (hP : P ∈ shipped) (hf : P.fam = i.fam) (G g : Nat → Nat → Byte) :
    Simulates P (i.hash P g) G (parCode (i.build P G g)) (Spec.sign P.toSpec (specHash P)) (i.simulate P (specHash P)) := by
  intro sig0 m sk optrand hsk hm hopt hsig
  obtain ⟨sig, hl, rfl, h1, h2⟩ := C67_sign_trace i hP hf G g hsk hm hopt hsig
  exact ⟨hl, h1, h2⟩

/-- `crypto_sign` gives the signature of the scheme with the delivered bytes as randomness, followed by the message. -/
theorem C88_sign_result {P : Params} (hP : P ∈ shipped) (G g : Nat → Nat → Byte) {o : OS} {sm0 m sk optrand : Bytes}
    (hsk : sk.length = P.skBytes) (hm : m.length < 2 ^ 60) (hsm : sm0.length = P.spxBytes + m.length)
    (hr : (random o P.n).res = .ok (some optrand)) (hopt : optrand.length = P.n) :
    (crypto_signT (build P G g) (refCode (build P G g)) o sm0 m sk).res =
      .ok (some (Spec.sign P.toSpec (specHash P) sk optrand m ++ m, (P.spxBytes + m.length) % 2 ^ 64)) :=
  ((simulates hP G g).crypto_sign hsk hm hsm hr hopt).1

/-- The same for the optimised implementations. -/
theorem C88_sign_result_opt (i : Opt) {P : Params} (hP : P ∈ shipped) (hf : P.fam = i.fam) (G g : Nat → Nat → Byte) {o : OS}
    {sm0 m sk optrand : Bytes} (hsk : sk.length = P.skBytes) (hm : m.length < 2 ^ 60)
    (hsm : sm0.length = P.spxBytes + m.length) (hr : (random o P.n).res = .ok (some optrand)) (hopt : optrand.length = P.n) :
    (crypto_signT (i.build P G g).toEnv (parCode (i.build P G g)) o sm0 m sk).res =
      .ok (some (Spec.sign P.toSpec (specHash P) sk optrand m ++ m, (P.spxBytes + m.length) % 2 ^ 64)) :=
  ((simulatesOpt i hP hf G g).crypto_sign hsk hm hsm hr hopt).1

/-- Two runs of `crypto_sign` with the same public key, message and outcome, on answers of the operating system which look
alike, access the same memory and take the same branches: whatever the secret seeds and the random bytes are, and also
when a read fails, or when `randombytes` has not returned yet. -/
theorem C88_sign_trace {P : Params} (hP : P ∈ shipped) (G G' g g' : Nat → Nat → Byte) {o o' : OS} (h : o.Alike o')
    {sm0 sm0' m sk sk' : Bytes} (hsk : sk.length = P.skBytes) (hsk' : sk'.length = P.skBytes) (hm : m.length < 2 ^ 60)
    (hsm : sm0.length = P.spxBytes + m.length) (hsm' : sm0'.length = P.spxBytes + m.length)
    (hpk : sk.drop (2 * P.n) = sk'.drop (2 * P.n))
    (hres : (crypto_signT (build P G g) (refCode (build P G g)) o sm0 m sk).res =
      (crypto_signT (build P G' g') (refCode (build P G' g')) o' sm0' m sk').res) :
    (crypto_signT (build P G g) (refCode (build P G g)) o sm0 m sk).tr =
      (crypto_signT (build P G' g') (refCode (build P G' g')) o' sm0' m sk').tr :=
  low_crypto_sign (low_implOf P g g') (simulates hP G g) (simulates hP G' g') h hsk hsk' hm hsm hsm' hpk hres

/-- The same for the optimised implementations. -/
theorem C88_sign_trace_opt (i : Opt) {P : Params} (hP : P ∈ shipped) (hf : P.fam = i.fam) (G G' g g' : Nat → Nat → Byte)
    {o o' : OS} (h : o.Alike o') {sm0 sm0' m sk sk' : Bytes} (hsk : sk.length = P.skBytes) (hsk' : sk'.length = P.skBytes)
    (hm : m.length < 2 ^ 60) (hsm : sm0.length = P.spxBytes + m.length) (hsm' : sm0'.length = P.spxBytes + m.length)
    (hpk : sk.drop (2 * P.n) = sk'.drop (2 * P.n))
    (hres : (crypto_signT (i.build P G g).toEnv (parCode (i.build P G g)) o sm0 m sk).res =
      (crypto_signT (i.build P G' g').toEnv (parCode (i.build P G' g')) o' sm0' m sk').res) :
    (crypto_signT (i.build P G g).toEnv (parCode (i.build P G g)) o sm0 m sk).tr =
      (crypto_signT (i.build P G' g').toEnv (parCode (i.build P G' g')) o' sm0' m sk').tr :=
  low_crypto_sign (i.low_hash P g g') (simulatesOpt i hP hf G g) (simulatesOpt i hP hf G' g') h hsk hsk' hm hsm hsm' hpk hres

/-- Where `randombytes` is called: the trace is that of the part before, of `randombytes`, and of a rest, and without the
middle part and the copy of the message it is the trace of C61. -/
theorem C88_sign_order {P : Params} (hP : P ∈ shipped) (G g : Nat → Nat → Byte) {o : OS} {sm0 m sk optrand : Bytes}
    (hsk : sk.length = P.skBytes) (hm : m.length < 2 ^ 60) (hsm : sm0.length = P.spxBytes + m.length)
    (hr : (random o P.n).res = .ok (some optrand)) (hopt : optrand.length = P.n) :
    ∃ before after, before ++ after = simulate P (specHash P) (sk.drop (2 * P.n)) m
        (Spec.sign P.toSpec (specHash P) sk optrand m) sm0.length ∧
      (crypto_signT (build P G g) (refCode (build P G g)) o sm0 m sk).tr =
        before ++ ((random o P.n).tr ++ (after ++ [.rd 0 m.length, .wr P.spxBytes m.length])) := by
  obtain ⟨-, rest, h1, h2⟩ := (simulates hP G g).crypto_sign hsk hm hsm hr hopt
  exact ⟨_, rest, h1, h2⟩

/-- Runs on different memory, histories and uninitialised memory with the same result. -/
example (g g' : Nat → Nat → Byte) : ∃ (o o' : OS) (sm0 sm0' m sk : Bytes), o.Alike o' ∧ sm0 ≠ sm0' ∧ o.M.at' ≠ o'.M.at' ∧
    sk.length = (sha2_128f true).skBytes ∧ sm0.length = (sha2_128f true).spxBytes + m.length ∧
    sm0'.length = (sha2_128f true).spxBytes + m.length ∧
    (crypto_signT (build (sha2_128f true) g g') (refCode (build (sha2_128f true) g g')) o sm0 m sk).res =
      (crypto_signT (build (sha2_128f true) g' g) (refCode (build (sha2_128f true) g' g)) o' sm0' m sk).res := by
  have hP : sha2_128f true ∈ shipped := by decide
  obtain ⟨b, h, hb⟩ := calm_random 5 (len := (sha2_128f true).n) (by decide)
  have hbl : b.length = (sha2_128f true).n := by rw [hb, List.length_replicate]
  obtain ⟨o', ho'⟩ : ∃ o' : OS, o' = { calm 5 with M := Mem.filled fun _ => 6 } := ⟨_, rfl⟩
  have h' : (random o' (sha2_128f true).n).res = .ok (some b) := by
    have e : delivered o'.reads (sha2_128f true).n = b := by rw [ho', hb]; decide
    have := C88_random (o := o') (len := (sha2_128f true).n) (fd' := 3) (by rw [ho']; decide) (by
      rw [ho']
      intro r hr
      simp only [calm, List.mem_cons, List.not_mem_nil, or_false] at hr
      rcases hr with rfl | rfl | rfl <;> simp) (by rw [ho']; exact Mem.filled_alloc _ _ _)
      (by rw [ho']; show 1000 + 16 ≤ _; decide) (by rw [e, hbl])
    rw [e] at this
    exact this
  have hl : ∀ k : Byte, (List.replicate ((sha2_128f true).spxBytes + 3) k).length =
      (sha2_128f true).spxBytes + ([1, 2, 3] : Bytes).length := fun k => List.length_replicate
  have hs : (List.replicate (sha2_128f true).skBytes 7#8).length = (sha2_128f true).skBytes := List.length_replicate
  refine ⟨calm 5, o', List.replicate ((sha2_128f true).spxBytes + 3) 0, List.replicate ((sha2_128f true).spxBytes + 3) 1,
    [1, 2, 3], List.replicate (sha2_128f true).skBytes 7, ?_, ?_, ?_, hs, hl 0, hl 1, ?_⟩
  · subst ho'
    exact ⟨rfl, rfl, (calm_alike 5 5).reads, fun _ => ⟨nofun, nofun⟩, rfl⟩
  · intro e
    have := congrArg List.head? e
    rw [List.replicate_succ, List.replicate_succ] at this
    cases this
  · subst ho'
    intro e
    have := congrFun e 0
    cases this
  · exact (C88_sign_result hP g g' hs (by decide) (hl 0) h hbl).trans
      (C88_sign_result hP g' g hs (by decide) (hl 1) h' hbl).symm

end Spx.Leak
