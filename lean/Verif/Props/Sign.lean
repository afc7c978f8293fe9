import Verif.Proof.ShippedSign
/-! # Properties of key generation, signing and verification

C01, C03, C04, C10, C11, C12, C13, C39.  `P ∈ shipped` ranges over the 18 parameter files with both
thash variants; `build P G g` is the library built for `P`, where `G` and `g` are the arbitrary
contents of all uninitialised memory.  `specHash P` are the hash functions prescribed by the
SPHINCS+ document. -/

namespace Spx
open Spec Mem

section
variable {P : Params} (hP : P ∈ shipped)
include hP

/-- C01, one buffer per argument: a signature made with a key pair from `crypto_sign_seed_keypair`
is accepted by `crypto_sign_verify`.  The three calls may see different stack garbage. -/
theorem C01_honest_signature_verifies (G1 g1 G2 g2 G3 g3 : Nat → Nat → Byte)
    {seed m optrand pk0 sk0 sig0 : Bytes} (hseed : seed.length = P.seedBytes) (hm : m.length < 2 ^ 60)
    (hopt : optrand.length = P.n) (hpk0 : pk0.length = P.pkBytes) (hsk0 : sk0.length = P.skBytes)
    (hsig0 : sig0.length = P.spxBytes) :
    ∃ pk sk sig, crypto_sign_seed_keypair (build P G1 g1) pk0 sk0 seed = .ok (pk, sk) ∧
      crypto_sign_signature (build P G2 g2) sig0 m sk optrand = .ok (sig, sig.length) ∧
      crypto_sign_verify (build P G3 g3) sig sig.length m pk = .ok 0 := by
  have hsl := ship_sign_len hP (skOf P.toSpec (specHash P) seed) optrand m
  refine ⟨pkOf P.toSpec (specHash P) seed, skOf P.toSpec (specHash P) seed,
    Spec.sign P.toSpec (specHash P) (skOf P.toSpec (specHash P) seed) optrand m, ?_, ?_, ?_⟩
  · rw [ship_keypair hP G1 g1 (by omega) (by omega) hseed, List.drop_of_length_le (by omega),
      List.drop_of_length_le (by omega), List.append_nil, List.append_nil]
  · rw [ship_sign hP G2 g2 (ship_skOf_len hP hseed) hm hopt (by omega), List.drop_of_length_le (by omega),
      List.append_nil, hsl]
  · rw [hsl, ship_verify hP G3 g3 (ship_pkOf_len hP hseed) hm hsl, if_pos (ship_correct hP hseed optrand m)]

/-- C01 with pointers and return values: in a memory holding the key pair, `crypto_sign_signature`
returns 0, and `crypto_sign_verify` on what it left in memory returns 0.  The signature buffer must
not overlap the message or the public key, and its first `n` bytes not the secret key. -/
theorem C01_honest_signature_verifies_mem (G1 g1 G2 g2 G3 g3 : Nat → Nat → Byte)
    {seed pk0 sk0 pk sk optrand m : Bytes} {M : Mem} {psig pm mlen psk ppk : Nat}
    (hseed : seed.length = P.seedBytes) (hpk0 : pk0.length = P.pkBytes) (hsk0 : sk0.length = P.skBytes)
    (hkp : crypto_sign_seed_keypair (build P G1 g1) pk0 sk0 seed = .ok (pk, sk))
    (hsk : M.rd psk P.skBytes = .ok sk) (hpk : M.rd ppk P.pkBytes = .ok pk) (hm : M.rd pm mlen = .ok m)
    (hal : M.Alloc psig P.spxBytes) (hdk : Disj psig P.n psk P.skBytes) (hdm : Disj psig P.spxBytes pm mlen)
    (hdp : Disj psig P.spxBytes ppk P.pkBytes) (hml : mlen < 2 ^ 60) (hopt : optrand.length = P.n) :
    ∃ M' siglen, crypto_sign_signature_mem (build P G2 g2) M psig pm mlen psk optrand = .ok (M', siglen, 0) ∧
      crypto_sign_verify_mem (build P G3 g3) M' psig siglen pm mlen ppk = .ok 0 := by
  rw [ship_keypair hP G1 g1 (by omega) (by omega) hseed, List.drop_of_length_le (by omega),
    List.drop_of_length_le (by omega), List.append_nil, List.append_nil] at hkp
  have hn : P.n ≤ P.spxBytes := by have := shipped_sizes hP; omega
  obtain ⟨M', e, hr, hs⟩ := ship_sign_mem hP G2 g2 hsk hm hal hdk
    (by rcases hdm with h | h
        · exact Or.inl (by omega)
        · exact Or.inr h) hml hopt
  refine ⟨M', P.spxBytes, e, ?_⟩
  rw [ship_verify_mem hP G3 g3 hr (by rw [rd_frame hs hdm, hm]) (by rw [rd_frame hs hdp, hpk]) hml]
  cases hkp
  rw [if_pos (ship_correct hP hseed optrand m)]

/-- C03: the reported length is `crypto_sign_bytes()`; the bytes written are that many and do not
depend on the previous content of the buffer or on stack garbage; the rest of the buffer is kept. -/
theorem C03_signature_length_and_extent {sk m optrand : Bytes} (hsk : sk.length = P.skBytes)
    (hm : m.length < 2 ^ 60) (hopt : optrand.length = P.n) :
    ∃ s : Bytes, s.length = crypto_sign_bytes P ∧
      ∀ (G g : Nat → Nat → Byte) (sig0 : Bytes), crypto_sign_bytes P ≤ sig0.length →
        crypto_sign_signature (build P G g) sig0 m sk optrand =
          .ok (s ++ sig0.drop (crypto_sign_bytes P), crypto_sign_bytes P) :=
  ⟨_, ship_sign_len hP sk optrand m, fun G g _ h => ship_sign hP G g hsk hm hopt h⟩

/-- C03, memory: the signature call changes no byte outside its `crypto_sign_bytes()` bytes, and
`crypto_sign` reports `mlen + crypto_sign_bytes()` and changes no byte outside that many.  The
message may overlap the output in any way. -/
theorem C03_writes_nothing_else (G g : Nat → Nat → Byte) {M : Mem} {p pm mlen psk : Nat} {optrand : Bytes}
    (hsk : M.Alloc psk P.skBytes) (hm : M.Alloc pm mlen) (hdk : Disj p P.n psk P.skBytes)
    (hml : mlen < 2 ^ 60) (hopt : optrand.length = P.n) :
    (M.Alloc p (crypto_sign_bytes P) →
      ∃ M', crypto_sign_signature_mem (build P G g) M p pm mlen psk optrand = .ok (M', crypto_sign_bytes P, 0) ∧
        M.SameOutside M' p (crypto_sign_bytes P)) ∧
    (M.Alloc p (crypto_sign_bytes P + mlen) →
      ∃ M', crypto_sign (build P G g) M p pm mlen psk optrand = .ok (M', mlen + crypto_sign_bytes P, 0) ∧
        M.SameOutside M' p (mlen + crypto_sign_bytes P)) := by
  refine ⟨fun hal => ?_, fun hal => ?_⟩
  · obtain ⟨M', _, e, _, hs⟩ := ship_sign_mem_any hP G g hsk hm hal hdk hml hopt
    exact ⟨M', e, hs⟩
  · obtain ⟨M', _, e, _, hs⟩ := ship_crypto_sign_any hP G g hsk hm hal hdk hml hopt
    rw [Nat.add_comm mlen]
    exact ⟨M', e, hs⟩

omit hP in
/-- C04: any other signature length is rejected; no pointer is dereferenced (the memory may be
empty, and with one buffer per argument the buffers may be empty). -/
theorem C04_wrong_length_rejected (G g : Nat → Nat → Byte) (M : Mem) (psig pm mlen ppk : Nat) (sig m pk : Bytes)
    {siglen : Nat} (h : siglen ≠ crypto_sign_bytes P) :
    crypto_sign_verify_mem (build P G g) M psig siglen pm mlen ppk = .ok (-1) ∧
      crypto_sign_verify (build P G g) sig siglen m pk = .ok (-1) := by
  constructor
  · unfold crypto_sign_verify_mem crypto_sign_verify_memT
    exact if_pos h
  · unfold crypto_sign_verify crypto_sign_verifyT
    exact if_pos h

/-- C10: the key pair is the seed with the root of the top subtree (layer `d - 1`, tree 0), for
every previous content of the buffers and of the stack.  `crypto_sign_keypair` does the same with
the bytes `randombytes` returned. -/
theorem C10_key_format (G g : Nat → Nat → Byte) {skSeed skPrf pubSeed pk0 sk0 : Bytes}
    (h1 : skSeed.length = P.n) (h2 : skPrf.length = P.n) (h3 : pubSeed.length = P.n)
    (hpk0 : pk0.length = P.pkBytes) (hsk0 : sk0.length = P.skBytes) :
    let root := xmssRoot P.toSpec (specHash P) pubSeed skSeed (P.d - 1) 0
    crypto_sign_seed_keypair (build P G g) pk0 sk0 (skSeed ++ skPrf ++ pubSeed) =
      .ok (pubSeed ++ root, skSeed ++ skPrf ++ pubSeed ++ root) ∧
    crypto_sign_keypair (build P G g) pk0 sk0 (skSeed ++ skPrf ++ pubSeed) =
      .ok (pubSeed ++ root, skSeed ++ skPrf ++ pubSeed ++ root) ∧ root.length = P.n := by
  intro root
  have hl : (skSeed ++ skPrf ++ pubSeed).length = P.seedBytes := by
    show _ = 3 * P.n
    simp; omega
  have e1 : (skSeed ++ skPrf ++ pubSeed).take P.n = skSeed := by
    rw [List.append_assoc, ← h1, List.take_left]
  have e2 : ((skSeed ++ skPrf ++ pubSeed).drop (2 * P.n)).take P.n = pubSeed := by
    rw [List.drop_left' (by simp; omega), List.take_of_length_le (by omega)]
  have e := ship_keypair hP G g (pk0 := pk0) (sk0 := sk0) (by omega) (by omega) hl
  rw [List.drop_of_length_le (by omega), List.drop_of_length_le (by omega), List.append_nil,
    List.append_nil] at e
  unfold pkOf skOf at e
  rw [toSpec_n, e1, e2] at e
  refine ⟨e, ?_, ship_root_len hP ..⟩
  unfold crypto_sign_keypair crypto_sign_keypairT
  simp only
  rw [wr_whole (by rw [hl]; simp [uninit]; rfl)]
  exact e

/-- C12: on every input of the right sizes verification ends with 0 or -1, and the answer is the
same for every content of uninitialised memory. -/
theorem C12_verify_total {sig m pk : Bytes} (hsig : sig.length = P.spxBytes) (hpk : pk.length = P.pkBytes)
    (hm : m.length < 2 ^ 60) :
    ∃ r : Int, (r = 0 ∨ r = -1) ∧ ∀ G g, crypto_sign_verify (build P G g) sig P.spxBytes m pk = .ok r := by
  refine ⟨if verify P.toSpec (specHash P) pk m sig then 0 else -1, ?_, fun G g => ship_verify hP G g hpk hm hsig⟩
  split
  · exact Or.inl rfl
  · exact Or.inr rfl

/-- C12, memory: the answer depends only on the bytes of the three arguments, however they overlap. -/
theorem C12_verify_depends_only_on_bytes (G g G' g' : Nat → Nat → Byte) {M M' : Mem}
    {psig pm ppk psig' pm' ppk' mlen : Nat} (hml : mlen < 2 ^ 60)
    (h1 : M.Alloc psig P.spxBytes) (h2 : M.Alloc pm mlen) (h3 : M.Alloc ppk P.pkBytes)
    (e1 : M.rd psig P.spxBytes = M'.rd psig' P.spxBytes) (e2 : M.rd pm mlen = M'.rd pm' mlen)
    (e3 : M.rd ppk P.pkBytes = M'.rd ppk' P.pkBytes) :
    ∃ r : Int, (r = 0 ∨ r = -1) ∧
      crypto_sign_verify_mem (build P G g) M psig P.spxBytes pm mlen ppk = .ok r ∧
      crypto_sign_verify_mem (build P G' g') M' psig' P.spxBytes pm' mlen ppk' = .ok r := by
  obtain ⟨sig, r1, _⟩ := rd_of_alloc h1
  obtain ⟨m, r2, _⟩ := rd_of_alloc h2
  obtain ⟨pk, r3, _⟩ := rd_of_alloc h3
  refine ⟨_, ?_, ship_verify_mem hP G g r1 r2 r3 hml, ship_verify_mem hP G' g' (e1 ▸ r1) (e2 ▸ r2) (e3 ▸ r3) hml⟩
  split
  · exact Or.inl rfl
  · exact Or.inr rfl

/-- C13: signing and verification are the functions of the SPHINCS+ specification. -/
theorem C13_equals_specification (G g : Nat → Nat → Byte) {sig0 sig m sk pk optrand : Bytes}
    (hm : m.length < 2 ^ 60) (hsk : sk.length = P.skBytes) (hpk : pk.length = P.pkBytes)
    (hopt : optrand.length = P.n) (hsig0 : sig0.length = P.spxBytes) (hsig : sig.length = P.spxBytes) :
    crypto_sign_signature (build P G g) sig0 m sk optrand =
        .ok (Spec.sign P.toSpec (specHash P) sk optrand m, P.spxBytes) ∧
      (crypto_sign_verify (build P G g) sig P.spxBytes m pk = .ok 0 ↔
        verify P.toSpec (specHash P) pk m sig = true) := by
  constructor
  · rw [ship_sign hP G g hsk hm hopt (by omega), List.drop_of_length_le (by omega), List.append_nil]
  · rw [ship_verify hP G g hpk hm hsig]
    cases verify P.toSpec (specHash P) pk m sig <;> simp

/-- C39: with buffers at least as large as documented, key generation, signing and verification
complete: no access outside a buffer, no undefined shift, no read of a missing byte. -/
theorem C39_no_undefined_behaviour (G g : Nat → Nat → Byte) {pk0 sk0 seed sig0 m sk optrand sig pk : Bytes}
    (siglen : Nat)
    (hpk0 : P.pkBytes ≤ pk0.length) (hsk0 : P.skBytes ≤ sk0.length) (hseed : P.seedBytes ≤ seed.length)
    (hsig0 : P.spxBytes ≤ sig0.length) (hm : m.length < 2 ^ 60) (hsk : P.skBytes ≤ sk.length)
    (hopt : P.n ≤ optrand.length) (hsig : P.spxBytes ≤ sig.length) (hpk : P.pkBytes ≤ pk.length) :
    (∃ r, crypto_sign_seed_keypair (build P G g) pk0 sk0 seed = .ok r) ∧
    (∃ r, crypto_sign_signature (build P G g) sig0 m sk optrand = .ok r) ∧
    (∃ r, crypto_sign_verify (build P G g) sig siglen m pk = .ok r) := by
  have hV := shipped_valid hP
  have R := buildRefines hP G g
  refine ⟨⟨_, crypto_sign_seed_keypair_spec R hV hpk0 hsk0 hseed⟩,
    ⟨_, crypto_sign_signature_spec R hV hsk hm hopt hsig0⟩, ?_⟩
  by_cases h : siglen = P.spxBytes
  · subst h
    exact ⟨_, crypto_sign_verify_spec R hV hpk hm hsig⟩
  · exact ⟨-1, (C04_wrong_length_rejected G g ⟨fun _ => none⟩ 0 0 0 0 sig m pk h).2⟩

/-- C39, memory: the same for the four API functions on flat memory, with the message anywhere; the
secret key must not overlap the first `n` bytes of the output. -/
theorem C39_no_undefined_behaviour_mem (G g : Nat → Nat → Byte) {M : Mem} {p pm mlen psk ppk psm smlen : Nat}
    {optrand : Bytes} (hml : mlen < 2 ^ 60) (hsl : smlen < 2 ^ 60) (hopt : optrand.length = P.n)
    (hsk : M.Alloc psk P.skBytes) (hpk : M.Alloc ppk P.pkBytes) (hm : M.Alloc pm mlen)
    (hal : M.Alloc p (P.spxBytes + mlen)) (hsm : M.Alloc psm smlen) (hal' : M.Alloc p smlen)
    (hdk : Disj p P.n psk P.skBytes) :
    (∃ r, crypto_sign_signature_mem (build P G g) M p pm mlen psk optrand = .ok r) ∧
    (∃ r, crypto_sign (build P G g) M p pm mlen psk optrand = .ok r) ∧
    (∃ r, crypto_sign_verify_mem (build P G g) M p P.spxBytes pm mlen ppk = .ok r) ∧
    (∃ r, crypto_sign_open (build P G g) M p psm smlen ppk = .ok r) := by
  have hal0 : M.Alloc p P.spxBytes := alloc_sub hal (Nat.le_refl _) (by omega)
  obtain ⟨M1, _, e1, _⟩ := ship_sign_mem_any hP G g hsk hm hal0 hdk hml hopt
  obtain ⟨M2, _, e2, _⟩ := ship_crypto_sign_any hP G g hsk hm hal hdk hml hopt
  obtain ⟨sig, r1, _⟩ := rd_of_alloc hal0
  obtain ⟨m, r2, _⟩ := rd_of_alloc hm
  obtain ⟨pk, r3, _⟩ := rd_of_alloc hpk
  obtain ⟨sm, r4, _⟩ := rd_of_alloc hsm
  refine ⟨⟨_, e1⟩, ⟨_, e2⟩, ⟨_, ship_verify_mem hP G g r1 r2 r3 hml⟩, ?_⟩
  by_cases h : smlen < P.spxBytes
  · obtain ⟨M', e, _⟩ := crypto_sign_open_short (build P G g) (sm := psm) (pk := ppk) h hal'
    exact ⟨_, e⟩
  · obtain ⟨M', h | h⟩ := ship_open hP G g (by omega) r4 r3 hal' hsl
    · exact ⟨_, h.2.1⟩
    · exact ⟨_, h.2.1⟩

end

/-! ### C11: statelessness -/

/-- One call of an API function that takes or could damage a secret key, with its pointers. -/
inductive Call
  | signature (sig m mlen sk : Nat) (optrand : Bytes)
  | verify (sig siglen m mlen pk : Nat)
  | sign (sm m mlen sk : Nat) (optrand : Bytes)
  | open' (m sm smlen pk : Nat)

/-- The effect of a call on memory. -/
def Call.run (E : Env) (M : Mem) : Call → C Mem
  | .signature sig m mlen sk o => do .ok (← crypto_sign_signature_mem E M sig m mlen sk o).1
  | .verify sig siglen m mlen pk => do let _ ← crypto_sign_verify_mem E M sig siglen m mlen pk; .ok M
  | .sign sm m mlen sk o => do .ok (← crypto_sign E M sm m mlen sk o).1
  | .open' m sm smlen pk => do .ok (← crypto_sign_open E M m sm smlen pk).1

/-- The caller's obligations: buffers allocated, output not on the call's own secret key, and output
not on the key stored at `key`. -/
def Call.Fits (P : Params) (M : Mem) (key : Nat) : Call → Prop
  | .signature sig m mlen sk o => M.Alloc sk P.skBytes ∧ M.Alloc m mlen ∧ M.Alloc sig P.spxBytes ∧
      Disj sig P.n sk P.skBytes ∧ Disj sig P.spxBytes key P.skBytes ∧ mlen < 2 ^ 60 ∧ o.length = P.n
  | .verify sig _ m mlen pk => M.Alloc sig P.spxBytes ∧ M.Alloc m mlen ∧ M.Alloc pk P.pkBytes ∧ mlen < 2 ^ 60
  | .sign sm m mlen sk o => M.Alloc sk P.skBytes ∧ M.Alloc m mlen ∧ M.Alloc sm (P.spxBytes + mlen) ∧
      Disj sm P.n sk P.skBytes ∧ Disj sm (P.spxBytes + mlen) key P.skBytes ∧ mlen < 2 ^ 60 ∧ o.length = P.n
  | .open' m sm smlen pk => M.Alloc sm smlen ∧ M.Alloc m smlen ∧ M.Alloc pk P.pkBytes ∧
      Disj m smlen key P.skBytes ∧ smlen < 2 ^ 60

/-- A history of calls, each with its own stack garbage. -/
def runAll (P : Params) (M : Mem) : List ((Nat → Nat → Byte) × (Nat → Nat → Byte) × Call) → C Mem
  | [] => .ok M
  | (G, g, c) :: cs => do runAll P (← c.run (build P G g) M) cs

section
variable {P : Params} (hP : P ∈ shipped)
include hP

theorem call_frame (G g : Nat → Nat → Byte) {M : Mem} {key : Nat} {c : Call} (h : c.Fits P M key) :
    ∃ M', c.run (build P G g) M = .ok M' ∧ M'.rd key P.skBytes = M.rd key P.skBytes ∧ SameAlloc M M' := by
  cases c with
  | signature sig m mlen sk o =>
    obtain ⟨h1, h2, h3, h4, h5, h6, h7⟩ := h
    obtain ⟨M', _, e, r, s⟩ := ship_sign_mem_any hP G g h1 h2 h3 h4 h6 h7
    exact ⟨M', by simp only [Call.run]; rw [e]; rfl, rd_frame s h5, s.sameAlloc r⟩
  | verify sig siglen m mlen pk =>
    obtain ⟨h1, h2, h3, h4⟩ := h
    refine ⟨M, ?_, rfl, fun _ _ h => h⟩
    simp only [Call.run]
    by_cases hs : siglen = P.spxBytes
    · obtain ⟨_, r1, _⟩ := rd_of_alloc h1
      obtain ⟨_, r2, _⟩ := rd_of_alloc h2
      obtain ⟨_, r3, _⟩ := rd_of_alloc h3
      rw [hs, ship_verify_mem hP G g r1 r2 r3 h4]
      rfl
    · rw [(C04_wrong_length_rejected G g M sig m mlen pk [] [] [] hs).1]
      rfl
  | sign sm m mlen sk o =>
    obtain ⟨h1, h2, h3, h4, h5, h6, h7⟩ := h
    obtain ⟨M', _, e, r, s⟩ := ship_crypto_sign_any hP G g h1 h2 h3 h4 h6 h7
    exact ⟨M', by simp only [Call.run]; rw [e]; rfl, rd_frame s h5, s.sameAlloc r⟩
  | open' m sm smlen pk =>
    obtain ⟨h1, h2, h3, h4, h5⟩ := h
    obtain ⟨_, r1, _⟩ := rd_of_alloc h1
    obtain ⟨_, r3, _⟩ := rd_of_alloc h3
    by_cases hs : smlen < P.spxBytes
    · obtain ⟨M', e, r, s⟩ := crypto_sign_open_short (build P G g) (sm := sm) (pk := pk) hs h2
      exact ⟨M', by simp only [Call.run]; rw [e]; rfl, rd_frame s h4, s.sameAlloc r⟩
    · obtain ⟨M', ⟨_, e, r, s⟩ | ⟨_, e, r, s⟩⟩ := ship_open hP G g (by omega) r1 r3 h2 h5
      · refine ⟨M', by simp only [Call.run]; rw [e]; rfl, rd_frame s ?_, s.sameAlloc r⟩
        rcases h4 with h | h
        · exact Or.inl (by omega)
        · exact Or.inr h
      · exact ⟨M', by simp only [Call.run]; rw [e]; rfl, rd_frame s h4, s.sameAlloc r⟩

omit hP in
theorem fits_mono {M M' : Mem} {key : Nat} {c : Call} (h : c.Fits P M key) (ha : SameAlloc M M') :
    c.Fits P M' key := by
  cases c with
  | signature => exact ⟨ha _ _ h.1, ha _ _ h.2.1, ha _ _ h.2.2.1, h.2.2.2⟩
  | verify => exact ⟨ha _ _ h.1, ha _ _ h.2.1, ha _ _ h.2.2.1, h.2.2.2⟩
  | sign => exact ⟨ha _ _ h.1, ha _ _ h.2.1, ha _ _ h.2.2.1, h.2.2.2⟩
  | open' => exact ⟨ha _ _ h.1, ha _ _ h.2.1, ha _ _ h.2.2.1, h.2.2.2⟩

/-- C11: no history of API calls modifies the stored secret key. -/
theorem C11_key_never_modified {key : Nat} :
    ∀ (hist : List ((Nat → Nat → Byte) × (Nat → Nat → Byte) × Call)) {M : Mem},
      (∀ c ∈ hist, c.2.2.Fits P M key) →
      ∃ M', runAll P M hist = .ok M' ∧ M'.rd key P.skBytes = M.rd key P.skBytes ∧ SameAlloc M M' := by
  intro hist
  induction hist with
  | nil => intro M _; exact ⟨M, rfl, rfl, fun _ _ h => h⟩
  | cons c cs ih =>
    intro M h
    obtain ⟨G, g, c⟩ := c
    obtain ⟨M1, e1, r1, a1⟩ := call_frame hP G g (h _ List.mem_cons_self)
    obtain ⟨M2, e2, r2, a2⟩ := ih (M := M1) (fun c hc => fits_mono (h c (List.mem_cons_of_mem _ hc)) a1)
    refine ⟨M2, ?_, r2.trans r1, fun p l ha => a2 p l (a1 p l ha)⟩
    simp only [runAll]
    rw [e1]
    exact e2

/-- C11: after two arbitrary histories, in two memories whose key buffers started with the same
bytes, signing the same message with the same randomness gives the same signature bytes (those of
the specification), wherever the buffers are, and leaves the key as it was. -/
theorem C11_stateless_signing (G g G' g' : Nat → Nat → Byte)
    {h1 h2 : List ((Nat → Nat → Byte) × (Nat → Nat → Byte) × Call)} {M1 M2 N1 N2 : Mem}
    {key1 key2 p1 p2 m1 m2 mlen : Nat} {sk m optrand : Bytes}
    (f1 : ∀ c ∈ h1, c.2.2.Fits P M1 key1) (f2 : ∀ c ∈ h2, c.2.2.Fits P M2 key2)
    (k1 : M1.rd key1 P.skBytes = .ok sk) (k2 : M2.rd key2 P.skBytes = .ok sk)
    (e1 : runAll P M1 h1 = .ok N1) (e2 : runAll P M2 h2 = .ok N2)
    (r1 : N1.rd m1 mlen = .ok m) (r2 : N2.rd m2 mlen = .ok m)
    (a1 : M1.Alloc p1 P.spxBytes) (a2 : M2.Alloc p2 P.spxBytes)
    (dk1 : Disj p1 P.spxBytes key1 P.skBytes) (dk2 : Disj p2 P.spxBytes key2 P.skBytes)
    (dm1 : Disj p1 P.n m1 mlen) (dm2 : Disj p2 P.n m2 mlen) (hml : mlen < 2 ^ 60) (hopt : optrand.length = P.n) :
    ∃ L1 L2 s, crypto_sign_signature_mem (build P G g) N1 p1 m1 mlen key1 optrand = .ok (L1, P.spxBytes, 0) ∧
      crypto_sign_signature_mem (build P G' g') N2 p2 m2 mlen key2 optrand = .ok (L2, P.spxBytes, 0) ∧
      L1.rd p1 P.spxBytes = .ok s ∧ L2.rd p2 P.spxBytes = .ok s ∧
      s = Spec.sign P.toSpec (specHash P) sk optrand m ∧
      L1.rd key1 P.skBytes = .ok sk ∧ L2.rd key2 P.skBytes = .ok sk := by
  have hn := (shipped_sizes hP).2
  have key : ∀ {M N : Mem} {h : List ((Nat → Nat → Byte) × (Nat → Nat → Byte) × Call)} {key p pm : Nat}
      (G g : Nat → Nat → Byte), (∀ c ∈ h, c.2.2.Fits P M key) → M.rd key P.skBytes = .ok sk →
      runAll P M h = .ok N → N.rd pm mlen = .ok m → M.Alloc p P.spxBytes → Disj p P.spxBytes key P.skBytes →
      Disj p P.n pm mlen →
      ∃ L, crypto_sign_signature_mem (build P G g) N p pm mlen key optrand = .ok (L, P.spxBytes, 0) ∧
        L.rd p P.spxBytes = .ok (Spec.sign P.toSpec (specHash P) sk optrand m) ∧ L.rd key P.skBytes = .ok sk := by
    intro M N h key p pm G g f k e r a dk dm
    obtain ⟨N', e', rk, al⟩ := C11_key_never_modified hP h f
    rw [e] at e'
    cases e'
    rw [k] at rk
    obtain ⟨L, eL, rL, sL⟩ := ship_sign_mem hP G g rk r (al _ _ a)
      (by rcases dk with h | h
          · exact Or.inl (by omega)
          · exact Or.inr h) dm hml hopt
    exact ⟨L, eL, rL, by rw [rd_frame sL dk, rk]⟩
  obtain ⟨L1, x1, y1, z1⟩ := key G g f1 k1 e1 r1 a1 dk1 dm1
  obtain ⟨L2, x2, y2, z2⟩ := key G' g' f2 k2 e2 r2 a2 dk2 dm2
  exact ⟨L1, L2, _, x1, x2, y1, y2, rfl, z1, z2⟩

end

/-! ### Concrete cases -/

/-- C01: a message of 5 bytes signed with SPHINCS+-SHA2-128f-simple. -/
example : ∃ pk sk sig,
    crypto_sign_seed_keypair (build (sha2_128f false) (fun _ _ => 1) (fun _ _ => 2))
      (List.replicate 32 0) (List.replicate 64 0) (List.replicate 48 7) = .ok (pk, sk) ∧
    crypto_sign_signature (build (sha2_128f false) (fun _ _ => 3) (fun _ _ => 4))
      (List.replicate 17088 0) [1, 2, 3, 4, 5] sk (List.replicate 16 9) = .ok (sig, sig.length) ∧
    crypto_sign_verify (build (sha2_128f false) (fun _ _ => 5) (fun _ _ => 6)) sig sig.length [1, 2, 3, 4, 5] pk
      = .ok 0 :=
  C01_honest_signature_verifies (by decide) _ _ _ _ _ _ (by decide) (by decide) (by decide) (by decide)
    (by decide) List.length_replicate

/-- C03: an 8-byte message, haraka-192s-robust. -/
example : ∃ s : Bytes, s.length = 16224 ∧ ∀ (G g : Nat → Nat → Byte) (sig0 : Bytes), 16224 ≤ sig0.length →
    crypto_sign_signature (build (haraka_192s true) G g) sig0 (List.replicate 8 1) (List.replicate 96 2)
      (List.replicate 24 3) = .ok (s ++ sig0.drop 16224, 16224) :=
  C03_signature_length_and_extent (P := haraka_192s true) (by decide) (by decide) (by decide) (by decide)

/-- C03, memory: key at `0x200`, signed message at `0x300`, the message anywhere. -/
example (pm : Nat) :
    ∃ M', crypto_sign (build (sha2_128s false) (fun _ _ => 1) (fun _ _ => 2)) (filled fun _ => 5) 0x300 pm 20 0x200
      (List.replicate 16 9) = .ok (M', 7876, 0) ∧ (filled fun _ => 5).SameOutside M' 0x300 7876 :=
  (C03_writes_nothing_else (P := sha2_128s false) (by decide) _ _ (filled_alloc _ _ _) (filled_alloc _ _ _)
    (Or.inr (by decide)) (by decide) (by decide)).2 (filled_alloc _ _ _)

/-- C04: a signature one byte short, with no memory at all. -/
example : crypto_sign_verify_mem (build (shake_128f true) (fun _ _ => 0) (fun _ _ => 0)) ⟨fun _ => none⟩ 0 17087 0 5 0
    = .ok (-1) :=
  (C04_wrong_length_rejected (P := shake_128f true) _ _ _ 0 0 5 0 [] [] [] (by decide)).1

/-- C10 for shake-256f-simple. -/
example : ∃ root, crypto_sign_seed_keypair (build (shake_256f false) (fun _ _ => 4) (fun _ _ => 3))
      (List.replicate 64 0) (List.replicate 128 0)
      (List.replicate 32 1 ++ List.replicate 32 2 ++ List.replicate 32 3) =
    .ok (List.replicate 32 3 ++ root, List.replicate 32 1 ++ List.replicate 32 2 ++ List.replicate 32 3 ++ root) :=
  ⟨_, (C10_key_format (P := shake_256f false) (by decide) _ _ (by decide) (by decide) (by decide) (by decide)
    (by decide)).1⟩

/-- C11: a history of a signature, an in-place `crypto_sign` and an open, then signing. -/
example : ∃ M', runAll (sha2_192f true) (filled fun a => BitVec.ofNat 8 a)
      [(fun _ _ => 1, fun _ _ => 2, .signature 0x1000 0x100 9 0 (List.replicate 24 1)),
       (fun _ _ => 3, fun _ _ => 4, .sign 0x1000 (0x1000 + 35664) 50 0 (List.replicate 24 2)),
       (fun _ _ => 5, fun _ _ => 6, .open' 0x1000 0x1000 (35664 + 50) 0)] = .ok M' ∧
    M'.rd 0 96 = (filled fun a => BitVec.ofNat 8 a).rd 0 96 ∧ SameAlloc (filled fun a => BitVec.ofNat 8 a) M' :=
  C11_key_never_modified (P := sha2_192f true) (by decide) (key := 0) _ (by
    intro c hc
    simp only [List.mem_cons, List.not_mem_nil, or_false] at hc
    rcases hc with rfl | rfl | rfl
    · exact ⟨filled_alloc _ _ _, filled_alloc _ _ _, filled_alloc _ _ _, Or.inr (by decide), Or.inr (by decide), by decide,
        by decide⟩
    · exact ⟨filled_alloc _ _ _, filled_alloc _ _ _, filled_alloc _ _ _, Or.inr (by decide), Or.inr (by decide), by decide,
        by decide⟩
    · exact ⟨filled_alloc _ _ _, filled_alloc _ _ _, filled_alloc _ _ _, Or.inr (by decide), by decide⟩)

/-- C12: an all-zero key and an all-ones signature. -/
example : ∃ r : Int, (r = 0 ∨ r = -1) ∧ ∀ G g, crypto_sign_verify (build (haraka_256s false) G g)
    (List.replicate 29792 0xff) 29792 [] (List.replicate 64 0) = .ok r :=
  C12_verify_total (P := haraka_256s false) (by decide) List.length_replicate (by decide) (by decide)

/-- C13: the signature of the empty message. -/
example : crypto_sign_signature (build (sha2_256s true) (fun _ _ => 0) (fun _ _ => 0)) (List.replicate 29792 0) []
    (List.replicate 128 1) (List.replicate 32 0) =
    .ok (Spec.sign (sha2_256s true).toSpec (Spec.sha2Hash 32 true) (List.replicate 128 1) (List.replicate 32 0) [],
      29792) :=
  (C13_equals_specification (P := sha2_256s true) (by decide) _ _ (sig := List.replicate 29792 0)
    (pk := List.replicate 64 0) (by decide) List.length_replicate List.length_replicate List.length_replicate
    List.length_replicate List.length_replicate).1

/-- C39: buffers larger than needed. -/
example : ∃ r, crypto_sign_signature (build (shake_192s true) (fun _ _ => 0) (fun _ _ => 0))
    (List.replicate 20000 0) [1, 2, 3] (List.replicate 100 1) (List.replicate 24 0) = .ok r :=
  (C39_no_undefined_behaviour (P := shake_192s true) (by decide) _ _ (pk0 := List.replicate 48 0)
    (sk0 := List.replicate 96 0) (seed := List.replicate 72 0) (sig := List.replicate 20000 0)
    (pk := List.replicate 48 0) 0 (by decide) (by decide) (by decide)
    (by rw [List.length_replicate]; decide) (by decide) (by decide) (by decide)
    (by rw [List.length_replicate]; decide) (by decide)).2.1

end Spx
