import Verif.Proof.ShippedSign
import Verif.Proof.Pigeon
/-! # Properties of `crypto_sign` and `crypto_sign_open`: C02, C05–C09

Pointers are addresses in a flat memory; see Model/Api.lean.  `M.SameOutside M' p len` says that
`M'` agrees with `M` at every address outside the `len` bytes at `p`. -/

namespace Spx
open Spec Mem

/-- The two cases of `crypto_sign_open` on a long enough input, with the detached verification. -/
theorem open_cases {P : Params} (hP : P ∈ shipped) (G g : Nat → Nat → Byte) {M : Mem} {pm psm smlen ppk : Nat}
    {sm pk : Bytes}
    (hge : P.spxBytes ≤ smlen) (hsm : M.rd psm smlen = .ok sm) (hpk : M.rd ppk P.pkBytes = .ok pk)
    (hal : M.Alloc pm smlen) (hml : smlen < 2 ^ 60) :
    ∃ M', (crypto_sign_verify (build P G g) (sm.take P.spxBytes) P.spxBytes (sm.drop P.spxBytes) pk = .ok 0 ∧
        crypto_sign_open (build P G g) M pm psm smlen ppk = .ok (M', smlen - P.spxBytes, 0) ∧
        M'.rd pm (smlen - P.spxBytes) = .ok (sm.drop P.spxBytes) ∧
        M.SameOutside M' pm (smlen - P.spxBytes)) ∨
      (crypto_sign_verify (build P G g) (sm.take P.spxBytes) P.spxBytes (sm.drop P.spxBytes) pk = .ok (-1) ∧
        crypto_sign_open (build P G g) M pm psm smlen ppk = .ok (M', 0, -1) ∧
        M'.rd pm smlen = .ok (List.replicate smlen 0) ∧ M.SameOutside M' pm smlen) := by
  have hl := rd_length hsm
  have hv := ship_verify hP G g (sig := sm.take P.spxBytes) (m := sm.drop P.spxBytes) (rd_length hpk)
    (by rw [List.length_drop]; omega) (by rw [List.length_take]; omega)
  obtain ⟨M', ⟨h, r⟩ | ⟨h, r⟩⟩ := ship_open hP G g hge hsm hpk hal hml
  · exact ⟨M', Or.inl ⟨by rw [hv, h]; rfl, r⟩⟩
  · exact ⟨M', Or.inr ⟨by rw [hv, h]; rfl, r⟩⟩

section
variable {P : Params} (hP : P ∈ shipped)
include hP

/-- C02: `crypto_sign` then `crypto_sign_open` with the key pair of any seed.  The signed message is
the detached signature followed by the message; opening returns 0, the length and the message.  The
buffer for the opened message may be anywhere, even on top of everything else. -/
theorem C02_sign_open_round_trip (G0 g0 G1 g1 G2 g2 G3 g3 : Nat → Nat → Byte)
    {seed pk0 sk0 pk sk optrand m sig0 : Bytes} {M : Mem} {psm pm mlen psk ppk pm' : Nat}
    (hseed : seed.length = P.seedBytes) (hpk0 : pk0.length = P.pkBytes) (hsk0 : sk0.length = P.skBytes)
    (hkp : crypto_sign_seed_keypair (build P G0 g0) pk0 sk0 seed = .ok (pk, sk))
    (hsk : M.rd psk P.skBytes = .ok sk) (hpk : M.rd ppk P.pkBytes = .ok pk) (hm : M.rd pm mlen = .ok m)
    (hal : M.Alloc psm (P.spxBytes + mlen)) (hal' : M.Alloc pm' (P.spxBytes + mlen))
    (hdk : Disj psm P.n psk P.skBytes) (hdm : Disj psm P.spxBytes pm mlen)
    (hdp : Disj psm (P.spxBytes + mlen) ppk P.pkBytes) (hml : P.spxBytes + mlen < 2 ^ 60)
    (hopt : optrand.length = P.n) (hsig0 : sig0.length = P.spxBytes) :
    ∃ M1 M2 sig smlen, crypto_sign (build P G1 g1) M psm pm mlen psk optrand = .ok (M1, smlen, 0) ∧
      crypto_sign_signature (build P G2 g2) sig0 m sk optrand = .ok (sig, P.spxBytes) ∧
      M1.rd psm smlen = .ok (sig ++ m) ∧
      crypto_sign_open (build P G3 g3) M1 pm' psm smlen ppk = .ok (M2, mlen, 0) ∧
      M2.rd pm' mlen = .ok m := by
  rw [ship_keypair hP G0 g0 (by omega) (by omega) hseed, List.drop_of_length_le (by omega),
    List.drop_of_length_le (by omega), List.append_nil, List.append_nil] at hkp
  cases hkp
  have hlm := rd_length hm
  obtain ⟨M1, e1, r1, s1⟩ := ship_crypto_sign hP G1 g1 hsk hm hal hdk hdm (by omega) hopt
  have hsl := ship_sign_len hP (skOf P.toSpec (specHash P) seed) optrand m
  have hc := ship_correct hP hseed optrand m
  have e2 := ship_sign hP G2 g2 (sig0 := sig0) (rd_length hsk) (by omega) hopt (by omega) (m := m)
  rw [List.drop_of_length_le (by omega), List.append_nil] at e2
  generalize Spec.sign P.toSpec (specHash P) (skOf P.toSpec (specHash P) seed) optrand m = sig at *
  have et : (sig ++ m).take P.spxBytes = sig := List.take_left' hsl
  have ed : (sig ++ m).drop P.spxBytes = m := List.drop_left' hsl
  obtain ⟨M2, ⟨h, e, r, _⟩ | ⟨h, _⟩⟩ := ship_open hP G3 g3 (Nat.le_add_right _ _) r1
    (by rw [rd_frame s1 hdp, hpk]) (s1.alloc r1 hal') (by omega)
  · rw [ed, Nat.add_sub_cancel_left] at r
    rw [Nat.add_sub_cancel_left] at e
    exact ⟨M1, M2, sig, _, e1, e2, r1, e, r⟩
  · rw [et, ed, hc] at h
    cases h

omit hP in
/-- C05: opening less than a signature's worth of bytes returns -1 with length 0 and zeroes exactly
those bytes of `m`.  Only `m` needs to be allocated: neither `sm` nor `pk` is read. -/
theorem C05_short_open_fails_closed (G g : Nat → Nat → Byte) {M : Mem} {pm smlen : Nat} (psm ppk : Nat)
    (hlt : smlen < crypto_sign_bytes P) (hal : M.Alloc pm smlen) :
    ∃ M', crypto_sign_open (build P G g) M pm psm smlen ppk = .ok (M', 0, -1) ∧
      M'.rd pm smlen = .ok (List.replicate smlen 0) ∧ M.SameOutside M' pm smlen :=
  crypto_sign_open_short (build P G g) hlt hal

/-- C06: an open that does not return 0 reports length 0, leaves zeroes in `m` and changes nothing
else, for every overlap of the buffers. -/
theorem C06_failed_open_releases_nothing (G g : Nat → Nat → Byte) {M M' : Mem} {pm psm smlen ppk mlen : Nat} {r : Int}
    (hsm : M.Alloc psm smlen) (hpk : M.Alloc ppk P.pkBytes) (hal : M.Alloc pm smlen) (hml : smlen < 2 ^ 60)
    (e : crypto_sign_open (build P G g) M pm psm smlen ppk = .ok (M', mlen, r)) (hr : r ≠ 0) :
    r = -1 ∧ mlen = 0 ∧ M'.rd pm smlen = .ok (List.replicate smlen 0) ∧ M.SameOutside M' pm smlen := by
  by_cases h : smlen < P.spxBytes
  · obtain ⟨M1, e1, r1, s1⟩ := crypto_sign_open_short (build P G g) (sm := psm) (pk := ppk) h hal
    rw [e1] at e
    cases e
    exact ⟨rfl, rfl, r1, s1⟩
  · obtain ⟨sm, rs, _⟩ := rd_of_alloc hsm
    obtain ⟨pk, rp, _⟩ := rd_of_alloc hpk
    obtain ⟨M1, ⟨_, e1, _⟩ | ⟨_, e1, r1, s1⟩⟩ := open_cases hP G g (by omega) rs rp hal hml
    · rw [e1] at e
      cases e
      exact absurd rfl hr
    · rw [e1] at e
      cases e
      exact ⟨rfl, rfl, r1, s1⟩

/-- C07: `crypto_sign_open` returns 0 exactly when the input is long enough and its first
`crypto_sign_bytes()` bytes are accepted by `crypto_sign_verify` as a signature of the rest; then it
reports the length of the rest and delivers the rest as it was before the call, writing nothing else. -/
theorem C07_open_iff_verify (G g G' g' : Nat → Nat → Byte) {M M' : Mem} {pm psm smlen ppk mlen : Nat} {r : Int}
    {sm pk : Bytes} (hsm : M.rd psm smlen = .ok sm) (hpk : M.rd ppk P.pkBytes = .ok pk) (hal : M.Alloc pm smlen)
    (hml : smlen < 2 ^ 60) (e : crypto_sign_open (build P G g) M pm psm smlen ppk = .ok (M', mlen, r)) :
    (r = 0 ↔ crypto_sign_bytes P ≤ smlen ∧
      crypto_sign_verify (build P G' g') (sm.take (crypto_sign_bytes P)) (crypto_sign_bytes P)
        (sm.drop (crypto_sign_bytes P)) pk = .ok 0) ∧
    (r = 0 → mlen = smlen - crypto_sign_bytes P ∧ M'.rd pm mlen = .ok (sm.drop (crypto_sign_bytes P)) ∧
      M.SameOutside M' pm mlen) := by
  by_cases h : smlen < P.spxBytes
  · obtain ⟨M1, e1, _⟩ := crypto_sign_open_short (build P G g) (sm := psm) (pk := ppk) h hal
    rw [e1] at e
    cases e
    exact ⟨⟨fun h => (by cases h), fun h' => absurd h'.1 (by show ¬ P.spxBytes ≤ smlen; omega)⟩, fun h => by cases h⟩
  · have hl := rd_length hsm
    have hg : crypto_sign_verify (build P G' g') (sm.take P.spxBytes) P.spxBytes (sm.drop P.spxBytes) pk =
        crypto_sign_verify (build P G g) (sm.take P.spxBytes) P.spxBytes (sm.drop P.spxBytes) pk := by
      rw [ship_verify hP G' g' (rd_length hpk) (by rw [List.length_drop]; omega) (by rw [List.length_take]; omega),
        ship_verify hP G g (rd_length hpk) (by rw [List.length_drop]; omega) (by rw [List.length_take]; omega)]
    show (r = 0 ↔ P.spxBytes ≤ smlen ∧
      crypto_sign_verify (build P G' g') (sm.take P.spxBytes) P.spxBytes (sm.drop P.spxBytes) pk = .ok 0) ∧
      (r = 0 → mlen = smlen - P.spxBytes ∧ M'.rd pm mlen = .ok (sm.drop P.spxBytes) ∧ M.SameOutside M' pm mlen)
    rw [hg]
    obtain ⟨M1, ⟨h0, e1, r1, s1⟩ | ⟨h0, e1, r1, s1⟩⟩ := open_cases hP G g (by omega) hsm hpk hal hml
    · rw [e1] at e
      cases e
      exact ⟨⟨fun _ => ⟨by omega, h0⟩, fun _ => rfl⟩, fun _ => ⟨rfl, r1, s1⟩⟩
    · rw [e1] at e
      cases e
      exact ⟨⟨fun h => (by cases h), fun h' => by rw [h0] at h'; cases h'.2⟩, fun h => by cases h⟩

/-- C08: return value, reported length and delivered bytes do not depend on where `m` lies relative
to `sm` and `pk`: two memories with the same `sm` and `pk` bytes, any placements (take `pm2` disjoint
from everything to compare with separate buffers). -/
theorem C08_overlapping_open (G1 g1 G2 g2 : Nat → Nat → Byte) {M1 M2 : Mem}
    {pm1 psm1 ppk1 pm2 psm2 ppk2 smlen : Nat}
    (a1 : M1.Alloc psm1 smlen) (b1 : M1.Alloc ppk1 P.pkBytes) (c1 : M1.Alloc pm1 smlen) (c2 : M2.Alloc pm2 smlen)
    (esm : M1.rd psm1 smlen = M2.rd psm2 smlen) (epk : M1.rd ppk1 P.pkBytes = M2.rd ppk2 P.pkBytes)
    (hml : smlen < 2 ^ 60) :
    ∃ M1' M2' mlen r, crypto_sign_open (build P G1 g1) M1 pm1 psm1 smlen ppk1 = .ok (M1', mlen, r) ∧
      crypto_sign_open (build P G2 g2) M2 pm2 psm2 smlen ppk2 = .ok (M2', mlen, r) ∧
      (r = 0 → M1'.rd pm1 mlen = M2'.rd pm2 mlen ∧ M1'.rd pm1 mlen = M1.rd (psm1 + P.spxBytes) mlen) ∧
      (r ≠ 0 → M1'.rd pm1 smlen = M2'.rd pm2 smlen) := by
  by_cases h : smlen < P.spxBytes
  · obtain ⟨N1, e1, r1, s1⟩ := crypto_sign_open_short (build P G1 g1) (sm := psm1) (pk := ppk1) h c1
    obtain ⟨N2, e2, r2, s2⟩ := crypto_sign_open_short (build P G2 g2) (sm := psm2) (pk := ppk2) h c2
    exact ⟨N1, N2, 0, -1, e1, e2, fun h => (by cases h), fun _ => (by rw [r1, r2])⟩
  · obtain ⟨sm, x1, _⟩ := rd_of_alloc a1
    obtain ⟨pk, y1, _⟩ := rd_of_alloc b1
    have x2 := esm ▸ x1
    have y2 := epk ▸ y1
    obtain ⟨N1, h1⟩ := ship_open hP G1 g1 (by omega) x1 y1 c1 hml
    obtain ⟨N2, h2⟩ := ship_open hP G2 g2 (by omega) x2 y2 c2 hml
    rcases h1 with ⟨v1, e1, r1, s1⟩ | ⟨v1, e1, r1, s1⟩ <;> rcases h2 with ⟨v2, e2, r2, s2⟩ | ⟨v2, e2, r2, s2⟩
    · exact ⟨N1, N2, _, 0, e1, e2, fun _ => ⟨by rw [r1, r2], by rw [r1, rd_drop x1 (by omega)]⟩,
        fun h => absurd rfl h⟩
    · rw [v1] at v2; cases v2
    · rw [v1] at v2; cases v2
    · exact ⟨N1, N2, 0, -1, e1, e2, fun h => (by cases h), fun _ => (by rw [r1, r2])⟩

/-- C09, the layouts that work: whenever the message does not meet the `crypto_sign_bytes()` bytes
of the output signature, the output is the detached signature of the message followed by the
message.  The message may overlap the second part of the output in any way; the hypothesis `hdm` is
satisfied by the in-place layout `pm = psm + crypto_sign_bytes()`. -/
theorem C09_tolerated_overlap (G1 g1 G2 g2 : Nat → Nat → Byte) {M : Mem} {psm pm mlen psk : Nat}
    {sk optrand m sig0 : Bytes} (hsk : M.rd psk P.skBytes = .ok sk) (hm : M.rd pm mlen = .ok m)
    (hal : M.Alloc psm (P.spxBytes + mlen)) (hdk : Disj psm P.n psk P.skBytes)
    (hdm : Disj psm (crypto_sign_bytes P) pm mlen) (hml : mlen < 2 ^ 60) (hopt : optrand.length = P.n)
    (hsig0 : sig0.length = P.spxBytes) :
    ∃ M' sig, crypto_sign (build P G1 g1) M psm pm mlen psk optrand = .ok (M', P.spxBytes + mlen, 0) ∧
      crypto_sign_signature (build P G2 g2) sig0 m sk optrand = .ok (sig, P.spxBytes) ∧
      M'.rd psm (P.spxBytes + mlen) = .ok (sig ++ m) ∧ M.SameOutside M' psm (P.spxBytes + mlen) := by
  have hlm := rd_length hm
  obtain ⟨M', e, r, s⟩ := ship_crypto_sign hP G1 g1 hsk hm hal hdk hdm hml hopt
  have e2 := ship_sign hP G2 g2 (sig0 := sig0) (rd_length hsk) (by omega) hopt (by omega) (m := m)
  rw [List.drop_of_length_le (by omega), List.append_nil] at e2
  exact ⟨M', _, e, e2, r, s⟩

/-- C09, the layout that does not work: with `m == sm`, for every key and randomness there is a
message such that the output of `crypto_sign` does not contain the message (it holds the signature
twice), although it returns 0. -/
theorem C09_in_place_at_start_broken {sk optrand : Bytes} (_hskl : sk.length = P.skBytes)
    (hopt : optrand.length = P.n) :
    ∃ m : Bytes, m.length = P.spxBytes ∧ ∀ (G g : Nat → Nat → Byte) (M : Mem) (psm psk : Nat),
      M.rd psk P.skBytes = .ok sk → M.rd psm P.spxBytes = .ok m → M.Alloc psm (P.spxBytes + P.spxBytes) →
      Disj psm (P.spxBytes + P.spxBytes) psk P.skBytes →
      ∃ M' sig, crypto_sign (build P G g) M psm psm P.spxBytes psk optrand = .ok (M', P.spxBytes + P.spxBytes, 0) ∧
        M'.rd psm (P.spxBytes + P.spxBytes) = .ok (sig ++ sig) ∧ sig ≠ m := by
  have hs := shipped_sizes hP
  let S := specHash P
  let pub := (sk.drop (2 * P.n)).take P.n
  let Rf := fun m : Bytes => S.PRFmsg pub ((sk.drop P.n).take P.n) optrand m
  let Df := fun m : Bytes => S.Hmsg (Rf m) pub ((sk.drop (3 * P.n)).take P.n) (Rf m ++ m.drop P.n) (digestBytes P.toSpec)
  have R := shippedRefines hP (fun _ _ => 0)
  have hRl : ∀ m, (Rf m).length = P.n := fun m => R.PRFmsg_len ..
  have hDl : ∀ m, (Df m).length = digestBytes P.toSpec := fun m => R.Hmsg_len ..
  have hout : ∃ F : Bytes → Bytes, ∀ m, signWith P.toSpec S sk optrand m (Rf m ++ m.drop P.n) = F (Rf m ++ Df m) := by
    refine ⟨fun x => x.take P.n ++ forsSig P.toSpec S pub (sk.take P.n)
      (splitDigest P.toSpec (x.drop P.n)).2.1 (splitDigest P.toSpec (x.drop P.n)).2.2
      (splitDigest P.toSpec (x.drop P.n)).1 ++
      htSig P.toSpec S pub (sk.take P.n) (splitDigest P.toSpec (x.drop P.n)).2.1
        (splitDigest P.toSpec (x.drop P.n)).2.2 (forsPk P.toSpec S pub (sk.take P.n)
          (splitDigest P.toSpec (x.drop P.n)).2.1 (splitDigest P.toSpec (x.drop P.n)).2.2), fun m => ?_⟩
    simp only
    rw [List.take_left' (hRl m), List.drop_left' (hRl m)]
    rfl
  obtain ⟨F, hF⟩ := hout
  obtain ⟨x, y, hx, hy, hxy, hf⟩ := bytes_pigeon (a := P.n + digestBytes P.toSpec) (b := P.spxBytes)
    (by rw [digestBytes_eq]; exact hs.2) (fun m => Rf m ++ Df m)
    (fun m _ => by simp [hRl, hDl])
  have hne : ∃ m : Bytes, m.length = P.spxBytes ∧ F (Rf m ++ Df m) ≠ m := by
    by_cases h : F (Rf x ++ Df x) = x
    · refine ⟨y, hy, fun h' => hxy ?_⟩
      rw [← h, ← h']
      exact congrArg F hf
    · exact ⟨x, hx, h⟩
  obtain ⟨m, hml, hm⟩ := hne
  refine ⟨m, hml, fun G g M psm psk hsk hmr hal hdk => ?_⟩
  have hsz := hs.1
  have hot : optrand.take P.n = optrand := List.take_of_length_le (by omega)
  obtain ⟨M1, e1, r1, s1⟩ := sign_mem_core (buildRefines hP G g) (shipped_valid hP) hsk hmr (psig := psm)
    (m2 := Rf m ++ m.drop P.n) (optrand := optrand)
    (alloc_sub hal (Nat.le_refl _) (by show _ + P.spxBytes ≤ _; omega))
    (by show Disj psm P.n psk P.skBytes
        rcases hdk with h | h
        · exact Or.inl (by omega)
        · exact Or.inr h)
    (fun M1 h1 h2 => by
      change M1.rd psm P.n = .ok (S.PRFmsg pub ((sk.drop P.n).take P.n) (optrand.take P.n) m) at h2
      change M.SameOutside M1 psm P.n at h1
      rw [hot] at h2
      have h3 := rd_drop hmr (k := P.n) (by omega)
      rw [← rd_frame h1 (Or.inl (Nat.le_refl _))] at h3
      have h4 := rd_append h2 h3
      rwa [show P.n + (P.spxBytes - P.n) = P.spxBytes by omega] at h4)
    (by omega) (Nat.le_of_eq hopt.symm)
  change crypto_sign_signature_mem (build P G g) M psm psm P.spxBytes psk optrand = .ok (M1, P.spxBytes, 0) at e1
  change M1.rd psm P.spxBytes = .ok (signWith P.toSpec S sk (optrand.take P.n) m _) at r1
  change M.SameOutside M1 psm P.spxBytes at s1
  rw [hot, hF] at r1
  have hl1 := rd_length r1
  generalize hsg : F (Rf m ++ Df m) = sig at *
  obtain ⟨M2, e2, r2, s2⟩ := wr_of_alloc (M := M1) (p := psm + P.spxBytes) (d := sig)
    (alloc_sub (s1.alloc r1 hal) (by omega) (by omega))
  rw [hl1] at r2 s2
  refine ⟨M2, sig, ?_, rd_append (by rw [rd_frame s2 (Or.inr (by omega)), r1]) r2, hm⟩
  unfold crypto_sign crypto_signT
  rw [← crypto_sign_signature_mem, e1]
  simp only [ok_bind]
  unfold memmove
  rw [r1]
  simp only [ok_bind]
  change (do let M ← M1.wr (psm + P.spxBytes) sig; Except.ok (M, (P.spxBytes + P.spxBytes) % 2 ^ 64, (0 : Int))) = _
  rw [e2]
  simp only [ok_bind]
  rw [Nat.mod_eq_of_lt (by omega)]

end

/-! ### Concrete cases -/

/-- C05: three bytes are zeroed, the input and key pointers are wild. -/
example : ∃ M', crypto_sign_open (build (sha2_128s true) (fun _ _ => 0) (fun _ _ => 0))
      ⟨fun a => if a < 3 then some 7 else none⟩ 0 1000 3 2000 = .ok (M', 0, -1) ∧
    M'.rd 0 3 = .ok (List.replicate 3 0) ∧
    Mem.SameOutside ⟨fun a => if a < 3 then some 7 else none⟩ M' 0 3 :=
  C05_short_open_fails_closed (P := sha2_128s true) _ _ 1000 2000 (by decide)
    (fun i hi => by show (if 0 + i < 3 then some (7 : Byte) else none).isSome = true; rw [if_pos (by omega)]; rfl)

/-- C06, C07: opening garbage in place. -/
example (M' : Mem) (mlen : Nat) (r : Int) (h : crypto_sign_open (build (haraka_128f false) (fun _ _ => 1) (fun _ _ => 2))
    (filled fun a => BitVec.ofNat 8 a) 100 100 17100 0 = .ok (M', mlen, r)) (hr : r ≠ 0) :
    M'.rd 100 17100 = .ok (List.replicate 17100 0) :=
  (C06_failed_open_releases_nothing (P := haraka_128f false) (by decide) _ _ (filled_alloc _ _ _)
    (filled_alloc _ _ _) (filled_alloc _ _ _) (by decide) h hr).2.2.1

example (M' : Mem) (mlen : Nat) (h : crypto_sign_open (build (haraka_128f false) (fun _ _ => 1) (fun _ _ => 2))
    (filled fun a => BitVec.ofNat 8 a) 100 100 17100 0 = .ok (M', mlen, 0)) : mlen = 12 :=
  ((C07_open_iff_verify (P := haraka_128f false) (by decide) _ _ (fun _ _ => 3) (fun _ _ => 4) (filled_rd _ _ _)
    (filled_rd _ _ _) (filled_alloc _ _ _) (by decide) h).2 rfl).1

/-- C08: `m == sm` in one memory, `m` far away in the other. -/
example : ∃ M1' M2' mlen r,
    crypto_sign_open (build (shake_128s true) (fun _ _ => 1) (fun _ _ => 2)) (filled fun _ => 9) 50 50 8000 7
      = .ok (M1', mlen, r) ∧
    crypto_sign_open (build (shake_128s true) (fun _ _ => 3) (fun _ _ => 4)) (filled fun _ => 9) 90000 50 8000 7
      = .ok (M2', mlen, r) := by
  obtain ⟨M1', M2', mlen, r, h1, h2, _⟩ := C08_overlapping_open (P := shake_128s true) (by decide)
    (fun _ _ => 1) (fun _ _ => 2) (fun _ _ => 3) (fun _ _ => 4) (M1 := filled fun _ => 9) (M2 := filled fun _ => 9)
    (pm1 := 50) (psm1 := 50) (ppk1 := 7) (pm2 := 90000) (psm2 := 50) (ppk2 := 7) (smlen := 8000)
    (filled_alloc _ _ _) (filled_alloc _ _ _) (filled_alloc _ _ _) (filled_alloc _ _ _) rfl rfl (by decide)
  exact ⟨M1', M2', mlen, r, h1, h2⟩

/-- C02 and C09: a 40-byte message signed in place (`m = sm + 17088`), then opened on top of itself.
The key pair is any result of key generation, placed at 0 and 64. -/
example (pk sk : Bytes) (hkp : crypto_sign_seed_keypair (build (sha2_128f true) (fun _ _ => 1) (fun _ _ => 2))
      (List.replicate 32 0) (List.replicate 64 0) (List.replicate 48 3) = .ok (pk, sk)) (M : Mem)
    (hsk : M.rd 0 64 = .ok sk) (hpk : M.rd 64 32 = .ok pk) (hal : M.Alloc 96 (17088 + 40)) :
    ∃ M1 M2, crypto_sign (build (sha2_128f true) (fun _ _ => 1) (fun _ _ => 2)) M 96 (96 + 17088) 40 0
        (List.replicate 16 1) = .ok (M1, 17128, 0) ∧
      crypto_sign_open (build (sha2_128f true) (fun _ _ => 1) (fun _ _ => 2)) M1 96 96 17128 64 = .ok (M2, 40, 0) ∧
      M2.rd 96 40 = M.rd (96 + 17088) 40 := by
  obtain ⟨m, hm, _⟩ := rd_of_alloc (alloc_sub hal (q := 96 + 17088) (k := 40) (by omega) (by omega))
  obtain ⟨M', _, e, _⟩ := C09_tolerated_overlap (P := sha2_128f true) (by decide) (fun _ _ => 1) (fun _ _ => 2)
    (fun _ _ => 1) (fun _ _ => 2) (sig0 := List.replicate 17088 0) (optrand := List.replicate 16 1) hsk hm hal
    (Or.inr (by decide)) (Or.inl (by decide)) (by decide) (by decide) List.length_replicate
  obtain ⟨M1, M2, sig, smlen, e1, _, _, e2, r2⟩ := C02_sign_open_round_trip (P := sha2_128f true) (by decide)
    (fun _ _ => 1) (fun _ _ => 2) (fun _ _ => 1) (fun _ _ => 2) (fun _ _ => 1) (fun _ _ => 2) (fun _ _ => 1)
    (fun _ _ => 2) (sig0 := List.replicate 17088 0) (optrand := List.replicate 16 1) (pm' := 96)
    (by decide) (by decide) (by decide) hkp hsk hpk hm hal hal (Or.inr (by decide)) (Or.inl (by decide))
    (Or.inr (by decide)) (by decide) (by decide) List.length_replicate
  rw [e] at e1
  cases e1
  exact ⟨M', M2, e, e2, by rw [r2, hm]⟩

/-- C09: the broken layout exists for the all-zero key. -/
example : ∃ m : Bytes, m.length = 7856 ∧ ∀ (G g : Nat → Nat → Byte) (M : Mem) (psm psk : Nat),
      M.rd psk 64 = .ok (List.replicate 64 0) → M.rd psm 7856 = .ok m → M.Alloc psm (7856 + 7856) →
      Disj psm (7856 + 7856) psk 64 →
      ∃ M' sig, crypto_sign (build (shake_128s false) G g) M psm psm 7856 psk (List.replicate 16 0)
          = .ok (M', 7856 + 7856, 0) ∧
        M'.rd psm (7856 + 7856) = .ok (sig ++ sig) ∧ sig ≠ m :=
  C09_in_place_at_start_broken (P := shake_128s false) (by decide) (by decide) (by decide)

end Spx
