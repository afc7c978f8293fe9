import Verif.Proof.Parallel
/-! # The parallel tree code equals the reference: C38

`buildX P lg X G g` is a build of an optimised implementation with `2^lg` lanes and lane hash code
`X`; `parCode` are its functions called by sign.c.  The hypothesis on `X` is `LaneWise`: an `L`-way
hash call returns in each lane what the one-way function returns for the input and address of that
lane, whatever the other lanes hold.

`G`, `G'` are the contents of uninitialised memory in the parallel and the reference code: lanes of
the tree stack without a value, the spare chain buffer and so on hold arbitrary bytes. -/

namespace Spx
open Spec Mem

/-- The `2^lg`-way hash functions `X` equal the one-way functions in every lane, whatever the address buffers hold. -/
structure LaneWise (P : Params) (g : Nat → Nat → Byte) (lg : Nat) (X : LaneHash) : Prop where
  thashx : ∀ {ctx : Ctx}, ctx.Ready P g → ∀ {as : Nat → Addr} {I : Nat → Bytes} {blocks : Nat},
    (∀ j, j < 2 ^ lg → (as j).length = 32) → 1 ≤ blocks → (∀ j, j < 2 ^ lg → blocks * P.n ≤ (I j).length) →
    blocks * P.n < 2 ^ 31 →
    X.thashx ((List.range (2 ^ lg)).map I) blocks ctx ((List.range (2 ^ lg)).map as) =
      tabulate (2 ^ lg) fun j => (implOf P g).thash (I j) blocks ctx (as j)
  prf_addrx : ∀ {ctx : Ctx}, ctx.Ready P g → ∀ {as : Nat → Addr}, (∀ j, j < 2 ^ lg → (as j).length = 32) →
    X.prf_addrx ctx ((List.range (2 ^ lg)).map as) =
      tabulate (2 ^ lg) fun j => (implOf P g).prf_addr ctx (as j)

/-- The hypothesis is satisfiable: one-way calls lane after lane. -/
theorem seqLanes_laneWise (P : Params) (g : Nat → Nat → Byte) (lg : Nat) :
    LaneWise P g lg (seqLanes (2 ^ lg) (implOf P g)) where
  thashx := by
    intro ctx _ as I blocks _ _ _ _
    refine forRange_congr fun j s hj => ?_
    simp only [rd1_ok (b := (List.range (2 ^ lg)).map I) (i := j) (by simpa using hj),
      rd1_ok (b := (List.range (2 ^ lg)).map as) (i := j) (by simpa using hj), ok_bind,
      List.getElem_map, List.getElem_range]
  prf_addrx := by
    intro ctx _ as _
    refine forRange_congr fun j s hj => ?_
    simp only [rd1_ok (b := (List.range (2 ^ lg)).map as) (i := j) (by simpa using hj), ok_bind,
      List.getElem_map, List.getElem_range]

section
variable {P : Params} (hP : P ∈ shipped) {lg : Nat} (h1 : 1 ≤ lg) (h3 : lg ≤ 3) {X : LaneHash}
  (G G' : Nat → Nat → Byte) {g : Nat → Nat → Byte} (hX : LaneWise P g lg X)

include hX in
theorem LaneWise.refines : LaneRefines (buildX P lg X G g) (readyRefines hP G g) where
  thashx ctx A I blocks hc hA hb hI hs := by
    refine (hX.thashx hc (as := fun j => enc P.fam (A j)) (fun j _ => enc_length P.fam (A j)) hb hI hs).trans ?_
    exact tabulate_ok fun j hj => (readyRefines hP G g).thash ctx (A j) (I j) blocks hc (hA j hj) hb (hI j hj) hs
  prf ctx A hc hA := by
    refine (hX.prf_addrx hc (as := fun j => enc P.fam (A j)) fun j _ => enc_length P.fam (A j)).trans ?_
    exact tabulate_ok fun j hj => (readyRefines hP G g).prf ctx (A j) hc (hA j hj)

include hX h1 h3 in
theorem LaneWise.code : TreeCodeOK (readyRefines hP G g) (parCode (buildX P lg X G g)) := by
  have h := shipped_heights hP
  exact parCode_ok (hX.refines hP G) (shipped_valid hP) h1 (Nat.le_trans h3 h.1) (Nat.le_trans h3 h.2.1)
    (by have h4 := h.2.2
        show P.treeHeight + lg < 32
        omega)

variable {ctx : Ctx} (hctx : ctx.Ready P g)

include hP h1 h3 hX hctx

/-- C38, tree hashing.  Given a parallel and a one-way leaf generator for the same leaves, the
parallel tree hashing returns root and authentication path buffer of `treehashx1`, for every leaf
index in the tree and for the "no path" value `~0`. -/
theorem C38_treehash_same {a : ADRS} (ha : a.OK) {off th leaf_idx : Nat} (hlt : lg ≤ th) (hth : th ≤ 28)
    (hli : leaf_idx < 2 ^ th ∨ leaf_idx = 2 ^ 32 - 1) {auth0 : Bytes} (hauth : th * P.n ≤ auth0.length)
    {leaf : Nat → Bytes} (hleaf : ∀ i, i < 2 ^ th → (leaf i).length = P.n)
    {ι κ : Type} {gen : Nat → ι → C (Bytes × ι)} {I : Nat → ι}
    (hgen : ∀ i, i < 2 ^ th → gen ((i + off) % 2 ^ 32) (I i) = .ok (leaf i, I (i + 1)))
    {genx : Bytes → Nat → κ → C (Bytes × κ)} {J : Nat → κ}
    (hgenx : ∀ i, i < 2 ^ (th - lg) → ∀ buf : Bytes, buf.length = 2 ^ lg * P.n →
      genx buf ((2 ^ lg * i + off) % 2 ^ 32) (J i) = .ok (cat (2 ^ lg) (fun j => leaf (2 ^ lg * i + j)), J (i + 1)))
    {u v : Nat → Nat} (hu : ∀ j, u j < 256) (hv : ∀ j, v j < 2 ^ 32) :
    ∃ root auth addr addrs,
      treehashx1 (build P G' g) auth0 ctx leaf_idx off th gen (enc P.fam a) (I 0) = .ok (root, auth, addr, I (2 ^ th)) ∧
      treehashx (buildX P lg X G g) auth0 ctx leaf_idx off th genx
        ((List.range (2 ^ lg)).map fun j => enc P.fam { a with w2 := u j, w3 := v j }) (J 0) =
          .ok (root, auth, addrs, J (2 ^ (th - lg))) := by
  have hp : 2 ^ th ≤ 2 ^ 28 := Nat.pow_le_pow_right (by omega) hth
  have hb : 2 ^ th * 2 ^ lg ≤ 2 ^ 31 := by
    rw [← Nat.pow_add]
    exact Nat.pow_le_pow_right (by omega) (by omega)
  obtain ⟨x, e, -⟩ := treehashx1_spec (E := build P G' g) (readyRefines hP G' g)
    hctx ha (by omega) (auth0 := auth0) hauth (two_n_small hP) hleaf (leaf_idx := leaf_idx) (off := off)
    hgen (tree_addr := enc P.fam a) ⟨a.w2, a.w3, ha.w2, ha.w3, rfl⟩
  obtain ⟨y, e', -⟩ := treehashx_spec (E := buildX P lg X G g) (hX.refines hP G) hctx ha h1 hlt (by omega)
    (leaf_idx := leaf_idx) (off := off) (by omega)
    (hli.imp id fun h => by rw [h]; exact Nat.le_trans hb (by omega)) hauth (two_n_small hP) hleaf hgenx
    ⟨_, rfl, fun j _ => ⟨u j, v j, hu j, hv j, rfl⟩⟩
  exact ⟨_, _, _, _, e, e'⟩

/-- C38, WOTS leaves and signature.  `wots_gen_leafx` on a group of `L` leaves writes what
`wots_gen_leafx1` returns for each of them.  If one of them is the leaf to sign with, the signature
buffer afterwards is the one of that call of `wots_gen_leafx1`, otherwise it is unchanged, as in
every call. -/
theorem C38_wots_leaf_same {layer tree kp : Nat} (hlay : layer < 256) (htr : tree < 2 ^ 64)
    (hal : 2 ^ lg ∣ kp) (hkp : kp + 2 ^ lg ≤ 2 ^ 32) {steps : List Nat} (hsl : steps.length = P.wotsLen)
    (hst : ∀ x ∈ steps, x < P.w) {wots_sig dest : Bytes} (hsig : wots_sig.length = P.wotsBytes)
    (hdest : dest.length = 2 ^ lg * P.n) {sign_leaf : Nat} (hsgn : sign_leaf < 2 ^ 32)
    {k k' c h : Nat → Nat} (hc : ∀ j, c j < 256) (hh : ∀ j, h j < 256) :
    let leaf_addr := fun j => enc P.fam ⟨layer, tree, SPX_ADDR_TYPE_WOTS, k j, c j, h j⟩
    let pk_addr := fun j => enc P.fam ⟨layer, tree, SPX_ADDR_TYPE_WOTSPK, k' j, 0, 0⟩
    ∃ leaves info', wots_gen_leafx (buildX P lg X G g) ctx dest kp
        ⟨wots_sig, sign_leaf, steps, (List.range (2 ^ lg)).map leaf_addr, (List.range (2 ^ lg)).map pk_addr⟩ =
          .ok (cat (2 ^ lg) leaves, info') ∧
      info'.wots_sig.length = P.wotsBytes ∧
      (∀ j, j < 2 ^ lg → ∃ info1, wots_gen_leafx1 (build P G' g) ctx (kp + j)
          ⟨wots_sig, sign_leaf, steps, leaf_addr j, pk_addr j⟩ = .ok (leaves j, info1) ∧
        (leaves j).length = P.n ∧
        info1.wots_sig = if kp + j = sign_leaf then info'.wots_sig else wots_sig) ∧
      ((∀ j, j < 2 ^ lg → kp + j ≠ sign_leaf) → info'.wots_sig = wots_sig) := by
  intro leaf_addr pk_addr
  have hv := shipped_valid hP
  have hp : 0 < 2 ^ lg := Nat.two_pow_pos lg
  have hR := readyRefines hP G g
  have ex := wots_gen_leafx_spec (E := buildX P lg X G g) (hX.refines hP G) hv hctx hlay htr hkp
    (info := ⟨wots_sig, sign_leaf, steps, (List.range (2 ^ lg)).map leaf_addr, (List.range (2 ^ lg)).map pk_addr⟩)
    (dest := dest) (A := fun j => ⟨layer, tree, WOTS_HASH, k j, c j, h j⟩) (B := fun j => ⟨layer, tree, WOTS_PK, k' j, 0, 0⟩)
    (show lg ≤ 32 by omega) hsgn (Nat.mod_eq_zero_of_dvd hal) rfl (fun j _ => ⟨_, _, _, hc j, hh j, rfl⟩) rfl
    (fun j _ => ⟨_, rfl⟩) hsl hst hsig hdest
  have hgrp : kp / 2 ^ lg = sign_leaf / 2 ^ lg ↔ ∃ j, j < 2 ^ lg ∧ kp + j = sign_leaf := by
    obtain ⟨q, rfl⟩ := hal
    rw [Nat.mul_div_cancel_left _ hp]
    constructor
    · rintro rfl
      exact ⟨sign_leaf % 2 ^ lg, Nat.mod_lt _ hp, Nat.div_add_mod ..⟩
    · rintro ⟨j, hj, rfl⟩
      rw [Nat.mul_add_div hp, Nat.div_eq_of_lt hj, Nat.add_zero]
  refine ⟨_, _, ex, ?_, ?_, ?_⟩
  · simp only
    split
    · refine (cat_length (n := P.n) fun i _ => chain_length (fun _ _ => (readyRefines hP G g).T_len ..)
        ((readyRefines hP G g).PRF_len ..) _ _).trans rfl
    · exact hsig
  · intro j hj
    have e1 := wots_gen_leafx1_spec (E := build P G' g) (readyRefines hP G' g) hv hctx hlay htr (kp := kp + j)
      (by omega) (info := ⟨wots_sig, sign_leaf, steps, leaf_addr j, pk_addr j⟩) (hc j) (hh j) rfl rfl hsl hst hsig
    refine ⟨_, e1, (readyRefines hP G g).T_len .., ?_⟩
    by_cases he : kp + j = sign_leaf
    · simp only
      rw [if_pos he, if_pos he]
      show _ = if kp / 2 ^ lg = sign_leaf / 2 ^ lg then _ else _
      rw [if_pos (hgrp.mpr ⟨j, hj, he⟩), he]
      rfl
    · simp only
      rw [if_neg he, if_neg he]
  · intro hn
    show (if kp / 2 ^ lg = sign_leaf / 2 ^ lg then _ else _) = _
    rw [if_neg fun hc => by
      obtain ⟨j, hj, he⟩ := hgrp.mp hc
      exact hn j hj he]

omit h1 h3 in
/-- C38, WOTS verification: `wots_pk_from_sig` sorts the chains by length, runs them in groups with
partially filled lanes, and returns the public key the reference returns. -/
theorem C38_wots_pk_from_sig_same {layer tree kp c h : Nat} (hlay : layer < 256) (htr : tree < 2 ^ 64)
    (hkp : kp < 2 ^ 32) (hc : c < 256) (hh : h < 256) {pk pk' sig msg : Bytes} (hpk : pk.length = P.wotsBytes)
    (hpk' : pk'.length = P.wotsBytes) (hsig : P.wotsBytes ≤ sig.length) (hm : msg.length = P.n) :
    let addr := enc P.fam ⟨layer, tree, SPX_ADDR_TYPE_WOTS, kp, c, h⟩
    ∃ out addr', wots_pk_from_sigx (buildX P lg X G g) pk sig msg ctx addr = .ok (out, addr) ∧
      wots_pk_from_sig (build P G' g) pk' sig msg ctx addr = .ok (out, addr') := by
  intro addr
  have hv := shipped_valid hP
  have e := wots_pk_from_sigx_spec (E := buildX P lg X G g) (hX.refines hP G) hv hctx hlay htr hkp hc hh hpk hsig hm
  obtain ⟨u, v, -, -, e'⟩ := wots_pk_from_sig_spec (E := build P G' g) (readyRefines hP G' g) hv hctx hlay htr hkp
    hc hh hpk' hsig hm
  exact ⟨_, _, e, e'⟩

omit h1 h3 in
/-- C38, FORS leaves: `fors_gen_leafx` writes what `fors_gen_leafx1` returns for `L` consecutive
leaves. -/
theorem C38_fors_leaf_same {tree kp i : Nat} (htr : tree < 2 ^ 64) (hkp : kp < 2 ^ 32) (hi : i + 2 ^ lg ≤ 2 ^ 32)
    {ty : Nat} (hty : ty < 256) {x : Nat → Nat} {buf : Bytes} (hbuf : buf.length = 2 ^ lg * P.n) :
    let addr := fun j => enc P.fam ⟨0, tree, ty, kp, 0, x j⟩
    ∃ leaves addrs', fors_gen_leafx (buildX P lg X G g) ctx buf i ((List.range (2 ^ lg)).map addr) =
        .ok (cat (2 ^ lg) leaves, (List.range (2 ^ lg)).map addrs') ∧
      ∀ j, j < 2 ^ lg → (leaves j).length = P.n ∧
        fors_gen_leafx1 (build P G' g) ctx (i + j) (addr j) = .ok (leaves j, addrs' j) := by
  intro addr
  have hv := shipped_valid hP
  have e := fors_gen_leafx_spec (E := buildX P lg X G g) (hX.refines hP G) hv hctx htr hkp hty hi (x := x) hbuf
  refine ⟨_, _, e, fun j hj => ⟨(readyRefines hP G g).T_len .., ?_⟩⟩
  exact fors_gen_leafx1_spec (E := build P G' g) (readyRefines hP G' g) hctx htr hkp hty (by omega) hv

/-- C38, `merkle_sign`: signature buffer and root are the ones of the reference. -/
theorem C38_merkle_sign_same {layer tree u v u' v' idx : Nat} (hlay : layer < 256) (htr : tree < 2 ^ 64)
    (hu : u' < 256) (hv : v' < 2 ^ 32) {sig root : Bytes} (hroot : root.length = P.n)
    (hsig : P.wotsBytes + P.treeHeight * P.n ≤ sig.length) (hidx : idx < 2 ^ P.treeHeight) :
    let wots_addr := enc P.fam ⟨layer, tree, SPX_ADDR_TYPE_WOTS, idx, u, v⟩
    let tree_addr := enc P.fam ⟨layer, tree, SPX_ADDR_TYPE_HASHTREE, 0, u', v'⟩
    ∃ out root' a1 a2,
      merkle_signx (buildX P lg X G g) sig root ctx wots_addr tree_addr idx = .ok (out, root', a1) ∧
      merkle_sign (build P G' g) sig root ctx wots_addr tree_addr idx = .ok (out, root', a2) := by
  intro wots_addr tree_addr
  obtain ⟨x, y, -, -, e⟩ := (hX.code hP h1 h3 G).merkle_sign hctx hlay htr (u1 := u) (v1 := v) hu hv hroot hsig hidx
  obtain ⟨x', y', -, -, e'⟩ := (refCode_ok (readyRefines hP G' g) (shipped_valid hP)).merkle_sign hctx hlay htr
    (u1 := u) (v1 := v) hu hv hroot hsig hidx
  exact ⟨_, _, _, _, e, e'⟩

/-- C38, `merkle_gen_root`. -/
theorem C38_merkle_gen_root_same {root0 root0' : Bytes} (hr : root0.length = P.n) (hr' : root0'.length = P.n) :
    ∃ root, merkle_gen_rootx (buildX P lg X G g) root0 ctx = .ok root ∧
      merkle_gen_root (build P G' g) root0' ctx = .ok root :=
  ⟨_, (hX.code hP h1 h3 G).merkle_gen_root hctx hr,
    (refCode_ok (readyRefines hP G' g) (shipped_valid hP)).merkle_gen_root hctx hr'⟩

/-- C38, `fors_sign`: signature buffer and public key are the ones of the reference. -/
theorem C38_fors_sign_same {tree kp ty u v : Nat} (htr : tree < 2 ^ 64) (hkp : kp < 2 ^ 32)
    {sig md : Bytes} (hsig : P.forsBytes ≤ sig.length) (hmd : md.length = P.forsMsgBytes) :
    let fors_addr := enc P.fam ⟨0, tree, ty, kp, u, v⟩
    ∃ out pk, fors_signx (buildX P lg X G g) sig md ctx fors_addr = .ok (out, pk) ∧
      fors_sign (build P G' g) sig md ctx fors_addr = .ok (out, pk) := by
  intro fors_addr
  have hmb : P.forsTrees * P.forsHeight ≤ 8 * md.length := by
    rw [hmd, Nat.mul_comm P.forsTrees]; unfold Params.forsMsgBytes; omega
  have hs : P.forsTrees * ((P.forsHeight + 1) * P.n) ≤ sig.length := by
    refine Nat.le_trans (Nat.le_of_eq ?_) hsig
    unfold Params.forsBytes
    rw [← Nat.mul_assoc, Nat.mul_comm P.forsTrees]
  exact ⟨_, _, (hX.code hP h1 h3 G).fors_sign hctx htr hkp (fa := ⟨0, tree, ty, kp, u, v⟩) rfl rfl rfl hs hmb,
    (refCode_ok (readyRefines hP G' g) (shipped_valid hP)).fors_sign hctx htr hkp (fa := ⟨0, tree, ty, kp, u, v⟩)
      rfl rfl rfl hs hmb⟩

omit hctx

/-- C38, key generation. -/
theorem C38_keypair_same {pk0 sk0 seed : Bytes} (hpk : P.pkBytes ≤ pk0.length)
    (hsk : P.skBytes ≤ sk0.length) (hseed : seed.length = P.seedBytes) :
    ∃ r, crypto_sign_seed_keypairT (build P G g) (parCode (buildX P lg X G g)) pk0 sk0 seed = .ok r ∧
      crypto_sign_seed_keypair (build P G' g) pk0 sk0 seed = .ok r :=
  ⟨_, crypto_sign_seed_keypairT_spec (readyRefines hP G g) (shipped_valid hP) (hX.code hP h1 h3 G) hpk hsk
      (Nat.le_of_eq hseed.symm),
    crypto_sign_seed_keypair_spec (readyRefines hP G' g) (shipped_valid hP) hpk hsk (Nat.le_of_eq hseed.symm)⟩

/-- C38, detached signatures. -/
theorem C38_signature_same {sig0 m sk optrand : Bytes} (hsk : sk.length = P.skBytes)
    (hm : m.length < 2 ^ 60) (hopt : optrand.length = P.n) (hsig : P.spxBytes ≤ sig0.length) :
    ∃ r, crypto_sign_signatureT (build P G g) (parCode (buildX P lg X G g)) sig0 m sk optrand = .ok r ∧
      crypto_sign_signature (build P G' g) sig0 m sk optrand = .ok r :=
  ⟨_, crypto_sign_signatureT_spec (readyRefines hP G g) (shipped_valid hP) (hX.code hP h1 h3 G)
      (Nat.le_of_eq hsk.symm) hm (Nat.le_of_eq hopt.symm) hsig,
    crypto_sign_signature_spec (readyRefines hP G' g) (shipped_valid hP) (Nat.le_of_eq hsk.symm) hm
      (Nat.le_of_eq hopt.symm) hsig⟩

/-- C38, verification, in particular of rejected signatures. -/
theorem C38_verify_same {sig m pk : Bytes} (hpk : pk.length = P.pkBytes)
    (hm : m.length < 2 ^ 60) (hsig : sig.length = P.spxBytes) :
    ∃ r, crypto_sign_verifyT (build P G g) (parCode (buildX P lg X G g)) sig P.spxBytes m pk = .ok r ∧
      crypto_sign_verify (build P G' g) sig P.spxBytes m pk = .ok r :=
  ⟨_, crypto_sign_verifyT_spec (readyRefines hP G g) (shipped_valid hP) (hX.code hP h1 h3 G)
      (Nat.le_of_eq hpk.symm) hm (Nat.le_of_eq hsig.symm),
    crypto_sign_verify_spec (readyRefines hP G' g) (shipped_valid hP) (Nat.le_of_eq hpk.symm) hm
      (Nat.le_of_eq hsig.symm)⟩

/-- C38, `crypto_sign`: memory, length and return value are the ones of the reference, whatever the
placement of the message.  (`G` contains the uninitialised memory of both.) -/
theorem C38_crypto_sign_same {M : Mem} {psm pm mlen psk : Nat} {optrand : Bytes}
    (hsk : M.Alloc psk P.skBytes) (hm : M.Alloc pm mlen)
    (hal : M.Alloc psm (P.spxBytes + mlen)) (hdk : Disj psm P.n psk P.skBytes)
    (hml : mlen < 2 ^ 60) (hopt : optrand.length = P.n) :
    ∃ r, crypto_signT (build P G g) (parCode (buildX P lg X G g)) M psm pm mlen psk optrand = .ok r ∧
      crypto_sign (build P G g) M psm pm mlen psk optrand = .ok r := by
  obtain ⟨M', out, e, -⟩ := ship_crypto_sign_any hP G g hsk hm hal hdk hml hopt
  refine ⟨_, ?_, e⟩
  obtain ⟨M1, o, e1, e2, -⟩ := sign_memT_same (readyRefines hP G g) (shipped_valid hP) (hX.code hP h1 h3 G)
    hsk hm (alloc_sub hal (Nat.le_refl _) (Nat.add_le_add_left (Nat.le_add_right _ _) _)) hdk hml (Nat.le_of_eq hopt.symm)
  rw [← e]
  unfold crypto_sign crypto_signT
  rw [← crypto_sign_signature_mem, e1, e2]

/-- C38, `crypto_sign_open`, whatever the placement of the buffers. -/
theorem C38_crypto_sign_open_same {M : Mem} {pm psm smlen ppk : Nat} (hsm : M.Alloc psm smlen)
    (hpk : M.Alloc ppk P.pkBytes) (hml : smlen < 2 ^ 60) :
    crypto_sign_openT (build P G g) (parCode (buildX P lg X G g)) M pm psm smlen ppk =
      crypto_sign_open (build P G g) M pm psm smlen ppk := by
  unfold crypto_sign_open crypto_sign_openT
  by_cases h : smlen < (build P G g).P.spxBytes
  · rw [if_pos h, if_pos h]
  · rw [if_neg h, if_neg h]
    have h' : (build P G g).P.spxBytes ≤ smlen := Nat.le_of_not_lt h
    obtain ⟨r, e1, e2⟩ := verify_memT_same (readyRefines hP G g) (shipped_valid hP) (hX.code hP h1 h3 G)
      (M := M) (psig := psm) (siglen := (build P G g).P.spxBytes) (pm := psm + (build P G g).P.spxBytes)
      (mlen := smlen - (build P G g).P.spxBytes) (ppk := ppk) (alloc_sub hsm (Nat.le_refl _) (by omega))
      (alloc_sub hsm (by omega) (by omega)) hpk (by omega)
    simp only
    rw [← crypto_sign_verify_mem, e1, e2]

end

/-! Concrete cases: builds of the three families with 8, 4 and 2 lanes. -/

example (G G' : Nat → Nat → Byte) :
    ∃ r, crypto_sign_signatureT (build (sha2_128f true) G (fun _ _ => 7))
        (parCode (buildX (sha2_128f true) 3 (seqLanes 8 (implOf (sha2_128f true) fun _ _ => 7)) G (fun _ _ => 7)))
        (List.replicate 17088 0) [1, 2, 3] (List.replicate 64 5) (List.replicate 16 9) = .ok r ∧
      crypto_sign_signature (build (sha2_128f true) G' (fun _ _ => 7)) (List.replicate 17088 0) [1, 2, 3]
        (List.replicate 64 5) (List.replicate 16 9) = .ok r :=
  C38_signature_same (P := sha2_128f true) (by decide) (lg := 3) (by decide) (by decide) G G'
    (seqLanes_laneWise _ _ 3) (by decide) (by decide) (by decide)
    (by rw [List.length_replicate]; decide)

example (G G' : Nat → Nat → Byte) :
    ∃ ctx out addr addr', wots_pk_from_sigx
        (buildX (shake_192s false) 2 (seqLanes 4 (implOf (shake_192s false) fun _ _ => 7)) G (fun _ _ => 7))
        (List.replicate 1224 0) (List.replicate 1224 3) ((List.range 24).map (BitVec.ofNat 8)) ctx addr = .ok (out, addr) ∧
      wots_pk_from_sig (build (shake_192s false) G' (fun _ _ => 7)) (List.replicate 1224 1) (List.replicate 1224 3)
        ((List.range 24).map (BitVec.ofNat 8)) ctx addr = .ok (out, addr') := by
  obtain ⟨ctx, -, hr, -, -⟩ := (Ctx.zeroed_sized (P := shake_192s false) (pub := List.replicate 24 2)
    (sk := List.replicate 24 0) List.length_replicate List.length_replicate).ready (by decide) (fun _ _ => 7)
  obtain ⟨out, addr', e⟩ := C38_wots_pk_from_sig_same (P := shake_192s false) (by decide) (lg := 2) G G' (seqLanes_laneWise _ _ 2) hr (layer := 3) (tree := 77) (kp := 12) (c := 0) (h := 0)
    (by decide) (by decide) (by decide) (by decide) (by decide) (pk := List.replicate 1224 0)
    (pk' := List.replicate 1224 1) (sig := List.replicate 1224 3) (msg := (List.range 24).map (BitVec.ofNat 8))
    (by rw [List.length_replicate]; decide) (by rw [List.length_replicate]; decide)
    (by rw [List.length_replicate]; decide) (by decide)
  exact ⟨ctx, out, _, addr', e⟩

/-- Tree hashing with two lanes: 1024 leaves, leaf 777. -/
example (G G' : Nat → Nat → Byte) : ∃ ctx root auth addr addrs,
    treehashx1 (build (haraka_192f true) G' (fun _ _ => 1)) (List.replicate 240 9) ctx 777 (3 * 2 ^ 10) 10
      (fun i (k : Nat) => .ok (List.replicate 24 (BitVec.ofNat 8 i), k + 1)) (enc .haraka ⟨0, 5, 3, 2, 0, 0⟩) 0 =
        .ok (root, auth, addr, 2 ^ 10) ∧
    treehashx (buildX (haraka_192f true) 1 (seqLanes 2 (implOf (haraka_192f true) fun _ _ => 1)) G (fun _ _ => 1))
      (List.replicate 240 9) ctx 777 (3 * 2 ^ 10) 10
      (fun _ i (k : Nat) => .ok (cat 2 fun j => List.replicate 24 (BitVec.ofNat 8 (i + j)), k + 1))
      ((List.range 2).map fun _ => enc .haraka ⟨0, 5, 3, 2, 4, 7⟩) 0 = .ok (root, auth, addrs, 2 ^ 9) := by
  obtain ⟨ctx, -, hr, -, -⟩ := (Ctx.zeroed_sized (P := haraka_192f true) (pub := List.replicate 24 2)
    (sk := List.replicate 24 0) List.length_replicate List.length_replicate).ready (by decide) (fun _ _ => 1)
  have hg : ∀ i, i < 2 ^ 10 → (fun i (k : Nat) => (.ok (List.replicate 24 (BitVec.ofNat 8 i), k + 1) : C (Bytes × Nat)))
      ((i + 3 * 2 ^ 10) % 2 ^ 32) i = .ok (List.replicate 24 (BitVec.ofNat 8 (i + 3 * 2 ^ 10)), i + 1) := by
    intro i hi
    dsimp only
    rw [Nat.mod_eq_of_lt (by omega)]
  have hgx : ∀ i, i < 2 ^ (10 - 1) → ∀ buf : Bytes, buf.length = 2 ^ 1 * (haraka_192f true).n →
      (fun (_ : Bytes) i (k : Nat) =>
        (.ok (cat 2 fun j => List.replicate 24 (BitVec.ofNat 8 (i + j)), k + 1) : C (Bytes × Nat)))
        buf ((2 ^ 1 * i + 3 * 2 ^ 10) % 2 ^ 32) i =
      .ok (cat (2 ^ 1) fun j => List.replicate 24 (BitVec.ofNat 8 (2 ^ 1 * i + j + 3 * 2 ^ 10)), i + 1) := by
    intro i hi _ _
    dsimp only
    rw [Nat.mod_eq_of_lt (by omega)]
    have : ∀ j, 2 ^ 1 * i + 3 * 2 ^ 10 + j = 2 ^ 1 * i + j + 3 * 2 ^ 10 := fun j => by omega
    simp only [this]
    rfl
  obtain ⟨r, a, x, y, e⟩ := C38_treehash_same (P := haraka_192f true) (by decide) (lg := 1) (by decide) (by decide) G G'
    (seqLanes_laneWise _ _ 1) hr (a := ⟨0, 5, 3, 2, 0, 0⟩)
    ⟨by decide, by decide, by decide, by decide, by decide, by decide⟩ (th := 10) (off := 3 * 2 ^ 10) (leaf_idx := 777)
    (by decide) (by decide) (Or.inl (by decide)) (auth0 := List.replicate 240 9)
    (by rw [List.length_replicate]; decide) (leaf := fun i => List.replicate 24 (BitVec.ofNat 8 (i + 3 * 2 ^ 10)))
    (fun _ _ => List.length_replicate)
    (gen := fun i (k : Nat) => .ok (List.replicate 24 (BitVec.ofNat 8 i), k + 1)) (I := fun i => i) hg
    (genx := fun _ i (k : Nat) => .ok (cat 2 fun j => List.replicate 24 (BitVec.ofNat 8 (i + j)), k + 1)) (J := fun i => i) hgx
    (u := fun _ => 4) (v := fun _ => 7) (fun _ => by decide) (fun _ => by decide)
  exact ⟨ctx, r, a, x, y, e⟩

/-- The fifth group of four leaves, signing with the second of them; FORS leaves; `merkle_sign`,
`merkle_gen_root` and `fors_sign` with four lanes. -/
example (G G' : Nat → Nat → Byte) :
    ∃ ctx leaves info' fleaves faddrs out root' a1 a2 root fout fpk,
      wots_gen_leafx (buildX (shake_128s true) 2 (seqLanes 4 (implOf (shake_128s true) fun _ _ => 7)) G (fun _ _ => 7))
        ctx (List.replicate 64 1) 20 ⟨List.replicate 560 0, 21, List.replicate 35 3,
          (List.range 4).map fun _ => enc .shake ⟨2, 9, 0, 0, 0, 0⟩,
          (List.range 4).map fun _ => enc .shake ⟨2, 9, 1, 0, 0, 0⟩⟩ = .ok (cat 4 leaves, info') ∧
      (∃ info1, wots_gen_leafx1 (build (shake_128s true) G' (fun _ _ => 7)) ctx 21
        ⟨List.replicate 560 0, 21, List.replicate 35 3, enc .shake ⟨2, 9, 0, 0, 0, 0⟩,
          enc .shake ⟨2, 9, 1, 0, 0, 0⟩⟩ = .ok (leaves 1, info1) ∧ info1.wots_sig = info'.wots_sig) ∧
      fors_gen_leafx (buildX (shake_128s true) 2 (seqLanes 4 (implOf (shake_128s true) fun _ _ => 7)) G (fun _ _ => 7))
        ctx (List.replicate 64 1) 8192 ((List.range 4).map fun _ => enc .shake ⟨0, 9, 3, 2, 0, 0⟩) =
          .ok (cat 4 fleaves, (List.range 4).map faddrs) ∧
      fors_gen_leafx1 (build (shake_128s true) G' (fun _ _ => 7)) ctx 8195 (enc .shake ⟨0, 9, 3, 2, 0, 0⟩) =
          .ok (fleaves 3, faddrs 3) ∧
      merkle_signx (buildX (shake_128s true) 2 (seqLanes 4 (implOf (shake_128s true) fun _ _ => 7)) G (fun _ _ => 7))
        (List.replicate 704 0) (List.replicate 16 5) ctx (enc .shake ⟨2, 9, 0, 300, 0, 0⟩) (enc .shake ⟨2, 9, 2, 0, 0, 0⟩)
        300 = .ok (out, root', a1) ∧
      merkle_sign (build (shake_128s true) G' (fun _ _ => 7)) (List.replicate 704 0) (List.replicate 16 5) ctx
        (enc .shake ⟨2, 9, 0, 300, 0, 0⟩) (enc .shake ⟨2, 9, 2, 0, 0, 0⟩) 300 = .ok (out, root', a2) ∧
      merkle_gen_rootx (buildX (shake_128s true) 2 (seqLanes 4 (implOf (shake_128s true) fun _ _ => 7)) G (fun _ _ => 7))
        (List.replicate 16 5) ctx = .ok root ∧
      merkle_gen_root (build (shake_128s true) G' (fun _ _ => 7)) (List.replicate 16 6) ctx = .ok root ∧
      fors_signx (buildX (shake_128s true) 2 (seqLanes 4 (implOf (shake_128s true) fun _ _ => 7)) G (fun _ _ => 7))
        (List.replicate 2912 0) (List.replicate 21 0xa5) ctx (enc .shake ⟨0, 9, 3, 300, 0, 0⟩) = .ok (fout, fpk) ∧
      fors_sign (build (shake_128s true) G' (fun _ _ => 7)) (List.replicate 2912 0) (List.replicate 21 0xa5) ctx
        (enc .shake ⟨0, 9, 3, 300, 0, 0⟩) = .ok (fout, fpk) := by
  have hP : shake_128s true ∈ shipped := by decide
  have hX := seqLanes_laneWise (shake_128s true) (fun _ _ => 7) 2
  obtain ⟨ctx, -, hr, -, -⟩ := (Ctx.zeroed_sized (P := shake_128s true) (pub := List.replicate 16 2)
    (sk := List.replicate 16 0) List.length_replicate List.length_replicate).ready hP (fun _ _ => 7)
  obtain ⟨leaves, info', e1, -, e2, -⟩ := C38_wots_leaf_same hP (lg := 2) (by decide) (by decide) G G' hX hr (layer := 2)
    (tree := 9) (kp := 20) (by decide) (by decide) (by decide) (by decide) (steps := List.replicate 35 3)
    (by decide) (by decide) (wots_sig := List.replicate 560 0) (dest := List.replicate 64 1)
    (by rw [List.length_replicate]; decide) (by decide) (sign_leaf := 21) (by decide) (k := fun _ => 0) (k' := fun _ => 0)
    (c := fun _ => 0) (h := fun _ => 0) (fun _ => by decide) (fun _ => by decide)
  obtain ⟨info1, e3, -, e4⟩ := e2 1 (by decide)
  obtain ⟨fl, fa, e5, e6⟩ := C38_fors_leaf_same hP (lg := 2) G G' hX hr (tree := 9) (kp := 2) (i := 8192) (by decide)
    (by decide) (by decide) (ty := 3) (by decide) (x := fun _ => 0) (buf := List.replicate 64 1) (by decide)
  obtain ⟨o, r', a1, a2, e7, e8⟩ := C38_merkle_sign_same hP (lg := 2) (by decide) (by decide) G G' hX hr (layer := 2)
    (tree := 9) (u := 0) (v := 0) (u' := 0) (v' := 0) (idx := 300) (by decide) (by decide) (by decide) (by decide)
    (sig := List.replicate 704 0) (root := List.replicate 16 5) (by decide) (by rw [List.length_replicate]; decide)
    (by decide)
  obtain ⟨r, e9, e10⟩ := C38_merkle_gen_root_same hP (lg := 2) (by decide) (by decide) G G' hX hr
    (root0 := List.replicate 16 5) (root0' := List.replicate 16 6) (by decide) (by decide)
  obtain ⟨fo, fp, e11, e12⟩ := C38_fors_sign_same hP (lg := 2) (by decide) (by decide) G G' hX hr (tree := 9) (kp := 300)
    (ty := 3) (u := 0) (v := 0) (by decide) (by decide) (sig := List.replicate 2912 0) (md := List.replicate 21 0xa5)
    (by rw [List.length_replicate]; decide) (by decide)
  exact ⟨ctx, leaves, info', fl, fa, o, r', a1, a2, r, fo, fp, e1, ⟨info1, e3, e4⟩, e5, (e6 3 (by decide)).2, e7, e8, e9, e10,
    e11, e12⟩

/-- Key generation, verification, signed messages with a message inside the output, opening in place. -/
example (G G' : Nat → Nat → Byte) :
    (∃ r, crypto_sign_seed_keypairT (build (haraka_128f false) G (fun _ _ => 7))
        (parCode (buildX (haraka_128f false) 2 (seqLanes 4 (implOf (haraka_128f false) fun _ _ => 7)) G (fun _ _ => 7)))
        (List.replicate 32 0) (List.replicate 64 0) (List.replicate 48 3) = .ok r ∧
      crypto_sign_seed_keypair (build (haraka_128f false) G' (fun _ _ => 7)) (List.replicate 32 0)
        (List.replicate 64 0) (List.replicate 48 3) = .ok r) ∧
    (∃ r, crypto_sign_verifyT (build (haraka_128f false) G (fun _ _ => 7))
        (parCode (buildX (haraka_128f false) 2 (seqLanes 4 (implOf (haraka_128f false) fun _ _ => 7)) G (fun _ _ => 7)))
        (List.replicate 17088 4) 17088 [1, 2, 3] (List.replicate 32 0) = .ok r ∧
      crypto_sign_verify (build (haraka_128f false) G' (fun _ _ => 7)) (List.replicate 17088 4) 17088 [1, 2, 3]
        (List.replicate 32 0) = .ok r) ∧
    (∃ r, crypto_signT (build (haraka_128f false) G (fun _ _ => 7))
        (parCode (buildX (haraka_128f false) 2 (seqLanes 4 (implOf (haraka_128f false) fun _ _ => 7)) G (fun _ _ => 7)))
        (filled fun a => BitVec.ofNat 8 a) 1000 1005 33 0 (List.replicate 16 1) = .ok r ∧
      crypto_sign (build (haraka_128f false) G (fun _ _ => 7)) (filled fun a => BitVec.ofNat 8 a) 1000 1005 33 0
        (List.replicate 16 1) = .ok r) ∧
    crypto_sign_openT (build (haraka_128f false) G (fun _ _ => 7))
        (parCode (buildX (haraka_128f false) 2 (seqLanes 4 (implOf (haraka_128f false) fun _ _ => 7)) G (fun _ _ => 7)))
        (filled fun a => BitVec.ofNat 8 a) 100 100 17100 0 =
      crypto_sign_open (build (haraka_128f false) G (fun _ _ => 7)) (filled fun a => BitVec.ofNat 8 a) 100 100 17100 0 := by
  have hP : haraka_128f false ∈ shipped := by decide
  have hX := seqLanes_laneWise (haraka_128f false) (fun _ _ => 7) 2
  exact ⟨C38_keypair_same hP (by decide) (by decide) G G' hX (by decide) (by decide) (by decide),
    C38_verify_same hP (by decide) (by decide) G G' hX (by decide) (by decide)
      (by rw [List.length_replicate]; decide),
    C38_crypto_sign_same hP (by decide) (by decide) G hX (filled_alloc _ _ _) (filled_alloc _ _ _)
      (filled_alloc _ _ _) (Or.inr (by decide)) (by decide) (by decide),
    C38_crypto_sign_open_same hP (by decide) (by decide) G hX (filled_alloc _ _ _) (filled_alloc _ _ _) (by decide)⟩

end Spx
