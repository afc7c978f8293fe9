import Verif.Proof.MaskedX
import Verif.Proof.ForsX
import Verif.Proof.Correct
import Verif.Proof.AnyAddress
/-! FORS signatures lead to the FORS public key on every address buffer. -/

namespace Spx
open Spec

/-- The hash functions implement the specification on every address buffer. -/
structure AnyHash {P : Params} {H : HashImpl} {S : Spec.Hash} (R : Refines P H S) : Prop where
  thash : ∀ {ctx ad a inp blocks}, R.CtxOK ctx → Encodes P.fam ad a → 1 ≤ blocks → blocks * P.n ≤ inp.length →
    blocks * P.n < 2 ^ 31 → H.thash inp blocks ctx ad = .ok (S.T ctx.pub_seed a (inp.take (blocks * P.n)))
  prf : ∀ {ctx ad a}, R.CtxOK ctx → Encodes P.fam ad a → H.prf_addr ctx ad = .ok (S.PRF ctx.pub_seed ctx.sk_seed a)

/-- The lane functions as well. -/
structure AnyLanes {E : EnvX} {S : Spec.Hash} (R : Refines E.P E.H S) : Prop where
  thashx : ∀ {ctx} {A : Nat → ADRS} {as : Nat → Addr} {I : Nat → Bytes} {b : Nat}, R.CtxOK ctx →
    (∀ j, j < E.L → Encodes E.P.fam (as j) (A j)) → 1 ≤ b → (∀ j, j < E.L → b * E.P.n ≤ (I j).length) → b * E.P.n < 2 ^ 31 →
    E.X.thashx ((List.range E.L).map I) b ctx ((List.range E.L).map as) =
      .ok ((List.range E.L).map fun j => S.T ctx.pub_seed (A j) ((I j).take (b * E.P.n)))
  prf : ∀ {ctx} {A : Nat → ADRS} {as : Nat → Addr}, R.CtxOK ctx → (∀ j, j < E.L → Encodes E.P.fam (as j) (A j)) →
    E.X.prf_addrx ctx ((List.range E.L).map as) = .ok ((List.range E.L).map fun j => S.PRF ctx.pub_seed ctx.sk_seed (A j))

instance : Nonempty ADRS := ⟨zeroADRS⟩

/-- The address which the buffer of `a` holds with `p` put in. -/
noncomputable def pick (f : Family) (p : Bytes) (a : ADRS) : ADRS := Classical.epsilon (Encodes f (patch p (enc f a)))

theorem pick_spec (f : Family) {p : Bytes} (hp : p.length ≤ 32) (a : ADRS) : Encodes f (patch p (enc f a)) (pick f p a) :=
  Classical.epsilon_spec (exists_encodes f (by rw [patch_length (by rw [enc_length]; exact hp), enc_length]))

/-- The hash functions of the specification with `p` put in. -/
noncomputable def maskS (f : Family) (p : Bytes) (S : Spec.Hash) : Spec.Hash :=
  { S with
    T := fun pub a x => S.T pub (pick f p a) x
    PRF := fun pub sk a => S.PRF pub sk (pick f p a) }

noncomputable def maskR {P : Params} {H : HashImpl} {S : Spec.Hash} {R : Refines P H S} (A : AnyHash R) {p : Bytes}
    (hp : p.length ≤ 32) : Refines P (maskH p H) (maskS P.fam p S) where
  CtxOK := R.CtxOK
  T_len _ _ _ := R.T_len ..
  PRF_len _ _ _ := R.PRF_len ..
  PRFmsg_len := R.PRFmsg_len
  Hmsg_len := R.Hmsg_len
  init := R.init
  thash _ a _ _ hc _ := A.thash hc (pick_spec P.fam hp a)
  prf _ a hc _ := A.prf hc (pick_spec P.fam hp a)
  genR := R.genR
  hmsg := R.hmsg

theorem maskRX {E : EnvX} {S : Spec.Hash} {R : Refines E.P E.H S} (A : AnyHash R) (X : AnyLanes R) {p : Bytes}
    (hp : p.length ≤ 32) : LaneRefines (maskEX p E) (maskR A hp) where
  thashx ctx as I b hc _ h1 h2 h3 := by
    have e := X.thashx (as := fun j => patch p (enc E.P.fam (as j))) hc (fun j _ => pick_spec E.P.fam hp (as j)) h1 h2 h3
    show E.X.thashx _ b ctx (((List.range E.L).map fun j => enc E.P.fam (as j)).map (patch p)) = _
    rw [List.map_map]
    exact e
  prf ctx as hc _ := by
    have e := X.prf (as := fun j => patch p (enc E.P.fam (as j))) hc (fun j _ => pick_spec E.P.fam hp (as j))
    show E.X.prf_addrx ctx (((List.range E.L).map fun j => enc E.P.fam (as j)).map (patch p)) = _
    rw [List.map_map]
    exact e

theorem toBE12 {c : Bytes} (h : c.length = 8) : toBE 12 (beNat c) = List.replicate 4 0 ++ c := by
  have e : beNat (List.replicate 4 0 ++ c) = beNat c := by
    rw [beNat_append, show beNat (List.replicate 4 0) = 0 from by decide, Nat.zero_mul, Nat.zero_add]
  rw [← e]
  exact toBE_chunk (by simp [h])

theorem drop_split (l : Bytes) (t a : Nat) : l.drop t = (l.drop t).take a ++ l.drop (t + a) := by
  rw [← List.drop_drop, List.take_append_drop]

/-- Reading the head and one later part of a buffer. -/
theorem rd_parts {A X c Y : Bytes} {t k : Nat} (h1 : A.length = t) (h2 : t + X.length = k) (h3 : c.length = 4) :
    rd (A ++ (X ++ (c ++ Y))) 0 t = .ok A ∧ rd (A ++ (X ++ (c ++ Y))) k 4 = .ok c := by
  subst h1 h2
  constructor
  · rw [rd_ok (by simp), List.drop_zero, List.take_left' rfl]
  · rw [rd_ok (by simp; omega), ← List.append_assoc, List.drop_left' (by simp), List.take_left' h3]

/-- The key pair fields of an address buffer. -/
theorem copy_keypair_zeros (f : Family) {ad : Addr} (h : ad.length = 32) :
    ∃ tree kp, tree < 2 ^ 64 ∧ kp < 2 ^ 32 ∧ ∀ z,
      copy_keypair_addr f z (List.replicate f.offTree 0 ++ ad.drop f.offTree) =
        copy_keypair_addr f z (enc f ⟨0, tree, 0, kp, 0, 0⟩) := by
  have ht : f.offTree + 8 ≤ f.offKp ∧ f.offKp + 4 ≤ 32 := by cases f <;> decide
  have l8 : ((ad.drop f.offTree).take 8).length = 8 := by simp; omega
  have l4 : ((ad.drop f.offKp).take 4).length = 4 := by simp; omega
  refine ⟨beNat ((ad.drop f.offTree).take 8), beNat ((ad.drop f.offKp).take 4), ?_, ?_, fun z => ?_⟩
  · have := beNat_lt ((ad.drop f.offTree).take 8)
    rw [l8] at this
    exact this
  · have := beNat_lt ((ad.drop f.offKp).take 4)
    rw [l4] at this
    exact this
  · have e1 : List.replicate f.offTree 0 ++ ad.drop f.offTree =
        (List.replicate f.offTree 0 ++ (ad.drop f.offTree).take 8) ++
          ((ad.drop (f.offTree + 8)).take (f.offKp - (f.offTree + 8)) ++ ((ad.drop f.offKp).take 4 ++ ad.drop (f.offKp + 4))) := by
      rw [List.append_assoc]
      congr 1
      have e3 := drop_split ad (f.offTree + 8) (f.offKp - (f.offTree + 8))
      rw [show f.offTree + 8 + (f.offKp - (f.offTree + 8)) = f.offKp by omega] at e3
      exact (drop_split ad f.offTree 8).trans (congrArg _ (e3.trans (congrArg _ (drop_split ad f.offKp 4))))
    have e2 : ∃ X Y : Bytes, f.offTree + 8 + X.length = f.offKp ∧
        enc f ⟨0, beNat ((ad.drop f.offTree).take 8), 0, beNat ((ad.drop f.offKp).take 4), 0, 0⟩ =
          (List.replicate f.offTree 0 ++ (ad.drop f.offTree).take 8) ++ (X ++ ((ad.drop f.offKp).take 4 ++ Y)) := by
      cases f
      · refine ⟨toBE 1 0, toBE 4 0 ++ toBE 4 0 ++ List.replicate 10 0, by simp; rfl, ?_⟩
        simp only [enc, ADRS.enc22]
        rw [toBE_chunk l8, toBE_chunk l4, show toBE 1 0 = List.replicate 1 0 from by decide]
        simp only [List.append_assoc]
        rfl
      all_goals
        refine ⟨toBE 4 0, toBE 4 0 ++ toBE 4 0, by simp; rfl, ?_⟩
        simp only [enc, ADRS.enc32]
        rw [toBE12 l8, toBE_chunk l4, show toBE 4 0 = List.replicate 4 0 from by decide]
        simp only [List.append_assoc]
        rfl
    obtain ⟨X, Y, hX, e2⟩ := e2
    have hl : (List.replicate f.offTree 0 ++ (ad.drop f.offTree).take 8).length = f.offTree + 8 := by
      rw [List.length_append, l8, List.length_replicate]
    have r1 := rd_parts (Y := ad.drop (f.offKp + 4)) hl (X := (ad.drop (f.offTree + 8)).take (f.offKp - (f.offTree + 8)))
      (k := f.offKp) (by simp; omega) l4
    have r2 := rd_parts (Y := Y) hl (X := X) (k := f.offKp) hX l4
    unfold copy_keypair_addr
    rw [e1, e2, r1.1, r1.2, r2.1, r2.2]

theorem fors_sign_congr {E : Env} {a b : Addr} (h : ∀ z, copy_keypair_addr E.P.fam z a = copy_keypair_addr E.P.fam z b)
    (sig m : Bytes) (ctx : Ctx) : fors_sign E sig m ctx a = fors_sign E sig m ctx b := by
  unfold fors_sign
  simp only [h]

theorem fors_pk_congr {E : Env} {a b : Addr} (h : ∀ z, copy_keypair_addr E.P.fam z a = copy_keypair_addr E.P.fam z b)
    (sig m : Bytes) (ctx : Ctx) : fors_pk_from_sig E sig m ctx a = fors_pk_from_sig E sig m ctx b := by
  unfold fors_pk_from_sig
  simp only [h]

theorem fors_signx_congr {E : EnvX} {a b : Addr} (h : ∀ z, copy_keypair_addr E.P.fam z a = copy_keypair_addr E.P.fam z b)
    (sig m : Bytes) (ctx : Ctx) : fors_signx E sig m ctx a = fors_signx E sig m ctx b := by
  unfold fors_signx
  simp only [h]

theorem msk_zeros {k : Nat} {ad : Addr} (h : k ≤ ad.length) :
    Msk (ad.take k) ad (List.replicate k 0 ++ ad.drop k) := by
  have hl : (ad.take k).length = k := by simp; omega
  refine ⟨by simp, ?_⟩
  unfold patch
  rw [hl, List.drop_append_of_le_length (by simp), List.drop_of_length_le (by simp), List.nil_append, List.take_append_drop]

theorem offTree_le (f : Family) : f.offTree ≤ 32 := by cases f <;> decide

section
variable {E : Env} {S : Spec.Hash} {R : Refines E.P E.H S} (A : AnyHash R) (hP : E.P.Valid)
  {ctx : Ctx} (hc : R.CtxOK ctx) {ad : Addr} (ha : ad.length = 32) {sig m : Bytes}
  (hs : sig.length = E.P.forsBytes) (hm : m.length = E.P.forsMsgBytes)
include A hP hc ha hs hm

/-- What both functions compute on an address buffer: the values of the specification, with the hash functions which put in
the bytes before the tree field. -/
theorem fors_any : ∃ tree kp, tree < 2 ^ 64 ∧ kp < 2 ^ 32 ∧
    (∀ z, copy_keypair_addr E.P.fam z (List.replicate E.P.fam.offTree 0 ++ ad.drop E.P.fam.offTree) =
        copy_keypair_addr E.P.fam z (enc E.P.fam ⟨0, tree, 0, kp, 0, 0⟩)) ∧
    (forsSig E.P.toSpec (maskS E.P.fam (ad.take E.P.fam.offTree) S) ctx.pub_seed ctx.sk_seed tree kp m).length = E.P.forsBytes ∧
    fors_sign E sig m ctx ad =
      .ok (forsSig E.P.toSpec (maskS E.P.fam (ad.take E.P.fam.offTree) S) ctx.pub_seed ctx.sk_seed tree kp m,
        forsPk E.P.toSpec (maskS E.P.fam (ad.take E.P.fam.offTree) S) ctx.pub_seed ctx.sk_seed tree kp) ∧
    fors_pk_from_sig E (forsSig E.P.toSpec (maskS E.P.fam (ad.take E.P.fam.offTree) S) ctx.pub_seed ctx.sk_seed tree kp m)
      m ctx ad = .ok (forsPk E.P.toSpec (maskS E.P.fam (ad.take E.P.fam.offTree) S) ctx.pub_seed ctx.sk_seed tree kp) := by
  have h32 := offTree_le E.P.fam
  have hpl : (ad.take E.P.fam.offTree).length = E.P.fam.offTree := by simp; omega
  obtain ⟨tree, kp, h1, h2, e⟩ := copy_keypair_zeros E.P.fam ha
  have hM := msk_zeros (k := E.P.fam.offTree) (ad := ad) (by omega)
  have hfb : E.P.forsTrees * ((E.P.forsHeight + 1) * E.P.n) = E.P.forsBytes := by
    show _ = (E.P.forsHeight + 1) * E.P.forsTrees * E.P.n
    rw [← Nat.mul_assoc, Nat.mul_comm E.P.forsTrees]
  have hmb : E.P.forsTrees * E.P.forsHeight ≤ 8 * m.length := by
    rw [hm]
    show _ ≤ 8 * ((E.P.forsHeight * E.P.forsTrees + 7) / 8)
    rw [Nat.mul_comm]
    omega
  have hsl := forsSig_length (E := maskE (ad.take E.P.fam.offTree) E) (maskR A (p := ad.take E.P.fam.offTree) (by omega)) hP
    (pub := ctx.pub_seed) (sk := ctx.sk_seed) (tree := tree) (kp := kp) (md := m)
  have hsl' := hsl.trans hfb
  have hS := fors_sign_spec (E := maskE (ad.take E.P.fam.offTree) E) (maskR A (p := ad.take E.P.fam.offTree) (by omega)) hP hc h1 h2
    (fa := ⟨0, tree, 0, kp, 0, 0⟩) rfl rfl rfl (sig := sig) (md := m) (by rw [hs]; exact Nat.le_of_eq hfb) hmb
  have hV := fors_pk_from_sig_spec (E := maskE (ad.take E.P.fam.offTree) E) (maskR A (p := ad.take E.P.fam.offTree) (by omega)) hP hc h1 h2
    (fa := ⟨0, tree, 0, kp, 0, 0⟩) rfl rfl rfl
    (sig := forsSig E.P.toSpec (maskS E.P.fam (ad.take E.P.fam.offTree) S) ctx.pub_seed ctx.sk_seed tree kp m)
    (md := m) (Nat.le_of_eq hsl.symm) hmb
  refine ⟨tree, kp, h1, h2, e, hsl', ?_, ?_⟩
  · rw [msk_fors_sign (p := ad.take E.P.fam.offTree) (by omega) hM, fors_sign_congr (E := maskE (ad.take E.P.fam.offTree) E) e]
    refine hS.trans ?_
    rw [List.drop_of_length_le (by rw [hs]; exact Nat.le_of_eq hfb.symm), List.append_nil]
    rfl
  · rw [msk_fors_pk (p := ad.take E.P.fam.offTree) (by omega) hM, fors_pk_congr (E := maskE (ad.take E.P.fam.offTree) E) e]
    refine hV.trans ?_
    have := fors_correct (maskR A (p := ad.take E.P.fam.offTree) (by omega)).hashLen (p := E.P.toSpec) (pub := ctx.pub_seed) (sk := ctx.sk_seed) tree kp m []
    rw [List.append_nil] at this
    exact congrArg _ this

end

/-- The parallel code computes the same. -/
theorem fors_anyX {E : EnvX} {S : Spec.Hash} {R : Refines E.P E.H S} (A : AnyHash R) (X : AnyLanes R) (hP : E.P.Valid)
    (hlg : 1 ≤ E.lg) (hlf : E.lg ≤ E.P.forsHeight) {ctx : Ctx} (hc : R.CtxOK ctx) {ad : Addr} (ha : ad.length = 32)
    {sig m : Bytes} (hs : sig.length = E.P.forsBytes) (hm : m.length = E.P.forsMsgBytes) :
    fors_signx E sig m ctx ad = fors_sign E.toEnv sig m ctx ad := by
  have h32 := offTree_le E.P.fam
  have hpl : (ad.take E.P.fam.offTree).length = E.P.fam.offTree := by simp; omega
  obtain ⟨tree, kp, h1, h2, e, -, hS, -⟩ := fors_any A hP hc ha hs hm
  have hM := msk_zeros (k := E.P.fam.offTree) (ad := ad) (by omega)
  have hfb : E.P.forsTrees * ((E.P.forsHeight + 1) * E.P.n) = E.P.forsBytes := by
    show _ = (E.P.forsHeight + 1) * E.P.forsTrees * E.P.n
    rw [← Nat.mul_assoc, Nat.mul_comm E.P.forsTrees]
  have hmb : E.P.forsTrees * E.P.forsHeight ≤ 8 * m.length := by
    rw [hm]
    show _ ≤ 8 * ((E.P.forsHeight * E.P.forsTrees + 7) / 8)
    rw [Nat.mul_comm]
    omega
  have hX := fors_signx_spec (maskRX A X (p := ad.take E.P.fam.offTree) (by omega)) hP hlg hlf hc h1 h2
    (fa := ⟨0, tree, 0, kp, 0, 0⟩) rfl rfl rfl (sig := sig) (md := m) (by rw [hs]; exact Nat.le_of_eq hfb) hmb
  rw [hS, msk_fors_signx (p := ad.take E.P.fam.offTree) (by omega) hM,
    fors_signx_congr (E := maskEX (ad.take E.P.fam.offTree) E) e]
  refine hX.trans ?_
  rw [List.drop_of_length_le (by rw [hs]; exact Nat.le_of_eq hfb.symm), List.append_nil]
  rfl

end Spx
