import Verif.Model.OnlyPositions
import Verif.Proof.Calls
import Verif.Proof.AddrInj
import Verif.Proof.ShippedSign
/-! The hash code of a build, replaced outside the positions, computes the correspondingly replaced hash functions. -/

namespace Spx
open Spec

open Classical in
/-- The specification hash replaced in the same way. -/
noncomputable def replacedHash (P : Params) (S : Spec.Hash) (T' : Bytes → Addr → Bytes → Bytes)
    (F' : Bytes → Bytes → Addr → Bytes) : Spec.Hash :=
  { S with
    T := fun pub a x =>
      if ∃ q : Position, q.Valid P.toSpec ∧ q.isPrf = false ∧ a = q.adrs ∧ x.length = q.inLen P.toSpec then S.T pub a x
      else T' pub (enc P.fam a) x
    PRF := fun pub sk a =>
      if ∃ q : Position, q.Valid P.toSpec ∧ q.isPrf = true ∧ a = q.adrs then S.PRF pub sk a
      else F' pub sk (enc P.fam a) }

theorem replaced_same (P : Params) (S : Spec.Hash) (T' : Bytes → Addr → Bytes → Bytes)
    (F' : Bytes → Bytes → Addr → Bytes) : SameAt P.toSpec S (replacedHash P S T' F') where
  T := fun _ q _ h1 h2 h3 => if_pos ⟨q, h1, h2, rfl, h3⟩
  PRF := fun _ _ q h1 h2 => if_pos ⟨q, h1, h2, rfl⟩
  PRFmsg := rfl
  Hmsg := rfl

theorem enc_eq_iff {f : Family} {a b : ADRS} (ha : a.OK) (hb : b.OK) : enc f a = enc f b ↔ a = b :=
  ⟨fun h => enc_inj ha hb (by rw [h]), fun h => by rw [h]⟩

open Classical in
noncomputable def onlyRefines {P : Params} {H : HashImpl} {S : Spec.Hash} (R : Refines P H S) (hP : P.Valid)
    {T' : Bytes → Addr → Bytes → Bytes} {F' : Bytes → Bytes → Addr → Bytes} (hT : ∀ pub a x, (T' pub a x).length = P.n)
    (hF : ∀ pub sk a, (F' pub sk a).length = P.n) : Refines P (onlyPositions P H T' F') (replacedHash P S T' F') where
  CtxOK := R.CtxOK
  T_len := fun pub a x => by
    show (if _ then _ else _ : Bytes).length = _
    split
    · exact R.T_len ..
    · exact hT ..
  PRF_len := fun pub sk a => by
    show (if _ then _ else _ : Bytes).length = _
    split
    · exact R.PRF_len ..
    · exact hF ..
  PRFmsg_len := R.PRFmsg_len
  Hmsg_len := R.Hmsg_len
  init := R.init
  thash := fun ctx a inp blocks hc ha h1 h2 h3 => by
    have e : (∃ q : Position, q.Valid P.toSpec ∧ q.isPrf = false ∧ enc P.fam a = enc P.fam q.adrs ∧
          blocks * P.n = q.inLen P.toSpec) ↔
        ∃ q : Position, q.Valid P.toSpec ∧ q.isPrf = false ∧ a = q.adrs ∧
          (inp.take (blocks * P.n)).length = q.inLen P.toSpec := by
      have hl : (inp.take (blocks * P.n)).length = blocks * P.n := by rw [List.length_take]; omega
      rw [hl]
      constructor
      · rintro ⟨q, hq, hk, he, hn⟩
        exact ⟨q, hq, hk, (enc_eq_iff ha (Position.adrs_ok hP hq)).mp he, hn⟩
      · rintro ⟨q, hq, hk, he, hn⟩
        exact ⟨q, hq, hk, by rw [he], hn⟩
    show (if _ then _ else _ : C Bytes) = .ok (if _ then _ else _)
    by_cases h : ∃ q : Position, q.Valid P.toSpec ∧ q.isPrf = false ∧ enc P.fam a = enc P.fam q.adrs ∧
        blocks * P.n = q.inLen P.toSpec
    · rw [if_pos h, if_pos (e.mp h)]
      exact R.thash ctx a inp blocks hc ha h1 h2 h3
    · rw [if_neg h, if_neg fun h' => h (e.mpr h')]
  prf := fun ctx a hc ha => by
    have e : (∃ q : Position, q.Valid P.toSpec ∧ q.isPrf = true ∧ enc P.fam a = enc P.fam q.adrs) ↔
        ∃ q : Position, q.Valid P.toSpec ∧ q.isPrf = true ∧ a = q.adrs := by
      constructor
      · rintro ⟨q, hq, hk, he⟩
        exact ⟨q, hq, hk, (enc_eq_iff ha (Position.adrs_ok hP hq)).mp he⟩
      · rintro ⟨q, hq, hk, he⟩
        exact ⟨q, hq, hk, by rw [he]⟩
    show (if _ then _ else _ : C Bytes) = .ok (if _ then _ else _)
    by_cases h : ∃ q : Position, q.Valid P.toSpec ∧ q.isPrf = true ∧ enc P.fam a = enc P.fam q.adrs
    · rw [if_pos h, if_pos (e.mp h)]
      exact R.prf ctx a hc ha
    · rw [if_neg h, if_neg fun h' => h (e.mpr h')]
  genR := R.genR
  hmsg := R.hmsg

end Spx
