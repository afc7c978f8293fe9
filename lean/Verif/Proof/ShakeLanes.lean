import Verif.Proof.ThashShakeX
import Verif.Proof.OptBuild
import Verif.Proof.AnyAddress
import Verif.Props.Parallel
/-! The SHAKE lane functions as implementations of the hash interface. -/

namespace Spx
open Spec

theorem shake_n {P : Params} (hP : P ∈ shipped) : ∃ N, P.n = 8 * N ∧ 2 ≤ N ∧ N ≤ 4 := by
  have h : ∀ P ∈ shipped, P.n = 8 * (P.n / 8) ∧ 2 ≤ P.n / 8 ∧ P.n / 8 ≤ 4 := by decide +kernel
  exact ⟨_, h P hP⟩

section
variable {P : Params} (hP : P ∈ shipped) (g : Nat → Nat → Byte) {ctx : Ctx} (hpub : ctx.pub_seed.length = P.n)
  {A : Nat → ADRS} {I : Nat → Bytes} {b : Nat} {as : Nat → Addr}
include hP hpub

theorem A64.thashx_value (hi : ∀ j, j < 2 → b * P.n ≤ (I j).length) (hf : P.fam = .shake)
    (hA : ∀ j, j < 2 → Encodes P.fam (as j) (A j)) :
    (A64.lanes P g).thashx ((List.range 2).map I) b ctx ((List.range 2).map as) =
      .ok ((List.range 2).map fun j => (shakeHash P.n P.robust).T ctx.pub_seed (A j) ((I j).take (b * P.n))) := by
  obtain ⟨N, hn, h2, h4⟩ := shake_n hP
  have ha : ∀ j, j < 2 → (as j).length = 32 := fun j hj => (hA j hj).1
  have he : ∀ j, j < 2 → as j = (A j).enc32 := fun j hj => (hA j hj).eq32 (by rw [hf]; decide)
  simp only [A64.lanes, shakeHash]
  cases hr : P.robust
  · simp only [Bool.false_eq_true, if_false]
    rw [A64.thashx2_simple_spec g hn h2 h4 hpub ha hi]
    exact congrArg Except.ok (List.map_congr_left fun j hj => by rw [he j (List.mem_range.1 hj)])
  · simp only [if_true]
    rw [A64.thashx2_robust_spec g hn h2 h4 hpub ha hi]
    congr 1
    refine List.map_congr_left fun j hj => ?_
    rw [List.length_take, Nat.min_eq_left (hi j (List.mem_range.1 hj)), he j (List.mem_range.1 hj)]

theorem A64.prfx_value (hsk : ctx.sk_seed.length = P.n) (hf : P.fam = .shake)
    (hA : ∀ j, j < 2 → Encodes P.fam (as j) (A j)) :
    (A64.lanes P g).prf_addrx ctx ((List.range 2).map as) =
      .ok ((List.range 2).map fun j => (shakeHash P.n P.robust).PRF ctx.pub_seed ctx.sk_seed (A j)) := by
  obtain ⟨N, hn, h2, h4⟩ := shake_n hP
  have he : ∀ j, j < 2 → as j = (A j).enc32 := fun j hj => (hA j hj).eq32 (by rw [hf]; decide)
  simp only [A64.lanes, shakeHash]
  rw [A64.prf_addrx2_spec g hn h2 h4 hpub hsk (fun j hj => (hA j hj).1)]
  exact congrArg Except.ok (List.map_congr_left fun j hj => by rw [he j (List.mem_range.1 hj)])

theorem Avx2.thashx_value (hi : ∀ j, j < 4 → b * P.n ≤ (I j).length) (hf : P.fam = .shake)
    (hA : ∀ j, j < 4 → Encodes P.fam (as j) (A j)) :
    (Avx2.lanes P g).thashx ((List.range 4).map I) b ctx ((List.range 4).map as) =
      .ok ((List.range 4).map fun j => (shakeHash P.n P.robust).T ctx.pub_seed (A j) ((I j).take (b * P.n))) := by
  obtain ⟨N, hn, h2, h4⟩ := shake_n hP
  have ha : ∀ j, j < 4 → (as j).length = 32 := fun j hj => (hA j hj).1
  have he : ∀ j, j < 4 → as j = (A j).enc32 := fun j hj => (hA j hj).eq32 (by rw [hf]; decide)
  simp only [Avx2.lanes, shakeHash]
  cases hr : P.robust
  · simp only [Bool.false_eq_true, if_false]
    rw [Avx2.thashx4_simple_spec g hn h2 h4 hpub ha hi]
    exact congrArg Except.ok (List.map_congr_left fun j hj => by rw [he j (List.mem_range.1 hj)])
  · simp only [if_true]
    rw [Avx2.thashx4_robust_spec g hn h2 h4 hpub ha hi]
    congr 1
    refine List.map_congr_left fun j hj => ?_
    rw [List.length_take, Nat.min_eq_left (hi j (List.mem_range.1 hj)), he j (List.mem_range.1 hj)]

theorem Avx2.prfx_value (hsk : ctx.sk_seed.length = P.n) (hf : P.fam = .shake)
    (hA : ∀ j, j < 4 → Encodes P.fam (as j) (A j)) :
    (Avx2.lanes P g).prf_addrx ctx ((List.range 4).map as) =
      .ok ((List.range 4).map fun j => (shakeHash P.n P.robust).PRF ctx.pub_seed ctx.sk_seed (A j)) := by
  obtain ⟨N, hn, h2, h4⟩ := shake_n hP
  have he : ∀ j, j < 4 → as j = (A j).enc32 := fun j hj => (hA j hj).eq32 (by rw [hf]; decide)
  simp only [Avx2.lanes, shakeHash]
  rw [Avx2.prf_addrx4_spec g hn h2 h4 hpub hsk (fun j hj => (hA j hj).1)]
  exact congrArg Except.ok (List.map_congr_left fun j hj => by rw [he j (List.mem_range.1 hj)])

theorem A64.thash_value {inp : Bytes} {ad : Addr} {a : ADRS} (hi : b * P.n ≤ inp.length) (hf : P.fam = .shake)
    (he : Encodes P.fam ad a) :
    A64.thash P g inp b ctx ad = .ok ((shakeHash P.n P.robust).T ctx.pub_seed a (inp.take (b * P.n))) := by
  have hl := he.1
  have e := A64.thashx_value hP g hpub (A := fun _ => a) (as := fun _ => ad) (I := fun _ => inp) (b := b) (fun _ _ => hi) hf
    (fun _ _ => he)
  unfold A64.thash
  rw [rd_ok (by omega), ok_bind, List.drop_zero, List.take_of_length_le (by omega)]
  have e' : (A64.lanes P g).thashx [inp, inp] b ctx [ad, ad] = _ := e
  rw [e', ok_bind]
  rfl

end

theorem specHash_shake {P : Params} (hf : P.fam = .shake) : specHash P = shakeHash P.n P.robust := by
  unfold specHash; rw [hf]

/-- The one-way functions of shake-a64 implement the specification. -/
noncomputable def a64Refines {P : Params} (hP : P ∈ shipped) (hf : P.fam = .shake) (g : Nat → Nat → Byte) :
    Refines P (A64.impl P g) (shakeHash P.n P.robust) where
  CtxOK ctx := ctx.pub_seed.length = P.n ∧ ctx.sk_seed.length = P.n
  T_len := (shakeRefines g (shipped_valid hP) hf).T_len
  PRF_len := (shakeRefines g (shipped_valid hP) hf).PRF_len
  PRFmsg_len := (shakeRefines g (shipped_valid hP) hf).PRFmsg_len
  Hmsg_len := (shakeRefines g (shipped_valid hP) hf).Hmsg_len
  init ctx h1 h2 _ _ _ _ _ := ⟨ctx, rfl, ⟨h1, h2⟩, rfl, rfl⟩
  thash _ a _ _ hc _ _ hb _ := A64.thash_value hP g hc.1 hb hf (encodes_enc P.fam a)
  prf := (shakeRefines g (shipped_valid hP) hf).prf
  genR := (shakeRefines g (shipped_valid hP) hf).genR
  hmsg := (shakeRefines g (shipped_valid hP) hf).hmsg

theorem a64LaneRefines {P : Params} (hP : P ∈ shipped) (hf : P.fam = .shake) (g G : Nat → Nat → Byte) :
    LaneRefines (optBuild P (A64.impl P g) 1 (A64.lanes P g) G) (a64Refines hP hf g) where
  thashx _ A _ _ hc _ _ hi _ := A64.thashx_value hP g hc.1 hi hf fun j _ => encodes_enc P.fam (A j)
  prf _ A hc _ := A64.prfx_value hP g hc.1 hc.2 hf fun j _ => encodes_enc P.fam (A j)

theorem avx2LaneRefines {P : Params} (hP : P ∈ shipped) (hf : P.fam = .shake) (g G : Nat → Nat → Byte) :
    LaneRefines (optBuild P (Shake.impl P g) 2 (Avx2.lanes P g) G) (shakeRefines g (shipped_valid hP) hf) where
  thashx _ A _ _ hc _ _ hi _ := Avx2.thashx_value hP g hc.1 hi hf fun j _ => encodes_enc P.fam (A j)
  prf _ A hc _ := Avx2.prfx_value hP g hc.1 hc.2 hf fun j _ => encodes_enc P.fam (A j)

theorem sameScheme_of {P : Params} (hP : P ∈ shipped) {H : HashImpl} {S : Hash} (hS : S = specHash P)
    {R : Refines P H S} {lg : Nat} {X : LaneHash} {G : Nat → Nat → Byte} (RX : LaneRefines (optBuild P H lg X G) R)
    (h1 : 1 ≤ lg) (h3 : lg ≤ 3) (G' g : Nat → Nat → Byte) : SameScheme P (optBuild P H lg X G) G' g := by
  subst hS
  exact sameScheme hP h1 h3 R RX G' g

/-- A lane function with the values of the one-way function is lane-wise. -/
theorem laneWise_of {P : Params} (hP : P ∈ shipped) (g : Nat → Nat → Byte) {lg : Nat} {X : LaneHash}
    (ht : ∀ {ctx : Ctx}, ctx.Ready P g → ∀ {A : Nat → ADRS} {as : Nat → Addr} {I : Nat → Bytes} {b : Nat},
      (∀ j, j < 2 ^ lg → Encodes P.fam (as j) (A j)) → 1 ≤ b → (∀ j, j < 2 ^ lg → b * P.n ≤ (I j).length) →
      b * P.n < 2 ^ 31 →
      X.thashx ((List.range (2 ^ lg)).map I) b ctx ((List.range (2 ^ lg)).map as) =
        .ok ((List.range (2 ^ lg)).map fun j => (specHash P).T ctx.pub_seed (A j) ((I j).take (b * P.n))))
    (hp : ∀ {ctx : Ctx}, ctx.Ready P g → ∀ {A : Nat → ADRS} {as : Nat → Addr},
      (∀ j, j < 2 ^ lg → Encodes P.fam (as j) (A j)) →
      X.prf_addrx ctx ((List.range (2 ^ lg)).map as) =
        .ok ((List.range (2 ^ lg)).map fun j => (specHash P).PRF ctx.pub_seed ctx.sk_seed (A j))) :
    LaneWise P g lg X where
  thashx {ctx} hc {as I b} hA hb hi hs := by
    obtain ⟨A, hA⟩ := lanes_encode P.fam hA
    rw [ht hc hA hb hi hs]
    symm
    exact tabulate_ok fun j hj => thash_any hP hc (hA j hj) hb (hi j hj) hs
  prf_addrx {ctx} hc {as} hA := by
    obtain ⟨A, hA⟩ := lanes_encode P.fam hA
    rw [hp hc hA]
    symm
    exact tabulate_ok fun j hj => prf_any hP hc (hA j hj)

end Spx
