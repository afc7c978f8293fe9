import Verif.Proof.Ready
/-! The keyed hash functions on every address buffer. -/

namespace Spx
open Spec

theorem lanes_encode (f : Family) {L : Nat} {as : Nat → Addr} (h : ∀ j, j < L → (as j).length = 32) :
    ∃ A : Nat → ADRS, ∀ j, j < L → Encodes f (as j) (A j) := by
  have h' : ∀ j, ∃ a, j < L → Encodes f (as j) a := fun j => by
    by_cases c : j < L
    · obtain ⟨a, e⟩ := exists_encodes f (h j c)
      exact ⟨a, fun _ => e⟩
    · exact ⟨zeroADRS, fun d => absurd d c⟩
  exact Classical.axiomOfChoice h'

variable {P : Params} {g : Nat → Nat → Byte} {ctx : Ctx}

theorem Ctx.Ready.sha2OK (hP : P ∈ shipped) (hf : P.fam = .sha2) (h : ctx.Ready P g) :
    (sha2Refines g (shipped_valid hP) hf (shipped_n hP) (shipped_sha512 hP hf)).CtxOK ctx := by
  obtain ⟨c0, hs, hi, -, -⟩ := h
  obtain ⟨c, hc, hok, -, -⟩ := (sha2Refines g (shipped_valid hP) hf (shipped_n hP) (shipped_sha512 hP hf)).init c0
    hs.pub_seed hs.sk_seed hs.state_seeded hs.state_seeded_512 hs.tweaked512_rc64 hs.tweaked256_rc32 hs.rc
  rw [show (implOf P g) = Sha2.impl P g by unfold implOf; rw [hf]] at hi
  rw [hi] at hc
  cases hc
  exact hok

theorem Ctx.Ready.harakaOK (hP : P ∈ shipped) (hf : P.fam = .haraka) (h : ctx.Ready P g) :
    (harakaRefines g (shipped_valid hP) hf (shipped_n hP)).CtxOK ctx := by
  obtain ⟨c0, hs, hi, -, -⟩ := h
  obtain ⟨c, hc, hok, -, -⟩ := (harakaRefines g (shipped_valid hP) hf (shipped_n hP)).init c0
    hs.pub_seed hs.sk_seed hs.state_seeded hs.state_seeded_512 hs.tweaked512_rc64 hs.tweaked256_rc32 hs.rc
  rw [show (implOf P g) = Haraka.impl P g by unfold implOf; rw [hf]] at hi
  rw [hi] at hc
  cases hc
  exact hok

theorem thash_any (hP : P ∈ shipped) (hc : ctx.Ready P g) {ad : Addr} {a : ADRS} (he : Encodes P.fam ad a)
    {inp : Bytes} {blocks : Nat} (h1 : 1 ≤ blocks) (hin : blocks * P.n ≤ inp.length) (hb : blocks * P.n < 2 ^ 31) :
    (implOf P g).thash inp blocks ctx ad = .ok ((specHash P).T ctx.pub_seed a (inp.take (blocks * P.n))) := by
  unfold implOf specHash
  cases hf : P.fam with
  | sha2 =>
    obtain ⟨k1, -, k3, k4⟩ := hc.sha2OK hP hf
    exact Sha2.thash_value g (shipped_valid hP) hf (shipped_n hP) (shipped_sha512 hP hf) k1 k3 k4 he h1 hin hb
  | shake => exact Shake.thash_value g hf (hc.pub_len) he hin
  | haraka => exact Haraka.thash_value g (shipped_valid hP) hf (shipped_n hP) (hc.harakaOK hP hf) he hin

theorem prf_any (hP : P ∈ shipped) (hc : ctx.Ready P g) {ad : Addr} {a : ADRS} (he : Encodes P.fam ad a) :
    (implOf P g).prf_addr ctx ad = .ok ((specHash P).PRF ctx.pub_seed ctx.sk_seed a) := by
  unfold implOf specHash
  cases hf : P.fam with
  | sha2 =>
    obtain ⟨k1, k2, k3, -⟩ := hc.sha2OK hP hf
    exact Sha2.prf_value g hf (shipped_n hP) k1 k2 k3 he
  | shake => exact Shake.prf_value g hf hc.pub_len hc.sk_len he
  | haraka => exact Haraka.prf_value g hf (shipped_n hP) (hc.harakaOK hP hf) he

end Spx
