import Verif.Proof.KatMain
import Verif.Proof.OptBuild
/-! The libraries the known-answer program can be linked with. -/

namespace Spx.Kat
open Spec Spec.Rng Spec.Kat Rng Mem

/-- The entry points of ref/; `E₁`, `E₂`, `E₃` differ only in the uninitialised memory of the three calls. -/
def refLib (E₁ E₂ E₃ : Env) : Lib where
  keypair pk0 sk0 rand := do
    let (pk, sk) ← crypto_sign_keypair E₁ pk0 sk0 rand
    .ok (pk, sk, 0)
  sign := crypto_sign E₂
  open' := crypto_sign_open E₃

/-- The entry points of an optimised implementation. -/
def optLib (E : EnvX) : Lib where
  keypair pk0 sk0 rand := do
    let (pk, sk) ← crypto_sign_keypairT E.toEnv (parCode E) pk0 sk0 rand
    .ok (pk, sk, 0)
  sign := crypto_signT E.toEnv (parCode E)
  open' := crypto_sign_openT E.toEnv (parCode E)

theorem seed_buf {g : Nat → Byte} {n : Nat} {rand : Bytes} (h : rand.length = n) : wr (uninit g n) 0 rand = .ok rand := by
  rw [wr_ok (by simp; omega), List.take_zero, List.nil_append, List.drop_of_length_le (by simp; omega), List.append_nil]

theorem refLib_ok {P : Params} (hP : P ∈ shipped) (G₁ g₁ G₂ g₂ G₃ g₃ : Nat → Nat → Byte) :
    LibOK P (refLib (build P G₁ g₁) (build P G₂ g₂) (build P G₃ g₃)) where
  keypair := by
    intro pk0 sk0 seed hpk hsk hs
    have e := ship_keypair hP G₁ g₁ (Nat.le_of_eq hpk.symm) (Nat.le_of_eq hsk.symm) hs
    rw [List.drop_of_length_le (Nat.le_of_eq hpk), List.drop_of_length_le (Nat.le_of_eq hsk), List.append_nil,
      List.append_nil] at e
    unfold refLib crypto_sign_keypair crypto_sign_keypairT
    simp only
    rw [show (build P G₁ g₁).P.seedBytes = P.seedBytes from rfl, seed_buf hs]
    simp only [ok_bind]
    rw [← crypto_sign_seed_keypair, e]
    rfl
  sign := fun h1 h2 h3 h4 h5 h6 h7 => ship_crypto_sign hP G₂ g₂ h1 h2 h3 h4 h5 h6 h7
  open' := by
    intro M pm psm smlen ppk sm pk h1 h2 h3 h4 h5 hv
    obtain ⟨M', ⟨-, e1, e2, e3⟩ | ⟨h, -⟩⟩ := ship_open hP G₃ g₃ h1 h2 h3 h4 h5
    · exact ⟨M', e1, e2, e3⟩
    · rw [hv] at h; cases h

theorem optLib_ok {P : Params} (hP : P ∈ shipped) {E : EnvX} {G' g' : Nat → Nat → Byte} (hS : SameScheme P E G' g')
    (hEP : E.P = P) : LibOK P (optLib E) where
  keypair := by
    intro pk0 sk0 seed hpk hsk hs
    obtain ⟨r, e, e'⟩ := hS.keypair (Nat.le_of_eq hpk.symm) (Nat.le_of_eq hsk.symm) hs
    have e2 := ship_keypair hP G' g' (Nat.le_of_eq hpk.symm) (Nat.le_of_eq hsk.symm) hs
    rw [List.drop_of_length_le (Nat.le_of_eq hpk), List.drop_of_length_le (Nat.le_of_eq hsk), List.append_nil,
      List.append_nil, e'] at e2
    unfold optLib crypto_sign_keypairT
    simp only
    rw [show E.toEnv.P.seedBytes = P.seedBytes from congrArg Params.seedBytes hEP, seed_buf hs]
    simp only [ok_bind]
    rw [e, e2]
    rfl
  sign := by
    intro M psm pm mlen psk sk optrand m h1 h2 h3 h4 h5 h6 h7
    obtain ⟨r, e, e'⟩ := hS.crypto_sign (alloc_of_rd h1) (alloc_of_rd h2) h3 h4 h6 h7
    obtain ⟨M', k1, k2, k3⟩ := ship_crypto_sign hP G' g' h1 h2 h3 h4 h5 h6 h7
    rw [e'] at k1
    exact ⟨M', e.trans k1, k2, k3⟩
  open' := by
    intro M pm psm smlen ppk sm pk h1 h2 h3 h4 h5 hv
    have e := hS.crypto_sign_open (pm := pm) (alloc_of_rd h2) (alloc_of_rd h3) h5
    obtain ⟨M', ⟨-, e1, e2, e3⟩ | ⟨h, -⟩⟩ := ship_open hP G' g' h1 h2 h3 h4 h5
    · exact ⟨M', e.trans e1, e2, e3⟩
    · rw [hv] at h; cases h

/-! ## Declarative form of `afterFirst`, signed numbers -/

theorem afterFirst_iff (k s : Bytes) :
    (∃ pre post, s = pre ++ k ++ post ∧ (∀ pre' post', s = pre' ++ k ++ post' → pre.length ≤ pre'.length) ∧
      afterFirst k s = some post) ∨ ((∀ pre post, s ≠ pre ++ k ++ post) ∧ afterFirst k s = none) := by
  induction s with
  | nil =>
    by_cases hk : k = []
    · exact .inl ⟨[], [], by simp [hk], fun _ _ _ => Nat.zero_le _, by simp [afterFirst, hk]⟩
    · refine .inr ⟨fun pre post h => hk ?_, by simp [afterFirst, hk]⟩
      have := congrArg List.length h
      simp only [List.length_append, List.length_nil] at this
      exact List.eq_nil_of_length_eq_zero (by omega)
  | cons c s ih =>
    by_cases hp : k <+: c :: s
    · obtain ⟨t, ht⟩ := hp
      refine .inl ⟨[], t, by simp [ht], fun _ _ _ => Nat.zero_le _, ?_⟩
      rw [afterFirst, if_pos ⟨t, ht⟩, ← ht, List.drop_left]
    · rw [afterFirst, if_neg hp]
      have hcons : ∀ pre post, c :: s = pre ++ k ++ post → ∃ pre', pre = c :: pre' ∧ s = pre' ++ k ++ post := by
        intro pre post h
        cases pre with
        | nil => exact absurd ⟨post, by simpa using h.symm⟩ hp
        | cons a pre' =>
          simp only [List.cons_append, List.cons.injEq] at h
          exact ⟨pre', by rw [h.1], h.2⟩
      rcases ih with ⟨pre, post, h1, h2, h3⟩ | ⟨h1, h2⟩
      · refine .inl ⟨c :: pre, post, by rw [h1]; rfl, fun pre' post' h => ?_, h3⟩
        obtain ⟨p, rfl, hs⟩ := hcons pre' post' h
        have := h2 p post' hs
        simp only [List.length_cons]; omega
      · refine .inr ⟨fun pre post h => ?_, h2⟩
        obtain ⟨p, -, hs⟩ := hcons pre post h
        exact h1 p post hs

theorem fscanf_d_int {n : Int} (h1 : -2 ^ 31 ≤ n) (h2 : n < 2 ^ 31) {c : Byte} (hc : isdigit c = false) (rest : Bytes)
    (v : Int) : fscanf_d (pct_d n ++ c :: rest) v = .ok (n, c :: rest) := by
  by_cases hn : n < 0
  · obtain ⟨d1, d2, d3⟩ := pct_u_digits (-n).toNat
    have ht : (pct_u (-n).toNat ++ c :: rest).takeWhile isdigit = pct_u (-n).toNat := by
      rw [List.takeWhile_append_of_pos d1]; simp [hc]
    have hd : (pct_u (-n).toNat ++ c :: rest).dropWhile isdigit = c :: rest := by
      rw [List.dropWhile_append_of_pos d1]; simp [hc]
    unfold fscanf_d scan_number pct_d
    rw [if_pos hn, List.cons_append, List.dropWhile_cons_of_neg (by decide), scan_sign, if_pos rfl]
    simp only [ht, hd, d2, if_false, d3, if_true]
    have e : -(((-n).toNat : Nat) : Int) = n := by omega
    rw [e, if_pos ⟨h1, h2⟩]
  · have e : n = ((n.toNat : Nat) : Int) := by omega
    rw [e, pct_d_nat]
    exact fscanf_d_ok (by omega) hc rest v

/-! ## Failures of `fopen` -/

theorem main_fails {aes : Bytes → Bytes → Bytes} (haes : Cipher aes) {P : Params} (hP : P ∈ shipped) (lib : Nat → Lib)
    (lay : Layout) (g : Nat → Nat → Byte) {opens : Nat → Bool} (M : Mem) (fs : FS) :
    (opens 0 = false → main aes P lib lay g opens M fs = .ok (fs, -1)) ∧
    (opens 0 = true → opens 1 = false → main aes P lib lay g opens M fs =
      .ok (fun f => if f = reqName P then some [] else fs f, -1)) ∧
    (opens 0 = true → opens 1 = true → opens 2 = false → main aes P lib lay g opens M fs =
      .ok (fun f => if f = rspName P then some []
        else if f = reqName P then some (requestFile aes) else fs f, -1)) := by
  obtain ⟨hfq, -⟩ := file_name_ok hP (g 12)
  obtain ⟨-, hfr⟩ := file_name_ok hP (g 13)
  refine ⟨fun h0 => ?_, fun h0 h1 => ?_, fun h0 h1 h2 => ?_⟩
  · unfold main
    rw [hfq]
    simp only [ok_bind]
    rw [if_pos h0]
    rfl
  · unfold main
    rw [hfq]
    simp only [ok_bind]
    rw [h0, if_neg (by decide), hfr]
    simp only [ok_bind]
    rw [if_pos h1]
    rfl
  · obtain ⟨fs1, seed, -, -, hf1, hmain⟩ := main_start haes hP lib lay g h0 h1 M fs
    rw [hmain, h2]
    exact congrArg (fun x => Except.ok (x, (-1 : Int))) (funext hf1)

end Spx.Kat
