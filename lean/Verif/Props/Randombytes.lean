import Verif.Model.Randombytes
import Verif.Proof.Mem
/-! # C33: `randombytes` and the operating system -/

namespace Spx.Randombytes

/-- The bytes a history of reads delivers to somebody who asks for `want` bytes in portions of at
most one megabyte. -/
def delivered : List Read → Nat → Bytes
  | [], _ => []
  | .fail :: rs, want => delivered rs want
  | .data ds :: rs, want =>
    ds.take (min want 1048576) ++ delivered rs (want - (ds.take (min want 1048576)).length)

theorem delivered_le (rs : List Read) (want : Nat) : (delivered rs want).length ≤ want := by
  induction rs generalizing want with
  | nil => exact Nat.zero_le _
  | cons r rs ih =>
    cases r with
    | fail => exact ih want
    | data ds =>
      have := ih (want - (ds.take (min want 1048576)).length)
      simp only [delivered, List.length_append, List.length_take] at *
      omega

theorem delivered_zero (rs : List Read) : delivered rs 0 = [] :=
  List.eq_nil_of_length_eq_zero (Nat.le_zero.mp (delivered_le rs 0))

/-- No read failed. -/
def NoFail (rs : List Read) : Prop := ∀ r ∈ rs, r ≠ .fail

theorem fill_zero (rs : List Read) (M : Mem) (x : Nat) : fill rs M x 0 = .ok (.returned M rs) := by
  cases rs with
  | nil => rfl
  | cons r rs => cases r <;> rfl

theorem fill_fail (rs : List Read) (M : Mem) {x xlen : Nat} (h : 0 < xlen) :
    fill (.fail :: rs) M x xlen =
      fill rs M ((x + (2 ^ 64 - 1)) % 2 ^ 64) ((xlen + 2 ^ 64 - (2 ^ 64 - 1)) % 2 ^ 64) := by
  rw [fill]
  exact if_pos h

theorem fill_data (ds : Bytes) (rs : List Read) {M M₁ : Mem} {x xlen : Nat} (h : 0 < xlen)
    (hw : M.wr x (ds.take (request xlen)) = .ok M₁) :
    fill (.data ds :: rs) M x xlen =
      if (ds.take (request xlen)).length < 1 then fill rs M₁ x xlen
      else fill rs M₁ ((x + (ds.take (request xlen)).length) % 2 ^ 64)
        ((xlen + 2 ^ 64 - (ds.take (request xlen)).length) % 2 ^ 64) := by
  rw [fill]
  refine (if_pos h).trans ?_
  simp only [hw, ok_bind]

/-- C33, loop: as long as no read fails, whatever the sizes of the reads, including empty ones, the
delivered bytes are written in order from `x` on, nothing outside `xlen` bytes at `x` changes, and
the function returns exactly when `xlen` bytes have been delivered. -/
theorem C33_fill (rs : List Read) (hr : NoFail rs) (M : Mem) (x xlen : Nat) (hM : M.Alloc x xlen)
    (hx : x + xlen ≤ 2 ^ 64) :
    ∃ M', M'.rd x (delivered rs xlen).length = .ok (delivered rs xlen) ∧ M.SameOutside M' x xlen ∧
      if (delivered rs xlen).length < xlen then fill rs M x xlen = .ok (.waiting M')
      else ∃ used rest, rs = used ++ rest ∧ delivered used xlen = delivered rs xlen ∧
        fill rs M x xlen = .ok (.returned M' rest) := by
  induction rs generalizing M x xlen with
  | nil =>
    refine ⟨M, ?_, fun _ _ => rfl, ?_⟩
    · rw [Mem.rd_eq_iff]
      exact ⟨rfl, fun i hi => absurd hi (Nat.not_lt_zero i)⟩
    · show if 0 < xlen then _ else _
      by_cases h : xlen > 0
      · rw [if_pos h]
        exact if_pos h
      · rw [if_neg h]
        exact ⟨[], [], rfl, rfl, if_neg h⟩
  | cons r rs ih =>
    have hrs : NoFail rs := fun q hq => hr q (List.mem_cons_of_mem _ hq)
    by_cases h : xlen > 0
    · cases r with
      | fail => exact absurd rfl (hr _ List.mem_cons_self)
      | data ds =>
        have hreq : request xlen = min xlen 1048576 := by
          unfold request
          split <;> omega
        obtain ⟨d, hd⟩ : ∃ d, d = ds.take (min xlen 1048576) := ⟨_, rfl⟩
        have hdl : d.length ≤ xlen := by rw [hd, List.length_take]; omega
        obtain ⟨M₁, w1, r1, s1⟩ := Mem.wr_of_alloc (M := M) (p := x) (d := d)
          (Mem.alloc_sub hM (Nat.le_refl _) (by omega))
        have hM1 : M₁.Alloc (x + d.length) (xlen - d.length) :=
          s1.alloc r1 (Mem.alloc_sub hM (by omega) (by omega))
        obtain ⟨M', hr', hs', hc⟩ := ih hrs M₁ (x + d.length) (xlen - d.length) hM1 (by omega)
        have hdel : delivered (.data ds :: rs) xlen = d ++ delivered rs (xlen - d.length) := by
          rw [delivered, ← hd]
        have hstep : fill (.data ds :: rs) M x xlen = fill rs M₁ (x + d.length) (xlen - d.length) := by
          rw [fill_data ds rs h (M₁ := M₁) (by rw [hreq, ← hd]; exact w1), hreq, ← hd]
          by_cases hz : d.length < 1
          · rw [if_pos hz, show d.length = 0 by omega]
            rfl
          · rw [if_neg hz, show (xlen + 2 ^ 64 - d.length) % 2 ^ 64 = xlen - d.length by omega]
            by_cases hw : x + d.length < 2 ^ 64
            · rw [Nat.mod_eq_of_lt hw]
            · have : xlen - d.length = 0 := by omega
              rw [this, fill_zero, fill_zero]
        rw [hstep, hdel]
        refine ⟨M', ?_, s1.trans hs' ⟨Nat.le_refl _, by omega⟩ ⟨by omega, by omega⟩, ?_⟩
        · rw [List.length_append]
          refine Mem.rd_append ?_ hr'
          rw [Mem.rd_frame hs' (Or.inr (Nat.le_refl _))]
          exact r1
        · rw [List.length_append]
          by_cases hlt : d.length + (delivered rs (xlen - d.length)).length < xlen
          · rw [if_pos (by omega)] at hc
            rw [if_pos hlt]
            exact hc
          · rw [if_neg (by omega)] at hc
            rw [if_neg hlt]
            obtain ⟨used, rest, e1, e2, e3⟩ := hc
            refine ⟨.data ds :: used, rest, by rw [e1]; rfl, ?_, e3⟩
            rw [delivered, ← hd, e2]
    · have hz : xlen = 0 := by omega
      subst hz
      rw [delivered_zero]
      refine ⟨M, ?_, fun _ _ => rfl, ?_⟩
      · rw [Mem.rd_eq_iff]
        exact ⟨rfl, fun i hi => absurd hi (Nat.not_lt_zero i)⟩
      · rw [if_neg (by simp)]
        refine ⟨[], r :: rs, rfl, rfl, ?_⟩
        exact fill_zero _ _ _

/-- C33: once the file is open and the reads deliver enough bytes without a failure, `randombytes`
returns with the `xlen` bytes at `x` filled in order with what was delivered, and nothing else
changed. -/
theorem C33_randombytes (fd : Int) (opens : List Int) {fd' : Int} (ho : openFd fd opens = some fd')
    (rs : List Read) (hr : NoFail rs) (M : Mem) (x xlen : Nat) (hM : M.Alloc x xlen) (hx : x + xlen ≤ 2 ^ 64)
    (henough : (delivered rs xlen).length = xlen) :
    ∃ M' rest, randombytes fd opens rs M x xlen = .ok (.returned M' rest, fd') ∧
      M'.rd x xlen = .ok (delivered rs xlen) ∧ M.SameOutside M' x xlen := by
  obtain ⟨M', h1, h2, h3⟩ := C33_fill rs hr M x xlen hM hx
  rw [if_neg (by omega)] at h3
  obtain ⟨used, rest, -, -, h3⟩ := h3
  refine ⟨M', rest, ?_, by rw [henough] at h1; exact h1, h2⟩
  unfold randombytes
  rw [ho]
  simp only [h3, ok_bind]

/-- The static descriptor is opened at most once: an open one is kept whatever `open` would say, and
otherwise the first success counts. -/
theorem C33_open (fd : Int) (opens : List Int) :
    openFd fd opens = (fd :: opens).find? (fun o => o ≠ -1) := by
  induction opens generalizing fd with
  | nil =>
    by_cases h : fd = -1 <;> simp [openFd, h]
  | cons o os ih =>
    by_cases h : fd = -1
    · rw [openFd, if_pos h, ih]
      simp [h]
    · rw [openFd, if_neg h]
      simp [h]

/-- C33, the defect: after a failed read the pointer has moved back by one byte and the length has
grown by one, for every request. -/
theorem C33_failed_read (rs : List Read) (M : Mem) {x xlen : Nat} (hx : 1 ≤ x) (hx' : x < 2 ^ 64)
    (h1 : 1 ≤ xlen) (h2 : xlen + 1 < 2 ^ 64) :
    fill (.fail :: rs) M x xlen = fill rs M (x - 1) (xlen + 1) := by
  rw [fill_fail _ _ h1, show (x + (2 ^ 64 - 1)) % 2 ^ 64 = x - 1 by omega,
    show (xlen + 2 ^ 64 - (2 ^ 64 - 1)) % 2 ^ 64 = xlen + 1 by omega]

/-- C33, the defect as an access outside the buffer: for every request and every
buffer which does not happen to be preceded by another byte, a failed read followed by a
successful one writes out of bounds. -/
theorem C33_failed_read_out_of_bounds (M : Mem) {x xlen : Nat} (hx : 1 ≤ x) (hx' : x + xlen < 2 ^ 64)
    (h1 : 1 ≤ xlen) (hM : M (x - 1) = none) (ds : Bytes) (hds : ds ≠ []) (rs : List Read) :
    fill (.fail :: .data ds :: rs) M x xlen = .error .oob := by
  rw [C33_failed_read _ M hx (by omega) h1 (by omega), fill]
  refine (if_pos (by omega)).trans ?_
  have hlen : 0 < (ds.take (request (xlen + 1))).length := by
    have := List.length_pos_iff.mpr hds
    rw [List.length_take]
    unfold request
    split <;> omega
  have : M.wr (x - 1) (ds.take (request (xlen + 1))) = .error .oob := by
    apply if_neg
    intro h
    have := h 0 hlen
    rw [Nat.add_zero, hM] at this
    cases this
  simp only [this, error_bind]

/-- C33, the defect as a corruption: when the byte before the buffer belongs to the caller, it is
overwritten by random data. -/
theorem C33_failed_read_corrupts (M : Mem) {x : Nat} (hx : 1 ≤ x) (hx' : x < 2 ^ 64)
    (hM : M.Alloc (x - 1) 2) (a b : Byte) (rs : List Read) :
    ∃ M', fill (.fail :: .data [a, b] :: rs) M x 1 = .ok (.returned M' rs) ∧
      M' (x - 1) = some a ∧ M' x = some b := by
  obtain ⟨M', w, r, -⟩ := Mem.wr_of_alloc (M := M) (p := x - 1) (d := [a, b]) hM
  refine ⟨M', ?_, ?_, ?_⟩
  · rw [C33_failed_read _ M hx hx' (Nat.le_refl 1) (by omega),
      fill_data [a, b] rs (by omega) (M₁ := M') w,
      show ([a, b] : Bytes).take (request (1 + 1)) = [a, b] from rfl, if_neg (by simp),
      show (1 + 1 + 2 ^ 64 - ([a, b] : Bytes).length) % 2 ^ 64 = 0 by simp]
    exact fill_zero _ _ _
  · have := (Mem.rd_eq_iff.mp r).2 0 (by simp)
    simpa using this
  · have := (Mem.rd_eq_iff.mp r).2 1 (by simp)
    rw [show x - 1 + 1 = x by omega] at this
    simpa using this

/-- A history of an empty read, a short one and a long one fills five bytes; two failed `open`s come
first. -/
example : ∃ M' rest, randombytes (-1) [-1, -1, 3] [.data [], .data [1, 2], .data [3, 4, 5, 6, 7], .data [8]]
    (Mem.filled fun _ => 0) 100 5 = .ok (.returned M' rest, 3) ∧ M'.rd 100 5 = .ok [1, 2, 3, 4, 5] := by
  obtain ⟨M', rest, h1, h2, -⟩ := C33_randombytes (-1) [-1, -1, 3] (fd' := 3) (by decide)
    [.data [], .data [1, 2], .data [3, 4, 5, 6, 7], .data [8]] (by
      intro r hr
      simp only [List.mem_cons, List.not_mem_nil, or_false] at hr
      rcases hr with rfl | rfl | rfl | rfl <;> simp)
    (Mem.filled fun _ => 0) 100 5 (Mem.filled_alloc _ _ _) (by decide) (by decide)
  exact ⟨M', rest, h1, h2⟩

/-- A memory in which the buffer is not preceded by a byte. -/
example : fill [.fail, .data [1, 2, 3]] ⟨fun a => if 100 ≤ a ∧ a < 108 then some 0 else none⟩ 100 8 =
    .error .oob :=
  C33_failed_read_out_of_bounds _ (by decide) (by decide) (by decide) rfl _ (by simp) []

end Spx.Randombytes
