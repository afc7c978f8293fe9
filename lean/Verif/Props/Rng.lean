import Verif.Proof.Rng
import Verif.Spec.Aes256
/-! # C34, C35: the seed expander and the deterministic generator of ref/rng.c

`aes` is any block cipher with 32-byte keys and 16-byte blocks; AES-256 is one (`aes256_cipher`). -/

namespace Spx.Rng
open Spec Spec.Rng

/-- `aes` maps 16-byte blocks to 16-byte blocks. -/
def Cipher (aes : Bytes → Bytes → Bytes) : Prop :=
  ∀ k b, k.length = 32 → b.length = 16 → (aes k b).length = 16

section
variable {aes : Bytes → Bytes → Bytes}

/-! ## The seed expander -/

/-- Requests of a user: a buffer or `NULL`, and a length. -/
abbrev Req := Option Bytes × Nat

/-- A buffer holds what is asked for. -/
def Fits (r : Req) : Prop := ∀ x, r.1 = some x → r.2 ≤ x.length

/-- A history of calls of `seedexpander`. -/
def runExpander (aes : Bytes → Bytes → Bytes) : XofCtx → List Req → C (XofCtx × List (Option Bytes × Int))
  | ctx, [] => .ok (ctx, [])
  | ctx, r :: rs => do
    let (ctx, x, ret) ← seedexpander aes ctx r.1 r.2
    let (ctx, outs) ← runExpander aes ctx rs
    .ok (ctx, (x, ret) :: outs)

/-- The answers there should be when `c` bytes of the stream are used up: consecutive pieces of the
stream as long as the total stays below `maxlen`; anything else is refused and uses up nothing. -/
def answers (key pre : Bytes) (maxlen : Nat) : Nat → List Req → List (Option Bytes × Int)
  | _, [] => []
  | c, (none, _) :: rs => (none, -2) :: answers key pre maxlen c rs
  | c, (some x, len) :: rs =>
    if c + len < maxlen then
      (some (xofStream aes key pre c len ++ x.drop len), 0) :: answers key pre maxlen (c + len) rs
    else (some x, -3) :: answers key pre maxlen c rs

/-- C34: a refused request changes neither the state nor the buffer. -/
theorem C34_refused (ctx : XofCtx) (x : Bytes) (xlen : Nat) (h : ctx.length_remaining ≤ xlen) :
    seedexpander aes ctx (some x) xlen = .ok (ctx, some x, -3) ∧
      seedexpander aes ctx none xlen = .ok (ctx, none, -2) :=
  ⟨if_pos h, rfl⟩

/-- C34: a declared maximum of `2 ^ 32` or more is refused and the state is not touched. -/
theorem C34_init_refused (ctx : XofCtx) (seed diversifier : Bytes) (maxlen : Nat) (h : 2 ^ 32 ≤ maxlen) :
    seedexpander_init ctx seed diversifier maxlen = .ok (ctx, -1) := by
  unfold seedexpander_init
  exact if_pos h

theorem runExpander_spec (haes : Cipher aes) {key pre : Bytes} (hk : key.length = 32) (hp : pre.length = 12)
    {maxlen : Nat} (hmax : maxlen < 2 ^ 32) (rs : List Req) (hfit : ∀ r ∈ rs, Fits r) (c : Nat) (ctx : XofCtx)
    (hinv : XofInv aes key pre c ctx) (hrem : ctx.length_remaining = maxlen - c) :
    ∃ ctx', runExpander aes ctx rs = .ok (ctx', answers (aes := aes) key pre maxlen c rs) := by
  induction rs generalizing c ctx with
  | nil => exact ⟨ctx, rfl⟩
  | cons r rs ih =>
    have hfit' : ∀ q ∈ rs, Fits q := fun q hq => hfit q (List.mem_cons_of_mem _ hq)
    obtain ⟨x, len⟩ := r
    cases x with
    | none =>
      obtain ⟨ctx', h⟩ := ih hfit' c ctx hinv hrem
      refine ⟨ctx', ?_⟩
      rw [runExpander]
      simp only [seedexpander, ok_bind, h]
      rfl
    | some x =>
      have hx : len ≤ x.length := hfit _ List.mem_cons_self x rfl
      by_cases hc : c + len < maxlen
      · obtain ⟨ctx1, h1, h2, h3⟩ := seedexpander_accept haes hk hp (x := x) (xlen := len) hinv (by omega) hx
          (by omega)
        obtain ⟨ctx', h⟩ := ih hfit' (c + len) ctx1 h2 (by omega)
        refine ⟨ctx', ?_⟩
        rw [runExpander, answers, if_pos hc]
        simp only [h1, ok_bind, h]
      · obtain ⟨ctx', h⟩ := ih hfit' c ctx hinv hrem
        refine ⟨ctx', ?_⟩
        rw [runExpander, answers, if_neg hc]
        simp only [(C34_refused (aes := aes) ctx x len (by omega)).1, ok_bind, h]

/-- C34: after initialisation, every history of requests is answered with consecutive pieces of one
stream, and a request that would reach the declared maximum is refused without any effect on later
answers. -/
theorem C34_history (haes : Cipher aes) {ctx : XofCtx} (hs : XofSized ctx) {seed diversifier : Bytes}
    {maxlen : Nat} (hseed : seed.length = 32) (hdiv : diversifier.length = 8) (hmax : maxlen < 2 ^ 32)
    (rs : List Req) (hfit : ∀ r ∈ rs, Fits r) :
    ∃ ctx0 ctx', seedexpander_init ctx seed diversifier maxlen = .ok (ctx0, 0) ∧
      runExpander aes ctx0 rs =
        .ok (ctx', answers (aes := aes) seed (xofPrefix diversifier maxlen) maxlen 0 rs) := by
  obtain ⟨ctx0, h1, h2, h3⟩ := seedexpander_init_spec (aes := aes) hs (seed := seed) (diversifier := diversifier)
    (by omega) (by omega) hmax
  rw [List.take_of_length_le (by omega), List.take_of_length_le (by omega)] at h2
  obtain ⟨ctx', h⟩ := runExpander_spec haes hseed (by simp [xofPrefix, hdiv]) hmax rs hfit 0 ctx0 h2 (by omega)
  exact ⟨ctx0, ctx', h1, h⟩

/-- The bytes delivered by a list of answers to requests. -/
def collect : List Req → List (Option Bytes × Int) → Bytes
  | (_, len) :: rs, (some y, 0) :: as => y.take len ++ collect rs as
  | _ :: rs, _ :: as => collect rs as
  | _, _ => []

theorem collect_answers (key pre : Bytes) (maxlen c : Nat) (rs : List Req) (hsome : ∀ r ∈ rs, r.1 ≠ none)
    (hsum : c + (rs.map Prod.snd).sum < maxlen) :
    collect rs (answers (aes := aes) key pre maxlen c rs) = xofStream aes key pre c (rs.map Prod.snd).sum := by
  induction rs generalizing c with
  | nil => rfl
  | cons r rs ih =>
    obtain ⟨x, len⟩ := r
    cases x with
    | none => exact absurd rfl (hsome _ List.mem_cons_self)
    | some x =>
      simp only [List.map_cons, List.sum_cons] at hsum ⊢
      rw [answers, if_pos (by omega), collect, ih (c + len) (fun q hq => hsome q (List.mem_cons_of_mem _ hq))
        (by omega), xofStream_add]
      congr 1
      have : (xofStream aes key pre c len).length = len := xofStream_length key pre c len
      rw [List.take_append_of_le_length (by omega), List.take_of_length_le (by omega)]

/-- C34: however a total below the maximum is cut into requests, the pieces put together are the same
bytes, the beginning of the stream. -/
theorem C34_cut_independent (haes : Cipher aes) {ctx : XofCtx} (hs : XofSized ctx) {seed diversifier : Bytes}
    {maxlen : Nat} (hseed : seed.length = 32) (hdiv : diversifier.length = 8) (hmax : maxlen < 2 ^ 32)
    (rs : List Req) (hfit : ∀ r ∈ rs, Fits r) (hsome : ∀ r ∈ rs, r.1 ≠ none)
    (hsum : (rs.map Prod.snd).sum < maxlen) :
    ∃ ctx0 ctx' as, seedexpander_init ctx seed diversifier maxlen = .ok (ctx0, 0) ∧
      runExpander aes ctx0 rs = .ok (ctx', as) ∧
      collect rs as = xofStream aes seed (xofPrefix diversifier maxlen) 0 (rs.map Prod.snd).sum := by
  obtain ⟨ctx0, ctx', h1, h2⟩ := C34_history haes hs hseed hdiv hmax rs hfit
  exact ⟨ctx0, ctx', _, h1, h2, collect_answers _ _ _ 0 rs hsome (by omega)⟩

/-- C34: the cipher is never applied twice to the same block below the limit: positions of the stream
in different blocks have different counter blocks. -/
theorem C34_counter_blocks_distinct (diversifier : Bytes) {maxlen i j : Nat} (hmax : maxlen < 2 ^ 32)
    (hi : i < maxlen) (hj : j < maxlen) (hij : i / 16 ≠ j / 16) :
    xofPrefix diversifier maxlen ++ toBE 4 (i / 16) ≠ xofPrefix diversifier maxlen ++ toBE 4 (j / 16) := by
  intro h
  have h' := List.append_cancel_left h
  have := congrArg beNat h'
  rw [beNat_toBE, beNat_toBE, Nat.mod_eq_of_lt (by omega), Nat.mod_eq_of_lt (by omega)] at this
  exact hij this

/-! ## The deterministic generator -/

/-- A state of the generator that can be advanced: array sizes, and a call counter that still fits. -/
structure DrbgOK (ctx : DrbgCtx) : Prop where
  key : ctx.Key.length = 32
  v : ctx.V.length = 16
  counter : ctx.reseed_counter + 1 < 2 ^ 31

/-- C35: one call fills exactly `xlen` bytes with encryptions of `V + 1, V + 2, …`, leaves the rest of
the buffer alone, and replaces key and `V` by CTR_DRBG_Update.  Neither the old contents of the
buffer nor uninitialised memory matter. -/
theorem C35_randombytes (haes : Cipher aes) (g : Nat → Byte) {ctx : DrbgCtx} (h : DrbgOK ctx) {x : Bytes}
    {xlen : Nat} (hx : xlen ≤ x.length) (hlt : xlen < 2 ^ 31) :
    ∃ out Key V, drbgGenerate aes ctx.Key (beNat ctx.V) xlen = (out, Key, V) ∧ out.length = xlen ∧
      randombytes aes g ctx x xlen = .ok (⟨Key, V, ctx.reseed_counter + 1⟩, out ++ x.drop xlen, 0) := by
  have hV : toBE 16 (beNat ctx.V) = ctx.V := by rw [← h.v]; exact toBE_beNat _
  have e1 := randombytes_loop haes h.key (beNat ctx.V) xlen hlt ((xlen + 15) / 16) (2 ^ 64 + 2) 0 x (uninit g 16)
    (uninit_length _ _) hx (Nat.zero_le _) (by omega) (Nat.sub_zero _) x rfl hx
  simp only [Nat.mul_zero, Nat.sub_zero, Nat.add_zero, hV] at e1
  have e2 := update_spec haes g (pd := none) (fun d hd => absurd hd (by simp)) h.key
    (beNat ctx.V + (xlen + 15) / 16)
  refine ⟨_, _, _, rfl, ?_, ?_⟩
  · unfold drbgOut
    rw [List.length_take, cat_length (n := 16) fun _ _ => haes _ _ h.key (toBE_length _ _)]
    omega
  · unfold randombytes
    simp only [e1, ok_bind]
    rw [e2]
    simp only [ok_bind]
    rw [if_pos h.counter]
    rfl

/-- C35: `randombytes_init` is the update of the all-zero state by the seed material. -/
theorem C35_randombytes_init (haes : Cipher aes) (g : Nat → Byte) {ctx : DrbgCtx} (hk : ctx.Key.length = 32)
    (hv : ctx.V.length = 16) {entropy : Bytes} (he : entropy.length = 48) {ps : Option Bytes}
    (hps : ∀ d, ps = some d → d.length = 48) :
    randombytes_init aes g ctx entropy ps =
      .ok ⟨(drbgUpdate aes (xorBytes entropy (ps.getD (List.replicate 48 0))) (List.replicate 32 0) 0).1,
        (drbgUpdate aes (xorBytes entropy (ps.getD (List.replicate 48 0))) (List.replicate 32 0) 0).2, 1⟩ := by
  obtain ⟨h1, h2⟩ := xor_if_spec hps he
  have e := update_spec haes g (pd := some (xorBytes entropy (ps.getD (List.replicate 48 0))))
    (fun d hd => by cases hd; exact h2) (Key := List.replicate 32 0) List.length_replicate 0
  unfold randombytes_init
  rw [rd_ok (by omega)]
  simp only [ok_bind, List.drop_zero]
  rw [List.take_of_length_le (by omega), wr_ok (by rw [uninit_length]; omega), he, List.take_zero,
    List.nil_append, List.drop_of_length_le (by rw [uninit_length]; omega), List.append_nil]
  simp only [ok_bind]
  rw [h1]
  simp only [ok_bind]
  rw [wr_ok (by rw [List.length_replicate]; omega), wr_ok (by rw [List.length_replicate]; omega),
    List.length_replicate, List.length_replicate, List.take_zero, List.nil_append, List.take_zero, List.nil_append,
    List.drop_of_length_le (by omega), List.append_nil, List.drop_of_length_le (by omega), List.append_nil]
  simp only [ok_bind]
  have e' : AES256_CTR_DRBG_Update aes g (some (xorBytes entropy (ps.getD (List.replicate 48 0))))
      (List.replicate 32 0x00#8) (List.replicate 16 0x00#8) = _ := e
  rw [e']
  rfl

/-- Calls of `randombytes` one after the other, each with its own buffer. -/
def runDrbg (aes : Bytes → Bytes → Bytes) (g : Nat → Byte) :
    DrbgCtx → List (Bytes × Nat) → C (DrbgCtx × List Bytes)
  | ctx, [] => .ok (ctx, [])
  | ctx, r :: rs => do
    let (ctx, x, _) ← randombytes aes g ctx r.1 r.2
    let (ctx, outs) ← runDrbg aes g ctx rs
    .ok (ctx, x.take r.2 :: outs)

/-- C35: the outputs of any history are those of CTR_DRBG for the lengths requested, whatever was in
the buffers. -/
theorem C35_history (haes : Cipher aes) (g : Nat → Byte) (rs : List (Bytes × Nat))
    (hr : ∀ r ∈ rs, r.2 ≤ r.1.length ∧ r.2 < 2 ^ 31) (ctx : DrbgCtx) (hk : ctx.Key.length = 32)
    (hv : ctx.V.length = 16) (hc : ctx.reseed_counter + rs.length < 2 ^ 31) :
    ∃ ctx', runDrbg aes g ctx rs = .ok (ctx', drbgOutputs aes ctx.Key ctx.V (rs.map Prod.snd)) := by
  induction rs generalizing ctx with
  | nil => exact ⟨ctx, rfl⟩
  | cons r rs ih =>
    obtain ⟨h1, h2⟩ := hr r List.mem_cons_self
    rw [List.length_cons] at hc
    obtain ⟨out, Key, V, e1, e2, e3⟩ := C35_randombytes haes g ⟨hk, hv, by omega⟩ h1 h2
    have hl : Key.length = 32 ∧ V.length = 16 := by
      have hcat : (cat 3 fun j => aes ctx.Key (toBE 16 (beNat ctx.V + (r.2 + 15) / 16 + 1 + j))).length = 3 * 16 :=
        cat_length fun _ _ => haes _ _ hk (toBE_length _ _)
      have hx : (xorBytes (cat 3 fun j => aes ctx.Key (toBE 16 (beNat ctx.V + (r.2 + 15) / 16 + 1 + j)))
          (List.replicate 48 0)).length = 48 := by
        unfold xorBytes
        rw [List.length_zipWith, hcat, List.length_replicate]
        rfl
      unfold drbgGenerate drbgUpdate at e1
      simp only [Prod.mk.injEq] at e1
      rw [← e1.2.1, ← e1.2.2, List.length_take, List.length_drop, hx]
      omega
    obtain ⟨ctx', h⟩ := ih (fun q hq => hr q (List.mem_cons_of_mem _ hq)) ⟨Key, V, ctx.reseed_counter + 1⟩ hl.1 hl.2
      (by show ctx.reseed_counter + 1 + rs.length < 2 ^ 31; omega)
    refine ⟨ctx', ?_⟩
    rw [runDrbg]
    simp only [e3, ok_bind, h]
    rw [List.map_cons, drbgOutputs, e1]
    simp only
    rw [List.take_append_of_le_length (by omega), List.take_of_length_le (by omega)]

end

/-! ## AES-256 is a cipher; cases meeting the hypotheses -/

theorem expandKey_words (key : Bytes) (hk : key.length = 32) (k : Nat) :
    (Aes.expandKey key k).length = 8 + k ∧ ∀ w ∈ Aes.expandKey key k, w.length = 4 := by
  induction k with
  | zero =>
    refine ⟨by simp [Aes.expandKey], fun w hw => ?_⟩
    simp only [Aes.expandKey, List.mem_reverse, List.mem_map, List.mem_range] at hw
    obtain ⟨i, hi, rfl⟩ := hw
    exact chunk_length (by omega)
  | succ k ih =>
    obtain ⟨h1, h2⟩ := ih
    have hg : ∀ i, i < 8 → ((Aes.expandKey key k).getD i []).length = 4 := by
      intro i hi
      rw [getD_lt (by omega)]
      exact h2 _ (List.getElem_mem _)
    rw [Aes.expandKey]
    refine ⟨by simp only [List.length_cons, h1]; omega, fun w hw => ?_⟩
    rcases List.mem_cons.mp hw with rfl | hw
    · have h0 := hg 0 (by omega)
      have h7 := hg 7 (by omega)
      unfold xorBytes
      rw [List.length_zipWith, h7]
      split
      · rw [List.length_zipWith]
        simp only [List.length_map, List.length_append, List.length_drop, List.length_take, h0, List.length_cons,
          List.length_nil]
        rfl
      · split
        · rw [List.length_map, h0]
          rfl
        · rw [h0]
          rfl
    · exact h2 w hw

/-- AES-256 is a cipher in the sense of the theorems. -/
theorem aes256_cipher : Cipher Aes.aes256 := by
  intro key b hk hb
  obtain ⟨h1, h2⟩ := expandKey_words key hk 52
  have hrk : (Aes.roundKey (Aes.expandKey key 52).reverse 14).length = 16 := by
    unfold Aes.roundKey
    have hlen : ((((Aes.expandKey key 52).reverse).drop (4 * 14)).take 4).length = 4 := by
      rw [List.length_take, List.length_drop, List.length_reverse, h1]
      rfl
    have hmem : ∀ w ∈ (((Aes.expandKey key 52).reverse).drop (4 * 14)).take 4, w.length = 4 := by
      intro w hw
      exact h2 w (List.mem_reverse.mp (List.mem_of_mem_drop (List.mem_of_mem_take hw)))
    generalize (((Aes.expandKey key 52).reverse).drop (4 * 14)).take 4 = ws at hlen hmem
    match ws, hlen with
    | [w0, w1, w2, w3], _ =>
      have := hmem w0 (by simp)
      have := hmem w1 (by simp)
      have := hmem w2 (by simp)
      have := hmem w3 (by simp)
      simp only [List.flatten_cons, List.flatten_nil, List.length_append, List.length_nil]
      omega
  unfold Aes.aes256
  simp only
  unfold xorBytes
  rw [List.length_zipWith, hrk]
  simp [Aes.shiftRows]

/-- A list of requests with what the theorem says about it: with limit 100 requests for 0, 20, 90 and
79 bytes, a null pointer and one more byte; the third and the last two are refused. -/
theorem expander_case {aes : Bytes → Bytes → Bytes} (haes : Cipher aes) {ctx : XofCtx} (hs : XofSized ctx)
    {seed diversifier x20 x90 x79 : Bytes} (hseed : seed.length = 32) (hdiv : diversifier.length = 8)
    (h20 : x20.length = 20) (h90 : x90.length = 90) (h79 : x79.length = 79) :
    ∃ ctx0 ctx', seedexpander_init ctx seed diversifier 100 = .ok (ctx0, 0) ∧
    ∃ o1 o2 : Bytes, o1.length = 20 ∧ o2.length = 79 ∧
      runExpander aes ctx0 [(some [], 0), (some x20, 20), (some x90, 90), (some x79, 79), (none, 1), (some [4], 1)] =
        .ok (ctx', [(some [], 0), (some o1, 0), (some x90, -3), (some o2, 0), (none, -2), (some [4], -3)]) := by
  obtain ⟨ctx0, ctx', h1, h2⟩ := C34_history haes hs hseed hdiv (maxlen := 100) (by decide)
    [(some [], 0), (some x20, 20), (some x90, 90), (some x79, 79), (none, 1), (some [4], 1)] (by
        intro r hr x hx
        simp only [List.mem_cons, List.not_mem_nil, or_false] at hr
        rcases hr with rfl | rfl | rfl | rfl | rfl | rfl <;> cases hx <;>
          simp only [List.length_nil, List.length_cons, h20, h90, h79] <;> omega)
  refine ⟨ctx0, ctx', h1, xofStream aes seed (xofPrefix diversifier 100) 0 20,
    xofStream aes seed (xofPrefix diversifier 100) 20 79, xofStream_length _ _ _ _, xofStream_length _ _ _ _, ?_⟩
  rw [h2]
  have h0 : xofStream aes seed (xofPrefix diversifier 100) 0 0 = [] :=
    List.eq_nil_of_length_eq_zero (xofStream_length _ _ _ _)
  have d20 : x20.drop 20 = [] := List.drop_of_length_le (by omega)
  have d79 : x79.drop 79 = [] := List.drop_of_length_le (by omega)
  simp [answers, h0, d20, d79]

/-- A state and inputs meeting its hypotheses, with AES-256. -/
example : XofSized ⟨List.replicate 16 9, 3, 5, List.replicate 32 9, List.replicate 16 9⟩ ∧ Cipher Aes.aes256 :=
  ⟨⟨List.length_replicate, List.length_replicate, List.length_replicate⟩, aes256_cipher⟩

/-- A generator state with two requests meeting the hypotheses of `C35_history`. -/
example (g : Nat → Byte) : ∃ ctx', runDrbg Aes.aes256 g ⟨List.replicate 32 1, List.replicate 16 0xff, 1⟩
      [(List.replicate 20 3, 17), ([], 0)] =
    .ok (ctx', drbgOutputs Aes.aes256 (List.replicate 32 1) (List.replicate 16 0xff) [17, 0]) :=
  C35_history aes256_cipher g [(List.replicate 20 3, 17), ([], 0)] (by
      intro r hr
      simp only [List.mem_cons, List.not_mem_nil, or_false] at hr
      rcases hr with rfl | rfl <;> simp) _ List.length_replicate List.length_replicate (by decide)

end Spx.Rng
