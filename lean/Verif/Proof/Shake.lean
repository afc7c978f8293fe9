import Verif.Proof.Fips202
/-! SHAKE256: one-shot and incremental interface compute the specification. -/

namespace Spx
open Spec Spec.Keccak

attribute [local irreducible] keccakF

theorem xorAt_get (st : Bytes) (c : Nat) (t : Bytes) (j : Nat) :
    (xorAt st c t)[j]? = (st[j]?).map (· ^^^ (if c ≤ j then t.getD (j - c) 0#8 else 0#8)) := by
  induction t generalizing st c with
  | nil => simp [xorAt]
  | cons b t ih =>
    rw [xorAt, ih, List.getElem?_modify]
    by_cases h : c = j
    · subst h
      cases st[c]? <;> simp [show ¬ c + 1 ≤ c by omega]
    · by_cases h1 : c ≤ j
      · have : j - c = (j - (c + 1)) + 1 := by omega
        simp [h, h1, show c + 1 ≤ j by omega, this]
      · simp [h, h1, show ¬ c + 1 ≤ j by omega]

theorem byteOf_or (a b : BitVec 64) (c : Nat) : byteOf (a ||| b) c = byteOf a c ||| byteOf b c := by
  apply BitVec.eq_of_getLsbD_eq
  intro i hi
  simp [byteOf, hi]

theorem load64_spec {x : Bytes} (h : 8 ≤ x.length) :
    ∃ v, load64 x = .ok v ∧ ∀ c, c < 8 → byteOf v c = x.getD c 0 := by
  unfold load64
  obtain ⟨v, hv, hI⟩ := forRange_inv (n := 8) (s := 0#64)
    (body := fun i r => do .ok (r ||| ((← rd1 x i).zeroExtend 64 <<< (8 * i))))
    (fun i v => ∀ c, c < 8 → byteOf v c = if c < i then x.getD c 0 else 0)
    (by intro c _; simp [byteOf]) (by
      intro i r hi hr
      refine ⟨_, by rw [rd1_ok (by omega)]; rfl, ?_⟩
      intro c hc
      rw [byteOf_or, hr c hc, byteOf_shl _ _ _ hi hc]
      by_cases h1 : c = i
      · subst h1; simp [show c < x.length by omega]
      · by_cases h2 : c < i
        · simp [h1, h2, show c < i + 1 by omega]
        · simp [h1, h2, show ¬ c < i + 1 by omega])
  exact ⟨v, hv, fun c hc => by rw [hI c hc, if_pos hc]⟩

theorem store64_spec {x : Bytes} (h : 8 ≤ x.length) (u : BitVec 64) :
    store64 x u = .ok ((List.range 8).map (byteOf u) ++ x.drop 8) := by
  unfold store64
  refine forRange_eq' (fun i => (List.range i).map (byteOf u) ++ x.drop i) (by simp) rfl ?_
  intro i hi
  exact wr1_fill (g := byteOf u) (by omega)

/-- `s[i] ^= load64(m + 8 * i)` for the words of one block. -/
theorem xor_words {r : Nat} (hr : r ≤ 200) (h8 : r % 8 = 0) {t : List (BitVec 64)} (ht : t.length = 25)
    {m : Bytes} (hm : r ≤ m.length) :
    ∃ t', forRange (r / 8) (fun i s => do
      wr1 s i ((← rd1 s i) ^^^ (← load64 (← sub m (8 * i))))) t = .ok t' ∧ t'.length = 25 ∧
      wordsB t' = xorAt (wordsB t) 0 (m.take r) := by
  obtain ⟨t', e, h1, h2⟩ := forRange_inv (n := r / 8) (s := t)
    (body := fun i s => do wr1 s i ((← rd1 s i) ^^^ (← load64 (← sub m (8 * i)))))
    (fun i s => s.length = 25 ∧ wordsB s = xorAt (wordsB t) 0 (m.take (8 * i)))
    ⟨ht, by simp [xorAt]⟩ (by
      intro i s hi ⟨hs, hw⟩
      obtain ⟨v, hv, hb⟩ := load64_spec (x := m.drop (8 * i)) (by simp; omega)
      have hil : i < s.length := by omega
      refine ⟨s.set i (s.getD i 0 ^^^ v), ?_, by simpa using hs, ?_⟩
      · rw [rd1_ok hil, ok_bind, sub_ok (by omega), ok_bind, hv, ok_bind, wr1_ok hil, getD_lt hil]
      · rw [wordsB_set_xor hil]
        apply List.ext_getElem?
        intro j
        by_cases hj : j < 8 * s.length
        · have hw' := congrArg (fun l : Bytes => l[j]?) hw
          simp only [wordsB_get hj, xorAt_get, wordsB_get (s := t) (j := j) (by omega), Option.map_some,
            Option.some.injEq, Nat.zero_le, if_true, Nat.sub_zero] at hw'
          simp only [List.getElem?_map, List.getElem?_range hj, Option.map_some,
            xorAt_get, wordsB_get (s := t) (j := j) (by omega), Option.some.injEq, Nat.zero_le, if_true,
            Nat.sub_zero]
          rw [hw']
          by_cases h1 : j / 8 = i
          · rw [if_pos h1, hb _ (by omega)]
            simp only [List.getD, List.getElem?_take, List.getElem?_drop]
            rw [if_neg (by omega), if_pos (by omega), show 8 * i + j % 8 = j by omega]
            simp
          · rw [if_neg h1]
            simp only [List.getD, List.getElem?_take]
            by_cases h2 : j < 8 * i
            · rw [if_pos h2, if_pos (by omega)]; simp
            · rw [if_neg h2, if_neg (by omega)]; simp
        · rw [List.getElem?_eq_none (by simp; omega), List.getElem?_eq_none (by simp; omega)])
  exact ⟨t', e, h1, by rw [h2, show 8 * (r / 8) = r by omega]⟩

theorem KeccakF1600_25 {s : List (BitVec 64)} (h : s.length = 25) :
    ∃ t, KeccakF1600_StatePermute s = .ok t ∧ t.length = 25 ∧ wordsB t = keccakF (wordsB s) := by
  obtain ⟨t, e, ht, hw⟩ := KeccakF1600_spec (s := s) (by omega)
  refine ⟨t, by rw [e, ← h]; simp, ht, by rw [hw, ← h]; simp⟩

theorem keccak_absorb_loop {r : Nat} (hr0 : 0 < r) (hr : r ≤ 200) (h8 : r % 8 = 0) :
    ∀ (fuel : Nat) (s : List (BitVec 64)) (m : Bytes) (mlen : Nat), s.length = 25 → mlen ≤ m.length →
    mlen < fuel → ∃ s' m' len', loop fuel (keccak_absorb_block r) (s, m, mlen) = .ok (s', m', len') ∧
      s'.length = 25 ∧ len' < r ∧ len' ≤ m'.length ∧
      (m'.take len').foldl (absB keccakF r) (wordsB s', 0) =
        (m.take mlen).foldl (absB keccakF r) (wordsB s, 0) := by
  intro fuel
  induction fuel with
  | zero => intro s m mlen _ _ h; omega
  | succ fuel ih =>
    intro s m mlen hs hm hf
    rw [loop_succ]
    by_cases hlt : mlen ≥ r
    · obtain ⟨s1, e1, hs1, hw1⟩ := xor_words hr h8 hs (m := m) (by omega)
      obtain ⟨s2, e2, hs2, hw2⟩ := KeccakF1600_25 hs1
      have hb : keccak_absorb_block r (s, m, mlen) = .ok (.inl (s2, m.drop r, mlen - r)) := by
        unfold keccak_absorb_block
        simp only [if_pos hlt, e1, ok_bind, e2, sub_ok (show r ≤ m.length by omega)]
      rw [hb]
      simp only [ok_bind]
      obtain ⟨s', m', len', h1, h2, h3, h4, h5⟩ := ih s2 (m.drop r) (mlen - r) hs2 (by simp; omega) (by omega)
      refine ⟨s', m', len', h1, h2, h3, h4, ?_⟩
      have e : m.take mlen = m.take r ++ (m.drop r).take (mlen - r) := by
        rw [← List.take_add]; congr 1; omega
      rw [h5, e, List.foldl_append, foldl_absB_eq keccakF r (wordsB s) 0 (m.take r) hr0 (by simp; omega), hw2, hw1]
    · have hb : keccak_absorb_block r (s, m, mlen) = .ok (.inr (s, m, mlen)) := by
        unfold keccak_absorb_block
        simp only [if_neg hlt]
      rw [hb]
      exact ⟨s, m, mlen, rfl, hs, by omega, hm, rfl⟩

theorem fill_zero {α : Type} (x : α) (n : Nat) (l : List α) (h : n ≤ l.length) :
    forRange n (fun i (t : List α) => wr1 t i x) l = .ok (List.replicate n x ++ l.drop n) := by
  refine forRange_eq' (fun i => List.replicate i x ++ l.drop i) (by simp) rfl ?_
  intro i hi
  rw [wr1_ok (by simp; omega), List.set_append, if_neg (by simp)]
  simp only [List.length_replicate, Nat.sub_self]
  rw [List.drop_eq_getElem_cons (by omega), List.set_cons_zero, List.replicate_succ', List.append_assoc]
  rfl

theorem copy_loop {α : Type} (m l : List α) (n : Nat) (hm : n ≤ m.length) (hl : n ≤ l.length) :
    forRange n (fun i (t : List α) => do wr1 t i (← rd1 m i)) l = .ok (m.take n ++ l.drop n) := by
  refine forRange_eq' (fun i => m.take i ++ l.drop i) (by simp) rfl ?_
  intro i hi
  have hlen : (m.take i).length = i := by simp; omega
  rw [rd1_ok (by omega), ok_bind, wr1_ok (by simp; omega), List.set_append, if_neg (by omega), hlen, Nat.sub_self,
    List.drop_eq_getElem_cons (by omega), List.set_cons_zero, take_succ_get (by omega), List.append_assoc]
  rfl

theorem xorAt_modify (S B : Bytes) {k : Nat} (hk : k < B.length) (x : Byte) :
    xorAt S 0 (B.modify k (· ^^^ x)) = (xorAt S 0 B).modify k (· ^^^ x) := by
  apply List.ext_getElem?
  intro j
  rw [List.getElem?_modify, xorAt_get, xorAt_get]
  by_cases h : k = j
  · subst h
    cases S[k]? with
    | none => simp
    | some y => simp [List.getD, hk, BitVec.xor_assoc]
  · simp [h, List.getD]

theorem or_last {B rest : Bytes} {r : Nat} (hr0 : 0 < r) (hB : B.length = r)
    (hx : B.getD (r - 1) 0#8 ||| 128#8 = B.getD (r - 1) 0#8 ^^^ 128#8) :
    rd1 (B ++ rest) (r - 1) = .ok (B.getD (r - 1) 0#8) ∧
      wr1 (B ++ rest) (r - 1) (B.getD (r - 1) 0#8 ||| 128#8) =
        .ok (B.modify (r - 1) (· ^^^ 128#8) ++ rest) := by
  have hl : r - 1 < B.length := by omega
  constructor
  · rw [rd1_ok (by simp; omega), List.getElem_append_left hl, getD_lt hl]
  · rw [wr1_ok (by simp; omega), set_append_left' hl, hx, getD_lt hl]
    congr 2
    apply List.ext_getElem?
    intro j
    rw [List.getElem?_modify, List.getElem?_set]
    by_cases hj : r - 1 = j
    · subst hj; simp [hl]
    · simp [hj]

theorem keccak_absorb_spec {r : Nat} (hr0 : 0 < r) (hr : r ≤ 200) (h8 : r % 8 = 0) (g : Nat → Byte)
    {s : List (BitVec 64)} (hs : s.length = 25) {m : Bytes} {mlen : Nat} (hm : mlen ≤ m.length) {p : Byte}
    (hp : p ||| 128#8 = p ^^^ 128#8) :
    ∃ s', keccak_absorb g s r m mlen p = .ok s' ∧ s'.length = 25 ∧
      wordsB s' = padState r p ((m.take mlen).foldl (absB keccakF r) (List.replicate 200 0#8, 0)) := by
  obtain ⟨s1, m1, len1, e1, hs1, hl1, hm1, hf⟩ := keccak_absorb_loop hr0 hr h8 (mlen + 1)
    (List.replicate 25 0#64) m mlen (by simp) hm (by omega)
  have hz : wordsB (List.replicate 25 0#64) = List.replicate 200 0#8 := by decide +kernel
  have hT2 : forRange len1 (fun i (t : Bytes) => do wr1 t i (← rd1 m1 i))
      (List.replicate r 0#8 ++ (uninit g 200).drop r) =
      .ok (m1.take len1 ++ (List.replicate (r - len1) 0#8 ++ (uninit g 200).drop r)) := by
    rw [copy_loop _ _ _ hm1 (by simp; omega), List.drop_append_of_le_length (by simp; omega)]
    simp
  have hlen1 : (m1.take len1).length = len1 := by simp; omega
  have hT3 : wr1 (m1.take len1 ++ (List.replicate (r - len1) 0#8 ++ (uninit g 200).drop r)) len1 p =
      .ok (m1.take len1 ++ (p :: List.replicate (r - len1 - 1) 0#8) ++ (uninit g 200).drop r) := by
    rw [wr1_ok (by simp; omega), List.set_append, if_neg (by omega), hlen1, Nat.sub_self]
    obtain ⟨k, hk⟩ : ∃ k, r - len1 = k + 1 := ⟨r - len1 - 1, by omega⟩
    rw [hk, List.replicate_succ]
    simp
  have hblk : (m1.take len1 ++ (p :: List.replicate (r - len1 - 1) 0#8)).length = r := by
    simp; omega
  have hx : (m1.take len1 ++ (p :: List.replicate (r - len1 - 1) 0#8)).getD (r - 1) 0#8 ||| 128#8 =
      (m1.take len1 ++ (p :: List.replicate (r - len1 - 1) 0#8)).getD (r - 1) 0#8 ^^^ 128#8 := by
    rw [getD_append_right (by omega), hlen1]
    by_cases h : r - 1 = len1
    · rw [h, Nat.sub_self]; exact hp
    · obtain ⟨k, hk⟩ : ∃ k, r - 1 - len1 = k + 1 := ⟨r - 1 - len1 - 1, by omega⟩
      rw [hk, List.getD_cons_succ]
      have : (List.replicate (r - len1 - 1) 0#8).getD k 0#8 = 0#8 := by
        simp only [List.getD, List.getElem?_replicate]
        split <;> rfl
      rw [this]; rfl
  obtain ⟨e3, e4⟩ := or_last (rest := (uninit g 200).drop r) hr0 hblk hx
  obtain ⟨s5, e5, hs5, hw5⟩ := xor_words hr h8 hs1
    (m := (m1.take len1 ++ (p :: List.replicate (r - len1 - 1) 0#8)).modify (r - 1) (· ^^^ 128#8) ++
      (uninit g 200).drop r) (by rw [List.length_append, List.length_modify, hblk]; omega)
  refine ⟨s5, ?_, hs5, ?_⟩
  · unfold keccak_absorb
    rw [fill_zero _ _ _ (by omega), List.drop_of_length_le (by omega), List.append_nil, ok_bind, e1]
    simp only [ok_bind]
    rw [fill_zero _ _ _ (by simp; omega), ok_bind, hT2, ok_bind, hT3, ok_bind, e3, ok_bind, e4, ok_bind, e5]
  · rw [hw5, List.take_left' (by rw [List.length_modify, hblk]), xorAt_modify _ _ (by omega), xorAt_append,
      xorAt, xorAt_zero, ← hz, ← hf, foldl_absB_lt _ _ _ _ _ (by omega)]
    rfl

theorem withSub_fill {α β : Type} {l : List α} {g : Nat → α} {p q : Nat}
    {f : List α → C (List α × β)} {x : β}
    (hf : f (l.drop p) = .ok ((List.range q).map (fun i => g (p + i)) ++ l.drop (p + q), x)) :
    withSub ((List.range p).map g ++ l.drop p) p f =
      .ok ((List.range (p + q)).map g ++ l.drop (p + q), x) := by
  have h1 : ((List.range p).map g ++ l.drop p).drop p = l.drop p := by
    rw [List.drop_append, List.drop_of_length_le (by simp)]; simp
  rw [withSub_ok (by simp) (by rw [h1]; exact hf)]
  congr 1
  rw [List.take_left' (by simp), List.range_add, List.map_append, List.map_map, List.append_assoc]
  rfl

/-- Squeezing whole blocks from the state `s`. -/
theorem keccak_squeezeblocks_spec {r : Nat} (hr0 : 0 < r) (hr : r ≤ 200) (h8 : r % 8 = 0) {s : List (BitVec 64)}
    (hs : s.length = 25) {h : Bytes} {nb : Nat} (hl : nb * r ≤ h.length) :
    ∃ s', keccak_squeezeblocks h nb s r =
      .ok ((List.range (nb * r)).map (stream keccakF r (wordsB s)) ++ h.drop (nb * r), s') ∧
      s'.length = 25 ∧ wordsB s' = iter keccakF nb (wordsB s) := by
  have h3 : r >>> 3 = r / 8 := by rw [Nat.shiftRight_eq_div_pow]
  unfold keccak_squeezeblocks
  rw [h3]
  obtain ⟨⟨h', off', s'⟩, e, e1, e2, e3, e4⟩ := forRange_inv (n := nb) (s := (h, 0, s))
    (body := fun _ (st : Bytes × Nat × List (BitVec 64)) => do
      let (h, off, s) := st
      let s ← KeccakF1600_StatePermute s
      let (h, _) ← withSub h off (fun hh => do
        let hh ← forRange (r / 8) (fun i hh => do
          let (hh, _) ← withSub hh (8 * i) (fun x => do .ok (← store64 x (← rd1 s i), ()))
          .ok hh) hh
        .ok (hh, ()))
      .ok (h, off + r, s))
    (fun j st => st.1 = (List.range (j * r)).map (stream keccakF r (wordsB s)) ++ h.drop (j * r) ∧
      st.2.1 = j * r ∧ st.2.2.length = 25 ∧ wordsB st.2.2 = iter keccakF j (wordsB s))
    ⟨by simp, by simp, hs, rfl⟩ (by
      rintro j ⟨h1, off, s1⟩ hj ⟨rfl, rfl, hs1, hw1⟩
      simp only at hs1 hw1
      obtain ⟨s2, e2, hs2, hw2⟩ := KeccakF1600_25 hs1
      have hjr : (j + 1) * r ≤ h.length := Nat.le_trans (Nat.mul_le_mul_right r hj) hl
      rw [Nat.succ_mul] at hjr
      have inner : ∀ l : Bytes, r ≤ l.length → forRange (r / 8) (fun i hh => do
          let (hh, _) ← withSub hh (8 * i) (fun x => do .ok (← store64 x (← rd1 s2 i), ()))
          .ok hh) l = .ok ((List.range r).map (fun i => stream keccakF r (wordsB s) (j * r + i)) ++ l.drop r) := by
        intro l hll
        have key : ∀ i, i < r → stream keccakF r (wordsB s) (j * r + i) = byteOf (s2.getD (i / 8) 0) (i % 8) := by
          intro i hi
          rw [← wordsB_getD (by omega), hw2, hw1]
          have := stream_eq (r := r) (K := j * r) (c := r) (q := j + 1) (i := i) (fin := wordsB s)
            (by rw [Nat.mul_succ, Nat.mul_comm]) (Nat.le_refl _) hi
          rw [this, Nat.sub_self, Nat.zero_add]; rfl
        refine forRange_eq' (fun i => (List.range (8 * i)).map
          (fun i => stream keccakF r (wordsB s) (j * r + i)) ++ l.drop (8 * i)) (by simp)
          (by rw [show 8 * (r / 8) = r by omega]) ?_
        intro i hi
        have hw := withSub_fill (l := l) (g := fun i => stream keccakF r (wordsB s) (j * r + i)) (p := 8 * i)
          (q := 8) (f := fun x => do .ok (← store64 x (← rd1 s2 i), ())) (x := ()) (by
            rw [rd1_ok (by omega), ok_bind, store64_spec (by simp; omega), ok_bind, List.drop_drop]
            congr 2
            congr 1
            apply List.map_congr_left
            intro c hc
            have hc : c < 8 := List.mem_range.1 hc
            rw [key _ (by omega), show (8 * i + c) / 8 = i by omega, show (8 * i + c) % 8 = c by omega,
              getD_lt (by omega)])
        simp only [hw, ok_bind, Nat.mul_succ]
      have hws := withSub_fill (l := h) (g := stream keccakF r (wordsB s)) (p := j * r) (q := r)
        (f := fun hh => do
          let hh ← forRange (r / 8) (fun i hh => do
            let (hh, _) ← withSub hh (8 * i) (fun x => do .ok (← store64 x (← rd1 s2 i), ()))
            .ok hh) hh
          .ok (hh, ())) (x := ()) (by
            rw [inner _ (by simp; omega), ok_bind, List.drop_drop])
      refine ⟨((List.range (j * r + r)).map (stream keccakF r (wordsB s)) ++ h.drop (j * r + r),
        j * r + r, s2), ?_, by rw [Nat.succ_mul], by rw [Nat.succ_mul], hs2, ?_⟩
      · simp only [e2, ok_bind, hws]
      · simp only [hw2, hw1, iter])
  simp only at e1 e2 e3 e4
  rw [e]
  exact ⟨s', by simp only [ok_bind, e1], e3, e4⟩

theorem keccakF_len : ∀ s : Bytes, s.length = 200 → (keccakF s).length = 200 :=
  fun s _ => keccakF_length s

/-- Absorbing state of the incremental interface: the bytes absorbed so far. -/
def ShakeAbs (s : List (BitVec 64)) (m : Bytes) : Prop :=
  Rep s (m.foldl (absB keccakF 136) (List.replicate 200 0#8, 0))

/-- Squeezing state of the incremental interface: message and number of bytes squeezed so far. -/
def ShakeSq (s : List (BitVec 64)) (m : Bytes) (k : Nat) : Prop :=
  Sq 136 (padState 136 0x1F#8 (m.foldl (absB keccakF 136) (List.replicate 200 0#8, 0))) k s

theorem shake256_inc_init_spec {s : List (BitVec 64)} (h : s.length = 26) :
    ∃ s', shake256_inc_init s = .ok s' ∧ ShakeAbs s' [] := keccak_inc_init_spec h

theorem shake256_inc_absorb_spec {s : List (BitVec 64)} {m x : Bytes} {len : Nat} (h : ShakeAbs s m)
    (hl : len ≤ x.length) :
    ∃ s', shake256_inc_absorb s x len = .ok s' ∧ ShakeAbs s' (m ++ x.take len) := by
  obtain ⟨s', e, hR⟩ := keccak_inc_absorb_spec (r := 136) (by decide) h
    (foldl_absB_snd keccakF m (by decide)) hl
  exact ⟨s', e, by rw [ShakeAbs, List.foldl_append]; exact hR⟩

theorem shake256_inc_finalize_spec {s : List (BitVec 64)} {m : Bytes} (h : ShakeAbs s m) :
    ∃ s', shake256_inc_finalize s = .ok s' ∧ ShakeSq s' m 0 := by
  obtain ⟨s', e, hR⟩ := keccak_inc_finalize_spec (r := 136) (by decide) (by decide) h
    (foldl_absB_snd keccakF m (by decide)) 0x1F#8
  exact ⟨s', e, 0, 0, hR, rfl, by decide⟩

theorem shake256_bytes (m : Bytes) (n : Nat) : Keccak.shake256 m n =
    (List.range n).map (stream keccakF 136
      (padState 136 0x1F#8 (m.foldl (absB keccakF 136) (List.replicate 200 0#8, 0)))) :=
  sponge_eq keccakF_len (by decide) (by decide) m n

theorem shake256_inc_squeeze_spec {s : List (BitVec 64)} {m h : Bytes} {k n : Nat} (hs : ShakeSq s m k)
    (hl : n ≤ h.length) :
    ∃ s', shake256_inc_squeeze h n s = .ok ((Keccak.shake256 m (k + n)).drop k ++ h.drop n, s') ∧
      ShakeSq s' m (k + n) := by
  obtain ⟨s', e, hS⟩ := keccak_inc_squeeze_spec (r := 136) (by decide) (by decide) hs hl
  refine ⟨s', ?_, hS⟩
  rw [shake256_bytes, List.range_add, List.map_append, List.drop_append, List.drop_of_length_le (by simp),
    List.nil_append, List.length_map, List.length_range, Nat.sub_self, List.drop_zero, List.map_map]
  exact e

/-- `shake256` writes exactly the SHAKE256 output. -/
theorem shake256_spec (g : Nat → Nat → Byte) {out input : Bytes} {outlen inlen : Nat}
    (ho : outlen ≤ out.length) (hi : inlen ≤ input.length) :
    shake256 g out outlen input inlen = .ok (Keccak.shake256 (input.take inlen) outlen ++ out.drop outlen) := by
  obtain ⟨s1, e1, hs1, hw1⟩ := keccak_absorb_spec (r := 136) (by decide) (by decide) (by decide) (g 0)
    (s := uninit (fun i => (g 2 i).zeroExtend 64) 25) (by simp) hi (p := 0x1F#8) (by decide)
  have hq : outlen / 136 * 136 ≤ outlen := Nat.div_mul_le_self _ _
  obtain ⟨s2, e2, hs2, hw2⟩ := keccak_squeezeblocks_spec (r := 136) (by decide) (by decide) (by decide) hs1
    (h := out) (nb := outlen / 136) (by omega)
  obtain ⟨s3, e3, hs3, hw3⟩ := keccak_squeezeblocks_spec (r := 136) (by decide) (by decide) (by decide) hs2
    (h := uninit (g 1) 136) (nb := 1) (by simp)
  rw [shake256_bytes, ← hw1]
  unfold shake256 shake256_absorb shake256_squeezeblocks SHAKE256_RATE
  simp only [e1, ok_bind, e2]
  by_cases h0 : outlen - outlen / 136 * 136 ≠ 0
  · rw [if_pos h0, e3]
    simp only [ok_bind]
    refine forRange_eq' (fun i => (List.range (outlen / 136 * 136 + i)).map (stream keccakF 136 (wordsB s1)) ++
      out.drop (outlen / 136 * 136 + i)) rfl (by rw [show outlen / 136 * 136 + (outlen - outlen / 136 * 136) = outlen by omega]) ?_
    intro i hi
    have hmod : outlen - outlen / 136 * 136 < 136 := by omega
    have hst : stream keccakF 136 (wordsB s2) i = stream keccakF 136 (wordsB s1) (outlen / 136 * 136 + i) := by
      rw [stream, stream, hw2, show i / 136 = 0 by omega,
        show (outlen / 136 * 136 + i) / 136 = outlen / 136 by omega,
        show (outlen / 136 * 136 + i) % 136 = i % 136 by omega]
      rfl
    rw [rd1_ok (by simp; omega), ok_bind, List.getElem_append_left (by simp; omega)]
    simp only [List.getElem_map, List.getElem_range]
    rw [hst]
    exact wr1_fill (g := stream keccakF 136 (wordsB s1)) (by omega)
  · rw [if_neg h0, show outlen / 136 * 136 = outlen by omega]

end Spx
