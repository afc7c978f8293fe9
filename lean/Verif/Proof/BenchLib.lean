import Verif.Proof.LeakOpt
import Verif.Props.Leak
import Verif.Proof.Bench
import Verif.Proof.Tests
/-! The functions which the benchmark programs call with an uninitialised context and with arbitrary addresses.

On all contexts and addresses of the same sizes they behave alike (this is what the traces were for), so that the calls of
the signing code show that these succeed as well. -/

namespace Spx.Bench
open Spec Leak

theorem relC_ok {α β : Type} {R : α → β → Prop} {x : C α} {b : β} (h : RelC R x (.ok b)) : ∃ a, x = .ok a ∧ R a b := by
  cases x with
  | ok a => exact ⟨a, rfl, h⟩
  | error => exact h.elim

theorem zero_ok : zeroADRS.OK := okA (by decide) (by decide) (by decide) (by decide) (by decide) (by decide)

section
variable {P : Params} {H : Leak.HashImpl} (hH : HashLow P H H) {S : Spec.Hash} (R : Refines P H.erase S) {c : Ctx}
  (hc : Sized P c)
include hH hc

/-- There is an initialised context of the same sizes. -/
theorem exists_ready : ∃ c', R.CtxOK c' ∧ CtxLow c c' := by
  obtain ⟨c', e, hok, -, -⟩ := R.init c hc.1 hc.2 hc.3 hc.4 hc.5 hc.6 hc.7
  have h := (hH.init c c (hc.low hc)).2
  change RelC _ (H.erase.initialize_hash_function c) (H.erase.initialize_hash_function c) at h
  rw [e] at h
  have k := h.2
  exact ⟨c', hok, k.1.symm, k.2.symm, k.3.symm, k.4.symm, k.5.symm, k.6.symm, k.7.symm⟩

include R

theorem thash_runs {a : Addr} (ha : a.length = 32) {inp : Bytes} {b : Nat} (h1 : 1 ≤ b) (hi : b * P.n ≤ inp.length)
    (hb : b * P.n < 2 ^ 31) : ∃ o, H.erase.thash inp b c a = .ok o ∧ o.length = P.n := by
  obtain ⟨c', hok, hl⟩ := exists_ready hH R hc
  have h := (hH.thash inp inp b c c' a (enc P.fam zeroADRS) rfl hl (ha.trans (enc_length _ _).symm)).2
  change RelC _ (H.erase.thash inp b c a) (H.erase.thash inp b c' (enc P.fam zeroADRS)) at h
  rw [R.thash c' zeroADRS inp b hok zero_ok h1 hi hb] at h
  obtain ⟨o, e, ho⟩ := relC_ok h
  exact ⟨o, e, ho.1⟩

theorem prf_runs {a : Addr} (ha : a.length = 32) : ∃ o, H.erase.prf_addr c a = .ok o ∧ o.length = P.n := by
  obtain ⟨c', hok, hl⟩ := exists_ready hH R hc
  have h := (hH.prf c c' a (enc P.fam zeroADRS) hl (ha.trans (enc_length _ _).symm)).2
  change RelC _ (H.erase.prf_addr c a) (H.erase.prf_addr c' (enc P.fam zeroADRS)) at h
  rw [R.prf c' zeroADRS hok zero_ok] at h
  obtain ⟨o, e, ho⟩ := relC_ok h
  exact ⟨o, e, ho.1⟩

theorem fors_runs (hP : P.Valid) {G : Nat → Nat → Byte} {T : Leak.TreeCode} {K : TreeCode} (hT : TreeLow P T T) (hE : T.Erases K)
    (hK : TreeCodeOK (E := ⟨P, H.erase, G⟩) R K) {a : Addr} (ha : a.length = 32) {sig m : Bytes}
    (hs : sig.length = P.forsBytes) (hm : m.length = P.forsMsgBytes) :
    ∃ sg pk, K.fors_sign sig m c a = .ok (sg, pk) ∧ sg.length = P.forsBytes ∧ pk.length = P.n := by
  obtain ⟨c', hok, hl⟩ := exists_ready hH R hc
  have hm' : P.forsTrees * P.forsHeight ≤ 8 * m.length := by
    rw [hm]
    unfold Params.forsMsgBytes
    rw [Nat.mul_comm]
    omega
  have h := (hT.fors_sign hl (sig := sig) (sig' := sig) (m := m) rfl hm' (ha.trans (enc_length P.fam zeroADRS).symm)).2
  rw [hE.fors_sign, hE.fors_sign, hK.fors_sign hok (tree := 0) (kp := 0) (by decide) (by decide) rfl rfl rfl (by
    have e : P.forsBytes = (P.forsHeight + 1) * P.forsTrees * P.n := rfl
    show P.forsTrees * ((P.forsHeight + 1) * P.n) ≤ _
    rw [hs, e, ← Nat.mul_assoc, Nat.mul_comm P.forsTrees]) hm'] at h
  obtain ⟨⟨sg, pk⟩, e, h1, h2⟩ := relC_ok h
  refine ⟨sg, pk, e, ?_, h2.1⟩
  have hfl := forsSig_length (E := ⟨P, H.erase, G⟩) R hP (pub := c'.pub_seed) (sk := c'.sk_seed) (tree := 0) (kp := 0) (md := m)
  rw [h1, List.length_append, hfl, List.length_drop, hs]
  have e1 : P.forsBytes = P.forsTrees * ((P.forsHeight + 1) * P.n) := by
    show (P.forsHeight + 1) * P.forsTrees * P.n = _
    rw [← Nat.mul_assoc, Nat.mul_comm P.forsTrees]
  show P.forsTrees * ((P.forsHeight + 1) * P.n) + (P.forsBytes - P.forsTrees * ((P.forsHeight + 1) * P.n)) = P.forsBytes
  omega

end

/-! ### WOTS public keys -/

section
variable {f : Family} {a : Addr} (h : a.length = 32)
include h

theorem set_kp_runs (k : Nat) : ∃ a', set_keypair_addr f a k = .ok a' ∧ a'.length = 32 := by
  have ho : f.offKp + 4 ≤ 32 := by cases f <;> decide
  have h' := (low_set_keypair_addr (f := f) (i := k) (j := 0) (x := a) (y := enc f zeroADRS)
    (h.trans (enc_length _ _).symm)).2
  rw [erase_set_keypair_addr, erase_set_keypair_addr, set_keypair_enc] at h'
  obtain ⟨o, e, ho⟩ := relC_ok h'
  exact ⟨o, e, ho.1.trans h⟩

theorem wr1_runs {i : Nat} (hi : i < 32) (x : Byte) : ∃ a', wr1 a i x = .ok a' ∧ a'.length = 32 :=
  ⟨_, wr1_ok (by omega), by rw [List.length_set, h]⟩

theorem set_chain_runs (k : Nat) : ∃ a', set_chain_addr f a k = .ok a' ∧ a'.length = 32 :=
  wr1_runs h (by cases f <;> decide) _

theorem set_hash_runs (k : Nat) : ∃ a', set_hash_addr f a k = .ok a' ∧ a'.length = 32 :=
  wr1_runs h (by cases f <;> decide) _

theorem set_type_runs (k : Nat) : ∃ a', set_type f a k = .ok a' ∧ a'.length = 32 :=
  wr1_runs h (by cases f <;> decide) _

end

/-- The hash functions run on every address buffer. -/
structure Runs (P : Params) (H : HashImpl) (c : Ctx) : Prop where
  thash : ∀ ⦃a : Addr⦄, a.length = 32 → ∀ ⦃inp : Bytes⦄ ⦃b : Nat⦄, 1 ≤ b → b * P.n ≤ inp.length → b * P.n < 2 ^ 31 →
    ∃ o, H.thash inp b c a = .ok o ∧ o.length = P.n
  prf : ∀ ⦃a : Addr⦄, a.length = 32 → ∃ o, H.prf_addr c a = .ok o ∧ o.length = P.n

theorem leaf_chain_runs {E : Env} {c : Ctx} (hR : Runs E.P E.H c) (hP : E.P.Valid) {i k : Nat} (hk : E.P.w ≤ k)
    {b ws : Bytes} {la : Addr} (hb : b.length = E.P.n) (hla : la.length = 32) :
    ∃ b' la', loop (2 ^ 32) (wots_gen_leafx1_chain E c i k) (0, b, ws, la) = .ok (b', ws, la') ∧ b'.length = E.P.n ∧
      la'.length = 32 := by
  have hw := hP.w_le
  have hn := hP.n_lt
  obtain ⟨⟨b', ws', la'⟩, e, h1, h2, h3⟩ := loop_inv (body := wots_gen_leafx1_chain E c i k)
    (fun j s => s.1 = j ∧ s.2.1.length = E.P.n ∧ s.2.2.1 = ws ∧ s.2.2.2.length = 32)
    (fun r => r.1.length = E.P.n ∧ r.2.1 = ws ∧ r.2.2.length = 32) (E.P.w - 1)
    (by
      rintro j ⟨j', b, ws', la⟩ hj ⟨rfl, h1, rfl, h3⟩
      dsimp only at h1 h3
      obtain ⟨la1, e1, l1⟩ := set_hash_runs (f := E.P.fam) h3 j'
      obtain ⟨o, e2, l2⟩ := hR.thash l1 (b := 1) (inp := b) (by omega) (by omega) (by omega)
      refine ⟨(j' + 1, o, ws', la1), ?_, rfl, l2, rfl, l1⟩
      unfold wots_gen_leafx1_chain
      dsimp only
      rw [if_neg (by omega), ok_bind, if_neg (by omega), e1, ok_bind, e2]
      rfl)
    (by
      rintro ⟨j', b, ws', la⟩ ⟨h0, h1, rfl, h3⟩
      dsimp only at h0 h1 h3
      refine ⟨(b, ws', la), ?_, h1, rfl, h3⟩
      unfold wots_gen_leafx1_chain
      dsimp only
      rw [if_neg (by omega), ok_bind, if_pos h0])
    (fuel := 2 ^ 32) (by omega) (s := (0, b, ws, la)) ⟨rfl, hb, rfl, hla⟩
  dsimp only at h2
  subst h2
  exact ⟨b', la', e, h1, h3⟩

theorem or_mask {x : Nat} (hx : x < 2 ^ 32) : x ||| (2 ^ 32 - 1) = 2 ^ 32 - 1 := by
  apply Nat.eq_of_testBit_eq
  intro i
  rw [Nat.testBit_or, Nat.testBit_two_pow_sub_one]
  by_cases hi : i < 32
  · simp [hi]
  · simp only [hi, decide_false, Bool.or_false]
    apply Nat.testBit_lt_two_pow
    exact Nat.lt_of_lt_of_le hx (Nat.pow_le_pow_right (by omega) (by omega))

theorem wots_gen_pkx1_runs {E : Env} {c : Ctx} (hR : Runs E.P E.H c) (hP : E.P.Valid) {pk : Bytes} {ad : Addr}
    (hpk : E.P.wotsBytes ≤ pk.length) (ha : ad.length = 32) :
    ∃ pk', wots_gen_pkx1 E pk c ad = .ok pk' ∧ pk'.length = pk.length := by
  have hw := hP.w_le
  have hl := hP.len_n
  have hwb : E.P.wotsBytes = E.P.wotsLen * E.P.n := rfl
  have hl1 : 1 ≤ E.P.wotsLen := by
    have := hP.n_pos
    unfold Params.wotsLen Params.len1 Params.logw
    split <;> omega
  have hn1 : E.P.n ≤ E.P.wotsBytes := by
    rw [hwb]
    exact Nat.le_mul_of_pos_left _ hl1
  obtain ⟨la, e1, l1⟩ := set_kp_runs (f := E.P.fam) ha 0
  obtain ⟨⟨pb, ws, la'⟩, e2, l2, h3, l3⟩ := forRange_inv (n := E.P.wotsLen)
    (s := ((uninit (E.G 6) E.P.wotsBytes, [], la) : Bytes × Bytes × Addr))
    (body := fun i (s : Bytes × Bytes × Addr) => do
      let (pk_buffer, wots_sig, leaf_addr) := s
      let wots_k := (← rd1 (List.replicate E.P.wotsLen 0) i) ||| (2 ^ 32 - 1)
      let leaf_addr ← set_chain_addr E.P.fam leaf_addr i
      let leaf_addr ← set_hash_addr E.P.fam leaf_addr 0
      let leaf_addr ← set_type E.P.fam leaf_addr SPX_ADDR_TYPE_WOTSPRF
      let buffer ← E.H.prf_addr c leaf_addr
      let leaf_addr ← set_type E.P.fam leaf_addr SPX_ADDR_TYPE_WOTS
      let (buffer, wots_sig, leaf_addr) ←
        loop (2 ^ 32) (wots_gen_leafx1_chain E c i wots_k) (0, buffer, wots_sig, leaf_addr)
      let pk_buffer ← wr pk_buffer (i * E.P.n) buffer
      .ok (pk_buffer, wots_sig, leaf_addr))
    (fun _ s => s.1.length = E.P.wotsBytes ∧ s.2.1 = [] ∧ s.2.2.length = 32) ⟨uninit_length .., rfl, l1⟩
    (by
      rintro i ⟨pb, ws, la⟩ hi ⟨l2, h3, l3⟩
      dsimp only at l2 h3 l3
      subst h3
      have hoff : i * E.P.n + E.P.n ≤ E.P.wotsBytes := by
        have : (i + 1) * E.P.n ≤ E.P.wotsLen * E.P.n := Nat.mul_le_mul_right _ hi
        rw [Nat.succ_mul] at this
        omega
      obtain ⟨la1, f1, m1⟩ := set_chain_runs (f := E.P.fam) l3 i
      obtain ⟨la2, f2, m2⟩ := set_hash_runs (f := E.P.fam) m1 0
      obtain ⟨la3, f3, m3⟩ := set_type_runs (f := E.P.fam) m2 SPX_ADDR_TYPE_WOTSPRF
      obtain ⟨o, f4, m4⟩ := hR.prf m3
      obtain ⟨la4, f5, m5⟩ := set_type_runs (f := E.P.fam) m3 SPX_ADDR_TYPE_WOTS
      obtain ⟨b', la5, f6, m6, m7⟩ := leaf_chain_runs hR hP (i := i) (k := 2 ^ 32 - 1) (by omega) (ws := []) m4 m5
      refine ⟨(pb.take (i * E.P.n) ++ b' ++ pb.drop (i * E.P.n + b'.length), [], la5), ?_, ?_, rfl, m7⟩
      · dsimp only
        rw [rd1_ok (by rw [List.length_replicate]; exact hi), ok_bind, List.getElem_replicate, or_mask (by decide),
          f1, ok_bind, f2, ok_bind, f3, ok_bind, f4, ok_bind, f5, ok_bind, f6, ok_bind]
        dsimp only
        rw [wr_ok (by omega)]
        rfl
      · simp only [List.length_append, List.length_take, List.length_drop]
        omega)
  dsimp only at l2 h3 l3
  obtain ⟨o, e4, l4⟩ := hR.thash l1 (b := E.P.wotsLen) (inp := pb) hl1 (by omega) hl
  refine ⟨pk.take 0 ++ o ++ pk.drop (0 + o.length), ?_, ?_⟩
  · unfold wots_gen_pkx1 wots_gen_leafx1
    rw [rd_ok (by omega), ok_bind, List.drop_zero, List.take_of_length_le (by omega)]
    dsimp only
    rw [if_neg (by decide), e1]
    simp only [ok_bind]
    rw [e2]
    simp only [ok_bind]
    rw [e4]
    simp only [ok_bind]
    rw [wr_ok (by omega)]
  · simp only [List.length_append, List.length_take, List.length_drop]
    omega

/-! ### WOTS public keys in lanes -/

/-- `L` byte strings of length `n`. -/
def Each (L n : Nat) (l : List Bytes) : Prop := l.length = L ∧ ∀ a ∈ l, a.length = n

theorem Each.lens {L n : Nat} {l l' : List Bytes} (h : Each L n l) (h' : Each L n l') : Lens l l' := by
  have e : ∀ {l : List Bytes}, Each L n l → l.map List.length = List.replicate L n := fun {l} h => by
    rw [List.eq_replicate_iff, List.length_map]
    refine ⟨h.1, fun b hb => ?_⟩
    obtain ⟨a, ha, rfl⟩ := List.mem_map.mp hb
    exact h.2 a ha
  rw [Lens, e h, e h']

theorem Each.of_lens {L n : Nat} {l l' : List Bytes} (h : Each L n l') (k : Lens l l') : Each L n l := by
  have e := congrArg List.length k
  rw [List.length_map, List.length_map, h.1] at e
  refine ⟨e, fun a ha => ?_⟩
  have : a.length ∈ l'.map List.length := by
    rw [← k]
    exact List.mem_map_of_mem ha
  obtain ⟨b, hb, hab⟩ := List.mem_map.mp this
  rw [← hab, h.2 b hb]

theorem each_map {L n : Nat} {v : Nat → Bytes} (h : ∀ j, j < L → (v j).length = n) : Each L n ((List.range L).map v) := by
  refine ⟨by rw [List.length_map, List.length_range], fun a ha => ?_⟩
  obtain ⟨j, hj, rfl⟩ := List.mem_map.mp ha
  exact h j (List.mem_range.mp hj)

/-- The hash functions on lanes run on all address buffers. -/
structure RunsX (P : Params) (L : Nat) (X : LaneHash) (c : Ctx) : Prop where
  thashx : ∀ ⦃as : List Addr⦄, Each L 32 as → ∀ ⦃I : Nat → Bytes⦄ ⦃b : Nat⦄, 1 ≤ b → (∀ j, j < L → b * P.n ≤ (I j).length) →
    b * P.n < 2 ^ 31 → ∃ o, X.thashx ((List.range L).map I) b c as = .ok o ∧ Each L P.n o
  prfx : ∀ ⦃as : List Addr⦄, Each L 32 as → ∃ o, X.prf_addrx c as = .ok o ∧ Each L P.n o

theorem lanes_runs {L : Nat} {f : Nat → Addr → C Addr} (hf : ∀ j a, a.length = 32 → ∃ a', f j a = .ok a' ∧ a'.length = 32)
    {as : List Addr} (h : Each L 32 as) : ∃ as', lanes L f as = .ok as' ∧ Each L 32 as' := by
  obtain ⟨as', e, h'⟩ := forRange_inv (n := L) (s := as)
    (body := fun j addrs => (do wr1 addrs j (← f j (← rd1 addrs j)) : C (List Addr))) (fun _ as => Each L 32 as) h
    (by
      rintro j as hj ⟨h1, h2⟩
      obtain ⟨a', e1, l1⟩ := hf j (as[j]'(by omega)) (h2 _ (List.getElem_mem _))
      refine ⟨as.set j a', ?_, by rw [List.length_set]; exact h1, fun b hb => ?_⟩
      · rw [rd1_ok (by omega), ok_bind, e1, ok_bind, wr1_ok (by omega)]
      · rcases List.mem_or_eq_of_mem_set hb with hb | rfl
        · exact h2 b hb
        · exact l1)
  exact ⟨as', e, h'⟩

theorem wrLanes_runs {L n : Nat} {b : Bytes} {base stride : Nat} {outs : List Bytes} (h : Each L n outs)
    (hb : ∀ j, j < L → base + j * stride + n ≤ b.length) :
    ∃ b', wrLanes L b base stride outs = .ok b' ∧ b'.length = b.length := by
  obtain ⟨b', e, h'⟩ := forRange_inv (n := L) (s := b)
    (body := fun j b => (do wr b (base + j * stride) (← rd1 outs j) : C Bytes)) (fun _ b' => b'.length = b.length) rfl
    (by
      intro j b1 hj h1
      have h2 := hb j hj
      have h4 : j < outs.length := by rw [h.1]; exact hj
      have h3 : outs[j].length = n := h.2 _ (List.getElem_mem _)
      refine ⟨b1.take (base + j * stride) ++ outs[j] ++ b1.drop (base + j * stride + outs[j].length), ?_, ?_⟩
      · rw [rd1_ok h4, ok_bind, wr_ok (by omega)]
      · simp only [List.length_append, List.length_take, List.length_drop]
        omega)
  exact ⟨b', e, h'⟩

theorem lane_bound {E : EnvX} {i j : Nat} (hi : i < E.P.wotsLen) (hj : j < E.L) :
    i * E.P.n + j * E.P.wotsBytes + E.P.n ≤ E.L * E.P.wotsBytes := by
  have h1 : (i + 1) * E.P.n ≤ E.P.wotsBytes := Nat.mul_le_mul_right E.P.n hi
  have h2 : (j + 1) * E.P.wotsBytes ≤ E.L * E.P.wotsBytes := Nat.mul_le_mul_right _ hj
  rw [Nat.succ_mul] at h1 h2
  omega

section
variable {E : EnvX} {c : Ctx} (hR : RunsX E.P E.L E.X c) (hP : E.P.Valid)
include hR hP

theorem leafx_chain_runs {i k m : Nat} (hi : i < E.P.wotsLen) (hk : E.P.w ≤ k) {b ws : Bytes} {la : List Addr}
    (hb : b.length = E.L * E.P.wotsBytes) (hla : Each E.L 32 la) :
    ∃ b' la', loop (2 ^ 32) (wots_gen_leafx_chain E c i k m) (0, b, ws, la) = .ok (b', ws, la') ∧
      b'.length = E.L * E.P.wotsBytes ∧ Each E.L 32 la' := by
  have hw := hP.w_le
  have hn := hP.n_lt
  obtain ⟨⟨b', ws', la'⟩, e, h1, h2, h3⟩ := loop_inv (body := wots_gen_leafx_chain E c i k m)
    (fun j s => s.1 = j ∧ s.2.1.length = E.L * E.P.wotsBytes ∧ s.2.2.1 = ws ∧ Each E.L 32 s.2.2.2)
    (fun r => r.1.length = E.L * E.P.wotsBytes ∧ r.2.1 = ws ∧ Each E.L 32 r.2.2) (E.P.w - 1)
    (by
      rintro j ⟨j', b, ws', la⟩ hj ⟨rfl, h1, rfl, h3⟩
      dsimp only at h1 h3
      have hbd : ∀ j, j < E.L → i * E.P.n + j * E.P.wotsBytes + E.P.n ≤ b.length := fun j hj => by
        rw [h1]
        exact lane_bound hi hj
      obtain ⟨la1, e1, l1⟩ := lanes_runs (f := fun _ a => set_hash_addr E.P.fam a j') (fun _ _ h => set_hash_runs h j') h3
      obtain ⟨o, e2, l2⟩ := hR.thashx l1 (b := 1) (I := fun j => b.drop (i * E.P.n + j * E.P.wotsBytes)) (by omega)
        (fun j hj => by rw [List.length_drop]; have := hbd j hj; omega) (by omega)
      obtain ⟨b', e3, l3⟩ := wrLanes_runs l2 hbd
      refine ⟨(j' + 1, b', ws', la1), ?_, rfl, l3.trans h1, rfl, l1⟩
      unfold wots_gen_leafx_chain
      dsimp only
      rw [if_neg (by omega), ok_bind, if_neg (by omega), e1, ok_bind,
        subLanes_ok fun j hj => by have := hbd j hj; omega, ok_bind, e2, ok_bind, e3]
      rfl)
    (by
      rintro ⟨j', b, ws', la⟩ ⟨h0, h1, rfl, h3⟩
      dsimp only at h0 h1 h3
      refine ⟨(b, ws', la), ?_, h1, rfl, h3⟩
      unfold wots_gen_leafx_chain
      dsimp only
      rw [if_neg (by omega), ok_bind, if_pos h0])
    (fuel := 2 ^ 32) (by omega) (s := (0, b, ws, la)) ⟨rfl, hb, rfl, hla⟩
  dsimp only at h2
  subst h2
  exact ⟨b', la', e, h1, h3⟩

theorem wots_gen_pkx_runs (hlg : E.lg ≤ 3) {pk : Bytes} {ad : Addr} (hpk : E.P.wotsBytes ≤ pk.length) (ha : ad.length = 32)
    (h8 : 8 ≤ E.P.wotsLen) : ∃ pk', wots_gen_pkx E pk c ad = .ok pk' ∧ pk'.length = pk.length := by
  have hw := hP.w_le
  have hl := hP.len_n
  have hL : E.L ≤ 8 := Nat.le_trans (Nat.pow_le_pow_right (by omega) hlg) (by decide)
  obtain ⟨as, ea, has⟩ : ∃ as, (tabulate E.L fun _ => rd ad 0 32) = .ok as ∧ Each E.L 32 as :=
    ⟨_, tabulate_ok fun _ _ => rd_ok (by omega), each_map fun _ _ => by rw [List.length_take, List.length_drop]; omega⟩
  obtain ⟨la, e1, l1⟩ := lanes_runs (f := fun j a => set_keypair_addr E.P.fam a ((0 + j) % 2 ^ 32))
    (fun j _ h => set_kp_runs h _) has
  have hnz : ¬ (0 ^^^ (2 ^ 32 - 1)) &&& (2 ^ 32 - E.L) = 0 := by
    have h : ∀ lg, lg ≤ 3 → ¬ (0 ^^^ (2 ^ 32 - 1)) &&& (2 ^ 32 - 2 ^ lg) = 0 := by decide
    exact h E.lg hlg
  obtain ⟨⟨pb, ws, la'⟩, e2, l2, h3, l3⟩ := forRange_inv (n := E.P.wotsLen)
    (s := ((uninit (E.G 35) (E.L * E.P.wotsBytes), [], la) : Bytes × Bytes × List Addr))
    (body := fun i (s : Bytes × Bytes × List Addr) => do
      let (pk_buffer, wots_sig, leaf_addr) := s
      let wots_k := (← rd1 (List.replicate E.P.wotsLen 0) i) ||| (2 ^ 32 - 1)
      let leaf_addr ← lanes E.L (fun _ a => do
        let a ← set_chain_addr E.P.fam a i
        let a ← set_hash_addr E.P.fam a 0
        set_type E.P.fam a SPX_ADDR_TYPE_WOTSPRF) leaf_addr
      let pk_buffer ← wrLanes E.L pk_buffer (i * E.P.n) E.P.wotsBytes (← E.X.prf_addrx c leaf_addr)
      let leaf_addr ← lanes E.L (fun _ a => set_type E.P.fam a SPX_ADDR_TYPE_WOTS) leaf_addr
      loop (2 ^ 32) (wots_gen_leafx_chain E c i wots_k 0) (0, pk_buffer, wots_sig, leaf_addr))
    (fun _ s => s.1.length = E.L * E.P.wotsBytes ∧ s.2.1 = [] ∧ Each E.L 32 s.2.2) ⟨uninit_length .., rfl, l1⟩
    (by
      rintro i ⟨pb, ws, la⟩ hi ⟨l2, h3, l3⟩
      dsimp only at l2 h3 l3
      subst h3
      obtain ⟨la1, f1, m1⟩ := lanes_runs (f := fun _ a => do
        let a ← set_chain_addr E.P.fam a i
        let a ← set_hash_addr E.P.fam a 0
        set_type E.P.fam a SPX_ADDR_TYPE_WOTSPRF) (fun _ a h => by
          obtain ⟨a1, g1, k1⟩ := set_chain_runs (f := E.P.fam) h i
          obtain ⟨a2, g2, k2⟩ := set_hash_runs (f := E.P.fam) k1 0
          obtain ⟨a3, g3, k3⟩ := set_type_runs (f := E.P.fam) k2 SPX_ADDR_TYPE_WOTSPRF
          exact ⟨a3, by rw [g1, ok_bind, g2, ok_bind, g3], k3⟩) l3
      obtain ⟨o, f2, m2⟩ := hR.prfx m1
      obtain ⟨b, f3, m3⟩ := wrLanes_runs (b := pb) (base := i * E.P.n) (stride := E.P.wotsBytes) m2 fun j hj => by
        rw [l2]
        exact lane_bound hi hj
      obtain ⟨la2, f4, m4⟩ := lanes_runs (f := fun _ a => set_type E.P.fam a SPX_ADDR_TYPE_WOTS)
        (fun _ _ h => set_type_runs h _) m1
      obtain ⟨b', la3, f5, m5, m6⟩ := leafx_chain_runs hR hP (m := 0) hi (k := 2 ^ 32 - 1) (by omega) (ws := []) (m3.trans l2) m4
      refine ⟨(b', [], la3), ?_, m5, rfl, m6⟩
      dsimp only
      rw [rd1_ok (by rw [List.length_replicate]; exact hi), ok_bind, List.getElem_replicate, or_mask (by decide),
        f1, ok_bind, f2, ok_bind, f3, ok_bind, f4, ok_bind, f5])
  dsimp only at l2 h3 l3
  have hbd : ∀ j, j < E.L → 0 + j * E.P.wotsBytes + E.P.wotsBytes ≤ pb.length := fun j hj => by
    have h2 : (j + 1) * E.P.wotsBytes ≤ E.L * E.P.wotsBytes := Nat.mul_le_mul_right _ hj
    rw [Nat.succ_mul] at h2
    omega
  obtain ⟨o, e4, l4⟩ := hR.thashx l1 (b := E.P.wotsLen) (I := fun j => pb.drop (0 + j * E.P.wotsBytes)) (by omega)
    (fun j hj => by
      rw [List.length_drop]
      have := hbd j hj
      show E.P.wotsBytes ≤ _
      omega) hl
  obtain ⟨d, e5, l5⟩ := wrLanes_runs (b := pk) (base := 0) (stride := E.P.n) l4 fun j hj => by
    have h2 : (j + 1) * E.P.n ≤ E.P.wotsLen * E.P.n := Nat.mul_le_mul_right _ (by omega)
    rw [Nat.succ_mul] at h2
    have h3 : E.P.wotsLen * E.P.n ≤ pk.length := hpk
    omega
  refine ⟨d, ?_, l5⟩
  unfold wots_gen_pkx wots_gen_leafx
  rw [ea, ok_bind]
  dsimp only
  rw [if_neg hnz, e1]
  simp only [ok_bind]
  rw [e2]
  simp only [ok_bind]
  rw [subLanes_ok fun j hj => by have := hbd j hj; omega]
  simp only [ok_bind]
  rw [e4]
  simp only [ok_bind]
  rw [e5]
  rfl

end

/-! ### The implementations -/

theorem lane_runs {P : Params} {H : Leak.HashImpl} (hH : HashLow P H H) {G : Nat → Nat → Byte} {lg : Nat} {X : Leak.LaneHash}
    (hX : LaneLow X X) {S : Spec.Hash} (R : Refines P H.erase S) (RX : LaneRefines (EnvX.erase ⟨⟨P, H, G⟩, lg, X⟩) R)
    {c : Ctx} (hc : Sized P c) : RunsX P (2 ^ lg) X.erase c where
  thashx := by
    intro as has I b h1 hI hb
    obtain ⟨c', hok, hl⟩ := exists_ready hH R hc
    have h := (hX.thash ((List.range (2 ^ lg)).map I) ((List.range (2 ^ lg)).map I) b c c' as
      ((List.range (2 ^ lg)).map fun _ => enc P.fam zeroADRS) rfl hl (has.lens (each_map fun _ _ => enc_length _ _))).2
    have e := RX.thashx c' (fun _ => zeroADRS) I b hok (fun _ _ => zero_ok) h1 hI hb
    change X.erase.thashx ((List.range (2 ^ lg)).map I) b c' ((List.range (2 ^ lg)).map fun _ => enc P.fam zeroADRS) = _ at e
    change RelC _ (X.erase.thashx ((List.range (2 ^ lg)).map I) b c as) (X.erase.thashx _ b c' _) at h
    rw [e] at h
    obtain ⟨o, eo, ho⟩ := relC_ok h
    exact ⟨o, eo, Each.of_lens (each_map fun _ _ => R.T_len ..) ho⟩
  prfx := by
    intro as has
    obtain ⟨c', hok, hl⟩ := exists_ready hH R hc
    have h := (hX.prf c c' as ((List.range (2 ^ lg)).map fun _ => enc P.fam zeroADRS) hl
      (has.lens (each_map fun _ _ => enc_length _ _))).2
    have e := RX.prf c' (fun _ => zeroADRS) hok (fun _ _ => zero_ok)
    change X.erase.prf_addrx c' ((List.range (2 ^ lg)).map fun _ => enc P.fam zeroADRS) = _ at e
    change RelC _ (X.erase.prf_addrx c as) (X.erase.prf_addrx c' _) at h
    rw [e] at h
    obtain ⟨o, eo, ho⟩ := relC_ok h
    exact ⟨o, eo, Each.of_lens (each_map fun _ _ => R.PRF_len ..) ho⟩

/-- What the program needs of the functions it calls with the uninitialised context. -/
structure CallsOK (P : Params) (F : Calls) (c : Ctx) : Prop where
  lib : ∀ i, Kat.LibOK P (F.lib i)
  open' : ∀ i, Tests.OpenOK P (F.lib i)
  wots : ∀ i {pk : Bytes} {ad : Addr}, P.wotsBytes ≤ pk.length → ad.length = 32 →
    ∃ pk', F.wots_gen_pk i pk c ad = .ok pk' ∧ pk'.length = pk.length
  fors : ∀ i {sig m : Bytes} {ad : Addr}, sig.length = P.forsBytes → m.length = P.forsMsgBytes → ad.length = 32 →
    ∃ sg pk, F.fors_sign i sig m c ad = .ok (sg, pk) ∧ sg.length = P.forsBytes ∧ pk.length = P.n

end Spx.Bench
