import Verif.Proof.Refine
import Verif.Proof.Digits
/-! WOTS+ code against the specification. -/

namespace Spx
open Spec

theorem chain_length {F : Nat → Bytes → Bytes} {n : Nat} (hF : ∀ j x, (F j x).length = n)
    {x : Bytes} (hx : x.length = n) (s k : Nat) : (chain F x s k).length = n := by
  cases k with
  | zero => exact hx
  | succ k => exact hF ..

/-- Chains compose. -/
theorem chain_add (F : Nat → Bytes → Bytes) (x : Bytes) (s a b : Nat) :
    chain F (chain F x s a) (s + a) b = chain F x s (a + b) := by
  induction b with
  | zero => rfl
  | succ b ih => rw [chain, ih, Nat.add_assoc]; rfl

theorem wotsF_length {P : Params} {H : HashImpl} {S : Spec.Hash} (R : Refines P H S) {pub : Bytes}
    {layer tree kp i : Nat} (j : Nat) (x : Bytes) :
    (wotsF S pub layer tree kp i j x).length = P.n := R.T_len ..

theorem okA {layer tree typ w1 w2 w3 : Nat} (h1 : layer < 256) (h2 : tree < 2 ^ 64) (h3 : typ < 256)
    (h4 : w1 < 2 ^ 32) (h5 : w2 < 256) (h6 : w3 < 2 ^ 32) : (⟨layer, tree, typ, w1, w2, w3⟩ : ADRS).OK :=
  ⟨h1, h2, h3, h4, h5, h6⟩

section
variable {E : Env} {S : Spec.Hash} (R : Refines E.P E.H S) (hP : E.P.Valid)
  {ctx : Ctx} (hctx : R.CtxOK ctx) {layer tree kp : Nat} (hlay : layer < 256) (htr : tree < 2 ^ 64)
  (hkp : kp < 2 ^ 32)

theorem Params.Valid.w_le {P : Params} (hP : P.Valid) : 16 ≤ P.w ∧ P.w ≤ 256 := by
  rcases hP.w with h | h <;> omega

theorem Params.Valid.n_lt {P : Params} (hP : P.Valid) : 2 * P.n < 2 ^ 31 := by
  have := hP.n_le; omega

/-- Bytes fed to `thash` for a WOTS public key. -/
theorem Params.Valid.len_n {P : Params} (hP : P.Valid) : P.wotsLen * P.n < 2 ^ 31 := by
  have h1 := hP.n_le
  have h2 := hP.len_le
  have : P.wotsLen * P.n ≤ 256 * 256 := Nat.mul_le_mul h2 h1
  omega

include hP hctx hlay htr hkp in
theorem wots_step {i v j : Nat} (hi : i < 256) (hv : v < 256) (hj : j < 256) {x : Bytes}
    (hx : x.length = E.P.n) :
    set_hash_addr E.P.fam (enc E.P.fam ⟨layer, tree, WOTS_HASH, kp, i, v⟩) j =
      .ok (enc E.P.fam ⟨layer, tree, WOTS_HASH, kp, i, j⟩) ∧
    E.H.thash x 1 ctx (enc E.P.fam ⟨layer, tree, WOTS_HASH, kp, i, j⟩) =
      .ok (wotsF S ctx.pub_seed layer tree kp i j x) := by
  constructor
  · exact set_hash_enc (f := E.P.fam) (a := ⟨layer, tree, WOTS_HASH, kp, i, v⟩) hv hj
  · have hn := hP.n_lt
    rw [R.thash ctx ⟨layer, tree, WOTS_HASH, kp, i, j⟩ x 1 hctx
      (okA hlay htr (by decide) hkp hi (by omega)) (by omega) (by omega) (by omega),
      List.take_of_length_le (by omega)]
    rfl

include hP hctx hlay htr hkp in
/-- `gen_chain` iterates the chain step. -/
theorem gen_chain_spec {i v : Nat} (hi : i < 256) (hv : v < 256) {inp : Bytes}
    (hin : E.P.n ≤ inp.length) {start steps : Nat} (hs : start + steps < 2 ^ 32) :
    ∃ v', v' < 256 ∧
      gen_chain E inp start steps ctx (enc E.P.fam ⟨layer, tree, WOTS_HASH, kp, i, v⟩) =
        .ok (chain (wotsF S ctx.pub_seed layer tree kp i) (inp.take E.P.n) start
              (min (start + steps) E.P.w - start),
            enc E.P.fam ⟨layer, tree, WOTS_HASH, kp, i, v'⟩) := by
  have hw := hP.w_le
  unfold gen_chain
  rw [rd_ok (by omega), Nat.mod_eq_of_lt hs]
  simp only [ok_bind, List.drop_zero]
  have hx : (inp.take E.P.n).length = E.P.n := by simp; omega
  obtain ⟨s', hs', h1, v', hv', h2⟩ := forRange_inv
    (n := min (start + steps) E.P.w - start)
    (s := (inp.take E.P.n, enc E.P.fam ⟨layer, tree, WOTS_HASH, kp, i, v⟩))
    (body := fun j (s : Bytes × Addr) => (do
      let addr ← set_hash_addr E.P.fam s.2 (start + j)
      let out ← E.H.thash s.1 1 ctx addr
      .ok (out, addr) : C (Bytes × Addr)))
    (fun j s => s.1 = chain (wotsF S ctx.pub_seed layer tree kp i) (inp.take E.P.n) start j ∧
      ∃ v', v' < 256 ∧ s.2 = enc E.P.fam ⟨layer, tree, WOTS_HASH, kp, i, v'⟩)
    ⟨rfl, v, hv, rfl⟩ (by
      rintro j ⟨x, ad⟩ hj ⟨h1, v', hv', h2⟩
      simp only at h1 h2
      subst h1 h2
      obtain ⟨e1, e2⟩ := wots_step R hP hctx hlay htr hkp hi hv' (j := start + j) (by omega)
        (x := chain (wotsF S ctx.pub_seed layer tree kp i) (inp.take E.P.n) start j)
        (chain_length (wotsF_length R) hx _ _)
      exact ⟨(wotsF S ctx.pub_seed layer tree kp i (start + j)
          (chain (wotsF S ctx.pub_seed layer tree kp i) (inp.take E.P.n) start j),
        enc E.P.fam ⟨layer, tree, WOTS_HASH, kp, i, start + j⟩),
        by simp only [e1, ok_bind, e2], rfl, start + j, by omega, rfl⟩)
  refine ⟨v', hv', ?_⟩
  rw [hs']
  obtain ⟨x, ad⟩ := s'
  simp only at h1 h2
  rw [h1, h2]

include hP hctx hlay htr hkp in
/-- `wots_pk_from_sig` completes all chains. -/
theorem wots_pk_from_sig_spec {u v : Nat} (hu : u < 256) (hv : v < 256) {pk sig msg : Bytes}
    (hpk : pk.length = E.P.wotsBytes) (hsig : E.P.wotsBytes ≤ sig.length) (hm : msg.length = E.P.n) :
    ∃ u' v', u' < 256 ∧ v' < 256 ∧
      wots_pk_from_sig E pk sig msg ctx (enc E.P.fam ⟨layer, tree, WOTS_HASH, kp, u, v⟩) =
        .ok (cat E.P.wotsLen (fun i =>
            chain (wotsF S ctx.pub_seed layer tree kp i) (chunk E.P.n sig i)
              ((lengths E.P.toSpec msg).getD i 0)
              (E.P.w - 1 - (lengths E.P.toSpec msg).getD i 0)),
            enc E.P.fam ⟨layer, tree, WOTS_HASH, kp, u', v'⟩) := by
  have hw := hP.w_le
  have hlen := hP.len_le
  unfold wots_pk_from_sig
  rw [chain_lengths_spec hP.wots (by simp) hm]
  simp only [ok_bind]
  generalize hL : lengths E.P.toSpec msg = L
  have hLl : L.length = E.P.wotsLen := by rw [← hL]; exact lengths_length hP.wots msg
  have hLw : ∀ i, L.getD i 0 < E.P.w := by rw [← hL]; exact lengths_getD_lt hP.wots msg
  let f : Nat → Bytes := fun i =>
    chain (wotsF S ctx.pub_seed layer tree kp i) (chunk E.P.n sig i) (L.getD i 0) (E.P.w - 1 - L.getD i 0)
  have hch : ∀ i, i < E.P.wotsLen → (chunk E.P.n sig i).length = E.P.n := by
    intro i hi
    have hmul : (i + 1) * E.P.n ≤ E.P.wotsLen * E.P.n := Nat.mul_le_mul_right _ hi
    exact chunk_length (Nat.le_trans hmul hsig)
  have hf : ∀ i, i < E.P.wotsLen → (f i).length = E.P.n := by
    intro i hi
    exact chain_length (wotsF_length R) (hch i hi) _ _
  obtain ⟨s', hs', h1, u', v', hu', hv', h2⟩ := forRange_inv (n := E.P.wotsLen)
    (s := (pk, enc E.P.fam ⟨layer, tree, WOTS_HASH, kp, u, v⟩))
    (body := fun i (s : Bytes × Addr) => (do
      let addr ← set_chain_addr E.P.fam s.2 i
      let l ← rd1 L i
      let (out, addr) ← gen_chain E (← sub sig (i * E.P.n)) l ((E.P.w - 1 + 2 ^ 32 - l) % 2 ^ 32) ctx addr
      let pk ← wr s.1 (i * E.P.n) out
      .ok (pk, addr) : C (Bytes × Addr)))
    (fun i s => s.1 = cat i f ++ pk.drop (i * E.P.n) ∧
      ∃ u' v', u' < 256 ∧ v' < 256 ∧ s.2 = enc E.P.fam ⟨layer, tree, WOTS_HASH, kp, u', v'⟩)
    ⟨by simp [cat], u, v, hu, hv, rfl⟩ (by
      rintro i ⟨b, ad⟩ hi ⟨h1, u', v', hu', hv', h2⟩
      simp only at h1 h2
      subst h1 h2
      have hmul : (i + 1) * E.P.n ≤ E.P.wotsLen * E.P.n := Nat.mul_le_mul_right _ hi
      have hmul' := hmul
      rw [Nat.succ_mul] at hmul'
      have e1 := set_chain_enc (f := E.P.fam) (a := ⟨layer, tree, WOTS_HASH, kp, u', v'⟩)
        (okA hlay htr (by decide) hkp hu' (by omega)) (c := i) (by omega)
      have hl := hLw i
      rw [getD_lt (by omega)] at hl
      have hsteps : (E.P.w - 1 + 2 ^ 32 - L[i]'(by omega)) % 2 ^ 32 = E.P.w - 1 - L[i]'(by omega) := by omega
      obtain ⟨v'', hv'', e2⟩ := gen_chain_spec R hP hctx hlay htr hkp (i := i) (by omega) hv'
        (inp := sig.drop (i * E.P.n)) (by simp; unfold Params.wotsBytes at hsig; omega)
        (start := L[i]'(by omega)) (steps := E.P.w - 1 - L[i]'(by omega)) (by omega)
      have e3 := wr_fill (n := E.P.n) (i := i) (f := f) (b := pk) (fun j hj => hf j (by omega))
        (by rw [hpk]; exact hmul)
      refine ⟨(cat (i + 1) f ++ pk.drop ((i + 1) * E.P.n),
        enc E.P.fam ⟨layer, tree, WOTS_HASH, kp, i, v''⟩), ?_, rfl, i, v'', by omega, hv'', rfl⟩
      simp only [e1, ok_bind]
      rw [rd1_ok (by omega), sub_ok (by unfold Params.wotsBytes at hsig; omega)]
      simp only [ok_bind]
      rw [hsteps, e2]
      simp only [ok_bind]
      have hval : chain (wotsF S ctx.pub_seed layer tree kp i) (List.take E.P.n (List.drop (i * E.P.n) sig))
          (L[i]'(by omega)) (min (L[i]'(by omega) + (E.P.w - 1 - L[i]'(by omega))) E.P.w - L[i]'(by omega)) = f i := by
        show _ = chain _ _ _ _
        rw [getD_lt (by omega)]
        congr 1
        omega
      rw [hval, e3]
      rfl)
  refine ⟨u', v', hu', hv', ?_⟩
  rw [hs']
  obtain ⟨b, ad⟩ := s'
  simp only at h1 h2
  rw [h1, h2, List.drop_of_length_le (by rw [hpk]; exact Nat.le_refl _), List.append_nil]

include hP hctx hlay htr hkp in
/-- One WOTS chain in `wots_gen_leafx1`. -/
theorem wots_gen_leafx1_chain_spec {i v wots_k : Nat} (hi : i < 256) (hv : v < 256)
    {x sig sig' : Bytes} (hx : x.length = E.P.n)
    (hsig : (wots_k < E.P.w ∧
        wr sig (i * E.P.n) (chain (wotsF S ctx.pub_seed layer tree kp i) x 0 wots_k) = .ok sig') ∨
      (E.P.w ≤ wots_k ∧ sig' = sig)) :
    loop (2 ^ 32) (wots_gen_leafx1_chain E ctx i wots_k)
        (0, x, sig, enc E.P.fam ⟨layer, tree, WOTS_HASH, kp, i, v⟩) =
      .ok (chain (wotsF S ctx.pub_seed layer tree kp i) x 0 (E.P.w - 1), sig',
        enc E.P.fam ⟨layer, tree, WOTS_HASH, kp, i, E.P.w - 2⟩) := by
  have hw := hP.w_le
  let st : Nat → Nat × Bytes × Bytes × Addr := fun k =>
    (k, chain (wotsF S ctx.pub_seed layer tree kp i) x 0 k, if wots_k < k then sig' else sig,
      enc E.P.fam ⟨layer, tree, WOTS_HASH, kp, i, if k = 0 then v else k - 1⟩)
  -- the conditional copy
  have hcopy : ∀ k, k < E.P.w → (if k = wots_k then
      wr (if wots_k < k then sig' else sig) (i * E.P.n) (chain (wotsF S ctx.pub_seed layer tree kp i) x 0 k)
      else .ok (if wots_k < k then sig' else sig) : C Bytes) =
        .ok (if wots_k < k + 1 then sig' else sig) := by
    intro k hk
    rcases hsig with ⟨h1, h2⟩ | ⟨h1, h2⟩
    · by_cases hc : k = wots_k
      · subst hc
        rw [if_pos rfl, if_neg (by omega), if_pos (by omega)]
        exact h2
      · rw [if_neg hc]
        congr 1
        by_cases hlt : wots_k < k
        · rw [if_pos hlt, if_pos (by omega)]
        · rw [if_neg hlt, if_neg (by omega)]
    · rw [if_neg (by omega), if_neg (by omega), if_neg (by omega)]
  have := loop_eq (body := wots_gen_leafx1_chain E ctx i wots_k) (fuel := 2 ^ 32) st (E.P.w - 1)
    (r := (chain (wotsF S ctx.pub_seed layer tree kp i) x 0 (E.P.w - 1), sig',
        enc E.P.fam ⟨layer, tree, WOTS_HASH, kp, i, E.P.w - 2⟩))
    (by
      intro k hk
      show wots_gen_leafx1_chain E ctx i wots_k (k, _, _, _) = _
      unfold wots_gen_leafx1_chain
      simp only
      rw [hcopy k (by omega)]
      simp only [ok_bind]
      rw [if_neg (by omega)]
      obtain ⟨e1, e2⟩ := wots_step R hP hctx hlay htr hkp hi (v := if k = 0 then v else k - 1)
        (by split <;> omega) (j := k) (by omega)
        (x := chain (wotsF S ctx.pub_seed layer tree kp i) x 0 k) (chain_length (wotsF_length R) hx _ _)
      rw [e1]
      simp only [ok_bind]
      rw [e2]
      simp only [ok_bind]
      show _ = Except.ok (Sum.inl (k + 1, _, _, _))
      rw [if_neg (show ¬ k + 1 = 0 by omega), Nat.add_sub_cancel, chain, Nat.zero_add])
    (by
      show wots_gen_leafx1_chain E ctx i wots_k (E.P.w - 1, _, _, _) = _
      unfold wots_gen_leafx1_chain
      simp only
      rw [hcopy (E.P.w - 1) (by omega)]
      simp only [ok_bind]
      rw [if_pos trivial]
      have hs : (if wots_k < E.P.w - 1 + 1 then sig' else sig) = sig' := by
        rcases hsig with ⟨h1, h2⟩ | ⟨h1, h2⟩
        · rw [if_pos (by omega)]
        · rw [if_neg (by omega), h2]
      rw [hs, if_neg (by omega), show E.P.w - 1 - 1 = E.P.w - 2 by omega])
    (by omega)
  have h0 : st 0 = (0, x, sig, enc E.P.fam ⟨layer, tree, WOTS_HASH, kp, i, v⟩) := by
    show (0, chain _ x 0 0, _, enc _ _) = _
    rw [if_neg (by omega), if_pos rfl]
    rfl
  rw [← h0]
  exact this

/-- The WOTS signature with given chain lengths. -/
def wotsSigOf (S : Spec.Hash) (pub sk : Bytes) (len layer tree kp : Nat) (steps : List Nat) : Bytes :=
  cat len fun i => chain (wotsF S pub layer tree kp i) (wotsSk S pub sk layer tree kp i) 0 (steps.getD i 0)

include hP hctx hlay htr hkp in
/-- `wots_gen_leafx1` returns the compressed public key, and writes the signature if this is the
leaf to sign with. -/
theorem wots_gen_leafx1_spec {info : LeafInfoX1} {k0 k1 u v : Nat}
    (hu : u < 256) (hv : v < 256)
    (hla : info.leaf_addr = enc E.P.fam ⟨layer, tree, WOTS_HASH, k0, u, v⟩)
    (hpa : info.pk_addr = enc E.P.fam ⟨layer, tree, WOTS_PK, k1, 0, 0⟩)
    (hsl : info.wots_steps.length = E.P.wotsLen) (hst : ∀ x ∈ info.wots_steps, x < E.P.w)
    (hsig : info.wots_sig.length = E.P.wotsBytes) :
    wots_gen_leafx1 E ctx kp info =
      .ok (wotsPk E.P.toSpec S ctx.pub_seed ctx.sk_seed layer tree kp,
        { info with
          wots_sig := if kp = info.wots_sign_leaf then
              wotsSigOf S ctx.pub_seed ctx.sk_seed E.P.wotsLen layer tree kp info.wots_steps
            else info.wots_sig
          leaf_addr := enc E.P.fam ⟨layer, tree, WOTS_HASH, kp, E.P.wotsLen - 1, E.P.w - 2⟩
          pk_addr := enc E.P.fam ⟨layer, tree, WOTS_PK, kp, 0, 0⟩ }) := by
  have hw := hP.w_le
  have hlen := hP.len_le
  have hl1 : 1 ≤ E.P.wotsLen := by
    have := hP.n_pos
    unfold Params.wotsLen Params.len1 Params.logw
    split <;> omega
  have hmask : ∀ x, x < E.P.w → x ||| (2 ^ 32 - 1) = 2 ^ 32 - 1 := by
    intro x hx
    apply Nat.eq_of_testBit_eq
    intro i
    rw [Nat.testBit_or, Nat.testBit_two_pow_sub_one]
    by_cases hi : i < 32
    · simp [hi]
    · simp only [hi, decide_false, Bool.or_false]
      apply Nat.testBit_lt_two_pow
      exact Nat.lt_of_lt_of_le (show x < 2 ^ 32 by omega) (Nat.pow_le_pow_right (by omega) (by omega))
  let fpk : Nat → Bytes := fun i =>
    chain (wotsF S ctx.pub_seed layer tree kp i) (wotsSk S ctx.pub_seed ctx.sk_seed layer tree kp i) 0 (E.P.w - 1)
  let fsig : Nat → Bytes := fun i =>
    chain (wotsF S ctx.pub_seed layer tree kp i) (wotsSk S ctx.pub_seed ctx.sk_seed layer tree kp i) 0
      (info.wots_steps.getD i 0)
  have hsk : ∀ i, (wotsSk S ctx.pub_seed ctx.sk_seed layer tree kp i).length = E.P.n := fun i => R.PRF_len ..
  have hfpk : ∀ i, (fpk i).length = E.P.n := fun i => chain_length (wotsF_length R) (hsk i) _ _
  have hfsig : ∀ i, (fsig i).length = E.P.n := fun i => chain_length (wotsF_length R) (hsk i) _ _
  have hloop := forRange_inv (n := E.P.wotsLen)
    (s := (uninit (E.G 6) E.P.wotsBytes, info.wots_sig, enc E.P.fam ⟨layer, tree, WOTS_HASH, kp, u, v⟩))
    (body := fun i (s : Bytes × Bytes × Addr) => (do
      let (pk_buffer, wots_sig, leaf_addr) := s
      let wots_k := (← rd1 info.wots_steps i) ||| (if kp = info.wots_sign_leaf then 0 else 2 ^ 32 - 1)
      let leaf_addr ← set_chain_addr E.P.fam leaf_addr i
      let leaf_addr ← set_hash_addr E.P.fam leaf_addr 0
      let leaf_addr ← set_type E.P.fam leaf_addr SPX_ADDR_TYPE_WOTSPRF
      let buffer ← E.H.prf_addr ctx leaf_addr
      let leaf_addr ← set_type E.P.fam leaf_addr SPX_ADDR_TYPE_WOTS
      let (buffer, wots_sig, leaf_addr) ←
        loop (2 ^ 32) (wots_gen_leafx1_chain E ctx i wots_k) (0, buffer, wots_sig, leaf_addr)
      let pk_buffer ← wr pk_buffer (i * E.P.n) buffer
      .ok (pk_buffer, wots_sig, leaf_addr) : C (Bytes × Bytes × Addr)))
    (fun i s => s.1 = cat i fpk ++ (uninit (E.G 6) E.P.wotsBytes).drop (i * E.P.n) ∧
      s.2.1 = (if kp = info.wots_sign_leaf then cat i fsig ++ info.wots_sig.drop (i * E.P.n)
        else info.wots_sig) ∧
      (∃ u v, u < 256 ∧ v < 256 ∧ s.2.2 = enc E.P.fam ⟨layer, tree, WOTS_HASH, kp, u, v⟩) ∧
      (i = E.P.wotsLen → s.2.2 =
        enc E.P.fam ⟨layer, tree, WOTS_HASH, kp, E.P.wotsLen - 1, E.P.w - 2⟩))
    ⟨by simp [cat], by simp [cat], ⟨u, v, hu, hv, rfl⟩, fun h => by omega⟩ (by
      rintro i ⟨pkb, sg, ad⟩ hi ⟨h1, h2, ⟨u, v, hu, hv, h3⟩, -⟩
      simp only at h1 h2 h3
      subst h1 h3
      have hmul : (i + 1) * E.P.n ≤ E.P.wotsLen * E.P.n := Nat.mul_le_mul_right _ hi
      have hik : info.wots_steps.getD i 0 = info.wots_steps[i]'(by omega) := getD_lt (by omega)
      have hiw := hst (info.wots_steps[i]'(by omega)) (List.getElem_mem _)
      have e1 := set_chain_enc (f := E.P.fam) (a := ⟨layer, tree, WOTS_HASH, kp, u, v⟩)
        (okA hlay htr (by decide) hkp hu (by omega)) (c := i) (by omega)
      have e2 := set_hash_enc (f := E.P.fam) (a := ⟨layer, tree, WOTS_HASH, kp, i, v⟩) hv
        (c := 0) (by omega)
      have e3 := set_type_enc (f := E.P.fam) (a := ⟨layer, tree, WOTS_HASH, kp, i, 0⟩)
        (okA hlay htr (by decide) hkp (by omega) (by decide))
        (t := SPX_ADDR_TYPE_WOTSPRF) (by decide)
      have e4 := R.prf ctx ⟨layer, tree, SPX_ADDR_TYPE_WOTSPRF, kp, i, 0⟩ hctx
        (okA hlay htr (by decide) hkp (by omega) (by decide))
      have e5 := set_type_enc (f := E.P.fam) (a := ⟨layer, tree, SPX_ADDR_TYPE_WOTSPRF, kp, i, 0⟩)
        (okA hlay htr (by decide) hkp (by omega) (by decide))
        (t := SPX_ADDR_TYPE_WOTS) (by decide)
      obtain ⟨sg', hsg', hsg''⟩ : ∃ sg', ((info.wots_steps[i]'(by omega) |||
            (if kp = info.wots_sign_leaf then 0 else 2 ^ 32 - 1) < E.P.w ∧
          wr sg (i * E.P.n) (chain (wotsF S ctx.pub_seed layer tree kp i)
            (wotsSk S ctx.pub_seed ctx.sk_seed layer tree kp i) 0 (info.wots_steps[i]'(by omega) |||
            (if kp = info.wots_sign_leaf then 0 else 2 ^ 32 - 1))) = .ok sg') ∨
          (E.P.w ≤ info.wots_steps[i]'(by omega) |||
            (if kp = info.wots_sign_leaf then 0 else 2 ^ 32 - 1) ∧ sg' = sg)) ∧
          sg' = (if kp = info.wots_sign_leaf then cat (i + 1) fsig ++ info.wots_sig.drop ((i + 1) * E.P.n)
            else info.wots_sig) := by
        by_cases hk : kp = info.wots_sign_leaf
        · simp only [if_pos hk] at h2 ⊢
          refine ⟨_, Or.inl ⟨by rw [Nat.or_zero]; exact hiw, ?_⟩, rfl⟩
          rw [Nat.or_zero, ← hik, h2]
          exact wr_fill (f := fsig) (fun j _ => hfsig j) (by rw [hsig]; exact hmul)
        · simp only [if_neg hk] at h2 ⊢
          exact ⟨_, Or.inr ⟨by rw [hmask _ hiw]; omega, h2.symm⟩, rfl⟩
      have e6 := wots_gen_leafx1_chain_spec R hP hctx hlay htr hkp (i := i) (v := 0) (by omega) (by omega)
        (hsk i) hsg'
      have e7 := wr_fill (n := E.P.n) (i := i) (f := fpk) (b := uninit (E.G 6) E.P.wotsBytes)
        (fun j _ => hfpk j) (by rw [uninit_length]; exact hmul)
      refine ⟨(cat (i + 1) fpk ++ (uninit (E.G 6) E.P.wotsBytes).drop ((i + 1) * E.P.n), sg',
        enc E.P.fam ⟨layer, tree, WOTS_HASH, kp, i, E.P.w - 2⟩), ?_, rfl, hsg'',
        ⟨i, E.P.w - 2, by omega, by omega, rfl⟩, fun h => by simp only; rw [← h, Nat.add_sub_cancel]⟩
      simp only
      rw [rd1_ok (by omega)]
      simp only [ok_bind]
      rw [e1]
      simp only [ok_bind]
      rw [e2]
      simp only [ok_bind]
      rw [e3]
      simp only [ok_bind]
      rw [e4]
      simp only [ok_bind]
      rw [e5]
      simp only [ok_bind]
      rw [show S.PRF ctx.pub_seed ctx.sk_seed ⟨layer, tree, SPX_ADDR_TYPE_WOTSPRF, kp, i, 0⟩ =
        wotsSk S ctx.pub_seed ctx.sk_seed layer tree kp i from rfl]
      rw [show (SPX_ADDR_TYPE_WOTS : Nat) = WOTS_HASH from rfl, e6]
      simp only [ok_bind]
      rw [e7]
      rfl)
  obtain ⟨⟨pkb, sg, ad⟩, hs', h1, h2, -, h3⟩ := hloop
  simp only at h1 h2 h3
  have h3 := h3 trivial
  unfold wots_gen_leafx1
  simp only
  rw [hla, set_keypair_enc, hpa, set_keypair_enc]
  simp only [ok_bind]
  rw [hs']
  simp only [ok_bind]
  have hbl : pkb.length = E.P.wotsLen * E.P.n := by
    rw [h1, List.length_append, cat_length (n := E.P.n) (fun i _ => hfpk i), List.drop_of_length_le
      (by rw [uninit_length]; exact Nat.le_refl _)]
    rfl
  rw [R.thash ctx ⟨layer, tree, WOTS_PK, kp, 0, 0⟩ pkb E.P.wotsLen hctx
    (okA hlay htr (by decide) hkp (by decide) (by decide)) hl1 (by omega) hP.len_n]
  simp only [ok_bind]
  rw [List.take_of_length_le (by omega), h1, h2, h3, List.drop_of_length_le
    (by rw [uninit_length]; exact Nat.le_refl _), List.append_nil]
  congr 3
  · rw [toSpec_len hP.wots, toSpec_w hP.w]
  · by_cases hk : kp = info.wots_sign_leaf
    · rw [if_pos hk, if_pos hk, List.drop_of_length_le (by rw [hsig]; exact Nat.le_refl _), List.append_nil]
      rfl
    · rw [if_neg hk, if_neg hk]

end
end Spx
