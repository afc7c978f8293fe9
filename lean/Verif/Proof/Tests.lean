import Verif.Model.Tests
import Verif.Proof.KatLib
import Verif.Props.Parallel
import Verif.Proof.AnyAddress
/-! Proofs about the test programs. -/

namespace Spx.Tests
open Spec Mem

theorem wr_all {b d : Bytes} (h : d.length = b.length) : wr b 0 d = .ok d := by
  rw [wr_ok (by omega), List.take_zero, List.nil_append, List.drop_of_length_le (by omega), List.append_nil]

theorem fill_lanes {L n : Nat} {f : Nat → C Bytes} {v : Nat → Bytes} (hf : ∀ j, j < L → f j = .ok (v j))
    (hv : ∀ j, j < L → (v j).length = n) {buf : Bytes} (hb : buf.length = L * n) :
    forRange L (fun j b => do wr b (j * n) (← f j)) buf = .ok (cat L v) := by
  refine forRange_eq' (fun j => cat j v ++ buf.drop (j * n)) (by simp [cat]) ?_ ?_
  · rw [List.drop_of_length_le (by omega), List.append_nil]
  · intro j hj
    have h1 : (j + 1) * n ≤ L * n := Nat.mul_le_mul_right n hj
    rw [Nat.succ_mul] at h1
    have hc : (cat j v).length = j * n := cat_length fun i hi => hv i (by omega)
    simp only [hf j hj, ok_bind]
    rw [wr_ok (by rw [List.length_append, hc, List.length_drop, hv j hj]; omega),
      List.take_left' hc, List.drop_append, hc, hv j hj, List.drop_of_length_le (by omega : (cat j v).length ≤ j * n + n),
      List.nil_append, Nat.add_sub_cancel_left, List.drop_drop, Nat.succ_mul]
    rfl

variable {P : Params} (hP : P ∈ shipped) {g : Nat → Nat → Byte} {lg : Nat} {X : LaneHash} (hX : LaneWise P g lg X)
include hP hX

theorem compare_ok {ctx : Ctx} (hc : ctx.Ready P g) {blocks : Nat} (h1 : 1 ≤ blocks) (hs : blocks * P.n < 2 ^ 31)
    {H : HashImpl} (hH : ∀ {ad : Addr} {inp : Bytes}, ad.length = 32 → blocks * P.n ≤ inp.length →
      H.thash inp blocks ctx ad = (implOf P g).thash inp blocks ctx ad)
    {seq par input addr : Bytes} (hseq : seq.length = 2 ^ lg * P.n) (hpar : par.length = 2 ^ lg * P.n)
    (hin : 2 ^ lg * (blocks * P.n) ≤ input.length) (ha : addr.length = 2 ^ lg * 32) :
    ∃ out, out.length = 2 ^ lg * P.n ∧
      compare P H X (2 ^ lg) blocks seq par input ctx addr = .ok (some (out, out)) := by
  have hA : ∀ j, j < 2 ^ lg → ((addr.drop (32 * j)).take 32).length = 32 := fun j hj => by
    rw [List.length_take, List.length_drop]; omega
  obtain ⟨A, hE⟩ := lanes_encode P.fam hA
  have hi : ∀ j, j < 2 ^ lg → blocks * j * P.n + blocks * P.n ≤ input.length := fun j hj => by
    have : (j + 1) * (blocks * P.n) ≤ 2 ^ lg * (blocks * P.n) := Nat.mul_le_mul_right _ hj
    rw [Nat.succ_mul] at this
    have e : blocks * j * P.n = j * (blocks * P.n) := by rw [Nat.mul_comm blocks j, Nat.mul_assoc]
    omega
  have hT : ∀ j, j < 2 ^ lg → (implOf P g).thash (input.drop (blocks * j * P.n)) blocks ctx ((addr.drop (32 * j)).take 32) =
      .ok ((specHash P).T ctx.pub_seed (A j) ((input.drop (blocks * j * P.n)).take (blocks * P.n))) := fun j hj =>
    thash_any hP hc (hE j hj) h1 (by rw [List.length_drop]; have := hi j hj; omega) hs
  have hv : ∀ j, j < 2 ^ lg →
      ((specHash P).T ctx.pub_seed (A j) ((input.drop (blocks * j * P.n)).take (blocks * P.n))).length = P.n :=
    fun j _ => (shipped_len hP).T ..
  have hthx := hX.thashx hc (I := fun j => input.drop (blocks * j * P.n)) hA h1
    (fun j hj => by rw [List.length_drop]; have := hi j hj; omega) hs
  rw [tabulate_ok hT] at hthx
  have hcl := cat_length hv
  refine ⟨_, hcl, ?_⟩
  unfold compare addrs
  rw [tabulate_ok (g := fun j => (addr.drop (32 * j)).take 32) fun j hj => rd_ok (by omega)]
  simp only [ok_bind]
  have e1 := fill_lanes (f := fun j => do
      H.thash (← sub input (blocks * j * P.n)) blocks ctx
        (← rd1 ((List.range (2 ^ lg)).map fun j => (addr.drop (32 * j)).take 32) j)) (L := 2 ^ lg)
      (v := fun j => (specHash P).T ctx.pub_seed (A j) ((input.drop (blocks * j * P.n)).take (blocks * P.n)))
      (fun j hj => by
        rw [sub_ok (by have := hi j hj; omega), rd1_ok (by simpa using hj)]
        simp only [ok_bind, List.getElem_map, List.getElem_range]
        rw [hH (hA j hj) (by rw [List.length_drop]; have := hi j hj; omega)]
        exact hT j hj) hv hseq
  simp only [bind_assoc] at e1
  rw [e1]
  simp only [ok_bind]
  rw [tabulate_ok (g := fun j => input.drop (blocks * j * P.n)) fun j hj => sub_ok (by have := hi j hj; omega)]
  simp only [ok_bind]
  rw [hthx]
  simp only [ok_bind]
  rw [fill_lanes (L := 2 ^ lg) (f := fun j => rd1 ((List.range (2 ^ lg)).map fun j =>
      (specHash P).T ctx.pub_seed (A j) ((input.drop (blocks * j * P.n)).take (blocks * P.n))) j)
      (fun j hj => by rw [rd1_ok (by simpa using hj)]; simp) hv hpar]
  simp only [ok_bind]
  rw [rd_ok (by omega)]
  simp only [ok_bind, ne_eq, not_true_eq_false, if_false]

omit hP hX

/-! ref/test/spx.c -/

/-- `crypto_sign_open` of the library: the two cases. -/
def OpenOK (P : Params) (L : Kat.Lib) : Prop := ∀ ⦃M : Mem⦄ ⦃pm psm smlen ppk : Nat⦄ ⦃sm pk : Bytes⦄,
  P.spxBytes ≤ smlen → M.rd psm smlen = .ok sm → M.rd ppk P.pkBytes = .ok pk → M.Alloc pm smlen → smlen < 2 ^ 60 →
  ∃ M', (verify P.toSpec (specHash P) pk (sm.drop P.spxBytes) (sm.take P.spxBytes) = true ∧
      L.open' M pm psm smlen ppk = .ok (M', smlen - P.spxBytes, 0) ∧
      M'.rd pm (smlen - P.spxBytes) = .ok (sm.drop P.spxBytes) ∧ M.SameOutside M' pm (smlen - P.spxBytes)) ∨
    (verify P.toSpec (specHash P) pk (sm.drop P.spxBytes) (sm.take P.spxBytes) = false ∧
      L.open' M pm psm smlen ppk = .ok (M', 0, -1) ∧
      M'.rd pm smlen = .ok (List.replicate smlen 0) ∧ M.SameOutside M' pm smlen)

theorem refLib_open (hP : P ∈ shipped) (E₁ E₂ : Env) (G g : Nat → Nat → Byte) :
    OpenOK P (Kat.refLib E₁ E₂ (build P G g)) :=
  fun _ _ _ _ _ _ _ h1 h2 h3 h4 h5 => ship_open hP G g h1 h2 h3 h4 h5

theorem optLib_open (hP : P ∈ shipped) {E : EnvX} {G' g' : Nat → Nat → Byte} (hS : SameScheme P E G' g') :
    OpenOK P (Kat.optLib E) := by
  intro M pm psm smlen ppk sm pk h1 h2 h3 h4 h5
  have e := hS.crypto_sign_open (pm := pm) (alloc_of_rd h2) (alloc_of_rd h3) h5
  have := ship_open hP G' g' h1 h2 h3 h4 h5
  rw [← e] at this
  exact this

/-- The objects of the program do not overlap. -/
structure LayOK (P : Params) (lay : Lay) : Prop where
  pk_sk : Disj lay.pk P.pkBytes lay.sk P.skBytes
  pk_m : Disj lay.pk P.pkBytes lay.m 32
  sk_m : Disj lay.sk P.skBytes lay.m 32
  sm_pk : Disj lay.sm (P.spxBytes + 32) lay.pk P.pkBytes
  sm_sk : Disj lay.sm (P.spxBytes + 32) lay.sk P.skBytes
  sm_m : Disj lay.sm (P.spxBytes + 32) lay.m 32
  mout_pk : Disj lay.mout (P.spxBytes + 32) lay.pk P.pkBytes
  mout_m : Disj lay.mout (P.spxBytes + 32) lay.m 32
  mout_sm : Disj lay.mout (P.spxBytes + 32) lay.sm (P.spxBytes + 32)

/-- The message with the lowest bit of its last byte flipped. -/
def flipLast (m : Bytes) : Bytes := m.take (m.length - 1) ++ (m.drop (m.length - 1)).map (· ^^^ 1#8)

theorem flip_ok {M : Mem} {p len : Nat} {d : Bytes} (h : M.rd p len = .ok d) (hl : 1 ≤ len) :
    ∃ M', flip M (p + len - 1) = .ok M' ∧ M'.rd p len = .ok (flipLast d) ∧ SameOutside M M' p len := by
  have hd := rd_length h
  have e1 := rd_drop h (k := len - 1) (by omega)
  have e2 := rd_take h (k := len - 1) (by omega)
  rw [show len - (len - 1) = 1 by omega, show p + (len - 1) = p + len - 1 by omega] at e1
  have hml : ((d.drop (len - 1)).map (· ^^^ 1#8)).length = 1 := by rw [List.length_map, List.length_drop]; omega
  obtain ⟨M', w, r, s⟩ := wr_of_alloc (M := M) (p := p + len - 1) (d := (d.drop (len - 1)).map (· ^^^ 1#8))
    (by rw [hml]; exact alloc_of_rd e1)
  rw [hml] at r s
  refine ⟨M', by unfold flip; rw [e1]; exact w, ?_, ?_⟩
  · have f1 : M'.rd p (len - 1) = .ok (d.take (len - 1)) := by
      rw [rd_frame s (by unfold Disj; omega), e2]
    have := rd_append f1 (y := (d.drop (len - 1)).map (· ^^^ 1#8)) (b := 1) (by
      rw [show p + (len - 1) = p + len - 1 by omega]; exact r)
    rw [show len - 1 + 1 = len by omega] at this
    rw [this]
    unfold flipLast
    rw [hd]
  · intro a ha
    exact s a (by omega)

theorem flipLast_append (x y : Bytes) (h : 1 ≤ y.length) : flipLast (x ++ y) = x ++ flipLast y := by
  unfold flipLast
  rw [List.length_append, List.take_append, List.drop_append, List.take_of_length_le (by omega),
    List.drop_of_length_le (l := x) (by omega), List.nil_append, List.append_assoc,
    show x.length + y.length - 1 - x.length = y.length - 1 by omega]

theorem flipLast_length (y : Bytes) : (flipLast y).length = y.length := by
  unfold flipLast
  rw [List.length_append, List.length_map, List.length_take, List.length_drop]
  omega

theorem shipped_32 (hP : P ∈ shipped) : 32 ≤ P.spxBytes := by
  revert P
  decide +kernel

theorem spx_ok (hP : P ∈ shipped) {L : Nat → Kat.Lib} (hL : ∀ k, Kat.LibOK P (L k)) (hO : ∀ k, OpenOK P (L k))
    {lay : Lay} (hl : LayOK P lay) {M : Mem} {rm seed optrand : Bytes} (hrm : rm.length = 32)
    (hseed : seed.length = P.seedBytes) (hopt : optrand.length = P.n)
    (apk : M.Alloc lay.pk P.pkBytes) (ask : M.Alloc lay.sk P.skBytes) (am : M.Alloc lay.m 32)
    (asm : M.Alloc lay.sm (P.spxBytes + 32)) (amo : M.Alloc lay.mout (P.spxBytes + 32)) :
    ∃ M', spx P L lay M rm seed optrand = .ok (M', if verify P.toSpec (specHash P) (pkOf P.toSpec (specHash P) seed)
      (flipLast rm) (rm ++ (Spec.sign P.toSpec (specHash P) (skOf P.toSpec (specHash P) seed) optrand rm).drop 32)
      then -1 else 0) := by
  have hlt := Kat.shipped_spx hP
  have h32 := shipped_32 hP
  have hn := shipped_n hP
  have hpl := ship_pkOf_len hP hseed
  have hsl := ship_skOf_len hP hseed
  have hsg := ship_sign_len hP (skOf P.toSpec (specHash P) seed) optrand rm
  have hco := ship_correct hP hseed optrand rm
  -- the message
  obtain ⟨M1, w1, r1, s1⟩ := wr_of_alloc (M := M) (p := lay.m) (d := rm) (by rw [hrm]; exact am)
  rw [hrm] at r1 s1
  have al1 {q k} (h : M.Alloc q k) : M1.Alloc q k := s1.alloc r1 h
  -- the key pair
  obtain ⟨pk0, epk0, lpk0⟩ := rd_of_alloc (al1 apk)
  obtain ⟨sk0, esk0, lsk0⟩ := rd_of_alloc (al1 ask)
  have ek := (hL 0).keypair lpk0 lsk0 hseed
  generalize pkOf P.toSpec (specHash P) seed = pk at *
  generalize skOf P.toSpec (specHash P) seed = sk at *
  obtain ⟨M2, w2, r2, s2⟩ := wr_of_alloc (M := M1) (p := lay.pk) (d := pk) (by rw [hpl]; exact al1 apk)
  rw [hpl] at r2 s2
  have al2 {q k} (h : M.Alloc q k) : M2.Alloc q k := s2.alloc r2 (al1 h)
  obtain ⟨M3, w3, r3, s3⟩ := wr_of_alloc (M := M2) (p := lay.sk) (d := sk) (by rw [hsl]; exact al2 ask)
  rw [hsl] at r3 s3
  have al3 {q k} (h : M.Alloc q k) : M3.Alloc q k := s3.alloc r3 (al2 h)
  have epk3 : M3.rd lay.pk P.pkBytes = .ok pk := by rw [rd_frame s3 (Kat.Disj.symm hl.pk_sk), r2]
  have em3 : M3.rd lay.m 32 = .ok rm := by rw [rd_frame s3 hl.sk_m, rd_frame s2 hl.pk_m, r1]
  -- the signature
  obtain ⟨M4, e4, r4, s4⟩ := (hL 1).sign (psm := lay.sm) r3 em3 (al3 asm)
    (Kat.Disj.shrink hl.sm_sk (by omega) (Nat.le_refl _)) (Kat.Disj.shrink hl.sm_m (by omega) (Nat.le_refl _))
    (by omega) hopt
  have al4 {q k} (h : M.Alloc q k) : M4.Alloc q k := s4.alloc r4 (al3 h)
  have epk4 : M4.rd lay.pk P.pkBytes = .ok pk := by rw [rd_frame s4 hl.sm_pk, epk3]
  have em4 : M4.rd lay.m 32 = .ok rm := by rw [rd_frame s4 hl.sm_m, em3]
  generalize Spec.sign P.toSpec (specHash P) sk optrand rm = sig at *
  have ed : (sig ++ rm).drop P.spxBytes = rm := List.drop_left' hsg
  have et : (sig ++ rm).take P.spxBytes = sig := List.take_left' hsg
  -- opened into another buffer
  obtain ⟨M5, ⟨-, e5, r5, s5⟩ | ⟨h, -⟩⟩ := hO 2 (Nat.le_add_right _ 32) r4 epk4 (al4 amo) (by omega)
  rotate_left
  · rw [ed, et, hco] at h; cases h
  rw [Nat.add_sub_cancel_left] at e5 r5 s5
  rw [ed] at r5
  have hmo {k} (hk : k ≤ 32) {q l} (h : Disj lay.mout (P.spxBytes + 32) q l) : Disj lay.mout k q l :=
    Kat.Disj.shrink h (by omega) (Nat.le_refl _)
  have al5 {q k} (h : M.Alloc q k) : M5.Alloc q k := s5.alloc r5 (al4 h)
  have epk5 : M5.rd lay.pk P.pkBytes = .ok pk := by rw [rd_frame s5 (hmo (Nat.le_refl _) hl.mout_pk), epk4]
  have em5 : M5.rd lay.m 32 = .ok rm := by rw [rd_frame s5 (hmo (Nat.le_refl _) hl.mout_m), em4]
  have esm5 : M5.rd lay.sm (P.spxBytes + 32) = .ok (sig ++ rm) := by
    rw [rd_frame s5 (hmo (Nat.le_refl _) hl.mout_sm), r4]
  -- opened in place
  obtain ⟨M6, ⟨-, e6, r6, s6⟩ | ⟨h, -⟩⟩ := hO 3 (Nat.le_add_right _ 32) esm5 epk5 (al5 asm) (by omega)
  rotate_left
  · rw [ed, et, hco] at h; cases h
  rw [Nat.add_sub_cancel_left] at e6 r6 s6
  rw [ed] at r6
  have hsm {q l} (h : Disj lay.sm (P.spxBytes + 32) q l) : Disj lay.sm 32 q l :=
    Kat.Disj.shrink h (by omega) (Nat.le_refl _)
  have al6 {q k} (h : M.Alloc q k) : M6.Alloc q k := s6.alloc r6 (al5 h)
  have epk6 : M6.rd lay.pk P.pkBytes = .ok pk := by rw [rd_frame s6 (hsm hl.sm_pk), epk5]
  have esm6 : M6.rd lay.sm (P.spxBytes + 32) = .ok ((rm ++ sig.drop 32) ++ rm) := by
    have h1 := rd_drop esm5 (k := 32) (by omega)
    rw [show P.spxBytes + 32 - 32 = P.spxBytes by omega] at h1
    have h2 : M6.rd (lay.sm + 32) P.spxBytes = .ok ((sig ++ rm).drop 32) := by
      rw [rd_frame s6 (by unfold Disj; omega), h1]
    have h3 := rd_append r6 h2
    rw [Nat.add_comm 32] at h3
    rw [h3, List.drop_append, show 32 - sig.length = 0 by omega, List.drop_zero, List.append_assoc]
  -- the flipped bit
  obtain ⟨M7, e7, r7, s7⟩ := flip_ok esm6 (by omega)
  rw [flipLast_append _ _ (by omega)] at r7
  have al7 {q k} (h : M.Alloc q k) : M7.Alloc q k := s7.alloc r7 (al6 h)
  have epk7 : M7.rd lay.pk P.pkBytes = .ok pk := by rw [rd_frame s7 hl.sm_pk, epk6]
  have hrl : (rm ++ sig.drop 32).length = P.spxBytes := by rw [List.length_append, List.length_drop]; omega
  have ed7 : (rm ++ sig.drop 32 ++ flipLast rm).drop P.spxBytes = flipLast rm := List.drop_left' hrl
  have et7 : (rm ++ sig.drop 32 ++ flipLast rm).take P.spxBytes = rm ++ sig.drop 32 := List.take_left' hrl
  obtain ⟨M8, h8⟩ := hO 4 (Nat.le_add_right _ 32) r7 epk7 (al7 amo) (by omega)
  rw [ed7, et7, Nat.add_sub_cancel_left] at h8
  have key : ∃ (ml : Nat) (r : Int), (L 4).open' M7 lay.mout lay.sm (P.spxBytes + 32) lay.pk = .ok (M8, ml, r) ∧
      (if r = 0 then (-1 : Int) else 0) =
        (if verify P.toSpec (specHash P) pk (flipLast rm) (rm ++ sig.drop 32) then -1 else 0) ∧
      M8.rd lay.sm (P.spxBytes + 32) = .ok (rm ++ sig.drop 32 ++ flipLast rm) := by
    rcases h8 with ⟨h, e, -, s⟩ | ⟨h, e, -, s⟩
    · exact ⟨_, _, e, by rw [h]; rfl, by rw [rd_frame s (hmo (Nat.le_refl _) hl.mout_sm), r7]⟩
    · exact ⟨_, _, e, by rw [h]; rfl, by rw [rd_frame s hl.mout_sm, r7]⟩
  obtain ⟨ml, r, e8, er, r8⟩ := key
  obtain ⟨M9, e9, -, -⟩ := flip_ok r8 (by omega)
  refine ⟨M9, ?_⟩
  rw [← er]
  unfold spx SPX_MLEN
  simp only [w1, ok_bind, epk0, esk0, ek, w2, w3, ne_eq, not_true_eq_false, if_false, e4, e5, em5, r5, e6, e7, e8, e9]

end Spx.Tests
