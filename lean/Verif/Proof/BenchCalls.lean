import Verif.Proof.BenchMain
import Verif.Props.Sha2Lanes
import Verif.Props.HarakaAesni
import Verif.Props.ShakeLanes
/-! The calls of the benchmark programs, for the reference implementation and the optimised ones. -/

namespace Spx.Bench
open Spec Leak

/-- The functions of the reference implementation.  Every call has its own contents of uninitialised memory. -/
def refCalls (P : Params) (G g : Nat → Nat → Nat → Byte) : Calls where
  lib i := Kat.refLib (build P (G i) (g i)) (build P (G i) (g i)) (build P (G i) (g i))
  fors_sign i := fors_sign (build P (G (100 + i)) (g (100 + i)))
  wots_gen_pk i := wots_gen_pkx1 (build P (G (200 + i)) (g (200 + i)))

/-- The functions of an optimised implementation. -/
def optCalls (o : Opt) (P : Params) (G g : Nat → Nat → Nat → Byte) : Calls where
  lib i := Kat.optLib (o.plain P (G i) (g i))
  fors_sign i := (parCode (o.plain P (G (100 + i)) (g (100 + i)))).fors_sign
  wots_gen_pk i := wots_gen_pkx (o.plain P (G (200 + i)) (g (200 + i)))

theorem ref_runs {P : Params} (hP : P ∈ shipped) (g : Nat → Nat → Byte) {c : Ctx} (hc : Sized P c) : Runs P (implOf P g) c := by
  have R : Refines P (Leak.implOf P g).erase (specHash P) := by
    rw [erase_implOf]
    exact shippedRefines hP g
  rw [← erase_implOf]
  exact ⟨fun a ha inp b h1 h2 h3 => thash_runs (low_implOf P g g) R hc ha h1 h2 h3,
    fun a ha => prf_runs (low_implOf P g g) R hc ha⟩

theorem refCalls_ok {P : Params} (hP : P ∈ shipped) (G g : Nat → Nat → Nat → Byte) {c : Ctx} (hc : Sized P c) :
    CallsOK P (refCalls P G g) c where
  lib _ := Kat.refLib_ok hP ..
  open' _ := Tests.refLib_open hP ..
  wots _ := fun hpk ha => wots_gen_pkx1_runs (E := build P _ _) (ref_runs hP _ hc) (shipped_valid hP) hpk ha
  fors i := fun {sig m ad} hs hm ha => by
    have key : ∀ G g : Nat → Nat → Byte, ∃ R : Refines P (Leak.implOf P g).erase (specHash P),
        TreeCodeOK (E := ⟨P, (Leak.implOf P g).erase, G⟩) R (refCode ⟨P, (Leak.implOf P g).erase, G⟩) := by
      intro G g
      rw [erase_implOf]
      exact ⟨shippedRefines hP g, refCode_ok (E := ⟨P, implOf P g, G⟩) _ (shipped_valid hP)⟩
    obtain ⟨R, hK⟩ := key (G (100 + i)) (g (100 + i))
    have h := fors_runs (G := G (100 + i)) (low_implOf P (g (100 + i)) (g (100 + i))) R hc (shipped_valid hP)
      (T := Leak.refCode ⟨P, Leak.implOf P (g (100 + i)), G (100 + i)⟩)
      (low_refCode (low_implOf P _ _) (shipped_valid hP)) (Leak.erase_refCode _) hK ha hs hm
    change ∃ sg pk, fors_sign ⟨P, (Leak.implOf P (g (100 + i))).erase, G (100 + i)⟩ sig m c ad = .ok (sg, pk) ∧ _ at h
    rw [erase_implOf] at h
    exact h

theorem Opt.same (o : Opt) {P : Params} (hP : P ∈ shipped) (hf : P.fam = o.fam) (G g : Nat → Nat → Byte) :
    SameScheme P (o.plain P G g) G g := by
  cases o with
  | shakeA64 => exact C46_a64_same hP hf ..
  | shakeAvx2 => exact C46_avx2_same hP hf ..
  | harakaAesni => exact C49_aesni_same hP hf ..
  | sha2Avx2 => exact C52_avx2_same hP hf ..

theorem Opt.plain_P (o : Opt) (P : Params) (G g : Nat → Nat → Byte) : (o.plain P G g).P = P := by cases o <;> rfl

theorem Opt.refinesX (o : Opt) {P : Params} (hP : P ∈ shipped) (hf : P.fam = o.fam) (G g : Nat → Nat → Byte) :
    ∃ R : Refines (o.plain P G g).P (o.plain P G g).H (specHash P), LaneRefines (o.plain P G g) R := by
  have hv := shipped_valid hP
  cases o with
  | shakeA64 =>
    rw [specHash_shake hf]
    exact ⟨a64Refines hP hf g, a64LaneRefines hP hf g G⟩
  | shakeAvx2 =>
    rw [specHash_shake hf]
    exact ⟨shakeRefines g hv hf, avx2LaneRefines hP hf g G⟩
  | harakaAesni =>
    rw [specHash_haraka hf]
    exact ⟨aesniRefines g hv hf (shipped_n hP), aesniLaneRefines g G hv hf (shipped_n hP)⟩
  | sha2Avx2 =>
    rw [specHash_sha2 hf]
    exact ⟨sha2Refines g hv hf (shipped_n hP) (shipped_sha512 hP hf),
      sha2LaneRefines g G hv hf (shipped_n hP) (shipped_sha512 hP hf)⟩

theorem shipped_len8 {P : Params} (hP : P ∈ shipped) : 8 ≤ P.wotsLen := by
  revert P
  decide +kernel

section
variable (o : Opt) {P : Params} (hP : P ∈ shipped) (hf : P.fam = o.fam) (G g : Nat → Nat → Byte) {c : Ctx} (hc : Sized P c)
include hP hf hc

theorem opt_runs : Runs P (o.plain P G g).H c := by
  obtain ⟨R, -⟩ := o.erase_refines hP hf G g
  have e : (o.plain P G g).H = (o.hash P g).erase := by
    rw [← Opt.erase_build]
    rfl
  rw [e]
  exact ⟨fun a ha inp b h1 h2 h3 => thash_runs (o.low_hash P g g) R hc ha h1 h2 h3,
    fun a ha => prf_runs (o.low_hash P g g) R hc ha⟩

theorem opt_runsX : RunsX P (2 ^ o.lg) (o.plain P G g).X c := by
  have h := Opt.refinesX o hP hf G g
  rw [← Opt.erase_build] at h
  obtain ⟨R, RX⟩ := h
  have e : (o.plain P G g).X = (o.lanes P g).erase := by
    rw [← Opt.erase_build]
    rfl
  rw [e]
  exact lane_runs (o.low_hash P g g) (o.low_lanes P g g) R RX hc

theorem opt_fors {ad : Addr} (ha : ad.length = 32) {sig m : Bytes}
    (hs : sig.length = P.forsBytes) (hm : m.length = P.forsMsgBytes) :
    ∃ sg pk, (parCode (o.plain P G g)).fors_sign sig m c ad = .ok (sg, pk) ∧ sg.length = P.forsBytes ∧ pk.length = P.n := by
  obtain ⟨R, hK⟩ := o.erase_refines hP hf G g
  rw [← Opt.erase_build]
  exact fors_runs (G := G) (o.low_hash P g g) R hc (shipped_valid hP) (o.low_parCode (shipped_valid hP) G G g g)
    (erase_parCode _) hK ha hs hm

theorem opt_wots {ad : Addr} (ha : ad.length = 32) {pk : Bytes} (hpk : P.wotsBytes ≤ pk.length) :
    ∃ pk', wots_gen_pkx (o.plain P G g) pk c ad = .ok pk' ∧ pk'.length = pk.length := by
  have h := opt_runsX o hP hf G g hc
  have hv := shipped_valid hP
  have h8 := shipped_len8 hP
  cases o with
  | shakeA64 => exact wots_gen_pkx_runs (E := Opt.plain .shakeA64 P G g) h hv (show 1 ≤ 3 by decide) hpk ha h8
  | shakeAvx2 => exact wots_gen_pkx_runs (E := Opt.plain .shakeAvx2 P G g) h hv (show 2 ≤ 3 by decide) hpk ha h8
  | harakaAesni => exact wots_gen_pkx_runs (E := Opt.plain .harakaAesni P G g) h hv (show 2 ≤ 3 by decide) hpk ha h8
  | sha2Avx2 => exact wots_gen_pkx_runs (E := Opt.plain .sha2Avx2 P G g) h hv (show 3 ≤ 3 by decide) hpk ha h8

end

theorem optCalls_ok (o : Opt) {P : Params} (hP : P ∈ shipped) (hf : P.fam = o.fam) (G g : Nat → Nat → Nat → Byte) {c : Ctx}
    (hc : Sized P c) : CallsOK P (optCalls o P G g) c where
  lib _ := Kat.optLib_ok hP (Opt.same o hP hf _ _) (Opt.plain_P ..)
  open' _ := Tests.optLib_open hP (Opt.same o hP hf _ _)
  wots _ := fun hpk ha => opt_wots o hP hf _ _ hc ha hpk
  fors _ := fun hs hm ha => opt_fors o hP hf _ _ hc ha hs hm

/-! ### The measurements before that of the key generation -/

theorem noFirst_ok (P : Params) (naddr : Nat) : FirstOK P noFirst naddr fun _ b x out b' x' => out = [] ∧ b' = b ∧ x' = x :=
  fun _ t out s _ ht hs => ⟨t, [], s, by rw [List.append_nil]; rfl, ht, hs, rfl, rfl, rfl, rfl⟩

/-- `y` is what `k` calls of `f` one after the other make of `x`. -/
def Steps {α : Type} (f : α → C α) : Nat → α → α → Prop
  | 0, x, y => y = x
  | k + 1, x, y => ∃ z, Steps f k x z ∧ f z = .ok y

theorem thousand_ok {σ : Type} {call : σ → C σ} (I : Nat → σ → Prop) (h : ∀ k s, I k s → ∃ s', call s = .ok s' ∧ I (k + 1) s')
    (i : Nat) {s : σ} (hs : I (1000 * i) s) : ∃ s', thousand call i s = .ok s' ∧ I (1000 * (i + 1)) s' := by
  obtain ⟨s', e, h'⟩ := forRange_inv (n := 1000) (s := s) (body := fun _ s => call s) (fun k s => I (1000 * i + k) s) hs
    (fun k s _ hs => h (1000 * i + k) s hs)
  exact ⟨s', e, h'⟩

/-- The state is as before but for `block` and `statex2`. -/
def Quiet (P : Params) (M : Mem) (s : St) : Prop := Fit P s ∧ s.M = M

theorem call_thash_ok {P : Params} (hn : P.n < 2 ^ 31) {H : HashImpl} {c : Ctx} (hR : Runs P H c) {addr : Bytes}
    (ha : 32 ≤ addr.length) {M : Mem} {s : St} (hs : Quiet P M s) : ∃ s', call_thash H c addr s = .ok s' ∧
    Quiet P M s' ∧ s'.statex2 = s.statex2 ∧ H.thash s.block 1 c (addr.take 32) = .ok s'.block := by
  obtain ⟨hf, hM⟩ := hs
  obtain ⟨o, e, l⟩ := hR.thash (a := (addr.drop 0).take 32) (by rw [List.length_take, List.length_drop]; omega) (b := 1)
    (inp := s.block) (by omega) (by rw [hf.block]; omega) (by omega)
  refine ⟨{ s with block := o }, ?_, ⟨⟨l, hf.2, hf.3, hf.4, hf.5⟩, hM⟩, rfl, e⟩
  unfold call_thash
  rw [rd_ok (by omega), ok_bind, e, ok_bind, Tests.wr_all (by rw [hf.block]; exact l)]
  rfl

theorem eq_inter {x : List (BitVec 64)} (h : x.length = 50) : inter 2 (fun i j => x.getD (2 * i + j) 0) = x := by
  apply List.ext_getElem
  · rw [inter_length, h]
  · intro k h1 h2
    have e1 : (inter 2 fun i j => x.getD (2 * i + j) 0)[k] = x.getD (2 * (k / 2) + k % 2) 0 := by
      simp only [inter, List.getElem_map, List.getElem_range]
    rw [e1, show 2 * (k / 2) + k % 2 = k by omega, List.getD_eq_getElem?_getD, List.getElem?_eq_getElem h2]
    rfl

theorem perm_runs {perm : List (BitVec 64) → C (List (BitVec 64))} (hp : PermOK 2 perm) {x : List (BitVec 64)}
    (h : x.length = 50) : ∃ y, perm x = .ok y ∧ y.length = 50 := by
  have e := hp fun i j => x.getD (2 * i + j) 0
  rw [eq_inter h] at e
  exact ⟨_, e, inter_length 2 _⟩

theorem call_f1600x2_ok {P : Params} {M : Mem} {s : St} (hs : Quiet P M s) :
    ∃ s', call_f1600x2 s = .ok s' ∧ Quiet P M s' ∧ s'.block = s.block ∧ f1600x2 s.statex2 = .ok s'.statex2 := by
  obtain ⟨hf, hM⟩ := hs
  obtain ⟨y, e, l⟩ := perm_runs f1600x2_ok hf.statex2
  refine ⟨{ s with statex2 := y }, ?_, ⟨⟨hf.1, l, hf.3, hf.4, hf.5⟩, hM⟩, rfl, e⟩
  unfold call_f1600x2
  rw [e]
  rfl

/-- `thashx2(block, block, block, block, 1, &ctx, addr)`: the second output is written last. -/
def second (X : LaneHash) (c : Ctx) (addr block : Bytes) : C Bytes := do
  rd1 (← X.thashx [block, block] 1 c [addr.take 32, (addr.drop 32).take 32]) 1

theorem second_wins {n : Nat} {b : Bytes} (hb : b.length = n) {o : List Bytes} (h : Each 2 n o) :
    ∃ y, wrLanes 2 b 0 0 o = .ok y ∧ rd1 o 1 = .ok y ∧ y.length = n := by
  obtain ⟨l, h⟩ := h
  match o, l with
  | [x, y], _ =>
    have hx := h x (by simp)
    have hy := h y (by simp)
    refine ⟨y, ?_, rfl, hy⟩
    unfold wrLanes
    change (do
      let b ← (do wr b 0 (← rd1 [x, y] 0) : C Bytes)
      wr b 0 (← rd1 [x, y] 1)) = _
    rw [show rd1 [x, y] 0 = .ok x from rfl, ok_bind, Tests.wr_all (by omega), ok_bind,
      show rd1 [x, y] 1 = .ok y from rfl, ok_bind, Tests.wr_all (by omega)]

theorem call_thashx2_ok {P : Params} (hn : P.n < 2 ^ 31) {X : LaneHash} {c : Ctx} (hR : RunsX P 2 X c) {addr : Bytes}
    (ha : 64 ≤ addr.length) {M : Mem} {s : St} (hs : Quiet P M s) : ∃ s', call_thashx2 X c addr s = .ok s' ∧
    Quiet P M s' ∧ s'.statex2 = s.statex2 ∧ second X c addr s.block = .ok s'.block := by
  obtain ⟨hf, hM⟩ := hs
  have hA : Each 2 32 ((List.range 2).map fun j => (addr.drop (32 * j)).take 32) := each_map fun j hj => by
    rw [List.length_take, List.length_drop]
    omega
  obtain ⟨o, e, l⟩ := hR.thashx hA (I := fun _ => s.block) (b := 1) (by omega) (fun _ _ => by rw [hf.block]; omega) (by omega)
  obtain ⟨y, e1, e2, l'⟩ := second_wins hf.block l
  change X.thashx [s.block, s.block] 1 c [addr.take 32, (addr.drop 32).take 32] = _ at e
  refine ⟨{ s with block := y }, ?_, ⟨⟨l', hf.2, hf.3, hf.4, hf.5⟩, hM⟩, rfl, ?_⟩
  · unfold call_thashx2 Tests.addrs
    rw [tabulate_ok (g := fun j => (addr.drop (32 * j)).take 32) fun j hj => rd_ok (by omega), ok_bind]
    change ((X.thashx [s.block, s.block] 1 c [addr.take 32, (addr.drop 32).take 32]) >>= _) = _
    rw [e, ok_bind, e1]
    rfl
  · unfold second
    rw [e, ok_bind, e2]

/-- What is printed by one measurement of 1000 calls at a time. -/
def Row1000 (clk : Clock) (text : String) (out : Bytes) : Prop :=
  ∃ med, out = Kat.asc text ++ line clk.avg med 1 ∧ (Spec.Bench.Steady clk.cycles → IsMedian med (diffs 1000 clk.cycles))

section
variable {qsort : (Nat → Nat → Int) → List Nat → List Nat} (hq : IsQsort qsort) {P : Params} (hn : P.n < 2 ^ 31)
  {H : HashImpl} {X : LaneHash} {c : Ctx} (hR : Runs P H c) (hX : RunsX P 2 X c) (W : World) {addr : Bytes}
  {t : List Nat} (ht : t.length = 11) (out : Bytes) {s : St} (hs : Fit P s)
include hq hn ht hs

include hR in
theorem measure_thash (ha : 32 ≤ addr.length) : ∃ t' s' med, measure qsort "thash                " 1 1000 (W.clk 6) (thousand (call_thash H c addr)) ((t, out), s) =
      .ok ((t', out ++ Kat.asc "thash                " ++ line (W.clk 6).avg med 1), s') ∧ t'.length = 11 ∧ Quiet P s.M s' ∧
      (Spec.Bench.Steady (W.clk 6).cycles → IsMedian med (diffs 1000 (W.clk 6).cycles)) ∧ s'.statex2 = s.statex2 ∧
      Steps (fun b => H.thash b 1 c (addr.take 32)) 10000 s.block s'.block := by
  obtain ⟨t', med, s', e, lt, ⟨k1, k2, k3⟩, hm⟩ := measure_ok hq "thash                " 1 1000 (W.clk 6)
    (call := thousand (call_thash H c addr)) ht out
    (fun i s' => Quiet P s.M s' ∧ s'.statex2 = s.statex2 ∧ Steps (fun b => H.thash b 1 c (addr.take 32)) (1000 * i) s.block s'.block)
    ⟨⟨hs, rfl⟩, rfl, rfl⟩
    (fun i s' _ h => thousand_ok (fun k s' => Quiet P s.M s' ∧ s'.statex2 = s.statex2 ∧
      Steps (fun b => H.thash b 1 c (addr.take 32)) k s.block s'.block) (fun k s1 h => by
        obtain ⟨s2, e, h1, h2, h3⟩ := call_thash_ok hn hR ha h.1
        exact ⟨s2, e, h1, h2.trans h.2.1, s1.block, h.2.2, h3⟩) i h)
  exact ⟨t', s', med, e, lt, k1, fun h => hm h.1 h.2, k2, k3⟩

omit hn in
theorem measure_f1600x2 : ∃ t' s' med, measure qsort "f1600x2              " 1 1000 (W.clk 7) (thousand call_f1600x2) ((t, out), s) =
      .ok ((t', out ++ Kat.asc "f1600x2              " ++ line (W.clk 7).avg med 1), s') ∧ t'.length = 11 ∧ Quiet P s.M s' ∧
      (Spec.Bench.Steady (W.clk 7).cycles → IsMedian med (diffs 1000 (W.clk 7).cycles)) ∧ s'.block = s.block ∧
      Steps f1600x2 10000 s.statex2 s'.statex2 := by
  obtain ⟨t', med, s', e, lt, ⟨k1, k2, k3⟩, hm⟩ := measure_ok hq "f1600x2              " 1 1000 (W.clk 7)
    (call := thousand call_f1600x2) ht out
    (fun i s' => Quiet P s.M s' ∧ s'.block = s.block ∧ Steps f1600x2 (1000 * i) s.statex2 s'.statex2)
    ⟨⟨hs, rfl⟩, rfl, rfl⟩
    (fun i s' _ h => thousand_ok (fun k s' => Quiet P s.M s' ∧ s'.block = s.block ∧ Steps f1600x2 k s.statex2 s'.statex2)
      (fun k s1 h => by
        obtain ⟨s2, e, h1, h2, h3⟩ := call_f1600x2_ok h.1
        exact ⟨s2, e, h1, h2.trans h.2.1, s1.statex2, h.2.2, h3⟩) i h)
  exact ⟨t', s', med, e, lt, k1, fun h => hm h.1 h.2, k2, k3⟩

include hX in
theorem measure_thashx2 (ha : 64 ≤ addr.length) : ∃ t' s' med, measure qsort "thashx2              " 1 1000 (W.clk 8) (thousand (call_thashx2 X c addr)) ((t, out), s) =
      .ok ((t', out ++ Kat.asc "thashx2              " ++ line (W.clk 8).avg med 1), s') ∧ t'.length = 11 ∧ Quiet P s.M s' ∧
      (Spec.Bench.Steady (W.clk 8).cycles → IsMedian med (diffs 1000 (W.clk 8).cycles)) ∧ s'.statex2 = s.statex2 ∧
      Steps (second X c addr) 10000 s.block s'.block := by
  obtain ⟨t', med, s', e, lt, ⟨k1, k2, k3⟩, hm⟩ := measure_ok hq "thashx2              " 1 1000 (W.clk 8)
    (call := thousand (call_thashx2 X c addr)) ht out
    (fun i s' => Quiet P s.M s' ∧ s'.statex2 = s.statex2 ∧ Steps (second X c addr) (1000 * i) s.block s'.block)
    ⟨⟨hs, rfl⟩, rfl, rfl⟩
    (fun i s' _ h => thousand_ok (fun k s' => Quiet P s.M s' ∧ s'.statex2 = s.statex2 ∧
      Steps (second X c addr) k s.block s'.block) (fun k s1 h => by
        obtain ⟨s2, e, h1, h2, h3⟩ := call_thashx2_ok hn hX ha h.1
        exact ⟨s2, e, h1, h2.trans h.2.1, s1.block, h.2.2, h3⟩) i h)
  exact ⟨t', s', med, e, lt, k1, fun h => hm h.1 h.2, k2, k3⟩

end

theorem refFirst_ok {qsort : (Nat → Nat → Int) → List Nat → List Nat} (hq : IsQsort qsort) {P : Params} (hn : P.n < 2 ^ 31)
    {H : HashImpl} {c : Ctx} (hR : Runs P H c) (W : World) {naddr : Nat} (h1 : 1 ≤ naddr) :
    FirstOK P (refFirst qsort H W c) naddr fun addr b _ out b' _ => Row1000 (W.clk 6) "thash                " out ∧
      Steps (fun b => H.thash b 1 c (addr.take 32)) 10000 b b' := by
  intro addr t out s ha ht hs
  obtain ⟨t', s', med, e, lt, k, hm, -, hst⟩ := measure_thash hq hn hR W ht out hs (addr := addr) (by omega)
  refine ⟨t', _, s', ?_, lt, k.1, k.2, ⟨med, rfl, hm⟩, hst⟩
  unfold refFirst
  rw [e, List.append_assoc]

theorem a64First_ok {qsort : (Nat → Nat → Int) → List Nat → List Nat} (hq : IsQsort qsort) {P : Params} (hn : P.n < 2 ^ 31)
    {H : HashImpl} {X : LaneHash} {c : Ctx} (hR : Runs P H c) (hX : RunsX P 2 X c) (W : World) :
    FirstOK P (a64First qsort H X W c) 2 fun addr b x out b' x' => (∃ o1 o2 o3, out = o1 ++ o2 ++ o3 ∧
      Row1000 (W.clk 6) "thash                " o1 ∧ Row1000 (W.clk 7) "f1600x2              " o2 ∧
      Row1000 (W.clk 8) "thashx2              " o3) ∧ Steps f1600x2 10000 x x' ∧
      ∃ b1, Steps (fun b => H.thash b 1 c (addr.take 32)) 10000 b b1 ∧ Steps (second X c addr) 10000 b1 b' := by
  intro addr t out s ha ht hs
  obtain ⟨t1, s1, m1, e1, l1, k1, h1, x1, y1⟩ := measure_thash hq hn hR W ht out hs (addr := addr) (by omega)
  obtain ⟨t2, s2, m2, e2, l2, k2, h2, x2, y2⟩ := measure_f1600x2 hq W l1 (out ++ Kat.asc "thash                " ++ line (W.clk 6).avg m1 1) k1.1
  obtain ⟨t3, s3, m3, e3, l3, k3, h3, x3, y3⟩ := measure_thashx2 hq hn hX W l2 (out ++ Kat.asc "thash                " ++ line (W.clk 6).avg m1 1 ++
      Kat.asc "f1600x2              " ++ line (W.clk 7).avg m2 1) k2.1 (addr := addr) (by omega)
  refine ⟨t3, (Kat.asc "thash                " ++ line (W.clk 6).avg m1 1) ++ (Kat.asc "f1600x2              " ++ line (W.clk 7).avg m2 1) ++
      (Kat.asc "thashx2              " ++ line (W.clk 8).avg m3 1), s3, ?_, l3, k3.1, k3.2.trans (k2.2.trans k1.2), ⟨_, _, _, rfl,
    ⟨m1, rfl, h1⟩, ⟨m2, rfl, h2⟩, ⟨m3, rfl, h3⟩⟩, ?_, s1.block, y1, ?_⟩
  · unfold a64First
    rw [e1, ok_bind, e2, ok_bind, e3]
    simp only [List.append_assoc]
  · rw [x3, ← x1]
    exact y2
  · rw [← x2]
    exact y3

end Spx.Bench
