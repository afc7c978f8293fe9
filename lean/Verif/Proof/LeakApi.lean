import Verif.Model.LeakApi
import Verif.Spec.Answers
import Verif.Proof.LeakSign
import Verif.Proof.Mem
/-! # Traces of the functions of the API -/

namespace Spx.Leak
open Randombytes (Read Outcome)
open Spec

/-! ## Without the traces -/

theorem fill_cons (r : Read) (rs : List Read) (M : Mem) (x xlen : Nat) :
    (fill (r :: rs) M x xlen).res = if xlen > 0 then
      (match r with
      | .fail => (fill rs M ((x + (2 ^ 64 - 1)) % 2 ^ 64) ((xlen + 2 ^ 64 - (2 ^ 64 - 1)) % 2 ^ 64)).res
      | .data ds => M.wr x (ds.take (Randombytes.request xlen)) >>= fun M =>
        if (ds.take (Randombytes.request xlen)).length < 1 then (fill rs M x xlen).res
        else (fill rs M ((x + (ds.take (Randombytes.request xlen)).length) % 2 ^ 64)
          ((xlen + 2 ^ 64 - (ds.take (Randombytes.request xlen)).length) % 2 ^ 64)).res)
      else .ok (.returned M (r :: rs)) := by
  rw [fill]
  refine res_branch ?_ rfl
  refine (res_branch_bind _ _ _).trans ?_
  cases r with
  | fail =>
    refine (res_branch rfl rfl).trans ?_
    exact if_neg (by decide)
  | data ds => exact res_L_bind rfl fun M => res_branch rfl rfl

theorem erase_fill (rs : List Read) (M : Mem) (x xlen : Nat) :
    (fill rs M x xlen).res = Randombytes.fill rs M x xlen := by
  induction rs generalizing M x xlen with
  | nil => exact res_branch rfl rfl
  | cons r rs ih =>
    cases r with
    | fail => rw [fill_cons, Randombytes.fill]; simp only [ih]
    | data ds => rw [fill_cons, Randombytes.fill]; simp only [ih]

theorem erase_openLoop (os : List Int) : (openLoop os).res = .ok (Randombytes.openFd (-1) os) := by
  induction os with
  | nil => rfl
  | cons o os ih =>
    rw [openLoop, Randombytes.openFd, if_pos rfl]
    refine (res_branch rfl ih).trans ?_
    by_cases h : o = -1
    · rw [if_neg (by simpa using h), h]
    · rw [if_pos h]
      cases os <;> (rw [Randombytes.openFd, if_neg h]; rfl)

theorem erase_openFd (fd : Int) (os : List Int) : (openFd fd os).res = .ok (Randombytes.openFd fd os) := by
  refine (res_branch (erase_openLoop os) rfl).trans ?_
  by_cases h : fd = -1
  · rw [if_pos h, h]
  · rw [if_neg h]
    cases os <;> (rw [Randombytes.openFd, if_neg h]; rfl)

theorem erase_randombytes (fd : Int) (opens : List Int) (reads : List Read) (M : Mem) (x xlen : Nat) :
    (randombytes fd opens reads M x xlen).res = Randombytes.randombytes fd opens reads M x xlen := by
  unfold randombytes Randombytes.randombytes
  refine (res_bind (x' := .ok (Randombytes.openFd fd opens)) (f' := fun o => match o with
    | none => .ok (.waiting M, -1)
    | some fd => Randombytes.fill reads M x xlen >>= fun r => .ok (r, fd)) (erase_openFd fd opens) ?_).trans ?_
  · rintro (_ | fd)
    · rfl
    · exact res_bind (erase_fill ..) fun _ => rfl
  · rfl

/-! ## The answers of the operating system -/

/-- The bytes of an answer -/
def bytesOf : Read → Option Bytes
  | .fail => none
  | .data d => some d

/-- Two calls of `randombytes` with answers that look alike -/
structure OS.Alike (o o' : OS) : Prop where
  fd : o.fd = o'.fd
  opens : o.opens = o'.opens
  reads : AlikeReads (o.reads.map bytesOf) (o'.reads.map bytesOf)
  M : SameAddresses o.M o'.M
  x : o.x = o'.x

theorem some_iff {M M' : Mem} (h : SameAddresses M M') (a : Nat) : (M a).isSome = (M' a).isSome := by
  have := h a
  cases e : M a <;> cases e' : M' a <;> simp_all

theorem low_memwr {M M' : Mem} (h : SameAddresses M M') (x : Nat) {d d' : Bytes} (hd : d.length = d'.length) :
    RelC (fun M M' => SameAddresses M.at' M'.at') (M.wr x d) (M'.wr x d') := by
  unfold Mem.wr
  by_cases hh : ∀ i, i < d.length → (M (x + i)).isSome
  · rw [if_pos hh, if_pos (fun i hi => by rw [← some_iff h]; exact hh i (by omega))]
    intro a
    show (if _ then _ else _) = none ↔ (if _ then _ else _) = none
    by_cases hr : x ≤ a ∧ a < x + d.length
    · rw [if_pos hr, if_pos (by omega), List.getElem?_eq_none_iff, List.getElem?_eq_none_iff, hd]
    · rw [if_neg hr, if_neg (by omega)]
      exact h a
  · rw [if_neg hh, if_neg (fun h' => hh fun i hi => by rw [some_iff h]; exact h' i (by omega))]
    rfl

theorem low_memrd {M M' : Mem} (h : SameAddresses M M') (x len : Nat) :
    RelC (fun a b => a.length = len ∧ b.length = len) (M.rd x len) (M'.rd x len) := by
  unfold Mem.rd
  by_cases hh : ∀ i, i < len → (M (x + i)).isSome
  · rw [if_pos hh, if_pos (fun i hi => by rw [← some_iff h]; exact hh i hi)]
    exact ⟨by rw [List.length_map, List.length_range], by rw [List.length_map, List.length_range]⟩
  · rw [if_neg hh, if_neg (fun h' => hh fun i hi => by rw [some_iff h]; exact h' i hi)]
    rfl

/-- Outcomes that look alike -/
def AlikeOutcome : Outcome → Outcome → Prop
  | .returned M _, .returned M' _ => SameAddresses M M'
  | .waiting M, .waiting M' => SameAddresses M M'
  | _, _ => False

theorem low_fill {rs rs' : List Read} (hr : AlikeReads (rs.map bytesOf) (rs'.map bytesOf)) {M M' : Mem}
    (hM : SameAddresses M M') (x xlen : Nat) : Rel AlikeOutcome (fill rs M x xlen) (fill rs' M' x xlen) := by
  induction rs generalizing rs' M M' x xlen with
  | nil =>
    cases rs' with
    | nil => exact Rel.branch Iff.rfl (fun _ => Rel.ok hM) fun _ => Rel.ok hM
    | cons r' rs' => cases r' <;> exact hr.elim
  | cons r rs ih =>
    cases rs' with
    | nil => cases r <;> exact hr.elim
    | cons r' rs' =>
      rw [fill, fill]
      refine Rel.branch Iff.rfl (fun _ => ?_) fun _ => Rel.ok hM
      refine Rel.L_bind (Rel.refl _) fun i _ e => ?_
      subst e
      cases r with
      | fail =>
        cases r' with
        | fail => exact Rel.branch Iff.rfl (fun _ => ih hr hM _ _) fun _ => ih hr hM _ _
        | data d' => exact hr.elim
      | data d =>
        cases r' with
        | fail => exact hr.elim
        | data d' =>
          obtain ⟨hd, hr⟩ : d.length = d'.length ∧ _ := hr
          have ht : (d.take i).length = (d'.take i).length := by rw [List.length_take, List.length_take, hd]
          refine Rel.L_bind (R := fun M M' => SameAddresses M.at' M'.at')
            ⟨by show [Ev.wr _ _] = [Ev.wr _ _]; rw [ht], low_memwr hM x ht⟩ fun M M' hM => ?_
          dsimp only
          rw [ht]
          exact Rel.branch Iff.rfl (fun _ => ih hr hM _ _) fun _ => ih hr hM _ _

theorem low_randombytes {o o' : OS} (h : o.Alike o') (len : Nat) :
    Rel (fun r r' => AlikeOutcome r.1 r'.1 ∧ r.2 = r'.2) (randombytes o.fd o.opens o.reads o.M o.x len)
      (randombytes o'.fd o'.opens o'.reads o'.M o'.x len) := by
  unfold randombytes
  rw [← h.fd, ← h.opens, ← h.x]
  refine Rel.bind (Rel.refl _) fun a _ e => ?_
  subst e
  cases a with
  | none => exact Rel.ok ⟨h.M, rfl⟩
  | some fd => exact Rel.bind (low_fill h.reads h.M _ _) fun _ _ hr => Rel.ok ⟨hr, rfl⟩

/-- Both runs wait, or both return as many bytes. -/
def AlikeBytes (len : Nat) : Option Bytes → Option Bytes → Prop
  | none, none => True
  | some a, some b => a.length = len ∧ b.length = len
  | _, _ => False

theorem low_random {o o' : OS} (h : o.Alike o') (len : Nat) : Rel (AlikeBytes len) (random o len) (random o' len) := by
  unfold random
  refine Rel.bind (low_randombytes h len) ?_
  rintro ⟨r, fd⟩ ⟨r', fd'⟩ ⟨hr, -⟩
  cases r <;> cases r'
  · exact Rel.bind (R := fun (a b : Bytes) => a.length = len ∧ b.length = len)
      ⟨rfl, by rw [← h.x]; exact low_memrd hr _ _⟩ fun a b hab => Rel.ok hab
  · exact hr.elim
  · exact hr.elim
  · exact Rel.ok trivial

/-! ## Key generation -/

theorem low_keypair {P : Params} {H H' : HashImpl} {G G' : Nat → Nat → Byte} (hH : HashLow P H H') {T T' : TreeCode}
    (hT : TreeLow P T T') {o o' : OS} (h : o.Alike o') {pk pk' sk sk' : Bytes} (hpk : Len pk pk') (hsk : Len sk sk') :
    Rel (fun _ _ => True) (crypto_sign_keypairT ⟨P, H, G⟩ T o pk sk) (crypto_sign_keypairT ⟨P, H', G'⟩ T' o' pk' sk') := by
  unfold crypto_sign_keypairT
  refine Rel.bind (low_random h _) ?_
  rintro (_ | s) (_ | s') hs
  · exact Rel.ok trivial
  · exact hs.elim
  · exact hs.elim
  · exact Rel.bind (low_seed_keypair hH hT hpk hsk (hs.1.trans hs.2.symm)) fun _ _ _ => Rel.ok trivial

/-! ## Signing -/

theorem bind_assoc {α β γ : Type} (x : L α) (f : α → L β) (g : β → L γ) :
    L.bind (L.bind x f) g = L.bind x fun a => L.bind (f a) g := by
  unfold L.bind
  cases x.res with
  | error e => rfl
  | ok a =>
    dsimp only
    cases (f a).res with
    | error e => rfl
    | ok b => simp only [List.append_assoc]

theorem ok_L_bind {α β : Type} (a : α) (f : α → L β) : L.bind (L.ok a) f = f a := rfl

/-- The call of `randombytes` splits `crypto_sign_signature` in two. -/
theorem sign_split (E : Env) (T : TreeCode) (sig0 m sk optrand : Bytes) :
    crypto_sign_signatureT E T sig0 m sk optrand =
      L.bind (sign_begin E sk) fun s => sign_end E T sig0 m s optrand := by
  unfold crypto_sign_signatureT sign_begin sign_end
  simp only [bind_def, bind_assoc, ok_L_bind]

theorem low_sign_begin {P : Params} {H H' : HashImpl} {G G' : Nat → Nat → Byte} (hH : HashLow P H H') {sk sk' : Bytes}
    (hsk : Len sk sk') : Rel (fun _ _ => True) (sign_begin ⟨P, H, G⟩ sk) (sign_begin ⟨P, H', G'⟩ sk') := by
  have hu : ∀ {X Y : Nat → Byte} {k}, Len (uninit X k) (uninit Y k) := fun {X Y k} => by rw [Len, len_uninit, len_uninit]
  unfold sign_begin
  dsimp only
  refine Rel.bind (Rel.sub_len hsk rfl) fun a a' _ => ?_
  refine Rel.bind (Rel.sub_len hsk rfl) fun b b' hb => ?_
  refine Rel.bind (Rel.rd hsk rfl rfl) fun c c' hc => ?_
  refine Rel.bind (Rel.wr hu rfl (hc.1.trans hc.2.symm)) fun d d' hd => ?_
  refine Rel.bind (Rel.rd (hb.1.trans hb.2.symm) rfl rfl) fun e e' he => ?_
  refine Rel.bind (Rel.wr hu rfl (he.1.trans he.2.symm)) fun f f' hf => ?_
  refine Rel.bind (hH.init _ _ (low_uninitCtx (hf.1.trans hf.2.symm) (hd.1.trans hd.2.symm))) fun _ _ _ => ?_
  exact Rel.ok trivial

/-- `sim` gives the trace of `crypto_sign_signature` from the public key, the message, the signature and the size of the
buffer; the signature is `sign`. -/
def Simulates (P : Params) (H : HashImpl) (G : Nat → Nat → Byte) (T : TreeCode) (sign : Bytes → Bytes → Bytes → Bytes)
    (sim : Bytes → Bytes → Bytes → Nat → List Ev) : Prop :=
  ∀ sig0 m sk optrand : Bytes, sk.length = P.skBytes → m.length < 2 ^ 60 → optrand.length = P.n →
    P.spxBytes ≤ sig0.length → (sign sk optrand m).length = P.spxBytes ∧
      (crypto_sign_signatureT ⟨P, H, G⟩ T sig0 m sk optrand).res =
        .ok (sign sk optrand m ++ sig0.drop P.spxBytes, P.spxBytes) ∧
      (crypto_sign_signatureT ⟨P, H, G⟩ T sig0 m sk optrand).tr = sim (sk.drop (2 * P.n)) m (sign sk optrand m) sig0.length

theorem tr_ok {α β : Type} {x : L α} {a : α} (h : x.res = .ok a) (f : α → L β) : (L.bind x f).tr = x.tr ++ (f a).tr := by
  unfold L.bind
  rw [h]

theorem res_L_ok {α β : Type} {x : L α} {a : α} (h : x.res = .ok a) (f : α → L β) : (L.bind x f).res = (f a).res := by
  unfold L.bind
  rw [h]

section
variable {P : Params} {H H' : HashImpl} {G G' : Nat → Nat → Byte} {T T' : TreeCode}
  {sign : Bytes → Bytes → Bytes → Bytes} {sim : Bytes → Bytes → Bytes → Nat → List Ev}

/-- What happens after `randombytes` -/
theorem Simulates.after (hS : Simulates P H G T sign sim) {sig0 m sk optrand : Bytes} (hsk : sk.length = P.skBytes)
    (hm : m.length < 2 ^ 60) (hopt : optrand.length = P.n) (hsig : P.spxBytes ≤ sig0.length) :
    ∃ s, (sign_begin ⟨P, H, G⟩ sk).res = .ok s ∧
      (sign_end ⟨P, H, G⟩ T sig0 m s optrand).res = .ok (sign sk optrand m ++ sig0.drop P.spxBytes, P.spxBytes) ∧
      (sign_begin ⟨P, H, G⟩ sk).tr ++ (sign_end ⟨P, H, G⟩ T sig0 m s optrand).tr =
        sim (sk.drop (2 * P.n)) m (sign sk optrand m) sig0.length := by
  obtain ⟨-, h1, h2⟩ := hS _ _ _ _ hsk hm hopt hsig
  rw [sign_split] at h1 h2
  cases e : (sign_begin ⟨P, H, G⟩ sk).res with
  | error e' =>
    unfold L.bind at h1
    rw [e] at h1
    cases h1
  | ok s =>
    rw [tr_ok e] at h2
    rw [res_L_ok e] at h1
    exact ⟨s, rfl, h1, h2⟩

/-- The result and the trace of `crypto_sign` after `randombytes` has delivered `optrand` -/
theorem Simulates.crypto_sign (hS : Simulates P H G T sign sim) {o : OS} {sm0 m sk optrand : Bytes}
    (hsk : sk.length = P.skBytes) (hm : m.length < 2 ^ 60) (hsm : sm0.length = P.spxBytes + m.length)
    (hr : (random o P.n).res = .ok (some optrand)) (hopt : optrand.length = P.n) :
    (crypto_signT ⟨P, H, G⟩ T o sm0 m sk).res = .ok (some (sign sk optrand m ++ m, (P.spxBytes + m.length) % 2 ^ 64)) ∧
    ∃ rest, (sign_begin ⟨P, H, G⟩ sk).tr ++ rest = sim (sk.drop (2 * P.n)) m (sign sk optrand m) sm0.length ∧
      (crypto_signT ⟨P, H, G⟩ T o sm0 m sk).tr = (sign_begin ⟨P, H, G⟩ sk).tr ++ ((random o P.n).tr ++
        (rest ++ [.rd 0 m.length, .wr P.spxBytes m.length])) := by
  obtain ⟨s, e1, e2, e3⟩ := hS.after hsk hm hopt (sig0 := sm0) (by omega)
  obtain ⟨hl, -, -⟩ := hS sm0 _ _ _ hsk hm hopt (by omega)
  have hrd : Spx.rd m 0 m.length = .ok m := by rw [rd_ok (by omega), List.drop_zero, List.take_length]
  have hwr : Spx.wr (sign sk optrand m ++ sm0.drop P.spxBytes) P.spxBytes m = .ok (sign sk optrand m ++ m) := by
    have hle : (sign sk optrand m ++ sm0.drop P.spxBytes).length = P.spxBytes + m.length := by
      rw [List.length_append, List.length_drop, hl]; omega
    rw [wr_ok (by omega), List.drop_of_length_le (Nat.le_of_eq hle), List.append_nil,
      List.take_append_of_le_length (Nat.le_of_eq hl.symm), List.take_of_length_le (Nat.le_of_eq hl)]
  have key : ∀ {β : Type} (k : Option (Bytes × Nat) → L β),
      L.bind (crypto_sign_signatureR ⟨P, H, G⟩ T o sm0 m sk) k =
        ⟨(sign_begin ⟨P, H, G⟩ sk).tr ++ ((random o P.n).tr ++ ((sign_end ⟨P, H, G⟩ T sm0 m s optrand).tr ++
          (k (some (sign sk optrand m ++ sm0.drop P.spxBytes, P.spxBytes))).tr)),
          (k (some (sign sk optrand m ++ sm0.drop P.spxBytes, P.spxBytes))).res⟩ := by
    intro β k
    unfold crypto_sign_signatureR
    simp only [bind_def, bind_assoc, L.bind, e1, hr, e2, L.ok, List.nil_append, List.append_assoc]
  have hfin : crypto_signT ⟨P, H, G⟩ T o sm0 m sk =
      ⟨(sign_begin ⟨P, H, G⟩ sk).tr ++ ((random o P.n).tr ++ ((sign_end ⟨P, H, G⟩ T sm0 m s optrand).tr ++
        [.rd 0 m.length, .wr P.spxBytes m.length])),
        .ok (some (sign sk optrand m ++ m, (P.spxBytes + m.length) % 2 ^ 64))⟩ := by
    unfold crypto_signT
    rw [bind_def, key]
    simp only [bind_def, L.bind, Leak.rd, Leak.wr, hrd, hwr, L.ok, List.append_nil, List.cons_append, List.nil_append]
  rw [hfin]
  exact ⟨rfl, _, e3, rfl⟩

/-- `crypto_sign` when `randombytes` does not return -/
theorem sign_stuck {o : OS} {sm0 m sk : Bytes} {s : Bytes × Bytes × Ctx} (e : (sign_begin ⟨P, H, G⟩ sk).res = .ok s)
    (hr : ∀ b, (random o P.n).res ≠ .ok (some b)) :
    (crypto_signT ⟨P, H, G⟩ T o sm0 m sk).tr = (sign_begin ⟨P, H, G⟩ sk).tr ++ (random o P.n).tr := by
  unfold crypto_signT crypto_sign_signatureR
  simp only [bind_def, bind_assoc]
  rw [tr_ok e]
  cases h : (random o P.n).res with
  | error e' => simp only [L.bind, h]
  | ok r =>
    cases r with
    | some b => exact absurd h (hr b)
    | none => rw [tr_ok h]; simp only [L.bind, L.ok, List.append_nil]

/-- Two runs of `crypto_sign` with the same result -/
theorem low_crypto_sign (hH : HashLow P H H') (hS : Simulates P H G T sign sim) (hS' : Simulates P H' G' T' sign sim)
    {o o' : OS} (h : o.Alike o') {sm0 sm0' m sk sk' : Bytes} (hsk : sk.length = P.skBytes) (hsk' : sk'.length = P.skBytes)
    (hm : m.length < 2 ^ 60) (hsm : sm0.length = P.spxBytes + m.length) (hsm' : sm0'.length = P.spxBytes + m.length)
    (hpk : sk.drop (2 * P.n) = sk'.drop (2 * P.n))
    (hres : (crypto_signT ⟨P, H, G⟩ T o sm0 m sk).res = (crypto_signT ⟨P, H', G'⟩ T' o' sm0' m sk').res) :
    (crypto_signT ⟨P, H, G⟩ T o sm0 m sk).tr = (crypto_signT ⟨P, H', G'⟩ T' o' sm0' m sk').tr := by
  have hb := (low_sign_begin (G := G) (G' := G') hH (hsk.trans hsk'.symm)).1
  obtain ⟨ht, hr⟩ := low_random h P.n
  have hz : (List.replicate P.n 0#8).length = P.n := List.length_replicate
  obtain ⟨s, es, -, -⟩ := hS.after hsk hm hz (sig0 := sm0) (by omega)
  obtain ⟨s', es', -, -⟩ := hS'.after hsk' hm hz (sig0 := sm0') (by omega)
  have stuck : (∀ b, (random o P.n).res ≠ .ok (some b)) → (∀ b, (random o' P.n).res ≠ .ok (some b)) →
      (crypto_signT ⟨P, H, G⟩ T o sm0 m sk).tr = (crypto_signT ⟨P, H', G'⟩ T' o' sm0' m sk').tr := fun g g' => by
    rw [sign_stuck es g, sign_stuck es' g', hb, ht]
  cases e : (random o P.n).res with
  | error u =>
    cases e' : (random o' P.n).res with
    | error u' => exact stuck (by rw [e]; simp) (by rw [e']; simp)
    | ok r' => rw [e, e'] at hr; exact hr.elim
  | ok r =>
    cases e' : (random o' P.n).res with
    | error u' => rw [e, e'] at hr; exact hr.elim
    | ok r' =>
      rw [e, e'] at hr
      cases r with
      | none =>
        cases r' with
        | none => exact stuck (by rw [e]; simp) (by rw [e']; simp)
        | some b' => exact hr.elim
      | some b =>
        cases r' with
        | none => exact hr.elim
        | some b' =>
          obtain ⟨hb1, hb2⟩ : b.length = P.n ∧ b'.length = P.n := hr
          obtain ⟨f1, rest, f2, f3⟩ := hS.crypto_sign hsk hm hsm e hb1
          obtain ⟨f1', rest', f2', f3'⟩ := hS'.crypto_sign hsk' hm hsm' e' hb2
          rw [f1, f1'] at hres
          have heq : sign sk b m ++ m = sign sk' b' m ++ m :=
            congrArg (fun r : C (Option (Bytes × Nat)) => match r with
              | .ok (some x) => x.1
              | _ => []) hres
          rw [List.append_cancel_right heq, hpk, hsm, ← hsm', ← f2', hb] at f2
          rw [f3, f3', hb, ht, List.append_cancel_left f2]

end

end Spx.Leak
