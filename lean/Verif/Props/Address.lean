import Verif.Proof.OnlyPositions
/-! # Domain separation of the hash addresses: C21 -/

namespace Spx
open Spec

/-- C21: the bytes the hash functions read determine every field. -/
theorem C21_address_bytes_injective {f : Family} {a b : ADRS} (ha : a.OK) (hb : b.OK)
    (h : (enc f a).take (addrBytes f) = (enc f b).take (addrBytes f)) : a = b := enc_inj ha hb h

/-- C21: each setter changes its own field and no other; the copy functions copy layer and tree, and
the key pair.  (`enc` writes the fields to the places the documents prescribe; `set_hash_addr` writes
one byte, and the hash field is always below 256.) -/
theorem C21_setters (f : Family) {a b : ADRS} (ha : a.OK) (v : Nat) :
    enc f zeroADRS = zeroAddr ∧
    (v < 256 → set_layer_addr f (enc f a) v = .ok (enc f { a with layer := v })) ∧
    (v < 2 ^ 64 → set_tree_addr f (enc f a) v = .ok (enc f { a with tree := v })) ∧
    (v < 256 → set_type f (enc f a) v = .ok (enc f { a with typ := v })) ∧
    set_keypair_addr f (enc f a) v = .ok (enc f { a with w1 := v }) ∧
    (v < 256 → set_chain_addr f (enc f a) v = .ok (enc f { a with w2 := v })) ∧
    (v < 256 → a.w3 < 256 → set_hash_addr f (enc f a) v = .ok (enc f { a with w3 := v })) ∧
    (v < 256 → set_tree_height f (enc f a) v = .ok (enc f { a with w2 := v })) ∧
    set_tree_index f (enc f a) v = .ok (enc f { a with w3 := v }) ∧
    copy_subtree_addr f (enc f a) (enc f b) = .ok (enc f { a with layer := b.layer, tree := b.tree }) ∧
    copy_keypair_addr f (enc f a) (enc f b) = .ok (enc f { a with layer := b.layer, tree := b.tree, w1 := b.w1 }) :=
  ⟨(zeroAddr_eq f).symm, fun h => set_layer_enc ha h, fun h => set_tree_enc ha h, fun h => set_type_enc ha h,
    set_keypair_enc, fun h => set_chain_enc ha h, fun h h' => set_hash_enc h' h, fun h => set_tree_height_enc ha h,
    set_tree_index_enc, copy_subtree_enc, copy_keypair_enc⟩

/-- C21: two different positions of the scheme have different address bytes, for every shipped
parameter set. -/
theorem C21_positions_separated {P : Params} (hP : P ∈ shipped) {p q : Position} (hp : p.Valid P.toSpec)
    (hq : q.Valid P.toSpec) (hne : p ≠ q) :
    (enc P.fam p.adrs).take (addrBytes P.fam) ≠ (enc P.fam q.adrs).take (addrBytes P.fam) := fun h =>
  hne (Position.adrs_inj hp hq
    (enc_inj (Position.adrs_ok (shipped_valid hP) hp) (Position.adrs_ok (shipped_valid hP) hq) h))

/-- The positions are those at which the specification, and by C13 the code, calls its hash
functions. -/
theorem C21_positions_are_used (S : Hash) (pub sk l r x : Bytes) (layer tree kp i j h : Nat) (p : Par) :
    wotsSk S pub sk layer tree kp i = S.PRF pub sk (Position.wotsPrf layer tree kp i).adrs ∧
    wotsF S pub layer tree kp i j x = S.T pub (Position.wotsHash layer tree kp i j).adrs x ∧
    wotsPk p S pub sk layer tree kp = S.T pub (Position.wotsPk layer tree kp).adrs
      (cat p.len fun i => chain (wotsF S pub layer tree kp i) (wotsSk S pub sk layer tree kp i) 0 (p.w - 1)) ∧
    treeH S pub layer tree h i l r = S.T pub (Position.treeNode layer tree h i).adrs (l ++ r) ∧
    forsSk S pub sk tree kp i = S.PRF pub sk (Position.forsPrf tree kp i).adrs ∧
    forsLeafOf S pub tree kp i x = S.T pub (Position.forsLeaf tree kp i).adrs x ∧
    forsH S pub tree kp h i l r = S.T pub (Position.forsNode tree kp h i).adrs (l ++ r) ∧
    forsPk p S pub sk tree kp = S.T pub (Position.forsRoots tree kp).adrs
      (cat p.k fun i => node (forsH S pub tree kp) (forsLeaf S pub sk tree kp) p.a i) :=
  ⟨rfl, rfl, rfl, rfl, rfl, rfl, rfl, rfl⟩

/-- Two positions with equal numbers but different roles, in the set with the largest tree index. -/
example : (enc .sha2 (Position.forsNode (2 ^ 64 - 1) 15 1 77).adrs).take 22 ≠
    (enc .sha2 (Position.wotsHash 0 (2 ^ 64 - 1) 15 1 7).adrs).take 22 :=
  C21_positions_separated (P := sha2_256f true) (by decide)
    (show Position.Valid _ _ from ⟨by decide, by decide, by decide, by decide, by decide⟩)
    (show Position.Valid _ _ from ⟨by decide, by decide, by decide, by decide, by decide⟩) (by decide)

/-- C21: key generation, signing and verification call their hash functions nowhere else.  Replacing the hash code at
every address that does not belong to a valid position, at the positions of the other kind (keyed or not), and on
inputs of another length, by anything that returns `SPX_N` bytes, changes no result.  With
`C21_positions_separated`: two calls made for different purposes never agree in the address. -/
theorem C21_code_uses_only_positions {P : Params} (hP : P ∈ shipped) (G g : Nat → Nat → Byte)
    (T' : Bytes → Addr → Bytes → Bytes) (F' : Bytes → Bytes → Addr → Bytes)
    (hT : ∀ pub a x, (T' pub a x).length = P.n) (hF : ∀ pub sk a, (F' pub sk a).length = P.n) :
    let E := build P G g
    let E' : Env := ⟨P, onlyPositions P (implOf P g) T' F', G⟩
    (∀ pk0 sk0 seed : Bytes, P.pkBytes ≤ pk0.length → P.skBytes ≤ sk0.length → P.seedBytes ≤ seed.length →
      crypto_sign_seed_keypair E' pk0 sk0 seed = crypto_sign_seed_keypair E pk0 sk0 seed) ∧
    (∀ sig0 m sk optrand : Bytes, P.skBytes ≤ sk.length → m.length < 2 ^ 60 → P.n ≤ optrand.length →
      P.spxBytes ≤ sig0.length →
      crypto_sign_signature E' sig0 m sk optrand = crypto_sign_signature E sig0 m sk optrand) ∧
    (∀ sig m pk : Bytes, P.pkBytes ≤ pk.length → m.length < 2 ^ 60 → P.spxBytes ≤ sig.length →
      crypto_sign_verify E' sig P.spxBytes m pk = crypto_sign_verify E sig P.spxBytes m pk) := by
  intro E E'
  have hV := shipped_valid hP
  have hS := replaced_same P (specHash P) T' F'
  have hL := shipped_len hP
  have hd : P.toSpec.h' * P.toSpec.d = P.toSpec.h := hV.dvd
  let R' : Refines E'.P E'.H (replacedHash P (specHash P) T' F') := onlyRefines (shippedRefines hP g) hV hT hF
  refine ⟨fun pk0 sk0 seed h1 h2 h3 => ?_, fun sig0 m sk optrand h1 h2 h3 h4 => ?_, fun sig m pk h1 h2 h3 => ?_⟩
  · rw [crypto_sign_seed_keypair_spec R' hV h1 h2 h3, crypto_sign_seed_keypair_spec (buildRefines hP G g) hV h1 h2 h3]
    have e : ∀ pub sk, xmssRoot P.toSpec (replacedHash P (specHash P) T' F') pub sk (P.toSpec.d - 1) 0 =
        xmssRoot P.toSpec (specHash P) pub sk (P.toSpec.d - 1) 0 := root_same hS hL hV.d_pos
    unfold pkOf skOf
    show Except.ok (_ ++ xmssRoot P.toSpec (replacedHash P (specHash P) T' F') _ _ (P.toSpec.d - 1) 0 ++ _,
      _ ++ xmssRoot P.toSpec (replacedHash P (specHash P) T' F') _ _ (P.toSpec.d - 1) 0 ++ _) = _
    rw [e]
    rfl
  · rw [crypto_sign_signature_spec R' hV h1 h2 h3 h4, crypto_sign_signature_spec (buildRefines hP G g) hV h1 h2 h3 h4]
    show Except.ok (Spec.sign P.toSpec (replacedHash P (specHash P) T' F') _ _ _ ++ _, _) = _
    rw [sign_same hS hL hd (digit_le P.toSpec)]
    rfl
  · rw [crypto_sign_verify_spec R' hV h1 h2 h3]
    refine Eq.trans ?_ (crypto_sign_verify_spec (buildRefines hP G g) hV h1 h2 h3).symm
    show Except.ok (if verify P.toSpec (replacedHash P (specHash P) T' F') _ _ _ then _ else _) = _
    rw [verify_same hS hL hd (by rw [toSpec_forsBytes]; exact Nat.le_trans (Nat.le_of_eq (spxBytes_eq hV).symm) h3)]
    rfl

/-- Signing with SPHINCS+-SHA2-128f is unchanged if every other address hashes to zero, and at such an address the
replaced code does return zero. -/
example (G g : Nat → Nat → Byte) :
    let T' : Bytes → Addr → Bytes → Bytes := fun _ _ _ => List.replicate 16 0
    let F' : Bytes → Bytes → Addr → Bytes := fun _ _ _ => List.replicate 16 0
    let E' : Env := ⟨sha2_128f false, onlyPositions (sha2_128f false) (implOf (sha2_128f false) g) T' F', G⟩
    crypto_sign_signature E' (List.replicate 17088 0) [1, 2, 3] (List.replicate 64 7) (List.replicate 16 9) =
        crypto_sign_signature (build (sha2_128f false) G g) (List.replicate 17088 0) [1, 2, 3] (List.replicate 64 7)
          (List.replicate 16 9) ∧
      ∀ ctx inp, E'.H.thash inp 1 ctx (enc .sha2 { zeroADRS with layer := 22 }) = .ok (List.replicate 16 0) := by
  intro T' F' E'
  refine ⟨(C21_code_uses_only_positions (P := sha2_128f false) (by decide) G g T' F' (fun _ _ _ => by decide +kernel)
    (fun _ _ _ => by decide +kernel)).2.1 _ _ _ _ (by rw [List.length_replicate]; decide) (by decide)
    (by rw [List.length_replicate]; decide) (by rw [List.length_replicate]; decide), fun ctx inp => ?_⟩
  refine if_neg ?_
  rintro ⟨q, hq, _, he, _⟩
  have hq' := Position.adrs_ok (shipped_valid (P := sha2_128f false) (by decide)) hq
  have e := (enc_eq_iff (by constructor <;> decide) hq').mp he
  have e : 22 = q.adrs.layer := congrArg ADRS.layer e
  cases q <;> simp only [Position.adrs, Position.Valid] at e hq <;> first | omega | skip
  all_goals
    have h22 : (sha2_128f false).toSpec.d = 22 := rfl
    omega

end Spx
