import Verif.Proof.ShippedSign
import Verif.Spec.Forge
import Verif.Props.Sign
/-! # C37: every one-time key signs one value -/

namespace Spx
open Spec Mem

/-- The layer-`j` part of a signature. -/
def layerPart (p : Par) (sig : Bytes) (j : Nat) : Bytes :=
  (sig.drop (p.n + forsBytes p + j * xmssBytes p)).take (xmssBytes p)

/-- The value signed at layer `j`, as a function of the position of the WOTS+ key alone: the FORS public
key that belongs to the leaf, or the root of the tree below the leaf. -/
def valueAt (p : Par) (S : Spec.Hash) (pub sk : Bytes) : (layer tree leaf : Nat) → Bytes
  | 0, t, l => forsPk p S pub sk t l
  | j + 1, t, l => xmssRoot p S pub sk j (t * 2 ^ p.h' + l)

theorem htMsg_valueAt (p : Par) (S : Spec.Hash) (pub sk : Bytes) (tree leaf j : Nat) :
    htMsg p S pub sk tree (forsPk p S pub sk tree leaf) j =
      valueAt p S pub sk j (treeAt p tree j) (leafAt p tree leaf j) := by
  cases j with
  | zero =>
    show forsPk p S pub sk tree leaf = forsPk p S pub sk (tree / 2 ^ (p.h' * 0)) leaf
    rw [Nat.mul_zero, Nat.pow_zero, Nat.div_one]
  | succ j =>
    show xmssRoot p S pub sk j (treeAt p tree j) =
      xmssRoot p S pub sk j (treeAt p tree (j + 1) * 2 ^ p.h' + treeAt p tree j % 2 ^ p.h')
    congr 1
    unfold treeAt
    rw [Nat.mul_succ, Nat.pow_add, ← Nat.div_div_eq_div_mul]
    exact (Nat.div_add_mod' _ _).symm

/-- The parts of a signature by the specification. -/
theorem sign_layerPart {p : Par} {S : Spec.Hash} (L : HashLen p.n S) {sk optrand m : Bytes} {j : Nat} (hj : j < p.d) :
    let sig := Spec.sign p S sk optrand m
    let pub := (sk.drop (2 * p.n)).take p.n
    let sel := selected p S (sk.drop (2 * p.n)) m sig
    let t := treeAt p sel.2.1 j
    let l := leafAt p sel.2.1 sel.2.2 j
    layerPart p sig j = xmssSig p S pub (sk.take p.n) j t l (valueAt p S pub (sk.take p.n) j t l) ∧
    htRoot p S pub sel.2.1 sel.2.2 (sig.drop (p.n + forsBytes p))
      (forsPkFromSig p S pub sel.2.1 sel.2.2 (sig.drop p.n) sel.1) j = valueAt p S pub (sk.take p.n) j t l := by
  unfold selected Spec.sign
  simp only
  have q5 : (((sk.drop (2 * p.n)).drop p.n).take p.n) = (sk.drop (3 * p.n)).take p.n := by
    rw [List.drop_drop, show 2 * p.n + p.n = 3 * p.n by omega]
  rw [q5]
  generalize (sk.drop (2 * p.n)).take p.n = pub
  generalize (sk.drop (3 * p.n)).take p.n = root
  have hRl : (S.PRFmsg pub ((sk.drop p.n).take p.n) optrand m).length = p.n := L.PRFmsg ..
  generalize S.PRFmsg pub ((sk.drop p.n).take p.n) optrand m = R at *
  generalize sk.take p.n = sks
  have q6 : ∀ x : Bytes, (R ++ x).take p.n = R := fun x => List.take_left' hRl
  simp only [List.append_assoc, q6]
  have hl := splitDigest_leaf_lt p (S.Hmsg R pub root m (digestBytes p))
  generalize splitDigest p (S.Hmsg R pub root m (digestBytes p)) = sd at *
  obtain ⟨md, tree, leaf⟩ := sd
  simp only at hl ⊢
  have e1 : ∀ x, (R ++ (forsSig p S pub sks tree leaf md ++ x)).drop (p.n + forsBytes p) = x := by
    intro x
    rw [← List.drop_drop, List.drop_left' hRl, List.drop_left' (forsSig_len L)]
  constructor
  · unfold layerPart
    rw [← List.drop_drop, e1, ← htMsg_valueAt]
    have := cat_chunk (f := fun j => xmssSig p S pub sks j (treeAt p tree j) (leafAt p tree leaf j)
      (htMsg p S pub sks tree (forsPk p S pub sks tree leaf) j)) (fun i _ => xmssSig_len L) hj []
    rwa [List.append_nil] at this
  · rw [e1, List.drop_left' hRl, fors_correct L, ← htMsg_valueAt]
    have := ht_correct L (tree := tree) (pub := pub) (sk := sks) hl (forsPk p S pub sks tree leaf) [] j (by omega)
    rwa [List.append_nil] at this

section
variable {P : Params} (hP : P ∈ shipped)
include hP

/-- C37: for every secret key there is one value per layer, tree and leaf, such that every signature made
with the key, on any message and with any randomness, signs that value with that WOTS+ key: the
layer part is the WOTS+ signature of it (and the authentication path), and it is what verification
computes at this place. -/
theorem C37_one_value_per_key {sk : Bytes} (hsk : sk.length = P.skBytes) :
    ∃ value : Nat → Nat → Nat → Bytes,
      ∀ (G g : Nat → Nat → Byte) (sig0 m optrand : Bytes), m.length < 2 ^ 60 → optrand.length = P.n →
        sig0.length = P.spxBytes →
      ∃ sig, crypto_sign_signature (build P G g) sig0 m sk optrand = .ok (sig, P.spxBytes) ∧
        let p := P.toSpec
        let S := specHash P
        let pub := (sk.drop (2 * P.n)).take P.n
        let sel := selected p S (sk.drop (2 * P.n)) m sig
        ∀ j, j < P.d →
          let t := treeAt p sel.2.1 j
          let l := leafAt p sel.2.1 sel.2.2 j
          layerPart p sig j = xmssSig p S pub (sk.take P.n) j t l (value j t l) ∧
          htRoot p S pub sel.2.1 sel.2.2 (sig.drop (P.n + forsBytes p))
            (forsPkFromSig p S pub sel.2.1 sel.2.2 (sig.drop P.n) sel.1) j = value j t l := by
  refine ⟨valueAt P.toSpec (specHash P) ((sk.drop (2 * P.n)).take P.n) (sk.take P.n), ?_⟩
  intro G g sig0 m optrand hm hopt hsig0
  refine ⟨Spec.sign P.toSpec (specHash P) sk optrand m, ?_, ?_⟩
  · rw [ship_sign hP G g hsk hm hopt (by omega), List.drop_of_length_le (by omega), List.append_nil]
  · intro p S pub sel j hj
    exact sign_layerPart (p := P.toSpec) (shipped_len hP) hj

/-- C37 for two signatures: where they use the same WOTS+ key, they contain the same bytes. -/
theorem C37_same_key_same_bytes (G g G' g' : Nat → Nat → Byte) {sk sig0 sig0' m m' optrand optrand' sig sig' : Bytes}
    {len len' : Nat} (hsk : sk.length = P.skBytes) (hm : m.length < 2 ^ 60) (hm' : m'.length < 2 ^ 60)
    (hopt : optrand.length = P.n) (hopt' : optrand'.length = P.n) (h0 : sig0.length = P.spxBytes)
    (h0' : sig0'.length = P.spxBytes)
    (hs : crypto_sign_signature (build P G g) sig0 m sk optrand = .ok (sig, len))
    (hs' : crypto_sign_signature (build P G' g') sig0' m' sk optrand' = .ok (sig', len')) {j : Nat} (hj : j < P.d)
    (ht : treeAt P.toSpec (selected P.toSpec (specHash P) (sk.drop (2 * P.n)) m sig).2.1 j =
      treeAt P.toSpec (selected P.toSpec (specHash P) (sk.drop (2 * P.n)) m' sig').2.1 j)
    (hl : leafAt P.toSpec (selected P.toSpec (specHash P) (sk.drop (2 * P.n)) m sig).2.1
        (selected P.toSpec (specHash P) (sk.drop (2 * P.n)) m sig).2.2 j =
      leafAt P.toSpec (selected P.toSpec (specHash P) (sk.drop (2 * P.n)) m' sig').2.1
        (selected P.toSpec (specHash P) (sk.drop (2 * P.n)) m' sig').2.2 j) :
    layerPart P.toSpec sig j = layerPart P.toSpec sig' j := by
  obtain ⟨value, hv⟩ := C37_one_value_per_key hP hsk
  obtain ⟨s, e, h⟩ := hv G g sig0 m optrand hm hopt h0
  obtain ⟨s', e', h'⟩ := hv G' g' sig0' m' optrand' hm' hopt' h0'
  rw [hs] at e
  rw [hs'] at e'
  have e1 := congrArg Prod.fst (Except.ok.inj e)
  have e1' := congrArg Prod.fst (Except.ok.inj e')
  simp only at e1 e1'
  rw [← e1] at h
  rw [← e1'] at h'
  rw [(h j hj).1, (h' j hj).1, ht, hl]

end

/-- For one key of haraka-128f-robust, two messages: the top layer has a single tree, and if the two
signatures use the same leaf of it, they contain the same bytes there. -/
example (G g : Nat → Nat → Byte) : ∃ value : Nat → Nat → Nat → Bytes, ∀ m : Bytes, m.length < 100 →
    ∃ sig, crypto_sign_signature (build (haraka_128f true) G g) (List.replicate 17088 0) m (List.replicate 64 5)
        (List.replicate 16 1) = .ok (sig, 17088) ∧
      let sel := selected (haraka_128f true).toSpec (specHash (haraka_128f true)) (List.replicate 32 5) m sig
      ∀ j, j < 22 → ∃ path, layerPart (haraka_128f true).toSpec sig j =
        wotsSig (haraka_128f true).toSpec (specHash (haraka_128f true)) (List.replicate 16 5) (List.replicate 16 5) j
          (treeAt (haraka_128f true).toSpec sel.2.1 j) (leafAt (haraka_128f true).toSpec sel.2.1 sel.2.2 j)
          (value j (treeAt (haraka_128f true).toSpec sel.2.1 j) (leafAt (haraka_128f true).toSpec sel.2.1 sel.2.2 j))
        ++ path := by
  obtain ⟨value, hv⟩ := C37_one_value_per_key (P := haraka_128f true) (by decide) (sk := List.replicate 64 5) (by decide)
  refine ⟨value, fun m hm => ?_⟩
  obtain ⟨sig, e, h⟩ := hv G g (List.replicate 17088 0) m (List.replicate 16 1) (by omega) (by decide)
    List.length_replicate
  exact ⟨sig, e, fun j hj => ⟨_, (h j hj).1⟩⟩

end Spx
