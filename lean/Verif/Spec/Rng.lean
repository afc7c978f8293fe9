import Verif.Spec.Bytes
/-! # Specification of the NIST seed expander and of CTR_DRBG without derivation function

`E key block` is the block cipher (AES-256 in the competition). -/

namespace Spx.Spec.Rng

section
variable (E : Bytes → Bytes → Bytes)

/-- First counter block of the seed expander without its last four bytes: diversifier and maximal
length. -/
def xofPrefix (diversifier : Bytes) (maxlen : Nat) : Bytes := diversifier ++ toBE 4 maxlen

/-- Byte number `i` of the stream of the seed expander: byte `i % 16` of the encryption of the
counter block with counter `i / 16`. -/
def xofByte (key pre : Bytes) (i : Nat) : Byte := (E key (pre ++ toBE 4 (i / 16))).getD (i % 16) 0

/-- Bytes `from … from + len - 1` of the stream. -/
def xofStream (key pre : Bytes) (from_ len : Nat) : Bytes :=
  (List.range len).map fun i => xofByte E key pre (from_ + i)

/-- Output of CTR_DRBG (SP 800-90A, 10.2.1.5.1, step 4): encryptions of `V + 1, V + 2, …`. -/
def drbgOut (key : Bytes) (v len : Nat) : Bytes :=
  (cat ((len + 15) / 16) fun j => E key (toBE 16 (v + 1 + j))).take len

/-- CTR_DRBG_Update (SP 800-90A, 10.2.1.2): the new key and the new `V`. -/
def drbgUpdate (data key : Bytes) (v : Nat) : Bytes × Bytes :=
  let temp := xorBytes (cat 3 fun j => E key (toBE 16 (v + 1 + j))) data
  (temp.take 32, temp.drop 32)

/-- Generate: output, new key, new `V`. -/
def drbgGenerate (key : Bytes) (v len : Nat) : Bytes × Bytes × Bytes :=
  (drbgOut E key v len, drbgUpdate E (List.replicate 48 0) key (v + (len + 15) / 16))

/-- The outputs of consecutive calls for a list of lengths. -/
def drbgOutputs : Bytes → Bytes → List Nat → List Bytes
  | _, _, [] => []
  | key, v, len :: ls =>
    let r := drbgGenerate E key (beNat v) len
    r.1 :: drbgOutputs r.2.1 r.2.2 ls

end
end Spx.Spec.Rng
