import Verif.Spec.Adrs
import Verif.Spec.Sha2
/-! # The tweakable hash functions of SPHINCS+-SHA2 (round 3.1, section 7.2.2)

For `n = 16` everything uses SHA-256.  For larger `n`, `F` and `PRF` use SHA-256 and everything else
SHA-512. -/

namespace Spx.Spec

/-- `BlockPad(PK.seed)`: the seed filled up with zeros to one block. -/
def blockPad (A : Sha2.Alg) (pub : Bytes) : Bytes := pub ++ List.replicate (A.blk - pub.length) 0#8

/-- A tweakable hash function built from one algorithm. -/
def sha2T (A : Sha2.Alg) (n : Nat) (robust : Bool) (pub : Bytes) (a : ADRS) (x : Bytes) : Bytes :=
  (Sha2.hash A (blockPad A pub ++ a.enc22 ++
    (if robust then xorBytes x (Sha2.mgf1 A (pub ++ a.enc22) x.length) else x))).take n

/-- SPHINCS+-SHA2 with security parameter `n`. -/
def sha2Hash (n : Nat) (robust : Bool) : Hash where
  T pub a x :=
    if 24 ≤ n ∧ n < x.length then sha2T Sha2.alg512 n robust pub a x
    else sha2T Sha2.alg256 n robust pub a x
  PRF pub sk a := (Sha2.sha256 (blockPad Sha2.alg256 pub ++ a.enc22 ++ sk)).take n
  PRFmsg _pub k o m :=
    if 24 ≤ n then (Sha2.hmac Sha2.alg512 k (o ++ m)).take n
    else (Sha2.hmac Sha2.alg256 k (o ++ m)).take n
  Hmsg R pub root m k :=
    if 24 ≤ n then Sha2.mgf1 Sha2.alg512 (R ++ pub ++ Sha2.sha512 (R ++ pub ++ root ++ m)) k
    else Sha2.mgf1 Sha2.alg256 (R ++ pub ++ Sha2.sha256 (R ++ pub ++ root ++ m)) k

end Spx.Spec
