import Verif.Spec.Adrs
import Verif.Spec.Keccak
/-! # The tweakable hash functions of SPHINCS+-SHAKE (round 3.1, section 7.2.1) -/

namespace Spx.Spec

/-- SPHINCS+-SHAKE256 with security parameter `n`. -/
def shakeHash (n : Nat) (robust : Bool) : Hash where
  T pub a x :=
    if robust then
      Keccak.shake256 (pub ++ a.enc32 ++ xorBytes x (Keccak.shake256 (pub ++ a.enc32) x.length)) n
    else Keccak.shake256 (pub ++ a.enc32 ++ x) n
  PRF pub sk a := Keccak.shake256 (pub ++ a.enc32 ++ sk) n
  PRFmsg _pub k o m := Keccak.shake256 (k ++ o ++ m) n
  Hmsg R pub root m k := Keccak.shake256 (R ++ pub ++ root ++ m) k

end Spx.Spec
