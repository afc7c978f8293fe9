import Verif.Spec.Adrs
import Verif.Spec.Haraka
/-! # The tweakable hash functions of SPHINCS+-Haraka (round 3.1, section 7.2.3)

All functions use the round constants derived from the public seed.  As in the reference code the
message hash absorbs `R`, the root and the message: the public seed enters through the constants. -/

namespace Spx.Spec
open Haraka

/-- Extend with zeros to `k` bytes. -/
def zeroPad (k : Nat) (x : Bytes) : Bytes := x ++ List.replicate (k - x.length) 0#8

/-- SPHINCS+-Haraka with security parameter `n` (at most 32). -/
def harakaHash (n : Nat) (robust : Bool) : Hash where
  T pub a x :=
    let rc := rcTweak pub
    if x.length = n then
      let x := if robust then xorBytes x (haraka256 rc a.enc32) else x
      (haraka512 rc (zeroPad 64 (a.enc32 ++ x))).take n
    else
      let x := if robust then xorBytes x (harakaS rc a.enc32 x.length) else x
      harakaS rc (a.enc32 ++ x) n
  PRF pub sk a := (haraka512 (rcTweak pub) (zeroPad 64 (a.enc32 ++ sk))).take n
  PRFmsg pub k o m := harakaS (rcTweak pub) (k ++ o ++ m) n
  Hmsg R pub root m k := harakaS (rcTweak pub) (R ++ root ++ m) k

end Spx.Spec
