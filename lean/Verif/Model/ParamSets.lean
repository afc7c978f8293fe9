import Verif.Model.Sign
import Verif.Model.HashSha2
import Verif.Model.HashShake
import Verif.Model.HashHaraka
import Verif.Spec.HashSha2
import Verif.Spec.HashShake
import Verif.Spec.HashHaraka
/-! # The shipped parameter sets: ref/params/params-sphincs-*.h

One definition per header, with the values of lines 7 (SPX_N), 9 (SPX_FULL_HEIGHT), 11 (SPX_D),
13 (SPX_FORS_HEIGHT), 14 (SPX_FORS_TREES), 16 (SPX_WOTS_W) and, for SHA2, 24 (SPX_SHA512).
The argument selects thash_*_robust.c or thash_*_simple.c (`THASH`, ref/Makefile:1-21).  The params
directories of the optimised implementations are symbolic links to ref/params. -/

namespace Spx

/-- ref/params/params-sphincs-sha2-128s.h -/
def sha2_128s (robust : Bool) : Params :=
  { n := 16, fullHeight := 63, d := 7, forsHeight := 12, forsTrees := 14, w := 16, fam := .sha2, robust, sha512 := false }
/-- ref/params/params-sphincs-sha2-128f.h -/
def sha2_128f (robust : Bool) : Params :=
  { n := 16, fullHeight := 66, d := 22, forsHeight := 6, forsTrees := 33, w := 16, fam := .sha2, robust, sha512 := false }
/-- ref/params/params-sphincs-sha2-192s.h -/
def sha2_192s (robust : Bool) : Params :=
  { n := 24, fullHeight := 63, d := 7, forsHeight := 14, forsTrees := 17, w := 16, fam := .sha2, robust, sha512 := true }
/-- ref/params/params-sphincs-sha2-192f.h -/
def sha2_192f (robust : Bool) : Params :=
  { n := 24, fullHeight := 66, d := 22, forsHeight := 8, forsTrees := 33, w := 16, fam := .sha2, robust, sha512 := true }
/-- ref/params/params-sphincs-sha2-256s.h -/
def sha2_256s (robust : Bool) : Params :=
  { n := 32, fullHeight := 64, d := 8, forsHeight := 14, forsTrees := 22, w := 16, fam := .sha2, robust, sha512 := true }
/-- ref/params/params-sphincs-sha2-256f.h -/
def sha2_256f (robust : Bool) : Params :=
  { n := 32, fullHeight := 68, d := 17, forsHeight := 9, forsTrees := 35, w := 16, fam := .sha2, robust, sha512 := true }
/-- ref/params/params-sphincs-shake-128s.h -/
def shake_128s (robust : Bool) : Params :=
  { n := 16, fullHeight := 63, d := 7, forsHeight := 12, forsTrees := 14, w := 16, fam := .shake, robust, sha512 := false }
/-- ref/params/params-sphincs-shake-128f.h -/
def shake_128f (robust : Bool) : Params :=
  { n := 16, fullHeight := 66, d := 22, forsHeight := 6, forsTrees := 33, w := 16, fam := .shake, robust, sha512 := false }
/-- ref/params/params-sphincs-shake-192s.h -/
def shake_192s (robust : Bool) : Params :=
  { n := 24, fullHeight := 63, d := 7, forsHeight := 14, forsTrees := 17, w := 16, fam := .shake, robust, sha512 := false }
/-- ref/params/params-sphincs-shake-192f.h -/
def shake_192f (robust : Bool) : Params :=
  { n := 24, fullHeight := 66, d := 22, forsHeight := 8, forsTrees := 33, w := 16, fam := .shake, robust, sha512 := false }
/-- ref/params/params-sphincs-shake-256s.h -/
def shake_256s (robust : Bool) : Params :=
  { n := 32, fullHeight := 64, d := 8, forsHeight := 14, forsTrees := 22, w := 16, fam := .shake, robust, sha512 := false }
/-- ref/params/params-sphincs-shake-256f.h -/
def shake_256f (robust : Bool) : Params :=
  { n := 32, fullHeight := 68, d := 17, forsHeight := 9, forsTrees := 35, w := 16, fam := .shake, robust, sha512 := false }
/-- ref/params/params-sphincs-haraka-128s.h -/
def haraka_128s (robust : Bool) : Params :=
  { n := 16, fullHeight := 63, d := 7, forsHeight := 12, forsTrees := 14, w := 16, fam := .haraka, robust, sha512 := false }
/-- ref/params/params-sphincs-haraka-128f.h -/
def haraka_128f (robust : Bool) : Params :=
  { n := 16, fullHeight := 66, d := 22, forsHeight := 6, forsTrees := 33, w := 16, fam := .haraka, robust, sha512 := false }
/-- ref/params/params-sphincs-haraka-192s.h -/
def haraka_192s (robust : Bool) : Params :=
  { n := 24, fullHeight := 63, d := 7, forsHeight := 14, forsTrees := 17, w := 16, fam := .haraka, robust, sha512 := false }
/-- ref/params/params-sphincs-haraka-192f.h -/
def haraka_192f (robust : Bool) : Params :=
  { n := 24, fullHeight := 66, d := 22, forsHeight := 8, forsTrees := 33, w := 16, fam := .haraka, robust, sha512 := false }
/-- ref/params/params-sphincs-haraka-256s.h -/
def haraka_256s (robust : Bool) : Params :=
  { n := 32, fullHeight := 64, d := 8, forsHeight := 14, forsTrees := 22, w := 16, fam := .haraka, robust, sha512 := false }
/-- ref/params/params-sphincs-haraka-256f.h -/
def haraka_256f (robust : Bool) : Params :=
  { n := 32, fullHeight := 68, d := 17, forsHeight := 9, forsTrees := 35, w := 16, fam := .haraka, robust, sha512 := false }

/-- The 18 headers, with one thash variant. -/
def headers (r : Bool) : List Params :=
  [sha2_128s r, sha2_128f r, sha2_192s r, sha2_192f r, sha2_256s r, sha2_256f r,
   shake_128s r, shake_128f r, shake_192s r, shake_192f r, shake_256s r, shake_256f r,
   haraka_128s r, haraka_128f r, haraka_192s r, haraka_192f r, haraka_256s r, haraka_256f r]

/-- All 36 instances which can be built from the shipped files. -/
def shipped : List Params := headers false ++ headers true

/-- The hash code linked for a parameter set (ref/Makefile:10-21): hash_sha2.c and thash_sha2_*.c,
hash_shake.c and thash_shake_*.c, or hash_haraka.c and thash_haraka_*.c.  `g` is the content of the
uninitialised memory of that code. -/
def implOf (P : Params) (g : Nat → Nat → Byte) : HashImpl :=
  match P.fam with
  | .sha2 => Sha2.impl P g
  | .shake => Shake.impl P g
  | .haraka => Haraka.impl P g

/-- One build of the library: parameters, linked hash code, and arbitrary contents of all
uninitialised memory (`G` for the scheme code, `g` for the hash code). -/
def build (P : Params) (G g : Nat → Nat → Byte) : Env := ⟨P, implOf P g, G⟩

/-- The hash functions the specification prescribes for a parameter set. -/
def specHash (P : Params) : Spec.Hash :=
  match P.fam with
  | .sha2 => Spec.sha2Hash P.n P.robust
  | .shake => Spec.shakeHash P.n P.robust
  | .haraka => Spec.harakaHash P.n P.robust

end Spx
