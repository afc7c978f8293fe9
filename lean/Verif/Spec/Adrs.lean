import Verif.Spec.Sphincs
/-! # Byte encodings of hash addresses

SPHINCS+ round 3.1, section 2.7.3 (32-byte ADRS) and 7.2.2 (22-byte compressed ADRS for SHA2). -/

namespace Spx.Spec

/-- 32-byte address: layer (4), tree (12), type (4), three words (4 each), big endian. -/
def ADRS.enc32 (a : ADRS) : Bytes :=
  toBE 4 a.layer ++ toBE 12 a.tree ++ toBE 4 a.typ ++ toBE 4 a.w1 ++ toBE 4 a.w2 ++ toBE 4 a.w3

/-- 22-byte compressed address: layer (1), tree (8), type (1), three words (4 each). -/
def ADRS.enc22 (a : ADRS) : Bytes :=
  toBE 1 a.layer ++ toBE 8 a.tree ++ toBE 1 a.typ ++ toBE 4 a.w1 ++ toBE 4 a.w2 ++ toBE 4 a.w3

/-- Ranges of the fields as far as the code uses them. -/
structure ADRS.OK (a : ADRS) : Prop where
  layer : a.layer < 256
  tree : a.tree < 2 ^ 64
  typ : a.typ < 256
  w1 : a.w1 < 2 ^ 32
  w2 : a.w2 < 256
  w3 : a.w3 < 2 ^ 32

end Spx.Spec
