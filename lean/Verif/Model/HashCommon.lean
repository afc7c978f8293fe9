import Verif.Model.Env
/-! # The part of `hash_message` which is the same in all three hash families -/

namespace Spx

/-- End of `hash_message`: ref/hash_sha2.c:176-194, ref/hash_shake.c:77-96, ref/hash_haraka.c:76-95
(identical text).  Returns the digest, `*tree` and `*leaf_idx`. -/
def hash_message_split (P : Params) (buf : Bytes) : C (Bytes × Nat × Nat) := do
  let digest ← rd buf 0 P.forsMsgBytes
  let bufp ← sub buf P.forsMsgBytes
  let tree ← (if P.d = 1 then .ok 0 else do
    let t ← bytes_to_ull bufp P.treeBytes
    if 64 - P.treeBits < 64 then .ok (t &&& ((2 ^ 64 - 1) >>> (64 - P.treeBits))) else .error .shift : C Nat)
  let bufp ← sub bufp P.treeBytes
  let leaf := (← bytes_to_ull bufp P.leafBytes) % 2 ^ 32
  if 32 - P.leafBits < 32 then .ok (digest, tree, leaf &&& ((2 ^ 32 - 1) >>> (32 - P.leafBits)))
  else .error .shift

end Spx
