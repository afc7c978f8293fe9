import Verif.Model.LeakBase
import Verif.Model.HashCommon
/-! # ref/utils.c, ref/address.c and the end of `hash_message` with traces

The definitions are those of Model/Utils.lean, Model/Address.lean, Model/Env.lean and
Model/HashCommon.lean over the monad of Model/LeakBase.lean. -/

namespace Spx.Leak

/-- `ull_to_bytes`, ref/utils.c:12-22.  `inv < 2^64` in C. -/
def ull_to_bytes (out : Bytes) (outlen inv : Nat) : L Bytes := do
  let r ← forRange outlen (fun j (s : Bytes × Nat) => do
    -- i runs from outlen - 1 down to 0
    let i := outlen - 1 - j
    let out ← wr1 s.1 i (BitVec.ofNat 8 (s.2 &&& 0xff))
    .ok (out, s.2 >>> 8)) (out, inv)
  .ok r.1

/-- `u32_to_bytes`, ref/utils.c:24-30. -/
def u32_to_bytes (out : Bytes) (inv : Nat) : L Bytes := do
  let out ← wr1 out 0 (BitVec.ofNat 8 (inv >>> 24))
  let out ← wr1 out 1 (BitVec.ofNat 8 (inv >>> 16))
  let out ← wr1 out 2 (BitVec.ofNat 8 (inv >>> 8))
  wr1 out 3 (BitVec.ofNat 8 inv)

/-- `bytes_to_ull`, ref/utils.c:35-44.  A shift by 64 or more is undefined. -/
def bytes_to_ull (inp : Bytes) (inlen : Nat) : L Nat :=
  forRange inlen (fun i retval => do
    let b ← rd1 inp i
    let k := 8 * (inlen - 1 - i)
    cif k < 64 then .ok (retval ||| (b.toNat <<< k) % 2 ^ 64) else .error .shift) 0

section

variable (f : Family)

/-- `set_layer_addr`, ref/address.c:11-14 -/
def set_layer_addr (addr : Addr) (layer : Nat) : L Addr := wr1 addr f.offLayer (BitVec.ofNat 8 layer)

/-- `set_tree_addr`, ref/address.c:19-25 -/
def set_tree_addr (addr : Addr) (tree : Nat) : L Addr := do
  let r ← withSub addr f.offTree (fun b => do .ok (← ull_to_bytes b 8 tree, ()))
  .ok r.1

/-- `set_type`, ref/address.c:33-36 -/
def set_type (addr : Addr) (typ : Nat) : L Addr := wr1 addr f.offType (BitVec.ofNat 8 typ)

/-- `copy_subtree_addr`, ref/address.c:42-45 -/
def copy_subtree_addr (out inp : Addr) : L Addr := do
  wr out 0 (← rd inp 0 (f.offTree + 8))

/-- `set_keypair_addr`, ref/address.c:53-56 -/
def set_keypair_addr (addr : Addr) (keypair : Nat) : L Addr := do
  let r ← withSub addr f.offKp (fun b => do .ok (← u32_to_bytes b keypair, ()))
  .ok r.1

/-- `copy_keypair_addr`, ref/address.c:62-66 -/
def copy_keypair_addr (out inp : Addr) : L Addr := do
  let out ← wr out 0 (← rd inp 0 (f.offTree + 8))
  wr out f.offKp (← rd inp f.offKp 4)

/-- `set_chain_addr`, ref/address.c:72-75 -/
def set_chain_addr (addr : Addr) (chain : Nat) : L Addr := wr1 addr f.offChain (BitVec.ofNat 8 chain)

/-- `set_hash_addr`, ref/address.c:81-84 -/
def set_hash_addr (addr : Addr) (hash : Nat) : L Addr := wr1 addr f.offHash (BitVec.ofNat 8 hash)

/-- `set_tree_height`, ref/address.c:92-95 -/
def set_tree_height (addr : Addr) (tree_height : Nat) : L Addr :=
  wr1 addr f.offTreeHgt (BitVec.ofNat 8 tree_height)

/-- `set_tree_index`, ref/address.c:101-104 -/
def set_tree_index (addr : Addr) (tree_index : Nat) : L Addr := do
  let r ← withSub addr f.offTreeIndex (fun b => do .ok (← u32_to_bytes b tree_index, ()))
  .ok r.1

end

/-- The functions declared in ref/hash.h and ref/thash.h, `Spx.HashImpl` -/
structure HashImpl where
  initialize_hash_function : Ctx → L Ctx
  prf_addr : Ctx → Addr → L Bytes
  /-- `thash(out, in, inblocks, ctx, addr)` -/
  thash : Bytes → Nat → Ctx → Addr → L Bytes
  /-- `gen_message_random(R, sk_prf, optrand, m, mlen, ctx)` -/
  gen_message_random : Bytes → Bytes → Bytes → Ctx → L Bytes
  /-- `hash_message(digest, &tree, &leaf_idx, R, pk, m, mlen, ctx)` -/
  hash_message : Bytes → Bytes → Bytes → Ctx → L (Bytes × Nat × Nat)

/-- Compile-time configuration, linked hash code and contents of uninitialised memory, `Spx.Env` -/
structure Env where
  P : Params
  H : HashImpl
  G : Nat → Nat → Byte

/-- The hash functions without the traces -/
def HashImpl.erase (H : HashImpl) : Spx.HashImpl where
  initialize_hash_function ctx := (H.initialize_hash_function ctx).res
  prf_addr ctx addr := (H.prf_addr ctx addr).res
  thash inp inblocks ctx addr := (H.thash inp inblocks ctx addr).res
  gen_message_random sk_prf optrand m ctx := (H.gen_message_random sk_prf optrand m ctx).res
  hash_message R pk m ctx := (H.hash_message R pk m ctx).res

/-- The environment without the traces -/
abbrev Env.erase (E : Env) : Spx.Env := ⟨E.P, E.H.erase, E.G⟩

/-- End of `hash_message`: ref/hash_sha2.c:176-194, ref/hash_shake.c:77-96, ref/hash_haraka.c:76-95
(identical text).  Returns the digest, `*tree` and `*leaf_idx`. -/
def hash_message_split (P : Params) (buf : Bytes) : L (Bytes × Nat × Nat) := do
  let digest ← rd buf 0 P.forsMsgBytes
  let bufp ← sub buf P.forsMsgBytes
  let tree ← (if P.d = 1 then .ok 0 else do
    let t ← bytes_to_ull bufp P.treeBytes
    cif 64 - P.treeBits < 64 then .ok (t &&& ((2 ^ 64 - 1) >>> (64 - P.treeBits))) else .error .shift : L Nat)
  let bufp ← sub bufp P.treeBytes
  let leaf := (← bytes_to_ull bufp P.leafBytes) % 2 ^ 32
  cif 32 - P.leafBits < 32 then .ok (digest, tree, leaf &&& ((2 ^ 32 - 1) >>> (32 - P.leafBits)))
  else .error .shift

end Spx.Leak
