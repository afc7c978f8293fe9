import Verif.Model.Address
/-! # Context, hash interface and environment of the model -/

namespace Spx

/-- `spx_ctx`, ref/context.h:8-26 and haraka-aesni/context.h:9-14.  The fields of the families and
implementations which are not compiled in are present but unused; the two-dimensional constant arrays
are flattened to 80 words, and `__m128i rc[40]` to its 640 bytes in memory. -/
structure Ctx where
  pub_seed : Bytes
  sk_seed : Bytes
  state_seeded : Bytes
  state_seeded_512 : Bytes
  tweaked512_rc64 : List (BitVec 64)
  tweaked256_rc32 : List (BitVec 32)
  rc : Bytes

/-- The functions declared in ref/hash.h and ref/thash.h, which are provided by the linked
`hash_*.c` and `thash_*.c`.  An output of `SPX_N` bytes is returned; callers copy it to the
place the C code passes as `out`.  All implementations read their inputs completely before the
first write to `out` (see Model/Thash*.lean and C42), so passing overlapping buffers is the same
as this. -/
structure HashImpl where
  initialize_hash_function : Ctx → C Ctx
  prf_addr : Ctx → Addr → C Bytes
  /-- `thash(out, in, inblocks, ctx, addr)` -/
  thash : Bytes → Nat → Ctx → Addr → C Bytes
  /-- `gen_message_random(R, sk_prf, optrand, m, mlen, ctx)` -/
  gen_message_random : Bytes → Bytes → Bytes → Ctx → C Bytes
  /-- `hash_message(digest, &tree, &leaf_idx, R, pk, m, mlen, ctx)` -/
  hash_message : Bytes → Bytes → Bytes → Ctx → C (Bytes × Nat × Nat)

/-- Compile-time configuration, linked hash code, and the contents of uninitialised memory:
`G site i` is byte `i` of the uninitialised object at program point `site`. -/
structure Env where
  P : Params
  H : HashImpl
  G : Nat → Nat → Byte

end Spx
