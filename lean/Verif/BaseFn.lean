/-! Names for the functions of the hash library and for the primitives they are made of, to count calls. -/

namespace Spx

/-- The functions declared in ref/hash.h and ref/thash.h and their versions for several lanes (hashx4.h, thashx4.h and so
on); `blocks` is the argument `inblocks`. -/
inductive Fn
  /-- `initialize_hash_function` -/
  | init
  /-- `prf_addr` -/
  | prf
  /-- `thash` -/
  | thash (blocks : Nat)
  /-- `gen_message_random` -/
  | rand
  /-- `hash_message` -/
  | msg
  /-- `prf_addrx2`, `prf_addrx4`, `prf_addrx8` -/
  | prfx
  /-- `thashx2`, `thashx4`, `thashx8` -/
  | thashx (blocks : Nat)
  /-- Keccak-f[1600] -/
  | keccak
  /-- Keccak-f[1600] on two or four lanes -/
  | keccakx
  /-- the compression function of SHA-256 -/
  | sha256
  /-- the compression function of SHA-512 -/
  | sha512
  /-- the compression function of SHA-256 on eight lanes -/
  | sha256x
  /-- the compression function of SHA-512 on four lanes -/
  | sha512x
  /-- the permutation of Haraka-512 -/
  | haraka512
  /-- the permutation of Haraka-256 -/
  | haraka256
  /-- the permutation of Haraka-512 on four lanes -/
  | haraka512x
  /-- the permutation of Haraka-256 on four lanes -/
  | haraka256x
  deriving DecidableEq, Repr

end Spx
