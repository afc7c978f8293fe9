import Verif.Model.Sign
/-! # Model of the API functions over flat memory: ref/sign.c

The NaCl-style functions `crypto_sign` and `crypto_sign_open` are meant to be called with
overlapping buffers, so pointers matter.  Memory is a partial map from addresses to bytes; an access
to an address without a byte is out of bounds.  The objects behind `siglen`, `smlen` and `mlen` are
of a different type and are assumed to be separate; their values are returned.  Local variables
live outside this memory. -/

namespace Spx

/-- Memory: the bytes of all objects visible to the caller. -/
structure Mem where
  at' : Nat → Option Byte

instance : CoeFun Mem (fun _ => Nat → Option Byte) := ⟨Mem.at'⟩

namespace Mem

/-- Read `len` bytes at `p`. -/
def rd (M : Mem) (p len : Nat) : C Bytes :=
  if ∀ i, i < len → (M (p + i)).isSome then .ok ((List.range len).map fun i => (M (p + i)).getD 0)
  else .error .oob

/-- Write the bytes `d` at `p`. -/
def wr (M : Mem) (p : Nat) (d : Bytes) : C Mem :=
  if ∀ i, i < d.length → (M (p + i)).isSome then
    .ok ⟨fun a => if p ≤ a ∧ a < p + d.length then d[a - p]? else M a⟩
  else .error .oob

/-- `memmove(dst, src, len)`. -/
def memmove (M : Mem) (dst src len : Nat) : C Mem := do M.wr dst (← M.rd src len)

/-- `memset(p, 0, len)`. -/
def memzero (M : Mem) (p len : Nat) : C Mem := M.wr p (List.replicate len 0)

end Mem

variable (E : Env) (T : TreeCode)

/-- `crypto_sign_keypair`, ref/sign.c:83-90.  `rand` is the output of
`randombytes(seed, CRYPTO_SEEDBYTES)`. -/
def crypto_sign_keypairT (pk0 sk0 rand : Bytes) : C (Bytes × Bytes) := do
  let seed := uninit (E.G 26) E.P.seedBytes
  let seed ← wr seed 0 rand
  crypto_sign_seed_keypairT E T pk0 sk0 seed

/-- `crypto_sign_signature`, ref/sign.c:95-158, over flat memory: `sig`, `m`, `sk` are pointers,
`optrand` is the output of `randombytes`.  `m` and the public part of `sk` are read a second time
(line 128) after `R` has been written to `sig` (line 125); everything after line 128 reads and
writes only `sig` and local variables.  Returns the memory, `*siglen` and the return value. -/
def crypto_sign_signature_memT (M : Mem) (sig m mlen sk : Nat) (optrand : Bytes) : C (Mem × Nat × Int) := do
  let n := E.P.n
  let skb ← M.rd sk E.P.skBytes
  let ctx := uninitCtx E
  let sk_prf ← sub skb n
  let pk ← sub skb (2 * n)
  let ctx := { ctx with sk_seed := ← wr ctx.sk_seed 0 (← rd skb 0 n) }
  let ctx := { ctx with pub_seed := ← wr ctx.pub_seed 0 (← rd pk 0 n) }
  let ctx ← E.H.initialize_hash_function ctx
  let R ← E.H.gen_message_random sk_prf optrand (← M.rd m mlen) ctx
  let M ← M.wr sig R
  let skb ← M.rd sk E.P.skBytes
  let pk ← sub skb (2 * n)
  let sigb ← M.rd sig E.P.spxBytes
  let (mhash, tree, idx_leaf) ← E.H.hash_message sigb pk (← M.rd m mlen) ctx
  let sigb ← sign_restT E T sigb ctx mhash tree idx_leaf
  let M ← M.wr sig sigb
  .ok (M, E.P.spxBytes, 0)

/-- `crypto_sign_verify`, ref/sign.c:163-240, over flat memory.  It only reads. -/
def crypto_sign_verify_memT (M : Mem) (sig siglen m mlen pk : Nat) : C Int := do
  if siglen ≠ E.P.spxBytes then .ok (-1)
  else
    let sigb ← M.rd sig E.P.spxBytes
    let mb ← M.rd m mlen
    let pkb ← M.rd pk E.P.pkBytes
    crypto_sign_verifyT E T sigb siglen mb pkb

/-- `crypto_sign`, ref/sign.c:246-258.  Returns the memory, `*smlen` (an `unsigned long long`) and
the return value. -/
def crypto_signT (M : Mem) (sm m mlen sk : Nat) (optrand : Bytes) : C (Mem × Nat × Int) := do
  let (M, siglen, _) ← crypto_sign_signature_memT E T M sm m mlen sk optrand
  let M ← M.memmove (sm + E.P.spxBytes) m mlen
  .ok (M, (siglen + mlen) % 2 ^ 64, 0)

/-- `crypto_sign_open`, ref/sign.c:263-287.  Returns the memory, `*mlen` and the return value. -/
def crypto_sign_openT (M : Mem) (m sm smlen pk : Nat) : C (Mem × Nat × Int) := do
  if smlen < E.P.spxBytes then
    let M ← M.memzero m smlen
    .ok (M, 0, -1)
  else
    let mlen := smlen - E.P.spxBytes
    let r ← crypto_sign_verify_memT E T M sm E.P.spxBytes (sm + E.P.spxBytes) mlen pk
    if r ≠ 0 then
      let M ← M.memzero m smlen
      .ok (M, 0, -1)
    else
      let M ← M.memmove m (sm + E.P.spxBytes) mlen
      .ok (M, mlen, 0)

/-! The reference implementation. -/

/-- `crypto_sign_keypair` of ref/ -/
def crypto_sign_keypair (pk0 sk0 rand : Bytes) : C (Bytes × Bytes) :=
  crypto_sign_keypairT E (refCode E) pk0 sk0 rand
/-- `crypto_sign_signature` of ref/, over flat memory -/
def crypto_sign_signature_mem (M : Mem) (sig m mlen sk : Nat) (optrand : Bytes) : C (Mem × Nat × Int) :=
  crypto_sign_signature_memT E (refCode E) M sig m mlen sk optrand
/-- `crypto_sign_verify` of ref/, over flat memory -/
def crypto_sign_verify_mem (M : Mem) (sig siglen m mlen pk : Nat) : C Int :=
  crypto_sign_verify_memT E (refCode E) M sig siglen m mlen pk
/-- `crypto_sign` of ref/ -/
def crypto_sign (M : Mem) (sm m mlen sk : Nat) (optrand : Bytes) : C (Mem × Nat × Int) :=
  crypto_signT E (refCode E) M sm m mlen sk optrand
/-- `crypto_sign_open` of ref/ -/
def crypto_sign_open (M : Mem) (m sm smlen pk : Nat) : C (Mem × Nat × Int) :=
  crypto_sign_openT E (refCode E) M m sm smlen pk

end Spx
