import Verif.Model.Env
/-! # Model of ref/wots.c and ref/wotsx1.c -/

namespace Spx
variable (E : Env)

/-- `base_w`, ref/wots.c:45-64.  `output` is an array of `unsigned int`; `total` is uninitialised
before the first iteration (which always sets it, because `bits == 0`). -/
def base_w (P : Params) (output : List Nat) (out_len : Nat) (input : Bytes) (total0 : Nat) :
    C (List Nat) := do
  -- state: output, in, out, total, bits
  let r ← forRange out_len (fun _ (s : List Nat × Nat × Nat × Nat × Nat) => do
    let (output, inp, out, total, bits) := s
    let (total, inp, bits) ← (
      if bits = 0 then do
        let b ← rd1 input inp
        .ok (b.toNat, inp + 1, bits + 8)
      else .ok (total, inp, bits) : C (Nat × Nat × Nat))
    -- `bits` is a signed int; a negative shift amount would be undefined
    if P.logw ≤ bits then do
      let bits := bits - P.logw
      let output ← wr1 output out ((total >>> bits) &&& (P.w - 1))
      .ok (output, inp, out + 1, total, bits)
    else .error .shift) (output, 0, 0, total0, 0)
  .ok r.1

/-- Size of `csum_bytes`, ref/wots.c:71. -/
def csumBytes (P : Params) : Nat := (P.len2 * P.logw + 7) / 8

/-- `wots_checksum`, ref/wots.c:67-84.  All arithmetic in `unsigned int`.  `csum_base_w` points
to `lengths + SPX_WOTS_LEN1`, `msg_base_w` to `lengths`. -/
def wots_checksum (csum_base_w msg_base_w : List Nat) : C (List Nat) := do
  let csum ← forRange E.P.len1 (fun i csum => do
    let m ← rd1 msg_base_w i
    .ok ((csum + (E.P.w - 1 + 2 ^ 32 - m)) % 2 ^ 32)) 0
  let csum := (csum <<< ((8 - ((E.P.len2 * E.P.logw) % 8)) % 8)) % 2 ^ 32
  let csum_bytes ← ull_to_bytes (uninit (E.G 3) (csumBytes E.P)) (csumBytes E.P) csum
  base_w E.P csum_base_w E.P.len2 csum_bytes (E.G 4 0).toNat

/-- `chain_lengths`, ref/wots.c:87-91. -/
def chain_lengths (lengths : List Nat) (msg : Bytes) : C (List Nat) := do
  let lengths ← base_w E.P lengths E.P.len1 msg (E.G 4 1).toNat
  let r ← withSub lengths E.P.len1 (fun c => do .ok (← wots_checksum E c lengths, ()))
  .ok r.1

/-- `gen_chain`, ref/wots.c:24-38.  Returns the `n` bytes written to `out` and the address. -/
def gen_chain (inp : Bytes) (start steps : Nat) (ctx : Ctx) (addr : Addr) : C (Bytes × Addr) := do
  let out ← rd inp 0 E.P.n
  -- for (i = start; i < start+steps && i < SPX_WOTS_W; i++)
  let stop := min ((start + steps) % 2 ^ 32) E.P.w
  forRange (stop - start) (fun j (s : Bytes × Addr) => do
    let addr ← set_hash_addr E.P.fam s.2 (start + j)
    let out ← E.H.thash s.1 1 ctx addr
    .ok (out, addr)) (out, addr)

/-- `wots_pk_from_sig`, ref/wots.c:98-112.  `pk` is the caller's (uninitialised) buffer. -/
def wots_pk_from_sig (pk sig msg : Bytes) (ctx : Ctx) (addr : Addr) : C (Bytes × Addr) := do
  let lengths ← chain_lengths E (uninit (fun i => (E.G 5 i).toNat) E.P.wotsLen) msg
  forRange E.P.wotsLen (fun i (s : Bytes × Addr) => do
    let addr ← set_chain_addr E.P.fam s.2 i
    let l ← rd1 lengths i
    let (out, addr) ← gen_chain E (← sub sig (i * E.P.n)) l ((E.P.w - 1 + 2 ^ 32 - l) % 2 ^ 32) ctx addr
    let pk ← wr s.1 (i * E.P.n) out
    .ok (pk, addr)) (pk, addr)

/-- `struct leaf_info_x1`, ref/wotsx1.h:12-18, with the buffers its pointers refer to. -/
structure LeafInfoX1 where
  wots_sig : Bytes
  wots_sign_leaf : Nat
  wots_steps : List Nat
  leaf_addr : Addr
  pk_addr : Addr

/-- The loop down one WOTS chain, ref/wotsx1.c:54-68, one iteration.
State: `k`, the chain value (`buffer`), `wots_sig`, `leaf_addr`. -/
def wots_gen_leafx1_chain (ctx : Ctx) (i wots_k : Nat) (s : Nat × Bytes × Bytes × Addr) :
    C ((Nat × Bytes × Bytes × Addr) ⊕ (Bytes × Bytes × Addr)) := do
  let (k, buffer, wots_sig, leaf_addr) := s
  let wots_sig ← (if k = wots_k then wr wots_sig (i * E.P.n) buffer else .ok wots_sig : C Bytes)
  if k = E.P.w - 1 then .ok (.inr (buffer, wots_sig, leaf_addr))
  else
    let leaf_addr ← set_hash_addr E.P.fam leaf_addr k
    let buffer ← E.H.thash buffer 1 ctx leaf_addr
    .ok (.inl (k + 1, buffer, wots_sig, leaf_addr))

/-- `wots_gen_leafx1`, ref/wotsx1.c:17-73. -/
def wots_gen_leafx1 (ctx : Ctx) (leaf_idx : Nat) (info : LeafInfoX1) : C (Bytes × LeafInfoX1) := do
  let wots_k_mask := if leaf_idx = info.wots_sign_leaf then 0 else 2 ^ 32 - 1
  let leaf_addr ← set_keypair_addr E.P.fam info.leaf_addr leaf_idx
  let pk_addr ← set_keypair_addr E.P.fam info.pk_addr leaf_idx
  let (pk_buffer, wots_sig, leaf_addr) ←
    forRange E.P.wotsLen (fun i (s : Bytes × Bytes × Addr) => do
      let (pk_buffer, wots_sig, leaf_addr) := s
      let wots_k := (← rd1 info.wots_steps i) ||| wots_k_mask
      let leaf_addr ← set_chain_addr E.P.fam leaf_addr i
      let leaf_addr ← set_hash_addr E.P.fam leaf_addr 0
      let leaf_addr ← set_type E.P.fam leaf_addr SPX_ADDR_TYPE_WOTSPRF
      let buffer ← E.H.prf_addr ctx leaf_addr
      let leaf_addr ← set_type E.P.fam leaf_addr SPX_ADDR_TYPE_WOTS
      let (buffer, wots_sig, leaf_addr) ←
        loop (2 ^ 32) (wots_gen_leafx1_chain E ctx i wots_k) (0, buffer, wots_sig, leaf_addr)
      let pk_buffer ← wr pk_buffer (i * E.P.n) buffer
      .ok (pk_buffer, wots_sig, leaf_addr))
      (uninit (E.G 6) E.P.wotsBytes, info.wots_sig, leaf_addr)
  let dest ← E.H.thash pk_buffer E.P.wotsLen ctx pk_addr
  .ok (dest, { info with wots_sig, leaf_addr, pk_addr })

end Spx
