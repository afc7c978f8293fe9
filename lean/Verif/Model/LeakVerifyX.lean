import Verif.Model.LeakParallel
import Verif.Model.LeakVerify
/-! # Verification in the optimised implementations, with traces

The definitions of Model/Parallel.lean which only verification uses, over the monad of Model/LeakBase.lean. -/

namespace Spx.Leak

variable (E : EnvX)

/-- The counting sort of `gen_chains`, shake-avx2/wots.c:48-61 (sha2-avx2/wots.c:48-61,
shake-a64/wots.c:47-60): `counts` and `idxs` are arrays of `uint16_t`.  Returns `idxs`. -/
def sort_chains (steps : List Nat) : L (List Nat) := do
  let len := E.P.wotsLen
  let counts ← forRange len (fun i (counts : List Nat) => do
    let st ← rd1 steps i
    wr1 counts st (((← rd1 counts st) + 1) % 2 ^ 16)) (List.replicate E.P.w 0)
  -- for (l = SPX_WOTS_W - 1; l >= 0; l--)
  let (counts, _) ← forRange E.P.w (fun t (s : List Nat × Nat) => do
    let (counts, total) := s
    let l := E.P.w - 1 - t
    let newTotal := ((← rd1 counts l) + total) % 2 ^ 16
    let counts ← wr1 counts l total
    .ok (counts, newTotal)) (counts, 0)
  let (idxs, _) ← forRange len (fun i (s : List Nat × List Nat) => do
    let (idxs, counts) := s
    let st ← rd1 steps i
    let c ← rd1 counts st
    let idxs ← wr1 idxs c (i % 2 ^ 16)
    let counts ← wr1 counts st ((c + 1) % 2 ^ 16)
    .ok (idxs, counts)) (uninit (fun i => (E.G 32 i).toNat) len, counts)
  .ok idxs

/-- The memory an element of `bufs` points to. -/
def readBuf (out empty : Bytes) : Buf → L Bytes
  | .none => .error .oob
  | .empty => .ok empty
  | .out idx => sub out (E.P.n * idx)

/-- One output of the hash call written through `bufs[j]`. -/
def writeBuf (out empty : Bytes) (b : Buf) (d : Bytes) : L (Bytes × Bytes) :=
  match b with
  | .none => .error .oob
  | .empty => do .ok (out, ← wr empty 0 d)
  | .out idx => do .ok (← wr out (E.P.n * idx) d, empty)

/-- `while (k == steps[idxs[i+watching]]) …`, shake-avx2/wots.c:83-90 (sha2-avx2/wots.c:83-90,
shake-a64/wots.c:82-89), one iteration.  State: bufs, watching.  The result has the value of
`done`. -/
def chains_watch (steps idxs : List Nat) (i k : Nat) (s : List Buf × Nat) :
    L ((List Buf × Nat) ⊕ (Bool × List Buf × Nat)) := do
  let (bufs, watching) := s
  let st ← rd1 steps (← rd1 idxs (i + watching))
  cif k = st then do
    let bufs ← wr1 bufs watching .empty
    cif watching = 0 then .ok (.inr (true, bufs, watching))
    else .ok (.inl (bufs, watching - 1))
  else .ok (.inr (false, bufs, watching))

/-- One iteration of `for (k = 0;; k++)` in `gen_chains`, shake-avx2/wots.c:82-101
(sha2-avx2/wots.c:82-103, shake-a64/wots.c:81-100). -/
def chains_step (start steps idxs : List Nat) (ctx : Ctx) (i : Nat) (s : ChainsK) :
    L (ChainsK ⊕ (Bytes × Bytes × List Addr × List Buf)) := do
  let (done, bufs, watching) ← loop (E.L + 1) (chains_watch steps idxs i s.k) (s.bufs, s.watching)
  cif done then .ok (.inr (s.out, s.empty, s.addrs, bufs))
  else do
    let addrs ← lanes (watching + 1) (fun j a => do
      let st ← rd1 start (← rd1 idxs (i + j))
      set_hash_addr E.P.fam a ((s.k + st) % 2 ^ 32)) s.addrs
    let ins ← tabulate E.L (fun j => do readBuf E s.out s.empty (← rd1 bufs j))
    let outs ← E.X.thashx ins 1 ctx addrs
    let (out, empty) ← forRange E.L (fun j (s : Bytes × Bytes) => do
      writeBuf E s.1 s.2 (← rd1 bufs j) (← rd1 outs j)) (s.out, s.empty)
    .ok (.inl { out, empty, addrs, bufs, watching, k := s.k + 1 })

/-- `while (i + watching >= SPX_WOTS_LEN) …`, shake-avx2/wots.c:77-80 (sha2-avx2/wots.c:77-80,
shake-a64/wots.c:76-79), one iteration. -/
def chains_trim (i : Nat) (s : List Buf × Nat) : L ((List Buf × Nat) ⊕ (List Buf × Nat)) := do
  let (bufs, watching) := s
  cif E.P.wotsLen ≤ i + watching then do
    let bufs ← wr1 bufs watching .empty
    if watching = 0 then .error .overflow else .ok (.inl (bufs, watching - 1))
  else .ok (.inr (bufs, watching))

/-- One iteration of the loop over groups of `L` chains, shake-avx2/wots.c:64-102
(sha2-avx2/wots.c:64-104, shake-a64/wots.c:63-101).  State: out, empty, addrs, bufs. -/
def chains_group (start steps idxs : List Nat) (ctx : Ctx) (i : Nat)
    (s : Bytes × Bytes × List Addr × List Buf) : L (Bytes × Bytes × List Addr × List Buf) := do
  let (out, empty, addrs, bufs) := s
  -- for (j = 0; j < L && i+j < SPX_WOTS_LEN; j++)
  let g := min E.L (E.P.wotsLen - i)
  let addrs ← lanes g (fun j a => do set_chain_addr E.P.fam a (← rd1 idxs (i + j))) addrs
  let bufs ← forRange g (fun j bufs => do wr1 bufs j (.out (← rd1 idxs (i + j)))) bufs
  let (bufs, watching) ← loop (E.L + 1) (chains_trim E i) (bufs, E.L - 1)
  loop (2 ^ 32) (chains_step E start steps idxs ctx i) { out, empty, addrs, bufs, watching, k := 0 }

/-- `gen_chains`, shake-avx2/wots.c:21-103; sha2-avx2/wots.c:22-105; shake-a64/wots.c:20-102.
Returns the memory behind `out`.  (`addr` is only read.) -/
def gen_chains (out inp : Bytes) (start steps : List Nat) (ctx : Ctx) (addr : Addr) : L Bytes := do
  let addrs := List.replicate E.L addr
  let out ← wr out 0 (← rd inp 0 (E.P.wotsLen * E.P.n))
  let idxs ← sort_chains E steps
  -- for (i = 0; i < SPX_WOTS_LEN; i += L)
  let (out, _) ← forRange ((E.P.wotsLen + (E.L - 1)) / E.L) (fun t s =>
      chains_group E start steps idxs ctx (t * E.L) s)
    (out, uninit (E.G 33) E.P.n, addrs, List.replicate E.L Buf.none)
  .ok out

/-- `wots_pk_from_sig`, shake-avx2/wots.c:163-178; sha2-avx2/wots.c:165-180;
shake-a64/wots.c:162-177.  (`base_w`, `wots_checksum` and `chain_lengths` are the same as in
ref/wots.c.) -/
def wots_pk_from_sigx (pk sig msg : Bytes) (ctx : Ctx) (addr : Addr) : L (Bytes × Addr) := do
  let start ← chain_lengths E.toEnv (uninit (fun i => (E.G 34 i).toNat) E.P.wotsLen) msg
  let steps ← tabulate E.P.wotsLen (fun i => do
    .ok ((E.P.w - 1 + 2 ^ 32 - (← rd1 start i)) % 2 ^ 32))
  let pk ← gen_chains E pk sig start steps ctx addr
  .ok (pk, addr)

end Spx.Leak
