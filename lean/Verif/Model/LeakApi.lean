import Verif.Model.LeakSign
import Verif.Model.Randombytes
/-! # The functions of the API with traces

`crypto_sign_keypair`, `crypto_sign_signature` and `crypto_sign` with their calls of `randombytes`, over the monad of
Model/LeakBase.lean.  As in Model/LeakSign.lean the buffers are separate objects; the array that `randombytes` fills is in
a memory of its own (`OS.M`).  `sleep` leaves no trace, since when it is called is seen from the branches.  A call of
`randombytes` that is still waiting at the end of the history gives `none`. -/

namespace Spx.Leak
open Randombytes (Read Outcome)

/-- The loop, ref/randombytes.c:26-42, `Randombytes.fill` -/
def fill : List Read → Mem → Nat → Nat → L Outcome
  | [], M, _, xlen => cif xlen > 0 then .ok (.waiting M) else .ok (.returned M [])
  | r :: rs, M, x, xlen =>
    cif xlen > 0 then
      L.bind (cif xlen < 1048576 then .ok xlen else .ok 1048576) fun i =>
        match r with
        | .fail =>
          let i := 2 ^ 64 - 1
          cif i < 1 then fill rs M x xlen else fill rs M ((x + i) % 2 ^ 64) ((xlen + 2 ^ 64 - i) % 2 ^ 64)
        | .data ds =>
          let d := ds.take i
          L.bind ⟨[.wr x d.length], M.wr x d⟩ fun M =>
            let i := d.length
            cif i < 1 then fill rs M x xlen else fill rs M ((x + i) % 2 ^ 64) ((xlen + 2 ^ 64 - i) % 2 ^ 64)
    else .ok (.returned M (r :: rs))

/-- The loop around `open`, ref/randombytes.c:17-23 -/
def openLoop : List Int → L (Option Int)
  | [] => .ok none
  | o :: os => cif o ≠ -1 then .ok (some o) else openLoop os

/-- ref/randombytes.c:16-24, `Randombytes.openFd` -/
def openFd (fd : Int) (opens : List Int) : L (Option Int) := cif fd = -1 then openLoop opens else .ok (some fd)

/-- `randombytes`, ref/randombytes.c:12-43, `Randombytes.randombytes` -/
def randombytes (fd : Int) (opens : List Int) (reads : List Read) (M : Mem) (x xlen : Nat) : L (Outcome × Int) := do
  match ← openFd fd opens with
  | none => .ok (.waiting M, -1)
  | some fd => do .ok (← fill reads M x xlen, fd)

/-- What one call of `randombytes` finds: the file descriptor, the answers of the operating system, memory, and the
address of the array. -/
structure OS where
  fd : Int
  opens : List Int
  reads : List Read
  M : Mem
  x : Nat

/-- `randombytes(x, len)` and the bytes that are in the array afterwards -/
def random (o : OS) (len : Nat) : L (Option Bytes) := do
  let (r, _) ← randombytes o.fd o.opens o.reads o.M o.x len
  match r with
  | .waiting _ => .ok none
  | .returned M _ => do .ok (some (← ⟨[], M.rd o.x len⟩))

variable (E : Env) (T : TreeCode)

/-- `crypto_sign_keypair`, ref/sign.c:83-90 -/
def crypto_sign_keypairT (o : OS) (pk0 sk0 : Bytes) : L (Option (Bytes × Bytes)) := do
  match ← random o E.P.seedBytes with
  | none => .ok none
  | some seed => do .ok (some (← crypto_sign_seed_keypairT E T pk0 sk0 seed))

/-- `crypto_sign_signature`, ref/sign.c:98-117: all before the call of `randombytes` -/
def sign_begin (sk : Bytes) : L (Bytes × Bytes × Ctx) := do
  let n := E.P.n
  let ctx := uninitCtx E.erase
  let sk_prf ← sub sk n
  let pk ← sub sk (2 * n)
  let ctx := { ctx with sk_seed := ← wr ctx.sk_seed 0 (← rd sk 0 n) }
  let ctx := { ctx with pub_seed := ← wr ctx.pub_seed 0 (← rd pk 0 n) }
  let ctx ← E.H.initialize_hash_function ctx
  .ok (sk_prf, pk, ctx)

/-- `crypto_sign_signature`, ref/sign.c:126-157: all after it -/
def sign_end (sig0 m : Bytes) (s : Bytes × Bytes × Ctx) (optrand : Bytes) : L (Bytes × Nat) := do
  let (sk_prf, pk, ctx) := s
  let sig ← wr sig0 0 (← E.H.gen_message_random sk_prf optrand m ctx)
  let (mhash, tree, idx_leaf) ← E.H.hash_message sig pk m ctx
  let sig ← sign_restT E T sig ctx mhash tree idx_leaf
  .ok (sig, E.P.spxBytes)

/-- `crypto_sign_signature`, ref/sign.c:95-158, with its call of `randombytes` -/
def crypto_sign_signatureR (o : OS) (sig0 m sk : Bytes) : L (Option (Bytes × Nat)) := do
  let s ← sign_begin E sk
  match ← random o E.P.n with
  | none => .ok none
  | some optrand => do .ok (some (← sign_end E T sig0 m s optrand))

/-- `crypto_sign`, ref/sign.c:246-258.  `sm0` is the previous content of the memory behind `sm`. -/
def crypto_signT (o : OS) (sm0 m sk : Bytes) : L (Option (Bytes × Nat)) := do
  match ← crypto_sign_signatureR E T o sm0 m sk with
  | none => .ok none
  | some (sm, siglen) =>
    let sm ← wr sm E.P.spxBytes (← rd m 0 m.length)
    .ok (some (sm, (siglen + m.length) % 2 ^ 64))

end Spx.Leak
