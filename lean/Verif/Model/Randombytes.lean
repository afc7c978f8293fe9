import Verif.Model.Api
/-! # Model of ref/randombytes.c

The operating system is a history of results of `open` and `read`.  Pointers and `unsigned long long`
are numbers modulo `2 ^ 64`. -/

namespace Spx.Randombytes

/-- One answer of `read(fd, x, i)`: failure (`-1`), or the bytes the kernel has, of which it delivers
at most `i`. -/
inductive Read
  | fail
  | data (ds : Bytes)

/-- What `randombytes` has done at the end of a history. -/
inductive Outcome
  /-- it returned; the reads still unused -/
  | returned (M : Mem) (rest : List Read)
  /-- it is still in the loop -/
  | waiting (M : Mem)

/-- The request, ref/randombytes.c:27-32. -/
def request (xlen : Nat) : Nat := if xlen < 1048576 then xlen else 1048576

/-- The loop, ref/randombytes.c:26-42.  `x` and `xlen` are the current pointer and length. -/
def fill : List Read → Mem → Nat → Nat → C Outcome
  | [], M, _, xlen => if xlen > 0 then .ok (.waiting M) else .ok (.returned M [])
  | r :: rs, M, x, xlen =>
    if xlen > 0 then
      match r with
      | .fail =>
        -- i = (unsigned long long)-1, which is not less than 1
        let i := 2 ^ 64 - 1
        fill rs M ((x + i) % 2 ^ 64) ((xlen + 2 ^ 64 - i) % 2 ^ 64)
      | .data ds => do
        let d := ds.take (request xlen)
        let M ← M.wr x d
        let i := d.length
        if i < 1 then fill rs M x xlen
        else fill rs M ((x + i) % 2 ^ 64) ((xlen + 2 ^ 64 - i) % 2 ^ 64)
    else .ok (.returned M (r :: rs))

/-- The loop around `open`, ref/randombytes.c:16-24: the file descriptor, unless still waiting. -/
def openFd (fd : Int) : List Int → Option Int
  | [] => if fd = -1 then none else some fd
  | o :: os => if fd = -1 then openFd o os else some fd

/-- `randombytes`, ref/randombytes.c:12-43.  `fd` is the static variable; `opens` and `reads` are
the answers of the operating system. -/
def randombytes (fd : Int) (opens : List Int) (reads : List Read) (M : Mem) (x xlen : Nat) :
    C (Outcome × Int) :=
  match openFd fd opens with
  | none => .ok (.waiting M, -1)
  | some fd => do .ok (← fill reads M x xlen, fd)

end Spx.Randombytes
