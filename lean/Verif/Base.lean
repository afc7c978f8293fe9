/-!
# The C execution monad, buffers and loops

Shared vocabulary of the model.  Nothing in this file is specific to SPHINCS+.
-/

namespace Spx

/-- `unsigned char` / `uint8_t`. -/
abbrev Byte := BitVec 8

/-- Contents of a byte buffer (a C object, or the rest of one behind a pointer). -/
abbrev Bytes := List Byte

/-- Outcomes which the C standard leaves undefined, kept apart from normal results. -/
inductive UB
  /-- read or write outside an object -/
  | oob
  /-- shift by at least the width, or `1 << k` not representable in `int` -/
  | shift
  /-- signed integer overflow -/
  | overflow
  /-- a loop of the model ran out of fuel -/
  | fuel
  deriving DecidableEq, Repr

/-- Result of running a piece of C code. -/
abbrev C (α : Type) := Except UB α

/-- Read `len` elements at offset `off`. -/
def rd {α : Type} (b : List α) (off len : Nat) : C (List α) :=
  if off + len ≤ b.length then .ok ((b.drop off).take len) else .error .oob

/-- Overwrite the elements at offset `off` by `d`. -/
def wr {α : Type} (b : List α) (off : Nat) (d : List α) : C (List α) :=
  if off + d.length ≤ b.length then .ok (b.take off ++ d ++ b.drop (off + d.length))
  else .error .oob

/-- Read the element at index `i`. -/
def rd1 {α : Type} (b : List α) (i : Nat) : C α :=
  match b[i]? with
  | some x => .ok x
  | none => .error .oob

/-- Write the element at index `i`. -/
def wr1 {α : Type} (b : List α) (i : Nat) (x : α) : C (List α) :=
  if i < b.length then .ok (b.set i x) else .error .oob

/-- Pass the pointer `b + off` to `f`, which may modify the object behind it. -/
def withSub {α β : Type} (b : List α) (off : Nat) (f : List α → C (List α × β)) :
    C (List α × β) :=
  if off ≤ b.length then
    (f (b.drop off)) >>= fun r => .ok (b.take off ++ r.1, r.2)
  else .error .oob

/-- The pointer `b + off` used for reading only. -/
def sub {α : Type} (b : List α) (off : Nat) : C (List α) :=
  if off ≤ b.length then .ok (b.drop off) else .error .oob

/-- `for (i = 0; i < n; i++) body` with loop state `σ`. -/
def forRange {σ : Type} : Nat → (Nat → σ → C σ) → σ → C σ
  | 0, _, s => .ok s
  | n + 1, body, s => forRange n body s >>= body n

/-- `for (;;) body`; the body returns `inl` to go on and `inr` to leave the loop. -/
def loop {σ ρ : Type} : Nat → (σ → C (σ ⊕ ρ)) → σ → C ρ
  | 0, _, _ => .error .fuel
  | f + 1, body, s => body s >>= fun
    | .inl s' => loop f body s'
    | .inr r => .ok r

theorem loop_succ {σ ρ : Type} (f : Nat) (body : σ → C (σ ⊕ ρ)) (s : σ) :
    loop (f + 1) body s = body s >>= fun
      | .inl s' => loop f body s'
      | .inr r => .ok r := rfl

attribute [irreducible] loop

/-- `1 << k` computed in `int`: undefined unless the result is representable. -/
def shl1 (k : Nat) : C Nat := if k < 31 then .ok (2 ^ k) else .error .shift

/-- Contents of an uninitialised local array of `len` bytes; `g` is arbitrary. -/
def uninit {α : Type} (g : Nat → α) (len : Nat) : List α := (List.range len).map g

/-! List vocabulary used by model and specification. -/

/-- Concatenation `f 0 ++ f 1 ++ … ++ f (k-1)`. -/
def cat {α : Type} : Nat → (Nat → List α) → List α
  | 0, _ => []
  | k + 1, f => cat k f ++ f k

/-- Chunk number `i` of size `n`. -/
def chunk {α : Type} (n : Nat) (b : List α) (i : Nat) : List α := (b.drop (i * n)).take n

end Spx
