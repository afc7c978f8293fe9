import Verif.Base
import Verif.BaseFn
/-!
# Execution with a record of what the C program does

The monad of Verif/Base.lean with a trace: the offsets and lengths of all memory accesses, the pointer
arithmetic, the outcome of every branch and the number of iterations of every loop, in program order.
Everything else a C program computes is arithmetic on values, which leaves no trace.  The operations
have the names they have in Verif/Base.lean; `res` is what those operations return.
-/

namespace Spx.Leak

/-- One step of a C program which depends on the flow of control or on an address. -/
inductive Ev
  /-- read `len` elements at offset `off` -/
  | rd (off len : Nat)
  /-- write `len` elements at offset `off` -/
  | wr (off len : Nat)
  /-- the pointer `p + off` is formed -/
  | ptr (off : Nat)
  /-- a branch is taken or not -/
  | br (b : Bool)
  /-- a counted loop runs `n` times -/
  | iter (n : Nat)
  /-- a function is called: a primitive, or a function of the hash library when those are counted (Model/Count.lean) -/
  | call (f : Fn)
  deriving DecidableEq, Repr

/-- Trace and result of running a piece of C code. -/
structure L (α : Type) where
  tr : List Ev
  res : C α

namespace L

/-- Normal result without a step. -/
def ok {α : Type} (a : α) : L α := ⟨[], .ok a⟩

/-- Undefined behaviour. -/
def error {α : Type} (e : UB) : L α := ⟨[], .error e⟩

/-- First `x`, then `f` on its result. -/
def bind {α β : Type} (x : L α) (f : α → L β) : L β :=
  match x.res with
  | .ok a => ⟨x.tr ++ (f a).tr, (f a).res⟩
  | .error e => ⟨x.tr, .error e⟩

instance : Monad L where
  pure := L.ok
  bind := L.bind

end L

/-- `Spx.rd` -/
def rd {α : Type} (b : List α) (off len : Nat) : L (List α) := ⟨[.rd off len], Spx.rd b off len⟩
/-- `Spx.wr` -/
def wr {α : Type} (b : List α) (off : Nat) (d : List α) : L (List α) :=
  ⟨[.wr off d.length], Spx.wr b off d⟩
/-- `Spx.rd1` -/
def rd1 {α : Type} (b : List α) (i : Nat) : L α := ⟨[.rd i 1], Spx.rd1 b i⟩
/-- `Spx.wr1` -/
def wr1 {α : Type} (b : List α) (i : Nat) (x : α) : L (List α) := ⟨[.wr i 1], Spx.wr1 b i x⟩
/-- `Spx.sub` -/
def sub {α : Type} (b : List α) (off : Nat) : L (List α) := ⟨[.ptr off], Spx.sub b off⟩

/-- `Spx.withSub` -/
def withSub {α β : Type} (b : List α) (off : Nat) (f : List α → L (List α × β)) : L (List α × β) :=
  L.bind (sub b off) fun p => L.bind (f p) fun r => .ok (b.take off ++ r.1, r.2)

/-- The iterations of a counted loop, `Spx.forRange` -/
def iterate {σ : Type} : Nat → (Nat → σ → L σ) → σ → L σ
  | 0, _, s => .ok s
  | n + 1, body, s => L.bind (iterate n body s) (body n)

/-- `Spx.forRange` -/
def forRange {σ : Type} (n : Nat) (body : Nat → σ → L σ) (s : σ) : L σ :=
  L.bind ⟨[.iter n], .ok ()⟩ fun _ => iterate n body s

/-- `Spx.loop`; whether the body goes on or leaves the loop is a branch. -/
def loop {σ ρ : Type} : Nat → (σ → L (σ ⊕ ρ)) → σ → L ρ
  | 0, _, _ => .error .fuel
  | f + 1, body, s => L.bind (body s) fun r => L.bind ⟨[.br r.isLeft], .ok ()⟩ fun _ =>
    match r with
    | .inl s' => loop f body s'
    | .inr r => .ok r

theorem loop_zero {σ ρ : Type} (body : σ → L (σ ⊕ ρ)) (s : σ) : loop 0 body s = .error .fuel := rfl

theorem loop_succ {σ ρ : Type} (f : Nat) (body : σ → L (σ ⊕ ρ)) (s : σ) :
    loop (f + 1) body s = L.bind (body s) fun r => L.bind ⟨[.br r.isLeft], .ok ()⟩ fun _ =>
      match r with
      | .inl s' => loop f body s'
      | .inr r => .ok r := rfl

attribute [irreducible] loop

/-- `if (p) x else y` -/
def branch {α : Type} (p : Prop) [Decidable p] (x y : L α) : L α :=
  L.bind ⟨[.br (decide p)], .ok ()⟩ fun _ => if p then x else y

/-- `if (p) x else y` in C, as opposed to `#if`. -/
syntax "cif " term " then " term " else " term : term
macro_rules | `(cif $p then $x else $y) => `(branch $p $x $y)

/-- `if (p && q) x else y`; `q` is only evaluated if `p` holds. -/
def branchAnd {α : Type} (p q : Prop) [Decidable p] [Decidable q] (x y : L α) : L α :=
  L.bind ⟨.br (decide p) :: if p then [.br (decide q)] else [], .ok ()⟩ fun _ =>
    if p ∧ q then x else y

/-- `if (p && q) x else y` in C -/
syntax "cif " term " andalso " term " then " term " else " term : term
macro_rules | `(cif $p andalso $q then $x else $y) => `(branchAnd $p $q $x $y)

/-- `if (p || q) x else y`; `q` is only evaluated if `p` does not hold. -/
def branchOr {α : Type} (p q : Prop) [Decidable p] [Decidable q] (x y : L α) : L α :=
  L.bind ⟨.br (decide p) :: if p then [] else [.br (decide q)], .ok ()⟩ fun _ =>
    if p ∨ q then x else y

/-- `if (p || q) x else y` in C -/
syntax "cif " term " orelse " term " then " term " else " term : term
macro_rules | `(cif $p orelse $q then $x else $y) => `(branchOr $p $q $x $y)

/-- The body `x` of the primitive `f`; that it is run is recorded. -/
def prim {α : Type} (f : Fn) (x : L α) : L α := ⟨.call f :: x.tr, x.res⟩

/-- `Spx.shl1` -/
def shl1 (k : Nat) : L Nat := ⟨[], Spx.shl1 k⟩

end Spx.Leak
