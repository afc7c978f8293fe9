import Verif.Spec.Sponge
/-! # Keccak-f[1600] and SHAKE256, from FIPS 202 -/

namespace Spx.Spec.Keccak

/-- State array: lane `A x y`, `x` and `y` below 5.  Bit `z` of a lane is `A[x,y,z]`. -/
abbrev State := Nat → Nat → BitVec 64

/-- θ (FIPS 202, 3.2.1). -/
def thetaC (A : State) (x : Nat) : BitVec 64 := A x 0 ^^^ A x 1 ^^^ A x 2 ^^^ A x 3 ^^^ A x 4
def thetaD (A : State) (x : Nat) : BitVec 64 :=
  thetaC A ((x + 4) % 5) ^^^ (thetaC A ((x + 1) % 5)).rotateLeft 1
def theta (A : State) : State := fun x y => A x y ^^^ thetaD A x

/-- Position after `t` steps of the walk of ρ: from (1,0), (x,y) ↦ (y, 2x+3y). -/
def walk : Nat → Nat × Nat
  | 0 => (1, 0)
  | t + 1 => ((walk t).2, (2 * (walk t).1 + 3 * (walk t).2) % 5)

/-- Rotation offset of lane (x,y) (FIPS 202, 3.2.2): `(t+1)(t+2)/2` if the walk is there after `t`
steps, `t < 24`; 0 for lane (0,0). -/
def rhoOffset (x y : Nat) : Nat :=
  match (List.range 24).find? (fun t => walk t == (x, y)) with
  | some t => (t + 1) * (t + 2) / 2 % 64
  | none => 0

/-- ρ (FIPS 202, 3.2.2). -/
def rho (A : State) : State := fun x y => (A x y).rotateLeft (rhoOffset x y)

/-- π (FIPS 202, 3.2.3). -/
def pi (A : State) : State := fun x y => A ((x + 3 * y) % 5) x

/-- χ (FIPS 202, 3.2.4). -/
def chi (A : State) : State := fun x y => A x y ^^^ (~~~ A ((x + 1) % 5) y &&& A ((x + 2) % 5) y)

/-- The LFSR of ι (FIPS 202, algorithm 5); the head of the list is R[0]. -/
def lfsr : Nat → List Bool
  | 0 => [true, false, false, false, false, false, false, false]
  | t + 1 =>
    match lfsr t with
    | [a, b, c, d, e, f, g, h] => [h, a, b, c, d ^^ h, e ^^ h, f ^^ h, g]
    | _ => []

/-- `rc(t)`. -/
def rc (t : Nat) : Bool := (lfsr (t % 255)).headD false

/-- Round constant of round `ir`: bit `2^j - 1` is `rc(j + 7 ir)` (FIPS 202, algorithm 6). -/
def RC (ir : Nat) : BitVec 64 :=
  (List.range 7).foldl
    (fun c j => c ^^^ (if rc (j + 7 * ir) then (1#64 <<< (2 ^ j - 1)) else 0#64)) 0#64

/-- ι (FIPS 202, 3.2.5). -/
def iota (ir : Nat) (A : State) : State := fun x y => if x = 0 ∧ y = 0 then A x y ^^^ RC ir else A x y

/-- One round. -/
def round (ir : Nat) (A : State) : State := iota ir (chi (pi (rho (theta A))))

/-- The first `k` rounds. -/
def rounds (A : State) : Nat → State
  | 0 => A
  | k + 1 => round k (rounds A k)

/-- Keccak-f[1600]. -/
def f1600 (A : State) : State := rounds A 24

/-- Lane (x,y) of a 200-byte string: the little-endian word at position `8(5y+x)`
(FIPS 202, 3.1.2 with the bit order of appendix B). -/
def ofBytes (s : Bytes) : State := fun x y => BitVec.ofNat 64 (leNat (chunk 8 s (5 * y + x)))

/-- The 200-byte string of a state. -/
def toBytes (A : State) : Bytes := cat 25 fun i => toLE 8 (A (i % 5) (i / 5)).toNat

/-- The permutation on 200-byte strings. -/
def keccakF (s : Bytes) : Bytes := toBytes (f1600 (ofBytes s))

/-- SHAKE256 (FIPS 202, 6.2): capacity 512, domain bits 1111. -/
def shake256 (m : Bytes) (outlen : Nat) : Bytes := sponge keccakF 200 136 0x1F#8 m outlen

end Spx.Spec.Keccak
