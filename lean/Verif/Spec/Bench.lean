import Verif.Spec.Kat
/-! # What the benchmark programs should print: medians of samples, in decimal with groups of three digits -/

namespace Spx.Spec

/-- A comparison function the C library can sort with (C11 7.22.5). -/
structure Consistent (cmp : Nat → Nat → Int) : Prop where
  anti : ∀ a b, cmp a b < 0 ↔ 0 < cmp b a
  trans : ∀ a b c, cmp a b ≤ 0 → cmp b c ≤ 0 → cmp a c ≤ 0

/-- What the C library says about `qsort`: given such a function, it rearranges the array in ascending order (C11
7.22.5.2). -/
def IsQsort (qsort : (Nat → Nat → Int) → List Nat → List Nat) : Prop :=
  ∀ cmp, Consistent cmp → ∀ l, (qsort cmp l).Perm l ∧ (qsort cmp l).Pairwise fun a b => cmp a b ≤ 0

/-- `m` is a median of `l`: at least half of the values are at most `m`, and at least half are at least `m`. -/
def IsMedian (m : Nat) (l : List Nat) : Prop :=
  l.length ≤ 2 * l.countP (· ≤ m) ∧ l.length ≤ 2 * l.countP (m ≤ ·)

namespace Bench
open Kat

/-- `s` is `n` in decimal with commas (character 44): without them it is the decimal representation, they are at every
fourth place counted from the right, and none comes first. -/
structure Grouped (n : Nat) (s : Bytes) : Prop where
  digits : s.filter (· ≠ 44#8) = ascii (toString n)
  commas : ∀ i, i < s.length → (s.reverse[i]? = some 44#8 ↔ i % 4 = 3)
  first : s.head? ≠ some 44#8

/-- Spaces in front, up to the width `k`. -/
def pad (k : Nat) (s : Bytes) : Bytes := List.replicate (k - s.length) 32#8 ++ s

/-- The cycles spent between consecutive readings of the counter. -/
def elapsed (c : Nat → Nat) : List Nat := (List.range 10).map fun i => c (i + 1) - c i

/-- Readings of a counter that does not go backwards and does not wrap around. -/
structure Steady (c : Nat → Nat) : Prop where
  mono : ∀ i, i < 10 → c i ≤ c (i + 1)
  lt : c 10 < 2 ^ 64

/-- One line of the table: the text, the average time in the formatting of the C library, the median `med`, and its
multiple. -/
def Row (text : String) (avg : Bytes) (mul med : Nat) (out : Bytes) : Prop :=
  ∃ a b, Grouped med a ∧ Grouped (mul * med % 2 ^ 64) b ∧
    out = ascii text ++ avg ++ pad 14 a ++ ascii " cycles,  " ++ pad 5 (ascii (toString mul)) ++ ascii "x: " ++ pad 14 b ++
      ascii " cycles\n"

/-- A line for calls measured one at a time. -/
def Measured (text : String) (avg : Bytes) (mul : Nat) (cycles : Nat → Nat) (out : Bytes) : Prop :=
  ∃ med, Row text avg mul med out ∧ (Steady cycles → IsMedian med (elapsed cycles))

/-- A line for calls measured in thousands, with the cycles of a single call.  Of the first nine samples four at least are
at most `med`, and four at least are at least `med`, both up to one cycle. -/
def Measured1000 (text : String) (avg : Bytes) (cycles : Nat → Nat) (out : Bytes) : Prop :=
  ∃ med, Row text avg 1 med out ∧ (Steady cycles →
    4 ≤ ((elapsed cycles).take 9).countP (· < 1000 * (med + 1)) ∧ 4 ≤ ((elapsed cycles).take 9).countP (1000 * med < · + 1000))

/-- The head of the table. -/
def header (n h d b k w : Nat) : Bytes :=
  ascii s!"Parameters: n = {n}, h = {h}, d = {d}, b = {b}, k = {k}, w = {w}\nRunning 10 iterations.\n"

/-- The sizes at the end; `kib` is the formatting of a size in KiB by the C library. -/
def footer (kib : Nat → Bytes) (sig pk sk : Nat) : Bytes :=
  ascii s!"Signature size: {sig} (" ++ kib sig ++ ascii s!" KiB)\nPublic key size: {pk} (" ++ kib pk ++
    ascii s!" KiB)\nSecret key size: {sk} (" ++ kib sk ++ ascii " KiB)\n"

end Bench
end Spx.Spec
