import Verif.Spec.Sphincs
import Verif.Spec.Rng
/-! # Specification of the known-answer files of the NIST competition

The request file lists 100 seeds and messages drawn from CTR_DRBG seeded with the bytes `00 01 … 2f`; the
response file adds the key pair and the signed message that the scheme gives when its randomness comes from
CTR_DRBG seeded with the seed of the record. -/

namespace Spx.Spec.Kat
open Rng

/-- A text as a byte string. -/
def ascii (s : String) : Bytes := s.toList.map fun c => BitVec.ofNat 8 c.toNat

def hexDigit (d : Nat) : Char := "0123456789ABCDEF".toList.getD d '?'

/-- Upper case hexadecimal, two digits for each byte. -/
def hex (b : Bytes) : String := String.ofList (b.flatMap fun x => [hexDigit (x.toNat / 16), hexDigit (x.toNat % 16)])

/-- A record of the request file. -/
def request (i : Nat) (seed msg : Bytes) : String :=
  s!"count = {i}\nseed = {hex seed}\nmlen = {msg.length}\nmsg = {hex msg}\npk =\nsk =\nsmlen =\nsm =\n\n"

/-- A record of the response file. -/
def response (i : Nat) (seed msg pk sk sm : Bytes) : String :=
  s!"count = {i}\nseed = {hex seed}\nmlen = {msg.length}\nmsg = {hex msg}\n" ++
  s!"pk = {hex pk}\nsk = {hex sk}\nsmlen = {sm.length}\nsm = {hex sm}\n\n"

/-- Outputs of the generator seeded with `seed`, for the given lengths. -/
def drbg (E : Bytes → Bytes → Bytes) (seed : Bytes) (lens : List Nat) : List Bytes :=
  let kv := drbgUpdate E seed (List.replicate 32 0) 0
  drbgOutputs E kv.1 kv.2 lens

/-- Seeds and messages of the first `k` records, alternating. -/
def inputs (E : Bytes → Bytes → Bytes) (k : Nat) : List Bytes :=
  drbg E ((List.range 48).map (BitVec.ofNat 8)) ((List.range k).flatMap fun i => [48, 33 * (i + 1)])

def seedOf (E : Bytes → Bytes → Bytes) (i : Nat) : Bytes := (inputs E 100).getD (2 * i) []
def msgOf (E : Bytes → Bytes → Bytes) (i : Nat) : Bytes := (inputs E 100).getD (2 * i + 1) []

def requestFile (E : Bytes → Bytes → Bytes) : Bytes := cat 100 fun i => ascii (request i (seedOf E i) (msgOf E i))

/-- Record `i` of the response file: keys from the first `3n` bytes of the generator, randomness of the
signature from the next `n`. -/
def responseOf (E : Bytes → Bytes → Bytes) (p : Spec.Par) (H : Spec.Hash) (i : Nat) : String :=
  let r := drbg E (seedOf E i) [3 * p.n, p.n]
  let sk := skOf p H (r.getD 0 [])
  response i (seedOf E i) (msgOf E i) (pkOf p H (r.getD 0 [])) sk (sign p H sk (r.getD 1 []) (msgOf E i) ++ msgOf E i)

def responseFile (E : Bytes → Bytes → Bytes) (p : Spec.Par) (H : Spec.Hash) : Bytes :=
  ascii "# SPHINCS+\n\n" ++ cat 100 fun i => ascii (responseOf E p H i)

/-- What is behind the first occurrence of `k` in `s`. -/
def afterFirst (k : Bytes) : Bytes → Option Bytes
  | [] => if k = [] then some [] else none
  | c :: s => if k <+: c :: s then some ((c :: s).drop k.length) else afterFirst k s

/-- The value of a hexadecimal digit, in lower or upper case. -/
def hexVal (c : Byte) : Option Nat :=
  if 48 ≤ c.toNat ∧ c.toNat ≤ 57 then some (c.toNat - 48)
  else if 65 ≤ c.toNat ∧ c.toNat ≤ 70 then some (c.toNat - 55)
  else if 97 ≤ c.toNat ∧ c.toNat ≤ 102 then some (c.toNat - 87)
  else none

def isHex (c : Byte) : Bool := (hexVal c).isSome

/-- The number written in hexadecimal digits, first digit most significant. -/
def hexNat (ds : Bytes) : Nat := ds.foldl (fun v c => 16 * v + (hexVal c).getD 0) 0

/-- A hexadecimal field: what comes before the first digit of the line is skipped, then the digits are
read.  The digits and what is behind the character that ends them. -/
def hexField (s : Bytes) : Bytes × Bytes :=
  let s := s.dropWhile fun c => !isHex c && c ≠ 10#8
  (s.takeWhile isHex, (s.dropWhile isHex).drop 1)

end Spx.Spec.Kat
