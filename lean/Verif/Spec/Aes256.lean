import Verif.Spec.Aes
/-! # AES-256 encryption of one block (FIPS 197) -/

namespace Spx.Spec.Aes

/-- Rcon, FIPS 197, 5.2: `x ^ (i - 1)`. -/
def rcon (i : Nat) : Byte := Nat.repeat xtime (i - 1) 1#8

/-- Key expansion for eight-word keys, FIPS 197, 5.2: the first `8 + k` words, latest first. -/
def expandKey (key : Bytes) : Nat → List Bytes
  | 0 => ((List.range 8).map (chunk 4 key)).reverse
  | k + 1 =>
    let ws := expandKey key k
    let i := 8 + k
    let prev := ws.getD 0 []
    let t := if i % 8 = 0 then xorBytes ((prev.drop 1 ++ prev.take 1).map sbox) [rcon (i / 8), 0, 0, 0]
      else if i % 8 = 4 then prev.map sbox else prev
    xorBytes (ws.getD 7 []) t :: ws

/-- Round key `r`. -/
def roundKey (ws : List Bytes) (r : Nat) : Bytes := ((ws.drop (4 * r)).take 4).flatten

/-- AES-256, FIPS 197, 5.1. -/
def aes256 (key block : Bytes) : Bytes :=
  let ws := (expandKey key 52).reverse
  let s := xorBytes block (roundKey ws 0)
  let s := (List.range 13).foldl (fun s r => round (roundKey ws (r + 1)) s) s
  xorBytes (shiftRows (subBytes s)) (roundKey ws 14)

end Spx.Spec.Aes
