import Verif.Model.Haraka
import Verif.Spec.Aes
/-! The bitsliced S-box circuits compute the AES S-box in every bit position. -/

namespace Spx.Haraka
open Spec

/-- The byte with the given bits, least significant first. -/
def mkB (b0 b1 b2 b3 b4 b5 b6 b7 : Bool) : Byte :=
  BitVec.cons b7 (BitVec.cons b6 (BitVec.cons b5 (BitVec.cons b4 (BitVec.cons b3 (BitVec.cons b2
    (BitVec.cons b1 (BitVec.cons b0 BitVec.nil)))))))

/-- The byte stored in bit position `i` of the eight words. -/
def byteAt {w : Nat} (q : Q8 w) (i : Nat) : Byte :=
  mkB (q.q0.getLsbD i) (q.q1.getLsbD i) (q.q2.getLsbD i) (q.q3.getLsbD i) (q.q4.getLsbD i)
    (q.q5.getLsbD i) (q.q6.getLsbD i) (q.q7.getLsbD i)

/-- The S-box circuit on single bits. -/
def sboxBits (b0 b1 b2 b3 b4 b5 b6 b7 : Bool) : Byte :=
  let x0 := b7
  let x1 := b6
  let x2 := b5
  let x3 := b4
  let x4 := b3
  let x5 := b2
  let x6 := b1
  let x7 := b0
  let y14 := x3 ^^ x5
  let y13 := x0 ^^ x6
  let y9 := x0 ^^ x3
  let y8 := x0 ^^ x5
  let t0 := x1 ^^ x2
  let y1 := t0 ^^ x7
  let y4 := y1 ^^ x3
  let y12 := y13 ^^ y14
  let y2 := y1 ^^ x0
  let y5 := y1 ^^ x6
  let y3 := y5 ^^ y8
  let t1 := x4 ^^ y12
  let y15 := t1 ^^ x5
  let y20 := t1 ^^ x1
  let y6 := y15 ^^ x7
  let y10 := y15 ^^ t0
  let y11 := y20 ^^ y9
  let y7 := x7 ^^ y11
  let y17 := y10 ^^ y11
  let y19 := y10 ^^ y8
  let y16 := t0 ^^ y11
  let y21 := y13 ^^ y16
  let y18 := x0 ^^ y16
  let t2 := y12 && y15
  let t3 := y3 && y6
  let t4 := t3 ^^ t2
  let t5 := y4 && x7
  let t6 := t5 ^^ t2
  let t7 := y13 && y16
  let t8 := y5 && y1
  let t9 := t8 ^^ t7
  let t10 := y2 && y7
  let t11 := t10 ^^ t7
  let t12 := y9 && y11
  let t13 := y14 && y17
  let t14 := t13 ^^ t12
  let t15 := y8 && y10
  let t16 := t15 ^^ t12
  let t17 := t4 ^^ t14
  let t18 := t6 ^^ t16
  let t19 := t9 ^^ t14
  let t20 := t11 ^^ t16
  let t21 := t17 ^^ y20
  let t22 := t18 ^^ y19
  let t23 := t19 ^^ y21
  let t24 := t20 ^^ y18
  let t25 := t21 ^^ t22
  let t26 := t21 && t23
  let t27 := t24 ^^ t26
  let t28 := t25 && t27
  let t29 := t28 ^^ t22
  let t30 := t23 ^^ t24
  let t31 := t22 ^^ t26
  let t32 := t31 && t30
  let t33 := t32 ^^ t24
  let t34 := t23 ^^ t33
  let t35 := t27 ^^ t33
  let t36 := t24 && t35
  let t37 := t36 ^^ t34
  let t38 := t27 ^^ t36
  let t39 := t29 && t38
  let t40 := t25 ^^ t39
  let t41 := t40 ^^ t37
  let t42 := t29 ^^ t33
  let t43 := t29 ^^ t40
  let t44 := t33 ^^ t37
  let t45 := t42 ^^ t41
  let z0 := t44 && y15
  let z1 := t37 && y6
  let z2 := t33 && x7
  let z3 := t43 && y16
  let z4 := t40 && y1
  let z5 := t29 && y7
  let z6 := t42 && y11
  let z7 := t45 && y17
  let z8 := t41 && y10
  let z9 := t44 && y12
  let z10 := t37 && y3
  let z11 := t33 && y4
  let z12 := t43 && y13
  let z13 := t40 && y5
  let z14 := t29 && y2
  let z15 := t42 && y9
  let z16 := t45 && y14
  let z17 := t41 && y8
  let t46 := z15 ^^ z16
  let t47 := z10 ^^ z11
  let t48 := z5 ^^ z13
  let t49 := z9 ^^ z10
  let t50 := z2 ^^ z12
  let t51 := z2 ^^ z5
  let t52 := z7 ^^ z8
  let t53 := z0 ^^ z3
  let t54 := z6 ^^ z7
  let t55 := z16 ^^ z17
  let t56 := z12 ^^ t48
  let t57 := t50 ^^ t53
  let t58 := z4 ^^ t46
  let t59 := z3 ^^ t54
  let t60 := t46 ^^ t57
  let t61 := z14 ^^ t57
  let t62 := t52 ^^ t58
  let t63 := t49 ^^ t58
  let t64 := z4 ^^ t59
  let t65 := t61 ^^ t62
  let t66 := z1 ^^ t63
  let s0 := t59 ^^ t63
  let s6 := t56 ^^ !t62
  let s7 := t48 ^^ !t60
  let t67 := t64 ^^ t65
  let s3 := t53 ^^ t66
  let s4 := t51 ^^ t66
  let s5 := t47 ^^ t65
  let s1 := t64 ^^ !s3
  let s2 := t55 ^^ !t67
  mkB s7 s6 s5 s4 s3 s2 s1 s0

theorem sboxBits_eq : ∀ b0 b1 b2 b3 b4 b5 b6 b7 : Bool,
    sboxBits b0 b1 b2 b3 b4 b5 b6 b7 = Aes.sbox (mkB b0 b1 b2 b3 b4 b5 b6 b7) := by
  decide +kernel

theorem getLsbD_not' {w : Nat} (x : BitVec w) {i : Nat} (h : i < w) : (~~~x).getLsbD i = !x.getLsbD i := by
  simp [h]

theorem byteAt_Sbox64 (q : Q8 64) {i : Nat} (h : i < 64) :
    byteAt (br_aes_ct64_bitslice_Sbox q) i = Aes.sbox (byteAt q i) := by
  refine Eq.trans ?_ (sboxBits_eq _ _ _ _ _ _ _ _)
  simp only [byteAt, br_aes_ct64_bitslice_Sbox, sboxBits, BitVec.getLsbD_xor, BitVec.getLsbD_and, getLsbD_not' _ h]

theorem byteAt_Sbox32 (q : Q8 32) {i : Nat} (h : i < 32) :
    byteAt (br_aes_ct_bitslice_Sbox q) i = Aes.sbox (byteAt q i) := by
  refine Eq.trans ?_ (sboxBits_eq _ _ _ _ _ _ _ _)
  simp only [byteAt, br_aes_ct_bitslice_Sbox, sboxBits, BitVec.getLsbD_xor, BitVec.getLsbD_and, getLsbD_not' _ h]

end Spx.Haraka
