import Verif.Model.Env
/-! # Model of ref/haraka.c

The local arrays `q[8]` are records of eight words; their loops with constant bounds and constant
indices are unrolled.  `g site i` are the contents of uninitialised memory. -/

namespace Spx.Haraka

/-- `HARAKAS_RATE`, ref/haraka.c:39 -/
def HARAKAS_RATE : Nat := 32

/-- `haraka512_rc64`, ref/haraka.c:41-52, flattened -/
def haraka512_rc64 : List (BitVec 64) :=
  [0x24cf0ab9086f628b, 0xbdd6eeecc83b8382, 0xd96fb0306cdad0a7, 0xaace082ac8f95f89,
    0x449d8e8870d7041f, 0x49bb2f80b2b3e2f8, 0x0569ae98d93bb258, 0x23dc9691e7d6a4b1,
   0xd8ba10ede0fe5b6e, 0x7ecf7dbe424c7b8e, 0x6ea9949c6df62a31, 0xbf3f3c97ec9c313e,
    0x241d03a196a1861e, 0xead3a51116e5a2ea, 0x77d479fcad9574e3, 0x18657a1af894b7a0,
   0x10671e1a7f595522, 0xd9a00ff675d28c7b, 0x2f1edf0d2b9ba661, 0xb8ff58b8e3de45f9,
    0xee29261da9865c02, 0xd1532aa4b50bdf43, 0x8bf858159b231bb1, 0xdf17439d22d4f599,
   0xdd4b2f0870b918c0, 0x757a81f3b39b1bb6, 0x7a5c556898952e3f, 0x7dd70a16d915d87a,
    0x3ae61971982b8301, 0xc3ab319e030412be, 0x17c0033ac094a8cb, 0x5a0630fc1a8dc4ef,
   0x17708988c1632f73, 0xf92ddae090b44f4f, 0x11ac0285c43aa314, 0x509059941936b8ba,
    0xd03e152fa2ce9b69, 0x3fbcbcb63a32998b, 0x6204696d692254f7, 0x915542ed93ec59b4,
   0xf4ed94aa8879236e, 0xff6cb41cd38e03c0, 0x069b38602368aeab, 0x669495b820f0ddba,
    0xf42013b1b8bf9e3d, 0xcf935efe6439734d, 0xbc1dcf42ca29e3f8, 0x7e6d3ed29f78ad67,
   0xf3b0f6837ffcddaa, 0x3a76faef934ddf41, 0xcec7ae583a9c8e35, 0xe4dd18c68f0260af,
    0x2c0e5df1ad398eaa, 0x478df5236ae22e8c, 0xfb944c46fe865f39, 0xaa48f82f028132ba,
   0x231b9ae2b76aca77, 0x292a76a712db0b40, 0x5850625dc8134491, 0x73137dd469810fb5,
    0x8a12a6a202a474fd, 0xd36fd9daa78bdb80, 0xb34c5e733505706f, 0xbaf1cdca818d9d96,
   0x2e99781335e8c641, 0xbddfe5cce47d560e, 0xf74e9bf32e5e040c, 0x1d7a709d65996be9,
    0x670df36a9cf66cdd, 0xd05ef84a176a2875, 0x0f888e828cb1c44e, 0x1a79e9c9727b052c,
   0x83497348628d84de, 0x2e9387d51f22a754, 0xb000068da2f852d6, 0x378c9e1190fd6fe5,
    0x870027c316de7293, 0xe51a9d4462e047bb, 0x90ecf7f8c6251195, 0x655953bfbed90a9c]

/-- The arrays `uint64_t q[8]` and `uint32_t q[8]`. -/
structure Q8 (w : Nat) where
  q0 : BitVec w
  q1 : BitVec w
  q2 : BitVec w
  q3 : BitVec w
  q4 : BitVec w
  q5 : BitVec w
  q6 : BitVec w
  q7 : BitVec w
  deriving DecidableEq

/-- The same assignment to every element of `q`. -/
def Q8.map {w : Nat} (f : BitVec w → BitVec w) (q : Q8 w) : Q8 w :=
  ⟨f q.q0, f q.q1, f q.q2, f q.q3, f q.q4, f q.q5, f q.q6, f q.q7⟩

/-- The elements of `q` in order. -/
def Q8.toList {w : Nat} (q : Q8 w) : List (BitVec w) := [q.q0, q.q1, q.q2, q.q3, q.q4, q.q5, q.q6, q.q7]

/-- Eight words of an array, beginning with element `8 * i` (one row of a two-dimensional array). -/
def Q8.load {w : Nat} (s : List (BitVec w)) (i : Nat) : C (Q8 w) := do
  let q0 ← rd1 s (8 * i)
  let q1 ← rd1 s (8 * i + 1)
  let q2 ← rd1 s (8 * i + 2)
  let q3 ← rd1 s (8 * i + 3)
  let q4 ← rd1 s (8 * i + 4)
  let q5 ← rd1 s (8 * i + 5)
  let q6 ← rd1 s (8 * i + 6)
  let q7 ← rd1 s (8 * i + 7)
  .ok ⟨q0, q1, q2, q3, q4, q5, q6, q7⟩

/-- `br_dec32le`, ref/haraka.c:54-60 -/
def br_dec32le (src : Bytes) : C (BitVec 32) := do
  let s0 ← rd1 src 0
  let s1 ← rd1 src 1
  let s2 ← rd1 src 2
  let s3 ← rd1 src 3
  .ok (s0.zeroExtend 32 ||| (s1.zeroExtend 32 <<< 8) ||| (s2.zeroExtend 32 <<< 16)
    ||| (s3.zeroExtend 32 <<< 24))

/-- `br_range_dec32le`, ref/haraka.c:62-68; the destination array is completely
overwritten by the callers, so the words are returned. -/
def br_range_dec32le (num : Nat) (src : Bytes) : C (List (BitVec 32)) :=
  forRange num (fun i v => do .ok (v ++ [← br_dec32le (← sub src (4 * i))])) []

/-- `br_enc32le`, ref/haraka.c:70-76: the four bytes written -/
def br_enc32le (x : BitVec 32) : Bytes :=
  [x.truncate 8, (x >>> 8).truncate 8, (x >>> 16).truncate 8, (x >>> 24).truncate 8]

/-- `br_range_enc32le`, ref/haraka.c:79-85: the bytes written -/
def br_range_enc32le (num : Nat) (v : List (BitVec 32)) : C Bytes :=
  forRange num (fun i dst => do .ok (dst ++ br_enc32le (← rd1 v i))) []

/-- `br_aes_ct64_bitslice_Sbox`, ref/haraka.c:87-259 -/
def br_aes_ct64_bitslice_Sbox (q : Q8 64) : Q8 64 :=
  let x0 := q.q7
  let x1 := q.q6
  let x2 := q.q5
  let x3 := q.q4
  let x4 := q.q3
  let x5 := q.q2
  let x6 := q.q1
  let x7 := q.q0
  let y14 := x3 ^^^ x5
  let y13 := x0 ^^^ x6
  let y9 := x0 ^^^ x3
  let y8 := x0 ^^^ x5
  let t0 := x1 ^^^ x2
  let y1 := t0 ^^^ x7
  let y4 := y1 ^^^ x3
  let y12 := y13 ^^^ y14
  let y2 := y1 ^^^ x0
  let y5 := y1 ^^^ x6
  let y3 := y5 ^^^ y8
  let t1 := x4 ^^^ y12
  let y15 := t1 ^^^ x5
  let y20 := t1 ^^^ x1
  let y6 := y15 ^^^ x7
  let y10 := y15 ^^^ t0
  let y11 := y20 ^^^ y9
  let y7 := x7 ^^^ y11
  let y17 := y10 ^^^ y11
  let y19 := y10 ^^^ y8
  let y16 := t0 ^^^ y11
  let y21 := y13 ^^^ y16
  let y18 := x0 ^^^ y16
  let t2 := y12 &&& y15
  let t3 := y3 &&& y6
  let t4 := t3 ^^^ t2
  let t5 := y4 &&& x7
  let t6 := t5 ^^^ t2
  let t7 := y13 &&& y16
  let t8 := y5 &&& y1
  let t9 := t8 ^^^ t7
  let t10 := y2 &&& y7
  let t11 := t10 ^^^ t7
  let t12 := y9 &&& y11
  let t13 := y14 &&& y17
  let t14 := t13 ^^^ t12
  let t15 := y8 &&& y10
  let t16 := t15 ^^^ t12
  let t17 := t4 ^^^ t14
  let t18 := t6 ^^^ t16
  let t19 := t9 ^^^ t14
  let t20 := t11 ^^^ t16
  let t21 := t17 ^^^ y20
  let t22 := t18 ^^^ y19
  let t23 := t19 ^^^ y21
  let t24 := t20 ^^^ y18
  let t25 := t21 ^^^ t22
  let t26 := t21 &&& t23
  let t27 := t24 ^^^ t26
  let t28 := t25 &&& t27
  let t29 := t28 ^^^ t22
  let t30 := t23 ^^^ t24
  let t31 := t22 ^^^ t26
  let t32 := t31 &&& t30
  let t33 := t32 ^^^ t24
  let t34 := t23 ^^^ t33
  let t35 := t27 ^^^ t33
  let t36 := t24 &&& t35
  let t37 := t36 ^^^ t34
  let t38 := t27 ^^^ t36
  let t39 := t29 &&& t38
  let t40 := t25 ^^^ t39
  let t41 := t40 ^^^ t37
  let t42 := t29 ^^^ t33
  let t43 := t29 ^^^ t40
  let t44 := t33 ^^^ t37
  let t45 := t42 ^^^ t41
  let z0 := t44 &&& y15
  let z1 := t37 &&& y6
  let z2 := t33 &&& x7
  let z3 := t43 &&& y16
  let z4 := t40 &&& y1
  let z5 := t29 &&& y7
  let z6 := t42 &&& y11
  let z7 := t45 &&& y17
  let z8 := t41 &&& y10
  let z9 := t44 &&& y12
  let z10 := t37 &&& y3
  let z11 := t33 &&& y4
  let z12 := t43 &&& y13
  let z13 := t40 &&& y5
  let z14 := t29 &&& y2
  let z15 := t42 &&& y9
  let z16 := t45 &&& y14
  let z17 := t41 &&& y8
  let t46 := z15 ^^^ z16
  let t47 := z10 ^^^ z11
  let t48 := z5 ^^^ z13
  let t49 := z9 ^^^ z10
  let t50 := z2 ^^^ z12
  let t51 := z2 ^^^ z5
  let t52 := z7 ^^^ z8
  let t53 := z0 ^^^ z3
  let t54 := z6 ^^^ z7
  let t55 := z16 ^^^ z17
  let t56 := z12 ^^^ t48
  let t57 := t50 ^^^ t53
  let t58 := z4 ^^^ t46
  let t59 := z3 ^^^ t54
  let t60 := t46 ^^^ t57
  let t61 := z14 ^^^ t57
  let t62 := t52 ^^^ t58
  let t63 := t49 ^^^ t58
  let t64 := z4 ^^^ t59
  let t65 := t61 ^^^ t62
  let t66 := z1 ^^^ t63
  let s0 := t59 ^^^ t63
  let s6 := t56 ^^^ ~~~t62
  let s7 := t48 ^^^ ~~~t60
  let t67 := t64 ^^^ t65
  let s3 := t53 ^^^ t66
  let s4 := t51 ^^^ t66
  let s5 := t47 ^^^ t65
  let s1 := t64 ^^^ ~~~s3
  let s2 := t55 ^^^ ~~~t67
  ⟨s7, s6, s5, s4, s3, s2, s1, s0⟩

/-- `br_aes_ct_bitslice_Sbox`, ref/haraka.c:261-434 -/
def br_aes_ct_bitslice_Sbox (q : Q8 32) : Q8 32 :=
  let x0 := q.q7
  let x1 := q.q6
  let x2 := q.q5
  let x3 := q.q4
  let x4 := q.q3
  let x5 := q.q2
  let x6 := q.q1
  let x7 := q.q0
  let y14 := x3 ^^^ x5
  let y13 := x0 ^^^ x6
  let y9 := x0 ^^^ x3
  let y8 := x0 ^^^ x5
  let t0 := x1 ^^^ x2
  let y1 := t0 ^^^ x7
  let y4 := y1 ^^^ x3
  let y12 := y13 ^^^ y14
  let y2 := y1 ^^^ x0
  let y5 := y1 ^^^ x6
  let y3 := y5 ^^^ y8
  let t1 := x4 ^^^ y12
  let y15 := t1 ^^^ x5
  let y20 := t1 ^^^ x1
  let y6 := y15 ^^^ x7
  let y10 := y15 ^^^ t0
  let y11 := y20 ^^^ y9
  let y7 := x7 ^^^ y11
  let y17 := y10 ^^^ y11
  let y19 := y10 ^^^ y8
  let y16 := t0 ^^^ y11
  let y21 := y13 ^^^ y16
  let y18 := x0 ^^^ y16
  let t2 := y12 &&& y15
  let t3 := y3 &&& y6
  let t4 := t3 ^^^ t2
  let t5 := y4 &&& x7
  let t6 := t5 ^^^ t2
  let t7 := y13 &&& y16
  let t8 := y5 &&& y1
  let t9 := t8 ^^^ t7
  let t10 := y2 &&& y7
  let t11 := t10 ^^^ t7
  let t12 := y9 &&& y11
  let t13 := y14 &&& y17
  let t14 := t13 ^^^ t12
  let t15 := y8 &&& y10
  let t16 := t15 ^^^ t12
  let t17 := t4 ^^^ t14
  let t18 := t6 ^^^ t16
  let t19 := t9 ^^^ t14
  let t20 := t11 ^^^ t16
  let t21 := t17 ^^^ y20
  let t22 := t18 ^^^ y19
  let t23 := t19 ^^^ y21
  let t24 := t20 ^^^ y18
  let t25 := t21 ^^^ t22
  let t26 := t21 &&& t23
  let t27 := t24 ^^^ t26
  let t28 := t25 &&& t27
  let t29 := t28 ^^^ t22
  let t30 := t23 ^^^ t24
  let t31 := t22 ^^^ t26
  let t32 := t31 &&& t30
  let t33 := t32 ^^^ t24
  let t34 := t23 ^^^ t33
  let t35 := t27 ^^^ t33
  let t36 := t24 &&& t35
  let t37 := t36 ^^^ t34
  let t38 := t27 ^^^ t36
  let t39 := t29 &&& t38
  let t40 := t25 ^^^ t39
  let t41 := t40 ^^^ t37
  let t42 := t29 ^^^ t33
  let t43 := t29 ^^^ t40
  let t44 := t33 ^^^ t37
  let t45 := t42 ^^^ t41
  let z0 := t44 &&& y15
  let z1 := t37 &&& y6
  let z2 := t33 &&& x7
  let z3 := t43 &&& y16
  let z4 := t40 &&& y1
  let z5 := t29 &&& y7
  let z6 := t42 &&& y11
  let z7 := t45 &&& y17
  let z8 := t41 &&& y10
  let z9 := t44 &&& y12
  let z10 := t37 &&& y3
  let z11 := t33 &&& y4
  let z12 := t43 &&& y13
  let z13 := t40 &&& y5
  let z14 := t29 &&& y2
  let z15 := t42 &&& y9
  let z16 := t45 &&& y14
  let z17 := t41 &&& y8
  let t46 := z15 ^^^ z16
  let t47 := z10 ^^^ z11
  let t48 := z5 ^^^ z13
  let t49 := z9 ^^^ z10
  let t50 := z2 ^^^ z12
  let t51 := z2 ^^^ z5
  let t52 := z7 ^^^ z8
  let t53 := z0 ^^^ z3
  let t54 := z6 ^^^ z7
  let t55 := z16 ^^^ z17
  let t56 := z12 ^^^ t48
  let t57 := t50 ^^^ t53
  let t58 := z4 ^^^ t46
  let t59 := z3 ^^^ t54
  let t60 := t46 ^^^ t57
  let t61 := z14 ^^^ t57
  let t62 := t52 ^^^ t58
  let t63 := t49 ^^^ t58
  let t64 := z4 ^^^ t59
  let t65 := t61 ^^^ t62
  let t66 := z1 ^^^ t63
  let s0 := t59 ^^^ t63
  let s6 := t56 ^^^ ~~~t62
  let s7 := t48 ^^^ ~~~t60
  let t67 := t64 ^^^ t65
  let s3 := t53 ^^^ t66
  let s4 := t51 ^^^ t66
  let s5 := t47 ^^^ t65
  let s1 := t64 ^^^ ~~~s3
  let s2 := t55 ^^^ ~~~t67
  ⟨s7, s6, s5, s4, s3, s2, s1, s0⟩

/-- The first assignment of `SWAPN_32` and `SWAPN`, ref/haraka.c:442 and 536 -/
def swapnX {w : Nat} (cl : BitVec w) (s : Nat) (a b : BitVec w) : BitVec w :=
  (a &&& cl) ||| ((b &&& cl) <<< s)

/-- The second assignment of `SWAPN_32` and `SWAPN`, ref/haraka.c:443 and 537 -/
def swapnY {w : Nat} (ch : BitVec w) (s : Nat) (a b : BitVec w) : BitVec w :=
  ((a &&& ch) >>> s) ||| (b &&& ch)

/-- `br_aes_ct_ortho`, ref/haraka.c:436-464, the four `SWAP2_32` -/
def ortho32_2 (q : Q8 32) : Q8 32 :=
  let x := swapnX 0x55555555#32 1
  let y := swapnY 0xAAAAAAAA#32 1
  ⟨x q.q0 q.q1, y q.q0 q.q1, x q.q2 q.q3, y q.q2 q.q3, x q.q4 q.q5, y q.q4 q.q5, x q.q6 q.q7, y q.q6 q.q7⟩

/-- The four `SWAP4_32` -/
def ortho32_4 (q : Q8 32) : Q8 32 :=
  let x := swapnX 0x33333333#32 2
  let y := swapnY 0xCCCCCCCC#32 2
  ⟨x q.q0 q.q2, x q.q1 q.q3, y q.q0 q.q2, y q.q1 q.q3, x q.q4 q.q6, x q.q5 q.q7, y q.q4 q.q6, y q.q5 q.q7⟩

/-- The four `SWAP8_32` -/
def ortho32_8 (q : Q8 32) : Q8 32 :=
  let x := swapnX 0x0F0F0F0F#32 4
  let y := swapnY 0xF0F0F0F0#32 4
  ⟨x q.q0 q.q4, x q.q1 q.q5, x q.q2 q.q6, x q.q3 q.q7, y q.q0 q.q4, y q.q1 q.q5, y q.q2 q.q6, y q.q3 q.q7⟩

/-- `br_aes_ct_ortho`, ref/haraka.c:436-464 -/
def br_aes_ct_ortho (q : Q8 32) : Q8 32 := ortho32_8 (ortho32_4 (ortho32_2 q))

/-- `add_round_key32`, ref/haraka.c:466-476 -/
def add_round_key32 (q sk : Q8 32) : Q8 32 :=
  ⟨q.q0 ^^^ sk.q0, q.q1 ^^^ sk.q1, q.q2 ^^^ sk.q2, q.q3 ^^^ sk.q3, q.q4 ^^^ sk.q4, q.q5 ^^^ sk.q5,
   q.q6 ^^^ sk.q6, q.q7 ^^^ sk.q7⟩

/-- The assignment in `shift_rows32`, ref/haraka.c:486-489 -/
def shift_row32 (x : BitVec 32) : BitVec 32 :=
  (x &&& 0x000000FF#32)
    ||| ((x &&& 0x0000FC00#32) >>> 2) ||| ((x &&& 0x00000300#32) <<< 6)
    ||| ((x &&& 0x00F00000#32) >>> 4) ||| ((x &&& 0x000F0000#32) <<< 4)
    ||| ((x &&& 0xC0000000#32) >>> 6) ||| ((x &&& 0x3F000000#32) <<< 2)

/-- `shift_rows32`, ref/haraka.c:478-491 -/
def shift_rows32 (q : Q8 32) : Q8 32 := q.map shift_row32

/-- `rotr16`, ref/haraka.c:493-496 -/
def rotr16 (x : BitVec 32) : BitVec 32 := (x <<< 16) ||| (x >>> 16)

/-- `mix_columns32`, ref/haraka.c:498-528 -/
def mix_columns32 (q : Q8 32) : Q8 32 :=
  let q0 := q.q0
  let q1 := q.q1
  let q2 := q.q2
  let q3 := q.q3
  let q4 := q.q4
  let q5 := q.q5
  let q6 := q.q6
  let q7 := q.q7
  let r0 := (q0 >>> 8) ||| (q0 <<< 24)
  let r1 := (q1 >>> 8) ||| (q1 <<< 24)
  let r2 := (q2 >>> 8) ||| (q2 <<< 24)
  let r3 := (q3 >>> 8) ||| (q3 <<< 24)
  let r4 := (q4 >>> 8) ||| (q4 <<< 24)
  let r5 := (q5 >>> 8) ||| (q5 <<< 24)
  let r6 := (q6 >>> 8) ||| (q6 <<< 24)
  let r7 := (q7 >>> 8) ||| (q7 <<< 24)
  ⟨q7 ^^^ r7 ^^^ r0 ^^^ rotr16 (q0 ^^^ r0),
   q0 ^^^ r0 ^^^ q7 ^^^ r7 ^^^ r1 ^^^ rotr16 (q1 ^^^ r1),
   q1 ^^^ r1 ^^^ r2 ^^^ rotr16 (q2 ^^^ r2),
   q2 ^^^ r2 ^^^ q7 ^^^ r7 ^^^ r3 ^^^ rotr16 (q3 ^^^ r3),
   q3 ^^^ r3 ^^^ q7 ^^^ r7 ^^^ r4 ^^^ rotr16 (q4 ^^^ r4),
   q4 ^^^ r4 ^^^ r5 ^^^ rotr16 (q5 ^^^ r5),
   q5 ^^^ r5 ^^^ r6 ^^^ rotr16 (q6 ^^^ r6),
   q6 ^^^ r6 ^^^ r7 ^^^ rotr16 (q7 ^^^ r7)⟩

/-- `br_aes_ct64_ortho`, ref/haraka.c:530-558, the four `SWAP2` -/
def ortho64_2 (q : Q8 64) : Q8 64 :=
  let x := swapnX 0x5555555555555555#64 1
  let y := swapnY 0xAAAAAAAAAAAAAAAA#64 1
  ⟨x q.q0 q.q1, y q.q0 q.q1, x q.q2 q.q3, y q.q2 q.q3, x q.q4 q.q5, y q.q4 q.q5, x q.q6 q.q7, y q.q6 q.q7⟩

/-- The four `SWAP4` -/
def ortho64_4 (q : Q8 64) : Q8 64 :=
  let x := swapnX 0x3333333333333333#64 2
  let y := swapnY 0xCCCCCCCCCCCCCCCC#64 2
  ⟨x q.q0 q.q2, x q.q1 q.q3, y q.q0 q.q2, y q.q1 q.q3, x q.q4 q.q6, x q.q5 q.q7, y q.q4 q.q6, y q.q5 q.q7⟩

/-- The four `SWAP8` -/
def ortho64_8 (q : Q8 64) : Q8 64 :=
  let x := swapnX 0x0F0F0F0F0F0F0F0F#64 4
  let y := swapnY 0xF0F0F0F0F0F0F0F0#64 4
  ⟨x q.q0 q.q4, x q.q1 q.q5, x q.q2 q.q6, x q.q3 q.q7, y q.q0 q.q4, y q.q1 q.q5, y q.q2 q.q6, y q.q3 q.q7⟩

/-- `br_aes_ct64_ortho`, ref/haraka.c:530-558 -/
def br_aes_ct64_ortho (q : Q8 64) : Q8 64 := ortho64_8 (ortho64_4 (ortho64_2 q))

/-- The statements for one of the four words in `br_aes_ct64_interleave_in`, ref/haraka.c:565-584 -/
def spread (w : BitVec 32) : BitVec 64 :=
  let x := w.zeroExtend 64
  let x := x ||| (x <<< 16)
  let x := x &&& 0x0000FFFF0000FFFF#64
  let x := x ||| (x <<< 8)
  x &&& 0x00FF00FF00FF00FF#64

/-- `br_aes_ct64_interleave_in`, ref/haraka.c:561-587 -/
def br_aes_ct64_interleave_in (w0 w1 w2 w3 : BitVec 32) : BitVec 64 × BitVec 64 :=
  let x0 := spread w0
  let x1 := spread w1
  let x2 := spread w2
  let x3 := spread w3
  (x0 ||| (x2 <<< 8), x1 ||| (x3 <<< 8))

/-- The statements for one of the four words in `br_aes_ct64_interleave_out`, ref/haraka.c:598-609 -/
def gather (x : BitVec 64) : BitVec 32 :=
  let x := x ||| (x >>> 8)
  let x := x &&& 0x0000FFFF0000FFFF#64
  x.truncate 32 ||| (x >>> 16).truncate 32

/-- `br_aes_ct64_interleave_out`, ref/haraka.c:590-610 -/
def br_aes_ct64_interleave_out (q0 q1 : BitVec 64) : List (BitVec 32) :=
  let x0 := q0 &&& 0x00FF00FF00FF00FF#64
  let x1 := q1 &&& 0x00FF00FF00FF00FF#64
  let x2 := (q0 >>> 8) &&& 0x00FF00FF00FF00FF#64
  let x3 := (q1 >>> 8) &&& 0x00FF00FF00FF00FF#64
  [gather x0, gather x1, gather x2, gather x3]

/-- `add_round_key`, ref/haraka.c:612-622 -/
def add_round_key (q sk : Q8 64) : Q8 64 :=
  ⟨q.q0 ^^^ sk.q0, q.q1 ^^^ sk.q1, q.q2 ^^^ sk.q2, q.q3 ^^^ sk.q3, q.q4 ^^^ sk.q4, q.q5 ^^^ sk.q5,
   q.q6 ^^^ sk.q6, q.q7 ^^^ sk.q7⟩

/-- The assignment in `shift_rows`, ref/haraka.c:632-638 -/
def shift_row (x : BitVec 64) : BitVec 64 :=
  (x &&& 0x000000000000FFFF#64)
    ||| ((x &&& 0x00000000FFF00000#64) >>> 4)
    ||| ((x &&& 0x00000000000F0000#64) <<< 12)
    ||| ((x &&& 0x0000FF0000000000#64) >>> 8)
    ||| ((x &&& 0x000000FF00000000#64) <<< 8)
    ||| ((x &&& 0xF000000000000000#64) >>> 12)
    ||| ((x &&& 0x0FFF000000000000#64) <<< 4)

/-- `shift_rows`, ref/haraka.c:624-640 -/
def shift_rows (q : Q8 64) : Q8 64 := q.map shift_row

/-- `rotr32`, ref/haraka.c:642-645 -/
def rotr32 (x : BitVec 64) : BitVec 64 := (x <<< 32) ||| (x >>> 32)

/-- `mix_columns`, ref/haraka.c:647-677 -/
def mix_columns (q : Q8 64) : Q8 64 :=
  let q0 := q.q0
  let q1 := q.q1
  let q2 := q.q2
  let q3 := q.q3
  let q4 := q.q4
  let q5 := q.q5
  let q6 := q.q6
  let q7 := q.q7
  let r0 := (q0 >>> 16) ||| (q0 <<< 48)
  let r1 := (q1 >>> 16) ||| (q1 <<< 48)
  let r2 := (q2 >>> 16) ||| (q2 <<< 48)
  let r3 := (q3 >>> 16) ||| (q3 <<< 48)
  let r4 := (q4 >>> 16) ||| (q4 <<< 48)
  let r5 := (q5 >>> 16) ||| (q5 <<< 48)
  let r6 := (q6 >>> 16) ||| (q6 <<< 48)
  let r7 := (q7 >>> 16) ||| (q7 <<< 48)
  ⟨q7 ^^^ r7 ^^^ r0 ^^^ rotr32 (q0 ^^^ r0),
   q0 ^^^ r0 ^^^ q7 ^^^ r7 ^^^ r1 ^^^ rotr32 (q1 ^^^ r1),
   q1 ^^^ r1 ^^^ r2 ^^^ rotr32 (q2 ^^^ r2),
   q2 ^^^ r2 ^^^ q7 ^^^ r7 ^^^ r3 ^^^ rotr32 (q3 ^^^ r3),
   q3 ^^^ r3 ^^^ q7 ^^^ r7 ^^^ r4 ^^^ rotr32 (q4 ^^^ r4),
   q4 ^^^ r4 ^^^ r5 ^^^ rotr32 (q5 ^^^ r5),
   q5 ^^^ r5 ^^^ r6 ^^^ rotr32 (q6 ^^^ r6),
   q6 ^^^ r6 ^^^ r7 ^^^ rotr32 (q7 ^^^ r7)⟩

/-- The conversion to bitsliced form in `interleave_constant` (ref/haraka.c:685-688) and
`haraka512_perm` (ref/haraka.c:862-866): 64 bytes at the beginning of `src`. -/
def slice64 (src : Bytes) : C (Q8 64) := do
  let w ← br_range_dec32le 16 src
  let interleave := fun i => (do
    let w0 ← rd1 w (4 * i)
    let w1 ← rd1 w (4 * i + 1)
    let w2 ← rd1 w (4 * i + 2)
    let w3 ← rd1 w (4 * i + 3)
    .ok (br_aes_ct64_interleave_in w0 w1 w2 w3) : C (BitVec 64 × BitVec 64))
  let (q0, q4) ← interleave 0
  let (q1, q5) ← interleave 1
  let (q2, q6) ← interleave 2
  let (q3, q7) ← interleave 3
  .ok (br_aes_ct64_ortho ⟨q0, q1, q2, q3, q4, q5, q6, q7⟩)

/-- The conversion to bitsliced form in `interleave_constant32` (ref/haraka.c:694-698) and
`haraka256` (ref/haraka.c:928-932): 32 bytes at the beginning of `src`. -/
def slice32 (src : Bytes) : C (Q8 32) := do
  let q0 ← br_dec32le (← sub src 0)
  let q1 ← br_dec32le (← sub src 16)
  let q2 ← br_dec32le (← sub src 4)
  let q3 ← br_dec32le (← sub src 20)
  let q4 ← br_dec32le (← sub src 8)
  let q5 ← br_dec32le (← sub src 24)
  let q6 ← br_dec32le (← sub src 12)
  let q7 ← br_dec32le (← sub src 28)
  .ok (br_aes_ct_ortho ⟨q0, q1, q2, q3, q4, q5, q6, q7⟩)

/-- `interleave_constant`, ref/haraka.c:679-689: row `i` of the array `out` -/
def interleave_constant (out : List (BitVec 64)) (i : Nat) (inp : Bytes) : C (List (BitVec 64)) := do
  wr out (8 * i) (← slice64 inp).toList

/-- `interleave_constant32`, ref/haraka.c:691-699: row `i` of the array `out` -/
def interleave_constant32 (out : List (BitVec 32)) (i : Nat) (inp : Bytes) : C (List (BitVec 32)) := do
  wr out (8 * i) (← slice32 inp).toList

/-- The mixing of the states in `haraka512_perm`, ref/haraka.c:878-891 -/
def mix64 (x : BitVec 64) : BitVec 64 :=
  ((x &&& 0x0001000100010001#64) <<< 5) |||
  ((x &&& 0x0002000200020002#64) <<< 12) |||
  ((x &&& 0x0004000400040004#64) >>> 1) |||
  ((x &&& 0x0008000800080008#64) <<< 6) |||
  ((x &&& 0x0020002000200020#64) <<< 9) |||
  ((x &&& 0x0040004000400040#64) >>> 4) |||
  ((x &&& 0x0080008000800080#64) <<< 3) |||
  ((x &&& 0x2100210021002100#64) >>> 5) |||
  ((x &&& 0x0210021002100210#64) <<< 2) |||
  ((x &&& 0x0800080008000800#64) <<< 4) |||
  ((x &&& 0x1000100010001000#64) >>> 12) |||
  ((x &&& 0x4000400040004000#64) >>> 10) |||
  ((x &&& 0x8400840084008400#64) >>> 3)

/-- One AES round on the bitsliced state, ref/haraka.c:871-874; `k` is `2 * i + j`. -/
def aes64 (rc : List (BitVec 64)) (k : Nat) (q : Q8 64) : C (Q8 64) := do
  let q := br_aes_ct64_bitslice_Sbox q
  let q := shift_rows q
  let q := mix_columns q
  .ok (add_round_key q (← Q8.load rc k))

/-- `haraka512_perm`, ref/haraka.c:855-900: the 64 bytes written to `out`.  The input is
read completely before the output is written, so `out` and `in` may be the same. -/
def haraka512_perm (inp : Bytes) (ctx : Ctx) : C Bytes := do
  let q ← slice64 inp
  let q ← forRange 5 (fun i q => do
    let q ← forRange 2 (fun j q => aes64 ctx.tweaked512_rc64 (2 * i + j) q) q
    .ok (q.map mix64)) q
  let q := br_aes_ct64_ortho q
  let w := br_aes_ct64_interleave_out q.q0 q.q4 ++ br_aes_ct64_interleave_out q.q1 q.q5 ++
    br_aes_ct64_interleave_out q.q2 q.q6 ++ br_aes_ct64_interleave_out q.q3 q.q7
  br_range_enc32le 16 w

/-- `haraka512`, ref/haraka.c:902-919: the 32 bytes written to `out` (a local array of 32
bytes of the caller) -/
def haraka512 (inp : Bytes) (ctx : Ctx) : C Bytes := do
  let buf ← haraka512_perm inp ctx
  let buf ← forRange 64 (fun i buf => do wr1 buf i ((← rd1 buf i) ^^^ (← rd1 inp i))) buf
  .ok ((← rd buf 8 8) ++ (← rd buf 24 8) ++ (← rd buf 32 8) ++ (← rd buf 48 8))

/-- The mixing of the states in `haraka256`, ref/haraka.c:945-953 -/
def mix32 (x : BitVec 32) : BitVec 32 :=
  (x &&& 0x81818181#32) |||
  ((x &&& 0x02020202#32) <<< 1) |||
  ((x &&& 0x04040404#32) <<< 2) |||
  ((x &&& 0x08080808#32) <<< 3) |||
  ((x &&& 0x10101010#32) >>> 3) |||
  ((x &&& 0x20202020#32) >>> 2) |||
  ((x &&& 0x40404040#32) >>> 1)

/-- One AES round on the bitsliced state, ref/haraka.c:937-940; `k` is `2 * i + j`. -/
def aes32 (rc : List (BitVec 32)) (k : Nat) (q : Q8 32) : C (Q8 32) := do
  let q := br_aes_ct_bitslice_Sbox q
  let q := shift_rows32 q
  let q := mix_columns32 q
  .ok (add_round_key32 q (← Q8.load rc k))

/-- `haraka256`, ref/haraka.c:922-965: the 32 bytes written to `out` (a local array of 32
bytes of the caller, different from `in`) -/
def haraka256 (inp : Bytes) (ctx : Ctx) : C Bytes := do
  let q ← slice32 inp
  let q ← forRange 5 (fun i q => do
    let q ← forRange 2 (fun j q => aes32 ctx.tweaked256_rc32 (2 * i + j) q) q
    .ok (q.map mix32)) q
  let q := br_aes_ct_ortho q
  let out := br_enc32le q.q0 ++ br_enc32le q.q2 ++ br_enc32le q.q4 ++ br_enc32le q.q6 ++
    br_enc32le q.q1 ++ br_enc32le q.q3 ++ br_enc32le q.q5 ++ br_enc32le q.q7
  forRange 32 (fun i out => do wr1 out i ((← rd1 out i) ^^^ (← rd1 inp i))) out

/-! ## The sponge

`perm` is the function `haraka512_perm` of the same file.  The functions `haraka_S_inc_*` of
haraka-aesni/haraka.c have the same text (lines 270-340). -/

section
variable (perm : Bytes → Ctx → C Bytes)

/-- Body of the `while` loop of `haraka_S_absorb`, ref/haraka.c:724-732.  State: s, m, mlen. -/
def haraka_S_absorb_block (r : Nat) (ctx : Ctx) (st : Bytes × Bytes × Nat) :
    C ((Bytes × Bytes × Nat) ⊕ (Bytes × Bytes × Nat)) := do
  let (s, m, mlen) := st
  if mlen ≥ r then
    let s ← forRange r (fun i s => do wr1 s i ((← rd1 s i) ^^^ (← rd1 m i))) s
    let s ← wr s 0 (← perm s ctx)
    .ok (.inl (s, ← sub m r, mlen - r))
  else .ok (.inr (s, m, mlen))

/-- `haraka_S_absorb`, ref/haraka.c:717-745.  `g` is the uninitialised local `t`. -/
def haraka_S_absorb (g : Nat → Byte) (s : Bytes) (r : Nat) (m : Bytes) (mlen : Nat) (p : Byte)
    (ctx : Ctx) : C Bytes := do
  let (s, m, mlen) ← loop (mlen + 1) (haraka_S_absorb_block perm r ctx) (s, m, mlen)
  let t ← forRange r (fun i t => wr1 t i 0#8) (uninit g r)
  let t ← forRange mlen (fun i t => do wr1 t i (← rd1 m i)) t
  let t ← wr1 t mlen p
  let t ← wr1 t (r - 1) ((← rd1 t (r - 1)) ||| 128#8)
  forRange r (fun i s => do wr1 s i ((← rd1 s i) ^^^ (← rd1 t i))) s

/-- `haraka_S_squeezeblocks`, ref/haraka.c:747-757.  State: the output buffer, the
offset of the moving pointer `h`, the sponge state. -/
def haraka_S_squeezeblocks (h : Bytes) (nblocks : Nat) (s : Bytes) (r : Nat) (ctx : Ctx) :
    C (Bytes × Bytes) := do
  let (h, _, s) ← forRange nblocks (fun _ (st : Bytes × Nat × Bytes) => do
    let (h, off, s) := st
    let s ← wr s 0 (← perm s ctx)
    let h ← wr h off (← rd s 0 HARAKAS_RATE)
    .ok (h, off + r, s)) (h, 0, s)
  .ok (h, s)

/-- `haraka_S_inc_init`, ref/haraka.c:759-767 -/
def haraka_S_inc_init (s_inc : Bytes) : C Bytes := do
  let s ← forRange 64 (fun i s => wr1 s i 0#8) s_inc
  wr1 s 64 0#8

/-- The `for` loops of `haraka_S_inc_absorb`, ref/haraka.c:777-781 and 789-791: the first `len` bytes
of `m` are added.  `s_inc[64]` is read once instead of in every iteration; the loop writes below
index `HARAKAS_RATE` only. -/
def haraka_S_inc_xor (s_inc : Bytes) (m : Bytes) (len : Nat) : C Bytes := do
  let c ← rd1 s_inc 64
  forRange len (fun i s => do wr1 s (c.toNat + i) ((← rd1 s (c.toNat + i)) ^^^ (← rd1 m i))) s_inc

/-- Body of the `while` loop of `haraka_S_inc_absorb`, ref/haraka.c:776-787.  State: s_inc, m, mlen.
`mlen + s_inc[64]` does not wrap for lengths below 2^63. -/
def haraka_S_inc_absorb_block (ctx : Ctx) (st : Bytes × Bytes × Nat) :
    C ((Bytes × Bytes × Nat) ⊕ (Bytes × Bytes × Nat)) := do
  let (s_inc, m, mlen) := st
  let c := (← rd1 s_inc 64).toNat
  if mlen + c ≥ HARAKAS_RATE then
    let s_inc ← haraka_S_inc_xor s_inc m (HARAKAS_RATE - c)
    let mlen := mlen - (HARAKAS_RATE - c)
    let m ← sub m (HARAKAS_RATE - c)
    let s_inc ← wr1 s_inc 64 0#8
    let s_inc ← wr s_inc 0 (← perm s_inc ctx)
    .ok (.inl (s_inc, m, mlen))
  else .ok (.inr (s_inc, m, mlen))

/-- `haraka_S_inc_absorb`, ref/haraka.c:769-792 -/
def haraka_S_inc_absorb (s_inc : Bytes) (m : Bytes) (mlen : Nat) (ctx : Ctx) : C Bytes := do
  let (s_inc, m, mlen) ← loop (mlen + 2) (haraka_S_inc_absorb_block perm ctx) (s_inc, m, mlen)
  let s_inc ← haraka_S_inc_xor s_inc m mlen
  wr1 s_inc 64 ((← rd1 s_inc 64) + BitVec.ofNat 8 mlen)

/-- `haraka_S_inc_finalize`, ref/haraka.c:794-801 -/
def haraka_S_inc_finalize (s_inc : Bytes) : C Bytes := do
  let c := (← rd1 s_inc 64).toNat
  let s_inc ← wr1 s_inc c ((← rd1 s_inc c) ^^^ 0x1F#8)
  let s_inc ← wr1 s_inc (HARAKAS_RATE - 1) ((← rd1 s_inc (HARAKAS_RATE - 1)) ^^^ 128#8)
  wr1 s_inc 64 0#8

/-- Body of the `while` loop of `haraka_S_inc_squeeze`, ref/haraka.c:819-828.
State: output buffer, offset of the moving pointer `out`, outlen, s_inc. -/
def haraka_S_inc_squeeze_block (ctx : Ctx) (st : Bytes × Nat × Nat × Bytes) :
    C ((Bytes × Nat × Nat × Bytes) ⊕ (Bytes × Bytes)) := do
  let (out, off, outlen, s_inc) := st
  if outlen > 0 then
    let s_inc ← wr s_inc 0 (← perm s_inc ctx)
    let i := min outlen HARAKAS_RATE
    let out ← forRange i (fun i out => do wr1 out (off + i) (← rd1 s_inc i)) out
    let s_inc ← wr1 s_inc 64 (BitVec.ofNat 8 (HARAKAS_RATE - i))
    .ok (.inl (out, off + i, outlen - i, s_inc))
  else .ok (.inr (out, s_inc))

/-- `haraka_S_inc_squeeze`, ref/haraka.c:803-829.  The two-sided loop conditions
`i < outlen && i < x` are loops up to the minimum. -/
def haraka_S_inc_squeeze (out : Bytes) (outlen : Nat) (s_inc : Bytes) (ctx : Ctx) : C (Bytes × Bytes) := do
  let c := (← rd1 s_inc 64).toNat
  let i := min outlen c
  let out ← forRange i (fun i out => do wr1 out i (← rd1 s_inc (HARAKAS_RATE - c + i))) out
  let s_inc ← wr1 s_inc 64 ((← rd1 s_inc 64) - BitVec.ofNat 8 i)
  loop (outlen + 1) (haraka_S_inc_squeeze_block perm ctx) (out, i, outlen - i, s_inc)

/-- `haraka_S`, ref/haraka.c:831-853.  `g` supplies the uninitialised locals (`g 40` the `t` of
haraka_S_absorb, `g 41` the `s` and `g 42` the `d` of this function). -/
def haraka_S (g : Nat → Nat → Byte) (out : Bytes) (outlen : Nat) (inp : Bytes) (inlen : Nat) (ctx : Ctx) :
    C Bytes := do
  let s ← forRange 64 (fun i s => wr1 s i 0#8) (uninit (g 41) 64)
  let s ← haraka_S_absorb perm (g 40) s 32 inp inlen 0x1F#8 ctx
  let (out, s) ← haraka_S_squeezeblocks perm out (outlen / 32) s 32 ctx
  let off := (outlen / 32) * 32
  if outlen % 32 ≠ 0 then
    let (d, _) ← haraka_S_squeezeblocks perm (uninit (g 42) 32) 1 s 32 ctx
    forRange (outlen % 32) (fun i out => do wr1 out (off + i) (← rd1 d i)) out
  else .ok out

end

/-- `tweak_constants`, ref/haraka.c:701-715 -/
def tweak_constants (g : Nat → Nat → Byte) (n : Nat) (ctx : Ctx) : C Ctx := do
  let ctx := { ctx with tweaked512_rc64 := ← wr ctx.tweaked512_rc64 0 haraka512_rc64 }
  let buf ← haraka_S haraka512_perm g (uninit (g 43) (40 * 16)) (40 * 16) ctx.pub_seed n ctx
  forRange 10 (fun i ctx => do
    let rc32 ← interleave_constant32 ctx.tweaked256_rc32 i (← sub buf (32 * i))
    let ctx := { ctx with tweaked256_rc32 := rc32 }
    let rc64 ← interleave_constant ctx.tweaked512_rc64 i (← sub buf (64 * i))
    .ok { ctx with tweaked512_rc64 := rc64 }) ctx

/-- What the other source files use of haraka.c, so that ref/haraka.c and haraka-aesni/haraka.c can be
linked to them.  The incremental sponge is given by the permutation. -/
structure Lib where
  haraka512_perm : Bytes → Ctx → C Bytes
  haraka512 : Bytes → Ctx → C Bytes
  haraka256 : Bytes → Ctx → C Bytes
  haraka_S : (Nat → Nat → Byte) → Bytes → Nat → Bytes → Nat → Ctx → C Bytes
  tweak_constants : (Nat → Nat → Byte) → Nat → Ctx → C Ctx

/-- ref/haraka.c -/
def refLib : Lib where
  haraka512_perm := haraka512_perm
  haraka512 := haraka512
  haraka256 := haraka256
  haraka_S := haraka_S haraka512_perm
  tweak_constants := tweak_constants

end Spx.Haraka
