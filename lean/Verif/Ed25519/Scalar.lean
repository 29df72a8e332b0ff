import Verif.Ed25519.Field

/-!
# Model of /repo/eddsa/edwards25519/edwards25519.go: arithmetic modulo the group order

`ScMulAdd` and `ScReduce` work on 24 signed limbs `s0 … s23` of 21 bits in `int64` variables.  Their bodies are made of three groups
of lines that are repeated with other indices; each group is an instruction here and each body is a list of instructions.
-/

namespace Verif.Ed25519

/-- a group of lines of `ScMulAdd` or `ScReduce`. -/
inductive Op where
  /-- `s(k-12) += sk * 666643; s(k-11) += sk * 470296; s(k-10) += sk * 654183; s(k-9) -= sk * 997805; s(k-8) += sk * 136657;
  s(k-7) -= sk * 683901; sk = 0` -/
  | red (k : Nat)
  /-- `carry[i] = (si + (1 << 20)) >> 21; s(i+1) += carry[i]; si -= carry[i] << 21` -/
  | rc (i : Nat)
  /-- `carry[i] = si >> 21; s(i+1) += carry[i]; si -= carry[i] << 21` -/
  | fc (i : Nat)

/-- the limb `si`. -/
def lget (s : List Int) (i : Nat) : Int := s.getD i 0

/-- `si += x` on an `int64` limb. -/
def ladd (s : List Int) (i : Nat) (x : Int) : List Int := s.set i (i64 (lget s i + x))

/-- the effect of a group of lines on the limbs. -/
def Op.run (s : List Int) : Op → List Int
  | .red k =>
    let x := lget s k
    let s := ladd s (k - 12) (x * 666643)
    let s := ladd s (k - 11) (x * 470296)
    let s := ladd s (k - 10) (x * 654183)
    let s := ladd s (k - 9) (-(x * 997805))
    let s := ladd s (k - 8) (x * 136657)
    let s := ladd s (k - 7) (-(x * 683901))
    s.set k 0
  | .rc i =>
    let c := i64 (lget s i + 2 ^ 20) / 2 ^ 21
    let s := ladd s (i + 1) c
    ladd s i (-(c * 2 ^ 21))
  | .fc i =>
    let c := lget s i / 2 ^ 21
    let s := ladd s (i + 1) c
    ladd s i (-(c * 2 ^ 21))

def runOps (p : List Op) (s : List Int) : List Int := p.foldl Op.run s

/-- the last groups of both functions: edwards25519.go:1251-1328 and 1569-1646. -/
def scTail : List Op := [
  .fc 0, .fc 1, .fc 2, .fc 3, .fc 4, .fc 5, .fc 6, .fc 7, .fc 8, .fc 9, .fc 10, .fc 11, .red 12, .fc 0, .fc 1, .fc 2, .fc 3,
  .fc 4, .fc 5, .fc 6, .fc 7, .fc 8, .fc 9, .fc 10]

/-- edwards25519.go:1003-1250 -/
def scMulAddHead : List Op := [
  .rc 0, .rc 2, .rc 4, .rc 6, .rc 8, .rc 10, .rc 12, .rc 14, .rc 16, .rc 18, .rc 20, .rc 22, .rc 1, .rc 3, .rc 5, .rc 7,
  .rc 9, .rc 11, .rc 13, .rc 15, .rc 17, .rc 19, .rc 21, .red 23, .red 22, .red 21, .red 20, .red 19, .red 18, .rc 6, .rc 8,
  .rc 10, .rc 12, .rc 14, .rc 16, .rc 7, .rc 9, .rc 11, .rc 13, .rc 15, .red 17, .red 16, .red 15, .red 14, .red 13, .red 12,
  .rc 0, .rc 2, .rc 4, .rc 6, .rc 8, .rc 10, .rc 1, .rc 3, .rc 5, .rc 7, .rc 9, .rc 11, .red 12]

/-- edwards25519.go:1390-1568 (and x25519.go:100-276). -/
def scReduceHead : List Op := [
  .red 23, .red 22, .red 21, .red 20, .red 19, .red 18, .rc 6, .rc 8, .rc 10, .rc 12, .rc 14, .rc 16, .rc 7, .rc 9, .rc 11,
  .rc 13, .rc 15, .red 17, .red 16, .red 15, .red 14, .red 13, .red 12, .rc 0, .rc 2, .rc 4, .rc 6, .rc 8, .rc 10, .rc 1,
  .rc 3, .rc 5, .rc 7, .rc 9, .rc 11, .red 12]

/-- edwards25519.go:1330-1361 (and 1648-1679, x25519.go:358-389): the twelve limbs as bytes. -/
def scBytes (s : List Int) : Bytes :=
  [toByte (lget s 0 / 2 ^ 0), toByte (lget s 0 / 2 ^ 8), orByte (lget s 0 / 2 ^ 16) (lget s 1 * 2 ^ 5),
   toByte (lget s 1 / 2 ^ 3), toByte (lget s 1 / 2 ^ 11), orByte (lget s 1 / 2 ^ 19) (lget s 2 * 2 ^ 2),
   toByte (lget s 2 / 2 ^ 6), orByte (lget s 2 / 2 ^ 14) (lget s 3 * 2 ^ 7), toByte (lget s 3 / 2 ^ 1),
   toByte (lget s 3 / 2 ^ 9), orByte (lget s 3 / 2 ^ 17) (lget s 4 * 2 ^ 4), toByte (lget s 4 / 2 ^ 4),
   toByte (lget s 4 / 2 ^ 12), orByte (lget s 4 / 2 ^ 20) (lget s 5 * 2 ^ 1), toByte (lget s 5 / 2 ^ 7),
   orByte (lget s 5 / 2 ^ 15) (lget s 6 * 2 ^ 6), toByte (lget s 6 / 2 ^ 2), toByte (lget s 6 / 2 ^ 10),
   orByte (lget s 6 / 2 ^ 18) (lget s 7 * 2 ^ 3), toByte (lget s 7 / 2 ^ 5), toByte (lget s 7 / 2 ^ 13),
   toByte (lget s 8 / 2 ^ 0), toByte (lget s 8 / 2 ^ 8), orByte (lget s 8 / 2 ^ 16) (lget s 9 * 2 ^ 5),
   toByte (lget s 9 / 2 ^ 3), toByte (lget s 9 / 2 ^ 11), orByte (lget s 9 / 2 ^ 19) (lget s 10 * 2 ^ 2),
   toByte (lget s 10 / 2 ^ 6), orByte (lget s 10 / 2 ^ 14) (lget s 11 * 2 ^ 7), toByte (lget s 11 / 2 ^ 1),
   toByte (lget s 11 / 2 ^ 9), toByte (lget s 11 / 2 ^ 17)]

/-- edwards25519.go:1364-1680 `ScReduce` of 64 bytes (and x25519.go:54-391 `x25519_sc_reduce`, which reads the bytes into `uint64`
words and is otherwise the same text). -/
def scReduce (s : Bytes) : Bytes :=
  let s0 := load3 s 0 % 2 ^ 21
  let s1 := load4 s 2 / 2 ^ 5 % 2 ^ 21
  let s2 := load3 s 5 / 2 ^ 2 % 2 ^ 21
  let s3 := load4 s 7 / 2 ^ 7 % 2 ^ 21
  let s4 := load4 s 10 / 2 ^ 4 % 2 ^ 21
  let s5 := load3 s 13 / 2 ^ 1 % 2 ^ 21
  let s6 := load4 s 15 / 2 ^ 6 % 2 ^ 21
  let s7 := load3 s 18 / 2 ^ 3 % 2 ^ 21
  let s8 := load3 s 21 % 2 ^ 21
  let s9 := load4 s 23 / 2 ^ 5 % 2 ^ 21
  let s10 := load3 s 26 / 2 ^ 2 % 2 ^ 21
  let s11 := load4 s 28 / 2 ^ 7 % 2 ^ 21
  let s12 := load4 s 31 / 2 ^ 4 % 2 ^ 21
  let s13 := load3 s 34 / 2 ^ 1 % 2 ^ 21
  let s14 := load4 s 36 / 2 ^ 6 % 2 ^ 21
  let s15 := load3 s 39 / 2 ^ 3 % 2 ^ 21
  let s16 := load3 s 42 % 2 ^ 21
  let s17 := load4 s 44 / 2 ^ 5 % 2 ^ 21
  let s18 := load3 s 47 / 2 ^ 2 % 2 ^ 21
  let s19 := load4 s 49 / 2 ^ 7 % 2 ^ 21
  let s20 := load4 s 52 / 2 ^ 4 % 2 ^ 21
  let s21 := load3 s 55 / 2 ^ 1 % 2 ^ 21
  let s22 := load4 s 57 / 2 ^ 6 % 2 ^ 21
  let s23 := load4 s 60 / 2 ^ 3
  scBytes (runOps scTail (runOps scReduceHead
    [s0, s1, s2, s3, s4, s5, s6, s7, s8, s9, s10, s11, s12, s13, s14, s15, s16, s17, s18, s19, s20, s21, s22, s23]))

/-- edwards25519.go:939-1362 `ScMulAdd`: `a * b + c` modulo the group order, on 32-byte strings. -/
def scMulAdd (a b c : Bytes) : Bytes :=
  let a0 := load3 a 0 % 2 ^ 21
  let a1 := load4 a 2 / 2 ^ 5 % 2 ^ 21
  let a2 := load3 a 5 / 2 ^ 2 % 2 ^ 21
  let a3 := load4 a 7 / 2 ^ 7 % 2 ^ 21
  let a4 := load4 a 10 / 2 ^ 4 % 2 ^ 21
  let a5 := load3 a 13 / 2 ^ 1 % 2 ^ 21
  let a6 := load4 a 15 / 2 ^ 6 % 2 ^ 21
  let a7 := load3 a 18 / 2 ^ 3 % 2 ^ 21
  let a8 := load3 a 21 % 2 ^ 21
  let a9 := load4 a 23 / 2 ^ 5 % 2 ^ 21
  let a10 := load3 a 26 / 2 ^ 2 % 2 ^ 21
  let a11 := load4 a 28 / 2 ^ 7
  let b0 := load3 b 0 % 2 ^ 21
  let b1 := load4 b 2 / 2 ^ 5 % 2 ^ 21
  let b2 := load3 b 5 / 2 ^ 2 % 2 ^ 21
  let b3 := load4 b 7 / 2 ^ 7 % 2 ^ 21
  let b4 := load4 b 10 / 2 ^ 4 % 2 ^ 21
  let b5 := load3 b 13 / 2 ^ 1 % 2 ^ 21
  let b6 := load4 b 15 / 2 ^ 6 % 2 ^ 21
  let b7 := load3 b 18 / 2 ^ 3 % 2 ^ 21
  let b8 := load3 b 21 % 2 ^ 21
  let b9 := load4 b 23 / 2 ^ 5 % 2 ^ 21
  let b10 := load3 b 26 / 2 ^ 2 % 2 ^ 21
  let b11 := load4 b 28 / 2 ^ 7
  let c0 := load3 c 0 % 2 ^ 21
  let c1 := load4 c 2 / 2 ^ 5 % 2 ^ 21
  let c2 := load3 c 5 / 2 ^ 2 % 2 ^ 21
  let c3 := load4 c 7 / 2 ^ 7 % 2 ^ 21
  let c4 := load4 c 10 / 2 ^ 4 % 2 ^ 21
  let c5 := load3 c 13 / 2 ^ 1 % 2 ^ 21
  let c6 := load4 c 15 / 2 ^ 6 % 2 ^ 21
  let c7 := load3 c 18 / 2 ^ 3 % 2 ^ 21
  let c8 := load3 c 21 % 2 ^ 21
  let c9 := load4 c 23 / 2 ^ 5 % 2 ^ 21
  let c10 := load3 c 26 / 2 ^ 2 % 2 ^ 21
  let c11 := load4 c 28 / 2 ^ 7
  let s0 := i64 (c0 + a0 * b0)
  let s1 := i64 (c1 + a0 * b1 + a1 * b0)
  let s2 := i64 (c2 + a0 * b2 + a1 * b1 + a2 * b0)
  let s3 := i64 (c3 + a0 * b3 + a1 * b2 + a2 * b1 + a3 * b0)
  let s4 := i64 (c4 + a0 * b4 + a1 * b3 + a2 * b2 + a3 * b1 + a4 * b0)
  let s5 := i64 (c5 + a0 * b5 + a1 * b4 + a2 * b3 + a3 * b2 + a4 * b1 + a5 * b0)
  let s6 := i64 (c6 + a0 * b6 + a1 * b5 + a2 * b4 + a3 * b3 + a4 * b2 + a5 * b1 + a6 * b0)
  let s7 := i64 (c7 + a0 * b7 + a1 * b6 + a2 * b5 + a3 * b4 + a4 * b3 + a5 * b2 + a6 * b1 + a7 * b0)
  let s8 := i64 (c8 + a0 * b8 + a1 * b7 + a2 * b6 + a3 * b5 + a4 * b4 + a5 * b3 + a6 * b2 + a7 * b1 + a8 * b0)
  let s9 := i64 (c9 + a0 * b9 + a1 * b8 + a2 * b7 + a3 * b6 + a4 * b5 + a5 * b4 + a6 * b3 + a7 * b2 + a8 * b1 + a9 * b0)
  let s10 := i64 (c10 + a0 * b10 + a1 * b9 + a2 * b8 + a3 * b7 + a4 * b6 + a5 * b5 + a6 * b4 + a7 * b3 + a8 * b2 + a9 * b1 + a10 * b0)
  let s11 := i64 (c11 + a0 * b11 + a1 * b10 + a2 * b9 + a3 * b8 + a4 * b7 + a5 * b6 + a6 * b5 + a7 * b4 + a8 * b3 + a9 * b2 + a10 * b1 + a11 * b0)
  let s12 := i64 (a1 * b11 + a2 * b10 + a3 * b9 + a4 * b8 + a5 * b7 + a6 * b6 + a7 * b5 + a8 * b4 + a9 * b3 + a10 * b2 + a11 * b1)
  let s13 := i64 (a2 * b11 + a3 * b10 + a4 * b9 + a5 * b8 + a6 * b7 + a7 * b6 + a8 * b5 + a9 * b4 + a10 * b3 + a11 * b2)
  let s14 := i64 (a3 * b11 + a4 * b10 + a5 * b9 + a6 * b8 + a7 * b7 + a8 * b6 + a9 * b5 + a10 * b4 + a11 * b3)
  let s15 := i64 (a4 * b11 + a5 * b10 + a6 * b9 + a7 * b8 + a8 * b7 + a9 * b6 + a10 * b5 + a11 * b4)
  let s16 := i64 (a5 * b11 + a6 * b10 + a7 * b9 + a8 * b8 + a9 * b7 + a10 * b6 + a11 * b5)
  let s17 := i64 (a6 * b11 + a7 * b10 + a8 * b9 + a9 * b8 + a10 * b7 + a11 * b6)
  let s18 := i64 (a7 * b11 + a8 * b10 + a9 * b9 + a10 * b8 + a11 * b7)
  let s19 := i64 (a8 * b11 + a9 * b10 + a10 * b9 + a11 * b8)
  let s20 := i64 (a9 * b11 + a10 * b10 + a11 * b9)
  let s21 := i64 (a10 * b11 + a11 * b10)
  let s22 := i64 (a11 * b11)
  let s23 := 0
  scBytes (runOps scTail (runOps scMulAddHead
    [s0, s1, s2, s3, s4, s5, s6, s7, s8, s9, s10, s11, s12, s13, s14, s15, s16, s17, s18, s19, s20, s21, s22, s23]))

end Verif.Ed25519
