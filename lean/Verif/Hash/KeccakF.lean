import Verif.Hash.Blocks

/-!
# Model of /repo/sha3/keccakf.go

The body of the four unrolled rounds is transcribed statement by statement; `a[i] = e` is a new binding of `ai`.  The
assembly version for amd64 is in X86/Keccak.lean.
-/

namespace Verif.SHA3

/-- keccakf.go:39: the array `a *[25]uint64`. -/
structure Lanes where
  a0 : BitVec 64
  a1 : BitVec 64
  a2 : BitVec 64
  a3 : BitVec 64
  a4 : BitVec 64
  a5 : BitVec 64
  a6 : BitVec 64
  a7 : BitVec 64
  a8 : BitVec 64
  a9 : BitVec 64
  a10 : BitVec 64
  a11 : BitVec 64
  a12 : BitVec 64
  a13 : BitVec 64
  a14 : BitVec 64
  a15 : BitVec 64
  a16 : BitVec 64
  a17 : BitVec 64
  a18 : BitVec 64
  a19 : BitVec 64
  a20 : BitVec 64
  a21 : BitVec 64
  a22 : BitVec 64
  a23 : BitVec 64
  a24 : BitVec 64
  deriving DecidableEq

/-- keccakf.go:10-35: the array `rc`. -/
def rcTable : List (BitVec 64) :=
  [0x0000000000000001, 0x0000000000008082, 0x800000000000808A, 0x8000000080008000,
   0x000000000000808B, 0x0000000080000001, 0x8000000080008081, 0x8000000000008009,
   0x000000000000008A, 0x0000000000000088, 0x0000000080008009, 0x000000008000000A,
   0x000000008000808B, 0x800000000000008B, 0x8000000000008089, 0x8000000000008003,
   0x8000000000008002, 0x8000000000000080, 0x000000000000800A, 0x800000008000000A,
   0x8000000080008081, 0x8000000000008080, 0x0000000080000001, 0x8000000080008008]

/-- keccakf.go:49-138: the part marked "Round 1" of the loop body; `rc` is `rc[i]`. -/
def round1 (s : Lanes) (rc : BitVec 64) : Lanes :=
  let ⟨a0, a1, a2, a3, a4, a5, a6, a7, a8, a9, a10, a11, a12, a13, a14, a15, a16, a17, a18, a19, a20, a21, a22, a23, a24⟩ := s
  let bc0 := a0 ^^^ a5 ^^^ a10 ^^^ a15 ^^^ a20
  let bc1 := a1 ^^^ a6 ^^^ a11 ^^^ a16 ^^^ a21
  let bc2 := a2 ^^^ a7 ^^^ a12 ^^^ a17 ^^^ a22
  let bc3 := a3 ^^^ a8 ^^^ a13 ^^^ a18 ^^^ a23
  let bc4 := a4 ^^^ a9 ^^^ a14 ^^^ a19 ^^^ a24
  let d0 := bc4 ^^^ (bc1 <<< 1 ||| bc1 >>> 63)
  let d1 := bc0 ^^^ (bc2 <<< 1 ||| bc2 >>> 63)
  let d2 := bc1 ^^^ (bc3 <<< 1 ||| bc3 >>> 63)
  let d3 := bc2 ^^^ (bc4 <<< 1 ||| bc4 >>> 63)
  let d4 := bc3 ^^^ (bc0 <<< 1 ||| bc0 >>> 63)
  let bc0 := a0 ^^^ d0
  let t := a6 ^^^ d1
  let bc1 := t <<< 44 ||| t >>> (64 - 44)
  let t := a12 ^^^ d2
  let bc2 := t <<< 43 ||| t >>> (64 - 43)
  let t := a18 ^^^ d3
  let bc3 := t <<< 21 ||| t >>> (64 - 21)
  let t := a24 ^^^ d4
  let bc4 := t <<< 14 ||| t >>> (64 - 14)
  let a0 := bc0 ^^^ (bc2 &&& ~~~bc1) ^^^ rc
  let a6 := bc1 ^^^ (bc3 &&& ~~~bc2)
  let a12 := bc2 ^^^ (bc4 &&& ~~~bc3)
  let a18 := bc3 ^^^ (bc0 &&& ~~~bc4)
  let a24 := bc4 ^^^ (bc1 &&& ~~~bc0)
  let t := a10 ^^^ d0
  let bc2 := t <<< 3 ||| t >>> (64 - 3)
  let t := a16 ^^^ d1
  let bc3 := t <<< 45 ||| t >>> (64 - 45)
  let t := a22 ^^^ d2
  let bc4 := t <<< 61 ||| t >>> (64 - 61)
  let t := a3 ^^^ d3
  let bc0 := t <<< 28 ||| t >>> (64 - 28)
  let t := a9 ^^^ d4
  let bc1 := t <<< 20 ||| t >>> (64 - 20)
  let a10 := bc0 ^^^ (bc2 &&& ~~~bc1)
  let a16 := bc1 ^^^ (bc3 &&& ~~~bc2)
  let a22 := bc2 ^^^ (bc4 &&& ~~~bc3)
  let a3 := bc3 ^^^ (bc0 &&& ~~~bc4)
  let a9 := bc4 ^^^ (bc1 &&& ~~~bc0)
  let t := a20 ^^^ d0
  let bc4 := t <<< 18 ||| t >>> (64 - 18)
  let t := a1 ^^^ d1
  let bc0 := t <<< 1 ||| t >>> (64 - 1)
  let t := a7 ^^^ d2
  let bc1 := t <<< 6 ||| t >>> (64 - 6)
  let t := a13 ^^^ d3
  let bc2 := t <<< 25 ||| t >>> (64 - 25)
  let t := a19 ^^^ d4
  let bc3 := t <<< 8 ||| t >>> (64 - 8)
  let a20 := bc0 ^^^ (bc2 &&& ~~~bc1)
  let a1 := bc1 ^^^ (bc3 &&& ~~~bc2)
  let a7 := bc2 ^^^ (bc4 &&& ~~~bc3)
  let a13 := bc3 ^^^ (bc0 &&& ~~~bc4)
  let a19 := bc4 ^^^ (bc1 &&& ~~~bc0)
  let t := a5 ^^^ d0
  let bc1 := t <<< 36 ||| t >>> (64 - 36)
  let t := a11 ^^^ d1
  let bc2 := t <<< 10 ||| t >>> (64 - 10)
  let t := a17 ^^^ d2
  let bc3 := t <<< 15 ||| t >>> (64 - 15)
  let t := a23 ^^^ d3
  let bc4 := t <<< 56 ||| t >>> (64 - 56)
  let t := a4 ^^^ d4
  let bc0 := t <<< 27 ||| t >>> (64 - 27)
  let a5 := bc0 ^^^ (bc2 &&& ~~~bc1)
  let a11 := bc1 ^^^ (bc3 &&& ~~~bc2)
  let a17 := bc2 ^^^ (bc4 &&& ~~~bc3)
  let a23 := bc3 ^^^ (bc0 &&& ~~~bc4)
  let a4 := bc4 ^^^ (bc1 &&& ~~~bc0)
  let t := a15 ^^^ d0
  let bc3 := t <<< 41 ||| t >>> (64 - 41)
  let t := a21 ^^^ d1
  let bc4 := t <<< 2 ||| t >>> (64 - 2)
  let t := a2 ^^^ d2
  let bc0 := t <<< 62 ||| t >>> (64 - 62)
  let t := a8 ^^^ d3
  let bc1 := t <<< 55 ||| t >>> (64 - 55)
  let t := a14 ^^^ d4
  let bc2 := t <<< 39 ||| t >>> (64 - 39)
  let a15 := bc0 ^^^ (bc2 &&& ~~~bc1)
  let a21 := bc1 ^^^ (bc3 &&& ~~~bc2)
  let a2 := bc2 ^^^ (bc4 &&& ~~~bc3)
  let a8 := bc3 ^^^ (bc0 &&& ~~~bc4)
  let a14 := bc4 ^^^ (bc1 &&& ~~~bc0)
  ⟨a0, a1, a2, a3, a4, a5, a6, a7, a8, a9, a10, a11, a12, a13, a14, a15, a16, a17, a18, a19, a20, a21, a22, a23, a24⟩

/-- keccakf.go:140-229: the part marked "Round 2" of the loop body; `rc` is `rc[i+1]`. -/
def round2 (s : Lanes) (rc : BitVec 64) : Lanes :=
  let ⟨a0, a1, a2, a3, a4, a5, a6, a7, a8, a9, a10, a11, a12, a13, a14, a15, a16, a17, a18, a19, a20, a21, a22, a23, a24⟩ := s
  let bc0 := a0 ^^^ a5 ^^^ a10 ^^^ a15 ^^^ a20
  let bc1 := a1 ^^^ a6 ^^^ a11 ^^^ a16 ^^^ a21
  let bc2 := a2 ^^^ a7 ^^^ a12 ^^^ a17 ^^^ a22
  let bc3 := a3 ^^^ a8 ^^^ a13 ^^^ a18 ^^^ a23
  let bc4 := a4 ^^^ a9 ^^^ a14 ^^^ a19 ^^^ a24
  let d0 := bc4 ^^^ (bc1 <<< 1 ||| bc1 >>> 63)
  let d1 := bc0 ^^^ (bc2 <<< 1 ||| bc2 >>> 63)
  let d2 := bc1 ^^^ (bc3 <<< 1 ||| bc3 >>> 63)
  let d3 := bc2 ^^^ (bc4 <<< 1 ||| bc4 >>> 63)
  let d4 := bc3 ^^^ (bc0 <<< 1 ||| bc0 >>> 63)
  let bc0 := a0 ^^^ d0
  let t := a16 ^^^ d1
  let bc1 := t <<< 44 ||| t >>> (64 - 44)
  let t := a7 ^^^ d2
  let bc2 := t <<< 43 ||| t >>> (64 - 43)
  let t := a23 ^^^ d3
  let bc3 := t <<< 21 ||| t >>> (64 - 21)
  let t := a14 ^^^ d4
  let bc4 := t <<< 14 ||| t >>> (64 - 14)
  let a0 := bc0 ^^^ (bc2 &&& ~~~bc1) ^^^ rc
  let a16 := bc1 ^^^ (bc3 &&& ~~~bc2)
  let a7 := bc2 ^^^ (bc4 &&& ~~~bc3)
  let a23 := bc3 ^^^ (bc0 &&& ~~~bc4)
  let a14 := bc4 ^^^ (bc1 &&& ~~~bc0)
  let t := a20 ^^^ d0
  let bc2 := t <<< 3 ||| t >>> (64 - 3)
  let t := a11 ^^^ d1
  let bc3 := t <<< 45 ||| t >>> (64 - 45)
  let t := a2 ^^^ d2
  let bc4 := t <<< 61 ||| t >>> (64 - 61)
  let t := a18 ^^^ d3
  let bc0 := t <<< 28 ||| t >>> (64 - 28)
  let t := a9 ^^^ d4
  let bc1 := t <<< 20 ||| t >>> (64 - 20)
  let a20 := bc0 ^^^ (bc2 &&& ~~~bc1)
  let a11 := bc1 ^^^ (bc3 &&& ~~~bc2)
  let a2 := bc2 ^^^ (bc4 &&& ~~~bc3)
  let a18 := bc3 ^^^ (bc0 &&& ~~~bc4)
  let a9 := bc4 ^^^ (bc1 &&& ~~~bc0)
  let t := a15 ^^^ d0
  let bc4 := t <<< 18 ||| t >>> (64 - 18)
  let t := a6 ^^^ d1
  let bc0 := t <<< 1 ||| t >>> (64 - 1)
  let t := a22 ^^^ d2
  let bc1 := t <<< 6 ||| t >>> (64 - 6)
  let t := a13 ^^^ d3
  let bc2 := t <<< 25 ||| t >>> (64 - 25)
  let t := a4 ^^^ d4
  let bc3 := t <<< 8 ||| t >>> (64 - 8)
  let a15 := bc0 ^^^ (bc2 &&& ~~~bc1)
  let a6 := bc1 ^^^ (bc3 &&& ~~~bc2)
  let a22 := bc2 ^^^ (bc4 &&& ~~~bc3)
  let a13 := bc3 ^^^ (bc0 &&& ~~~bc4)
  let a4 := bc4 ^^^ (bc1 &&& ~~~bc0)
  let t := a10 ^^^ d0
  let bc1 := t <<< 36 ||| t >>> (64 - 36)
  let t := a1 ^^^ d1
  let bc2 := t <<< 10 ||| t >>> (64 - 10)
  let t := a17 ^^^ d2
  let bc3 := t <<< 15 ||| t >>> (64 - 15)
  let t := a8 ^^^ d3
  let bc4 := t <<< 56 ||| t >>> (64 - 56)
  let t := a24 ^^^ d4
  let bc0 := t <<< 27 ||| t >>> (64 - 27)
  let a10 := bc0 ^^^ (bc2 &&& ~~~bc1)
  let a1 := bc1 ^^^ (bc3 &&& ~~~bc2)
  let a17 := bc2 ^^^ (bc4 &&& ~~~bc3)
  let a8 := bc3 ^^^ (bc0 &&& ~~~bc4)
  let a24 := bc4 ^^^ (bc1 &&& ~~~bc0)
  let t := a5 ^^^ d0
  let bc3 := t <<< 41 ||| t >>> (64 - 41)
  let t := a21 ^^^ d1
  let bc4 := t <<< 2 ||| t >>> (64 - 2)
  let t := a12 ^^^ d2
  let bc0 := t <<< 62 ||| t >>> (64 - 62)
  let t := a3 ^^^ d3
  let bc1 := t <<< 55 ||| t >>> (64 - 55)
  let t := a19 ^^^ d4
  let bc2 := t <<< 39 ||| t >>> (64 - 39)
  let a5 := bc0 ^^^ (bc2 &&& ~~~bc1)
  let a21 := bc1 ^^^ (bc3 &&& ~~~bc2)
  let a12 := bc2 ^^^ (bc4 &&& ~~~bc3)
  let a3 := bc3 ^^^ (bc0 &&& ~~~bc4)
  let a19 := bc4 ^^^ (bc1 &&& ~~~bc0)
  ⟨a0, a1, a2, a3, a4, a5, a6, a7, a8, a9, a10, a11, a12, a13, a14, a15, a16, a17, a18, a19, a20, a21, a22, a23, a24⟩

/-- keccakf.go:231-320: the part marked "Round 3" of the loop body; `rc` is `rc[i+2]`. -/
def round3 (s : Lanes) (rc : BitVec 64) : Lanes :=
  let ⟨a0, a1, a2, a3, a4, a5, a6, a7, a8, a9, a10, a11, a12, a13, a14, a15, a16, a17, a18, a19, a20, a21, a22, a23, a24⟩ := s
  let bc0 := a0 ^^^ a5 ^^^ a10 ^^^ a15 ^^^ a20
  let bc1 := a1 ^^^ a6 ^^^ a11 ^^^ a16 ^^^ a21
  let bc2 := a2 ^^^ a7 ^^^ a12 ^^^ a17 ^^^ a22
  let bc3 := a3 ^^^ a8 ^^^ a13 ^^^ a18 ^^^ a23
  let bc4 := a4 ^^^ a9 ^^^ a14 ^^^ a19 ^^^ a24
  let d0 := bc4 ^^^ (bc1 <<< 1 ||| bc1 >>> 63)
  let d1 := bc0 ^^^ (bc2 <<< 1 ||| bc2 >>> 63)
  let d2 := bc1 ^^^ (bc3 <<< 1 ||| bc3 >>> 63)
  let d3 := bc2 ^^^ (bc4 <<< 1 ||| bc4 >>> 63)
  let d4 := bc3 ^^^ (bc0 <<< 1 ||| bc0 >>> 63)
  let bc0 := a0 ^^^ d0
  let t := a11 ^^^ d1
  let bc1 := t <<< 44 ||| t >>> (64 - 44)
  let t := a22 ^^^ d2
  let bc2 := t <<< 43 ||| t >>> (64 - 43)
  let t := a8 ^^^ d3
  let bc3 := t <<< 21 ||| t >>> (64 - 21)
  let t := a19 ^^^ d4
  let bc4 := t <<< 14 ||| t >>> (64 - 14)
  let a0 := bc0 ^^^ (bc2 &&& ~~~bc1) ^^^ rc
  let a11 := bc1 ^^^ (bc3 &&& ~~~bc2)
  let a22 := bc2 ^^^ (bc4 &&& ~~~bc3)
  let a8 := bc3 ^^^ (bc0 &&& ~~~bc4)
  let a19 := bc4 ^^^ (bc1 &&& ~~~bc0)
  let t := a15 ^^^ d0
  let bc2 := t <<< 3 ||| t >>> (64 - 3)
  let t := a1 ^^^ d1
  let bc3 := t <<< 45 ||| t >>> (64 - 45)
  let t := a12 ^^^ d2
  let bc4 := t <<< 61 ||| t >>> (64 - 61)
  let t := a23 ^^^ d3
  let bc0 := t <<< 28 ||| t >>> (64 - 28)
  let t := a9 ^^^ d4
  let bc1 := t <<< 20 ||| t >>> (64 - 20)
  let a15 := bc0 ^^^ (bc2 &&& ~~~bc1)
  let a1 := bc1 ^^^ (bc3 &&& ~~~bc2)
  let a12 := bc2 ^^^ (bc4 &&& ~~~bc3)
  let a23 := bc3 ^^^ (bc0 &&& ~~~bc4)
  let a9 := bc4 ^^^ (bc1 &&& ~~~bc0)
  let t := a5 ^^^ d0
  let bc4 := t <<< 18 ||| t >>> (64 - 18)
  let t := a16 ^^^ d1
  let bc0 := t <<< 1 ||| t >>> (64 - 1)
  let t := a2 ^^^ d2
  let bc1 := t <<< 6 ||| t >>> (64 - 6)
  let t := a13 ^^^ d3
  let bc2 := t <<< 25 ||| t >>> (64 - 25)
  let t := a24 ^^^ d4
  let bc3 := t <<< 8 ||| t >>> (64 - 8)
  let a5 := bc0 ^^^ (bc2 &&& ~~~bc1)
  let a16 := bc1 ^^^ (bc3 &&& ~~~bc2)
  let a2 := bc2 ^^^ (bc4 &&& ~~~bc3)
  let a13 := bc3 ^^^ (bc0 &&& ~~~bc4)
  let a24 := bc4 ^^^ (bc1 &&& ~~~bc0)
  let t := a20 ^^^ d0
  let bc1 := t <<< 36 ||| t >>> (64 - 36)
  let t := a6 ^^^ d1
  let bc2 := t <<< 10 ||| t >>> (64 - 10)
  let t := a17 ^^^ d2
  let bc3 := t <<< 15 ||| t >>> (64 - 15)
  let t := a3 ^^^ d3
  let bc4 := t <<< 56 ||| t >>> (64 - 56)
  let t := a14 ^^^ d4
  let bc0 := t <<< 27 ||| t >>> (64 - 27)
  let a20 := bc0 ^^^ (bc2 &&& ~~~bc1)
  let a6 := bc1 ^^^ (bc3 &&& ~~~bc2)
  let a17 := bc2 ^^^ (bc4 &&& ~~~bc3)
  let a3 := bc3 ^^^ (bc0 &&& ~~~bc4)
  let a14 := bc4 ^^^ (bc1 &&& ~~~bc0)
  let t := a10 ^^^ d0
  let bc3 := t <<< 41 ||| t >>> (64 - 41)
  let t := a21 ^^^ d1
  let bc4 := t <<< 2 ||| t >>> (64 - 2)
  let t := a7 ^^^ d2
  let bc0 := t <<< 62 ||| t >>> (64 - 62)
  let t := a18 ^^^ d3
  let bc1 := t <<< 55 ||| t >>> (64 - 55)
  let t := a4 ^^^ d4
  let bc2 := t <<< 39 ||| t >>> (64 - 39)
  let a10 := bc0 ^^^ (bc2 &&& ~~~bc1)
  let a21 := bc1 ^^^ (bc3 &&& ~~~bc2)
  let a7 := bc2 ^^^ (bc4 &&& ~~~bc3)
  let a18 := bc3 ^^^ (bc0 &&& ~~~bc4)
  let a4 := bc4 ^^^ (bc1 &&& ~~~bc0)
  ⟨a0, a1, a2, a3, a4, a5, a6, a7, a8, a9, a10, a11, a12, a13, a14, a15, a16, a17, a18, a19, a20, a21, a22, a23, a24⟩

/-- keccakf.go:322-410: the part marked "Round 4" of the loop body; `rc` is `rc[i+3]`. -/
def round4 (s : Lanes) (rc : BitVec 64) : Lanes :=
  let ⟨a0, a1, a2, a3, a4, a5, a6, a7, a8, a9, a10, a11, a12, a13, a14, a15, a16, a17, a18, a19, a20, a21, a22, a23, a24⟩ := s
  let bc0 := a0 ^^^ a5 ^^^ a10 ^^^ a15 ^^^ a20
  let bc1 := a1 ^^^ a6 ^^^ a11 ^^^ a16 ^^^ a21
  let bc2 := a2 ^^^ a7 ^^^ a12 ^^^ a17 ^^^ a22
  let bc3 := a3 ^^^ a8 ^^^ a13 ^^^ a18 ^^^ a23
  let bc4 := a4 ^^^ a9 ^^^ a14 ^^^ a19 ^^^ a24
  let d0 := bc4 ^^^ (bc1 <<< 1 ||| bc1 >>> 63)
  let d1 := bc0 ^^^ (bc2 <<< 1 ||| bc2 >>> 63)
  let d2 := bc1 ^^^ (bc3 <<< 1 ||| bc3 >>> 63)
  let d3 := bc2 ^^^ (bc4 <<< 1 ||| bc4 >>> 63)
  let d4 := bc3 ^^^ (bc0 <<< 1 ||| bc0 >>> 63)
  let bc0 := a0 ^^^ d0
  let t := a1 ^^^ d1
  let bc1 := t <<< 44 ||| t >>> (64 - 44)
  let t := a2 ^^^ d2
  let bc2 := t <<< 43 ||| t >>> (64 - 43)
  let t := a3 ^^^ d3
  let bc3 := t <<< 21 ||| t >>> (64 - 21)
  let t := a4 ^^^ d4
  let bc4 := t <<< 14 ||| t >>> (64 - 14)
  let a0 := bc0 ^^^ (bc2 &&& ~~~bc1) ^^^ rc
  let a1 := bc1 ^^^ (bc3 &&& ~~~bc2)
  let a2 := bc2 ^^^ (bc4 &&& ~~~bc3)
  let a3 := bc3 ^^^ (bc0 &&& ~~~bc4)
  let a4 := bc4 ^^^ (bc1 &&& ~~~bc0)
  let t := a5 ^^^ d0
  let bc2 := t <<< 3 ||| t >>> (64 - 3)
  let t := a6 ^^^ d1
  let bc3 := t <<< 45 ||| t >>> (64 - 45)
  let t := a7 ^^^ d2
  let bc4 := t <<< 61 ||| t >>> (64 - 61)
  let t := a8 ^^^ d3
  let bc0 := t <<< 28 ||| t >>> (64 - 28)
  let t := a9 ^^^ d4
  let bc1 := t <<< 20 ||| t >>> (64 - 20)
  let a5 := bc0 ^^^ (bc2 &&& ~~~bc1)
  let a6 := bc1 ^^^ (bc3 &&& ~~~bc2)
  let a7 := bc2 ^^^ (bc4 &&& ~~~bc3)
  let a8 := bc3 ^^^ (bc0 &&& ~~~bc4)
  let a9 := bc4 ^^^ (bc1 &&& ~~~bc0)
  let t := a10 ^^^ d0
  let bc4 := t <<< 18 ||| t >>> (64 - 18)
  let t := a11 ^^^ d1
  let bc0 := t <<< 1 ||| t >>> (64 - 1)
  let t := a12 ^^^ d2
  let bc1 := t <<< 6 ||| t >>> (64 - 6)
  let t := a13 ^^^ d3
  let bc2 := t <<< 25 ||| t >>> (64 - 25)
  let t := a14 ^^^ d4
  let bc3 := t <<< 8 ||| t >>> (64 - 8)
  let a10 := bc0 ^^^ (bc2 &&& ~~~bc1)
  let a11 := bc1 ^^^ (bc3 &&& ~~~bc2)
  let a12 := bc2 ^^^ (bc4 &&& ~~~bc3)
  let a13 := bc3 ^^^ (bc0 &&& ~~~bc4)
  let a14 := bc4 ^^^ (bc1 &&& ~~~bc0)
  let t := a15 ^^^ d0
  let bc1 := t <<< 36 ||| t >>> (64 - 36)
  let t := a16 ^^^ d1
  let bc2 := t <<< 10 ||| t >>> (64 - 10)
  let t := a17 ^^^ d2
  let bc3 := t <<< 15 ||| t >>> (64 - 15)
  let t := a18 ^^^ d3
  let bc4 := t <<< 56 ||| t >>> (64 - 56)
  let t := a19 ^^^ d4
  let bc0 := t <<< 27 ||| t >>> (64 - 27)
  let a15 := bc0 ^^^ (bc2 &&& ~~~bc1)
  let a16 := bc1 ^^^ (bc3 &&& ~~~bc2)
  let a17 := bc2 ^^^ (bc4 &&& ~~~bc3)
  let a18 := bc3 ^^^ (bc0 &&& ~~~bc4)
  let a19 := bc4 ^^^ (bc1 &&& ~~~bc0)
  let t := a20 ^^^ d0
  let bc3 := t <<< 41 ||| t >>> (64 - 41)
  let t := a21 ^^^ d1
  let bc4 := t <<< 2 ||| t >>> (64 - 2)
  let t := a22 ^^^ d2
  let bc0 := t <<< 62 ||| t >>> (64 - 62)
  let t := a23 ^^^ d3
  let bc1 := t <<< 55 ||| t >>> (64 - 55)
  let t := a24 ^^^ d4
  let bc2 := t <<< 39 ||| t >>> (64 - 39)
  let a20 := bc0 ^^^ (bc2 &&& ~~~bc1)
  let a21 := bc1 ^^^ (bc3 &&& ~~~bc2)
  let a22 := bc2 ^^^ (bc4 &&& ~~~bc3)
  let a23 := bc3 ^^^ (bc0 &&& ~~~bc4)
  let a24 := bc4 ^^^ (bc1 &&& ~~~bc0)
  ⟨a0, a1, a2, a3, a4, a5, a6, a7, a8, a9, a10, a11, a12, a13, a14, a15, a16, a17, a18, a19, a20, a21, a22, a23, a24⟩
/-- keccakf.go:44-411: one pass of the loop, for `i`. -/
def fourRounds (s : Lanes) (i : Nat) : Lanes :=
  round4 (round3 (round2 (round1 s (rcTable.getD i 0)) (rcTable.getD (i + 1) 0)) (rcTable.getD (i + 2) 0)) (rcTable.getD (i + 3) 0)

/-- keccakf.go:39-412 `keccakF1600`: the loop `for i := 0; i < 24; i += 4`. -/
def keccakF1600 (s : Lanes) : Lanes := [0, 4, 8, 12, 16, 20].foldl fourRounds s

end Verif.SHA3
