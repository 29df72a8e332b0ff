import Verif.Bytes

/-!
# Model of /repo/eddsa/edwards25519/edwards25519.go: the field elements

A `FieldElement` is an array of ten `int32` limbs.  The limbs and the `int64` intermediate values are integers here; `i32` and
`i64` take the value that the machine word holds.  Sums and products are wrapped once at the end of an expression: reduction
modulo a power of two commutes with `+`, `-` and `*`, so this is the result of wrapping after each operation.  `x >> k` on a signed
word is the floor division by `2^k`.  Functions that write to a pointer argument return the new value.
-/

namespace Verif.Ed25519

/-- the value of an `int32` after wraparound. -/
def i32 (x : Int) : Int := Int.bmod x (2 ^ 32)

/-- the value of an `int64` after wraparound. -/
def i64 (x : Int) : Int := Int.bmod x (2 ^ 64)

/-- edwards25519.go:17 `FieldElement` -/
@[ext] structure Fe where
  a0 : Int
  a1 : Int
  a2 : Int
  a3 : Int
  a4 : Int
  a5 : Int
  a6 : Int
  a7 : Int
  a8 : Int
  a9 : Int
  deriving DecidableEq

/-- edwards25519.go:21-23 `FeZero` -/
def feZero : Fe := ⟨0, 0, 0, 0, 0, 0, 0, 0, 0, 0⟩

/-- edwards25519.go:25-28 `FeOne` -/
def feOne : Fe := ⟨1, 0, 0, 0, 0, 0, 0, 0, 0, 0⟩

/-- edwards25519.go:30-41 `FeAdd` -/
def feAdd (a b : Fe) : Fe :=
  ⟨i32 (a.a0 + b.a0), i32 (a.a1 + b.a1), i32 (a.a2 + b.a2), i32 (a.a3 + b.a3), i32 (a.a4 + b.a4),
   i32 (a.a5 + b.a5), i32 (a.a6 + b.a6), i32 (a.a7 + b.a7), i32 (a.a8 + b.a8), i32 (a.a9 + b.a9)⟩

/-- edwards25519.go:43-54 `FeSub` -/
def feSub (a b : Fe) : Fe :=
  ⟨i32 (a.a0 - b.a0), i32 (a.a1 - b.a1), i32 (a.a2 - b.a2), i32 (a.a3 - b.a3), i32 (a.a4 - b.a4),
   i32 (a.a5 - b.a5), i32 (a.a6 - b.a6), i32 (a.a7 - b.a7), i32 (a.a8 - b.a8), i32 (a.a9 - b.a9)⟩

/-- edwards25519.go:60-72 `FeCMove`: `b` is 0 or 1 at every call; `f ^ (-b & (f ^ g))` is `f` for 0 and `g` for 1. -/
def feCMove (f g : Fe) (b : Int) : Fe := if b = 1 then g else f

/-- edwards25519.go:206-217 `FeNeg` -/
def feNeg (f : Fe) : Fe :=
  ⟨i32 (-f.a0), i32 (-f.a1), i32 (-f.a2), i32 (-f.a3), i32 (-f.a4), i32 (-f.a5), i32 (-f.a6), i32 (-f.a7), i32 (-f.a8), i32 (-f.a9)⟩

/-- edwards25519.go:74-80 `load3`, on the bytes from position `i` on. -/
def load3 (s : Bytes) (i : Nat) : Int := leNat ((s.drop i).take 3)

/-- edwards25519.go:82-89 `load4` -/
def load4 (s : Bytes) (i : Nat) : Int := leNat ((s.drop i).take 4)

/-- three lines of `FeCombine` such as `c0 = (h0 + (1 << 25)) >> 26; h1 += c0; h0 -= c0 << 26`: the new `h0` and `h1`. -/
def carry26 (a b : Int) : Int × Int :=
  let c := i64 (a + 2 ^ 25) / 2 ^ 26
  (i64 (a - c * 2 ^ 26), i64 (b + c))

/-- the same with `c1 = (h1 + (1 << 24)) >> 25; h2 += c1; h1 -= c1 << 25`. -/
def carry25 (a b : Int) : Int × Int :=
  let c := i64 (a + 2 ^ 24) / 2 ^ 25
  (i64 (a - c * 2 ^ 25), i64 (b + c))

/-- `c9 = (h9 + (1 << 24)) >> 25; h0 += c9 * 19; h9 -= c9 << 25`: the new `h9` and `h0`. -/
def carry9 (h9 h0 : Int) : Int × Int :=
  let c := i64 (h9 + 2 ^ 24) / 2 ^ 25
  (i64 (h9 - c * 2 ^ 25), i64 (h0 + c * 19))

/-- edwards25519.go:219-279 `FeCombine`; the arguments are `int64` values. -/
def feCombine (h0 h1 h2 h3 h4 h5 h6 h7 h8 h9 : Int) : Fe :=
  let (h0, h1) := carry26 h0 h1
  let (h4, h5) := carry26 h4 h5
  let (h1, h2) := carry25 h1 h2
  let (h5, h6) := carry25 h5 h6
  let (h2, h3) := carry26 h2 h3
  let (h6, h7) := carry26 h6 h7
  let (h3, h4) := carry25 h3 h4
  let (h7, h8) := carry25 h7 h8
  let (h4, h5) := carry26 h4 h5
  let (h8, h9) := carry26 h8 h9
  let (h9, h0) := carry9 h9 h0
  let (h0, h1) := carry26 h0 h1
  ⟨i32 h0, i32 h1, i32 h2, i32 h3, i32 h4, i32 h5, i32 h6, i32 h7, i32 h8, i32 h9⟩

/-- edwards25519.go:91-104 `FeFromBytes` -/
def feFromBytes (s : Bytes) : Fe :=
  feCombine (load4 s 0) (load3 s 4 * 2 ^ 6) (load3 s 7 * 2 ^ 5) (load3 s 10 * 2 ^ 3) (load3 s 13 * 2 ^ 2) (load4 s 16)
    (load3 s 20 * 2 ^ 7) (load3 s 23 * 2 ^ 5) (load3 s 26 * 2 ^ 4) (load3 s 29 % 2 ^ 23 * 2 ^ 2)

/-- edwards25519.go:281-332 `FeMul` -/
def feMul (f g : Fe) : Fe :=
  let f0 := f.a0
  let f1 := f.a1
  let f2 := f.a2
  let f3 := f.a3
  let f4 := f.a4
  let f5 := f.a5
  let f6 := f.a6
  let f7 := f.a7
  let f8 := f.a8
  let f9 := f.a9
  let f1_2 := i32 (2 * f.a1)
  let f3_2 := i32 (2 * f.a3)
  let f5_2 := i32 (2 * f.a5)
  let f7_2 := i32 (2 * f.a7)
  let f9_2 := i32 (2 * f.a9)
  let g0 := g.a0
  let g1 := g.a1
  let g2 := g.a2
  let g3 := g.a3
  let g4 := g.a4
  let g5 := g.a5
  let g6 := g.a6
  let g7 := g.a7
  let g8 := g.a8
  let g9 := g.a9
  let g1_19 := i32 (19 * g.a1)
  let g2_19 := i32 (19 * g.a2)
  let g3_19 := i32 (19 * g.a3)
  let g4_19 := i32 (19 * g.a4)
  let g5_19 := i32 (19 * g.a5)
  let g6_19 := i32 (19 * g.a6)
  let g7_19 := i32 (19 * g.a7)
  let g8_19 := i32 (19 * g.a8)
  let g9_19 := i32 (19 * g.a9)
  let h0 := i64 (f0 * g0 + f1_2 * g9_19 + f2 * g8_19 + f3_2 * g7_19 + f4 * g6_19 + f5_2 * g5_19 + f6 * g4_19 + f7_2 * g3_19 + f8 * g2_19 + f9_2 * g1_19)
  let h1 := i64 (f0 * g1 + f1 * g0 + f2 * g9_19 + f3 * g8_19 + f4 * g7_19 + f5 * g6_19 + f6 * g5_19 + f7 * g4_19 + f8 * g3_19 + f9 * g2_19)
  let h2 := i64 (f0 * g2 + f1_2 * g1 + f2 * g0 + f3_2 * g9_19 + f4 * g8_19 + f5_2 * g7_19 + f6 * g6_19 + f7_2 * g5_19 + f8 * g4_19 + f9_2 * g3_19)
  let h3 := i64 (f0 * g3 + f1 * g2 + f2 * g1 + f3 * g0 + f4 * g9_19 + f5 * g8_19 + f6 * g7_19 + f7 * g6_19 + f8 * g5_19 + f9 * g4_19)
  let h4 := i64 (f0 * g4 + f1_2 * g3 + f2 * g2 + f3_2 * g1 + f4 * g0 + f5_2 * g9_19 + f6 * g8_19 + f7_2 * g7_19 + f8 * g6_19 + f9_2 * g5_19)
  let h5 := i64 (f0 * g5 + f1 * g4 + f2 * g3 + f3 * g2 + f4 * g1 + f5 * g0 + f6 * g9_19 + f7 * g8_19 + f8 * g7_19 + f9 * g6_19)
  let h6 := i64 (f0 * g6 + f1_2 * g5 + f2 * g4 + f3_2 * g3 + f4 * g2 + f5_2 * g1 + f6 * g0 + f7_2 * g9_19 + f8 * g8_19 + f9_2 * g7_19)
  let h7 := i64 (f0 * g7 + f1 * g6 + f2 * g5 + f3 * g4 + f4 * g3 + f5 * g2 + f6 * g1 + f7 * g0 + f8 * g9_19 + f9 * g8_19)
  let h8 := i64 (f0 * g8 + f1_2 * g7 + f2 * g6 + f3_2 * g5 + f4 * g4 + f5_2 * g3 + f6 * g2 + f7_2 * g1 + f8 * g0 + f9_2 * g9_19)
  let h9 := i64 (f0 * g9 + f1 * g8 + f2 * g7 + f3 * g6 + f4 * g5 + f5 * g4 + f6 * g3 + f7 * g2 + f8 * g1 + f9 * g0)
  feCombine h0 h1 h2 h3 h4 h5 h6 h7 h8 h9

/-- the ten `int64` values of edwards25519.go:334-371 `feSquare`. -/
structure Sq where
  h0 : Int
  h1 : Int
  h2 : Int
  h3 : Int
  h4 : Int
  h5 : Int
  h6 : Int
  h7 : Int
  h8 : Int
  h9 : Int

/-- edwards25519.go:334-371 `feSquare` -/
def feSquare' (f : Fe) : Sq :=
  let f0 := f.a0
  let f1 := f.a1
  let f2 := f.a2
  let f3 := f.a3
  let f4 := f.a4
  let f5 := f.a5
  let f6 := f.a6
  let f7 := f.a7
  let f8 := f.a8
  let f9 := f.a9
  let f0_2 := i32 (2 * f.a0)
  let f1_2 := i32 (2 * f.a1)
  let f2_2 := i32 (2 * f.a2)
  let f3_2 := i32 (2 * f.a3)
  let f4_2 := i32 (2 * f.a4)
  let f5_2 := i32 (2 * f.a5)
  let f6_2 := i32 (2 * f.a6)
  let f7_2 := i32 (2 * f.a7)
  let f5_38 := i64 (38 * f5)
  let f6_19 := i64 (19 * f6)
  let f7_38 := i64 (38 * f7)
  let f8_19 := i64 (19 * f8)
  let f9_38 := i64 (38 * f9)
  let h0 := i64 (f0 * f0 + f1_2 * f9_38 + f2_2 * f8_19 + f3_2 * f7_38 + f4_2 * f6_19 + f5 * f5_38)
  let h1 := i64 (f0_2 * f1 + f2 * f9_38 + f3_2 * f8_19 + f4 * f7_38 + f5_2 * f6_19)
  let h2 := i64 (f0_2 * f2 + f1_2 * f1 + f3_2 * f9_38 + f4_2 * f8_19 + f5_2 * f7_38 + f6 * f6_19)
  let h3 := i64 (f0_2 * f3 + f1_2 * f2 + f4 * f9_38 + f5_2 * f8_19 + f6 * f7_38)
  let h4 := i64 (f0_2 * f4 + f1_2 * f3_2 + f2 * f2 + f5_2 * f9_38 + f6_2 * f8_19 + f7 * f7_38)
  let h5 := i64 (f0_2 * f5 + f1_2 * f4 + f2_2 * f3 + f6 * f9_38 + f7_2 * f8_19)
  let h6 := i64 (f0_2 * f6 + f1_2 * f5_2 + f2_2 * f4 + f3_2 * f3 + f7_2 * f9_38 + f8 * f8_19)
  let h7 := i64 (f0_2 * f7 + f1_2 * f6 + f2_2 * f5 + f3_2 * f4 + f8 * f9_38)
  let h8 := i64 (f0_2 * f8 + f1_2 * f7_2 + f2_2 * f6 + f3_2 * f5_2 + f4 * f4 + f9 * f9_38)
  let h9 := i64 (f0_2 * f9 + f1_2 * f8 + f2_2 * f7 + f3_2 * f6 + f4_2 * f5)
  ⟨h0, h1, h2, h3, h4, h5, h6, h7, h8, h9⟩

/-- edwards25519.go:373-376 `FeSquare` -/
def feSquare (f : Fe) : Fe :=
  let s := feSquare' f
  feCombine s.h0 s.h1 s.h2 s.h3 s.h4 s.h5 s.h6 s.h7 s.h8 s.h9

/-- edwards25519.go:378-393 `FeSquare2` -/
def feSquare2 (f : Fe) : Fe :=
  let s := feSquare' f
  feCombine (i64 (s.h0 + s.h0)) (i64 (s.h1 + s.h1)) (i64 (s.h2 + s.h2)) (i64 (s.h3 + s.h3)) (i64 (s.h4 + s.h4))
    (i64 (s.h5 + s.h5)) (i64 (s.h6 + s.h6)) (i64 (s.h7 + s.h7)) (i64 (s.h8 + s.h8)) (i64 (s.h9 + s.h9))

/-- `n` times `FeSquare(&t, &t)`: the loops of `FeInvert` and `fePow22523` together with the squaring before them. -/
def feSquareN : Nat → Fe → Fe
  | 0, t => t
  | n + 1, t => feSquareN n (feSquare t)

/-- edwards25519.go:395-448 `FeInvert` -/
def feInvert (z : Fe) : Fe :=
  let t0 := feSquare z
  let t1 := feSquareN 2 t0
  let t1 := feMul z t1
  let t0 := feMul t0 t1
  let t2 := feSquare t0
  let t1 := feMul t1 t2
  let t2 := feSquareN 5 t1
  let t1 := feMul t2 t1
  let t2 := feSquareN 10 t1
  let t2 := feMul t2 t1
  let t3 := feSquareN 20 t2
  let t2 := feMul t3 t2
  let t2 := feSquareN 10 t2
  let t1 := feMul t2 t1
  let t2 := feSquareN 50 t1
  let t2 := feMul t2 t1
  let t3 := feSquareN 100 t2
  let t2 := feMul t3 t2
  let t2 := feSquareN 50 t2
  let t1 := feMul t2 t1
  let t1 := feSquareN 5 t1
  feMul t1 t0

/-- edwards25519.go:450-510 `fePow22523` (and x25519.go:436-496, the same text). -/
def fePow22523 (z : Fe) : Fe :=
  let t0 := feSquare z
  let t1 := feSquareN 2 t0
  let t1 := feMul z t1
  let t0 := feMul t0 t1
  let t0 := feSquare t0
  let t0 := feMul t1 t0
  let t1 := feSquareN 5 t0
  let t0 := feMul t1 t0
  let t1 := feSquareN 10 t0
  let t1 := feMul t1 t0
  let t2 := feSquareN 20 t1
  let t1 := feMul t2 t1
  let t1 := feSquareN 10 t1
  let t0 := feMul t1 t0
  let t1 := feSquareN 50 t0
  let t1 := feMul t1 t0
  let t2 := feSquareN 100 t1
  let t1 := feMul t2 t1
  let t1 := feSquareN 50 t1
  let t0 := feMul t1 t0
  let t0 := feSquareN 2 t0
  feMul t0 z

/-- `carry = h >> 26; hnext += carry; h -= carry << 26` on `int32` values: the new `h` and `hnext`. -/
def floor26 (a b : Int) : Int × Int :=
  let c := a / 2 ^ 26
  (i32 (a - c * 2 ^ 26), i32 (b + c))

/-- `carry = h >> 25; hnext += carry; h -= carry << 25`. -/
def floor25 (a b : Int) : Int × Int :=
  let c := a / 2 ^ 25
  (i32 (a - c * 2 ^ 25), i32 (b + c))

/-- edwards25519.go:106-152, the first part of `FeToBytes`: the canonical limbs.  The Go function writes them back through its
argument, so `FeToBytes(s, h)`, `FeIsNegative(h)` and `FeIsNonZero(h)` leave `h` changed to this value. -/
def feReduce (h : Fe) : Fe :=
  let q := i32 (19 * h.a9 + 2 ^ 24) / 2 ^ 25
  let q := i32 (h.a0 + q) / 2 ^ 26
  let q := i32 (h.a1 + q) / 2 ^ 25
  let q := i32 (h.a2 + q) / 2 ^ 26
  let q := i32 (h.a3 + q) / 2 ^ 25
  let q := i32 (h.a4 + q) / 2 ^ 26
  let q := i32 (h.a5 + q) / 2 ^ 25
  let q := i32 (h.a6 + q) / 2 ^ 26
  let q := i32 (h.a7 + q) / 2 ^ 25
  let q := i32 (h.a8 + q) / 2 ^ 26
  let q := i32 (h.a9 + q) / 2 ^ 25
  let h0 := i32 (h.a0 + 19 * q)
  let (h0, h1) := floor26 h0 h.a1
  let (h1, h2) := floor25 h1 h.a2
  let (h2, h3) := floor26 h2 h.a3
  let (h3, h4) := floor25 h3 h.a4
  let (h4, h5) := floor26 h4 h.a5
  let (h5, h6) := floor25 h5 h.a6
  let (h6, h7) := floor26 h6 h.a7
  let (h7, h8) := floor25 h7 h.a8
  let (h8, h9) := floor26 h8 h.a9
  let (h9, _) := floor25 h9 0
  ⟨h0, h1, h2, h3, h4, h5, h6, h7, h8, h9⟩

/-- `byte(x)` of a signed word. -/
def toByte (x : Int) : UInt8 := UInt8.ofNat (x % 256).toNat

/-- `byte((a >> k) | (b << j))`: the operands are truncated to bytes first, which gives the same byte. -/
def orByte (a b : Int) : UInt8 := toByte a ||| toByte b

/-- edwards25519.go:154-185, the second part of `FeToBytes`. -/
def feBytes (h : Fe) : Bytes :=
  [toByte (h.a0 / 2 ^ 0), toByte (h.a0 / 2 ^ 8), toByte (h.a0 / 2 ^ 16), orByte (h.a0 / 2 ^ 24) (h.a1 * 2 ^ 2),
   toByte (h.a1 / 2 ^ 6), toByte (h.a1 / 2 ^ 14), orByte (h.a1 / 2 ^ 22) (h.a2 * 2 ^ 3), toByte (h.a2 / 2 ^ 5),
   toByte (h.a2 / 2 ^ 13), orByte (h.a2 / 2 ^ 21) (h.a3 * 2 ^ 5), toByte (h.a3 / 2 ^ 3), toByte (h.a3 / 2 ^ 11),
   orByte (h.a3 / 2 ^ 19) (h.a4 * 2 ^ 6), toByte (h.a4 / 2 ^ 2), toByte (h.a4 / 2 ^ 10), toByte (h.a4 / 2 ^ 18),
   toByte (h.a5 / 2 ^ 0), toByte (h.a5 / 2 ^ 8), toByte (h.a5 / 2 ^ 16), orByte (h.a5 / 2 ^ 24) (h.a6 * 2 ^ 1),
   toByte (h.a6 / 2 ^ 7), toByte (h.a6 / 2 ^ 15), orByte (h.a6 / 2 ^ 23) (h.a7 * 2 ^ 3), toByte (h.a7 / 2 ^ 5),
   toByte (h.a7 / 2 ^ 13), orByte (h.a7 / 2 ^ 21) (h.a8 * 2 ^ 4), toByte (h.a8 / 2 ^ 4), toByte (h.a8 / 2 ^ 12),
   orByte (h.a8 / 2 ^ 20) (h.a9 * 2 ^ 6), toByte (h.a9 / 2 ^ 2), toByte (h.a9 / 2 ^ 10), toByte (h.a9 / 2 ^ 18)]

/-- edwards25519.go:106-186 `FeToBytes`: the bytes; the argument becomes `feReduce h`. -/
def feToBytes (h : Fe) : Bytes := feBytes (feReduce h)

/-- edwards25519.go:187-191 `FeIsNegative`; the argument becomes `feReduce f`. -/
def feIsNegative (f : Fe) : UInt8 := (feToBytes f).headD 0 &&& 1

/-- edwards25519.go:193-204 `FeIsNonZero`; the argument becomes `feReduce f`. -/
def feIsNonZero (f : Fe) : UInt8 :=
  let x := (feToBytes f).foldl (· ||| ·) 0
  let x := x ||| x >>> 4
  let x := x ||| x >>> 2
  let x := x ||| x >>> 1
  x &&& 1

end Verif.Ed25519
