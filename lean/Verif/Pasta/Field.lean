/-!
# Pasta field and scalar arithmetic: model of pasta/pasta_fp.go and pasta/pasta_fq.go

The two files hold the same straight-line code with different constants (checked by a script that
replaces the constants and compares the bodies of every function modelled here; `Square` is the body
of `Mul` with `arg2` replaced by `arg1`).  So one model is parameterised by the constants (`Md`).
The unrolled rows of a function are written as calls of a row function; every machine operation of
the Go code occurs, in the same order, with the same operands.
-/

namespace Verif.Pasta

/-- pasta_fp.go:23-32, pasta_fq.go:20-29 `AddCarryXU64`; `FiatPastaFpUint1` is `uint8`. -/
def addCarry (c : UInt8) (a b : UInt64) : UInt64 × UInt8 :=
  let tmp := b + c.toUInt64
  let out := a + tmp
  (out, if a > out ∨ b > tmp then 1 else 0)

/-- pasta_fp.go:48-56, pasta_fq.go:45-53 `SubBorrowXU64`. -/
def subBorrow (c : UInt8) (a b : UInt64) : UInt64 × UInt8 :=
  let tmp := b + c.toUInt64
  let out := a - tmp
  (out, if a < out ∨ b > tmp then 1 else 0)

/-- pasta_fp.go:71-87, pasta_fq.go:68-84 `MulXU64`: (low word, high word). -/
def mulX (a b : UInt64) : UInt64 × UInt64 :=
  let aLo := a.toUInt32.toUInt64
  let aHi := (a >>> 32).toUInt32.toUInt64
  let bLo := b.toUInt32.toUInt64
  let bHi := (b >>> 32).toUInt32.toUInt64
  let hh := aHi * bHi
  let hl := aHi * bLo
  let lh := bHi * aLo
  let ll := aLo * bLo
  let carry := (hl.toUInt32.toUInt64 + lh.toUInt32.toUInt64 + (ll >>> 32)) >>> 32
  let hi := hh + (hl >>> 32) + (lh >>> 32) + carry
  (a * b, hi)

/-- pasta_fp.go:101-108, pasta_fq.go:98-105 `CmovznzU64`: `x2` is the sign extension of
the `int8` value of `0 - c`. -/
def cmov (c : UInt8) (a b : UInt64) : UInt64 :=
  let x2 := (0 - c).toInt8.toInt64.toUInt64 &&& 0xffffffffffffffff
  (x2 &&& b) ||| (~~~x2 &&& a)

/-- `[4]uint64`, least significant word first (crypto.go:12-13 `Field`, `Scalar`). -/
structure Limbs where
  l0 : UInt64
  l1 : UInt64
  l2 : UInt64
  l3 : UInt64
deriving DecidableEq

/-- a fifth word on top. -/
structure W5 where
  lo : Limbs
  l4 : UInt64

/-- the constants that differ between pasta_fp.go and pasta_fq.go: words 0, 1, 3 of the modulus (word 2
is zero and skipped by the code), the Montgomery constant, the words of `2^512 mod m`, and of `2^256 mod m`. -/
structure Md where
  m0 : UInt64
  m1 : UInt64
  m3 : UInt64
  ninv : UInt64
  r2 : Limbs
  one : Limbs

/-- pasta_fp.go: the constants of `Mul` (lines 255-258), `ToMontgomery` (1051-1054), `SetOne` (1443-1448). -/
def Fp : Md where
  m0 := 0x992d30ed00000001
  m1 := 0x224698fc094cf91b
  m3 := 0x4000000000000000
  ninv := 0x992d30ecffffffff
  r2 := ⟨0x8c78ecb30000000f, 0xd7d30dbd8b0de0e7, 0x7797a99bc3c95d18, 0x96d41af7b9cb714⟩
  one := ⟨0x34786d38fffffffd, 0x992c350be41914ad, 0xffffffffffffffff, 0x3fffffffffffffff⟩

/-- pasta_fq.go: the constants of `Mul` (lines 252-255), `ToMontgomery` (1047-1050), `SetOne` (1439-1444). -/
def Fq : Md where
  m0 := 0x8c46eb2100000001
  m1 := 0x224698fc0994a8dd
  m3 := 0x4000000000000000
  ninv := 0x8c46eb20ffffffff
  r2 := ⟨0xfc9678ff0000000f, 0x67bb433d891a16e3, 0x7fae231004ccf590, 0x96d41af7ccfdaa9⟩
  one := ⟨0x5b2b3e9cfffffffd, 0x992c350be3420567, 0xffffffffffffffff, 0x3fffffffffffffff⟩

/-- pasta_fp.go:245-253 (and 268-276, 299-307, 330-338): one word times four words. -/
def mulRow (x : UInt64) (b : Limbs) : W5 :=
  let p3 := mulX x b.l3
  let p2 := mulX x b.l2
  let p1 := mulX x b.l1
  let p0 := mulX x b.l0
  let s1 := addCarry 0 p0.2 p1.1
  let s2 := addCarry s1.2 p1.2 p2.1
  let s3 := addCarry s2.2 p2.2 p3.1
  ⟨⟨p0.1, s1.1, s2.1, s3.1⟩, s3.2.toUInt64 + p3.2⟩

/-- pasta_fp.go:255-267 (and 283-295, 314-326, 345-357): add the multiple of the modulus that clears the low
word, and drop that word.  Result: four words and the last carry. -/
def redRow (M : Md) (t : W5) : Limbs × UInt8 :=
  let m := (mulX t.lo.l0 M.ninv).1
  let q3 := mulX m M.m3
  let q1 := mulX m M.m1
  let q0 := mulX m M.m0
  let s := addCarry 0 q0.2 q1.1
  let x30 := s.2.toUInt64 + q1.2
  let c0 := addCarry 0 t.lo.l0 q0.1
  let c1 := addCarry c0.2 t.lo.l1 s.1
  let c2 := addCarry c1.2 t.lo.l2 x30
  let c3 := addCarry c2.2 t.lo.l3 q3.1
  let c4 := addCarry c3.2 t.l4 q3.2
  (⟨c1.1, c2.1, c3.1, c4.1⟩, c4.2)

/-- pasta_fp.go:278-282 (and 309-313, 340-344): add five words to five words. -/
def addRow (a b : W5) : W5 × UInt8 :=
  let c0 := addCarry 0 a.lo.l0 b.lo.l0
  let c1 := addCarry c0.2 a.lo.l1 b.lo.l1
  let c2 := addCarry c1.2 a.lo.l2 b.lo.l2
  let c3 := addCarry c2.2 a.lo.l3 b.lo.l3
  let c4 := addCarry c3.2 a.l4 b.l4
  (⟨⟨c0.1, c1.1, c2.1, c3.1⟩, c4.1⟩, c4.2)

/-- pasta_fp.go:268-297 (and 299-328, 330-359): one later row of `Mul`. -/
def mulStep (M : Md) (acc : W5) (x : UInt64) (b : Limbs) : W5 :=
  let t := addRow acc (mulRow x b)
  let r := redRow M t.1
  ⟨r.1, r.2.toUInt64 + t.2.toUInt64⟩

/-- pasta_fp.go:361-369, 685-693, 916-924, 1128-1136: subtract the modulus unless that borrows. -/
def condSub (M : Md) (t : W5) : Limbs :=
  let d0 := subBorrow 0 t.lo.l0 M.m0
  let d1 := subBorrow d0.2 t.lo.l1 M.m1
  let d2 := subBorrow d1.2 t.lo.l2 0
  let d3 := subBorrow d2.2 t.lo.l3 M.m3
  let d4 := subBorrow d3.2 t.l4 0
  ⟨cmov d4.2 d0.1 t.lo.l0, cmov d4.2 d1.1 t.lo.l1, cmov d4.2 d2.1 t.lo.l2, cmov d4.2 d3.1 t.lo.l3⟩

/-- pasta_fp.go:125-375 `FiatPastaFpMul`, pasta_fq.go:122-372 `FiatPastaFqMul`. -/
def mul (M : Md) (a b : Limbs) : Limbs :=
  let r0 := redRow M (mulRow a.l0 b)
  let a0 : W5 := ⟨r0.1, r0.2.toUInt64⟩
  let a1 := mulStep M a0 a.l1 b
  let a2 := mulStep M a1 a.l2 b
  let a3 := mulStep M a2 a.l3 b
  condSub M a3

/-- pasta_fp.go:390-640 `FiatPastaFpSquare`, pasta_fq.go:387-637 `FiatPastaFqSquare` (body of `Mul`
with `arg2` replaced by `arg1`). -/
def square (M : Md) (a : Limbs) : Limbs := mul M a a

/-- pasta_fp.go:657-698 `FiatPastaFpAdd`, pasta_fq.go:654-695 `FiatPastaFqAdd`. -/
def add (M : Md) (a b : Limbs) : Limbs :=
  let c0 := addCarry 0 a.l0 b.l0
  let c1 := addCarry c0.2 a.l1 b.l1
  let c2 := addCarry c1.2 a.l2 b.l2
  let c3 := addCarry c2.2 a.l3 b.l3
  condSub M ⟨⟨c0.1, c1.1, c2.1, c3.1⟩, c3.2.toUInt64⟩

/-- pasta_fp.go:715-747 `FiatPastaFpSub`, pasta_fq.go:712-744 `FiatPastaFqSub`. -/
def sub (M : Md) (a b : Limbs) : Limbs :=
  let d0 := subBorrow 0 a.l0 b.l0
  let d1 := subBorrow d0.2 a.l1 b.l1
  let d2 := subBorrow d1.2 a.l2 b.l2
  let d3 := subBorrow d2.2 a.l3 b.l3
  let x9 := cmov d3.2 0 0xffffffffffffffff
  let c0 := addCarry 0 d0.1 (x9 &&& M.m0)
  let c1 := addCarry c0.2 d1.1 (x9 &&& M.m1)
  let c2 := addCarry c1.2 d2.1 0
  let c3 := addCarry c2.2 d3.1 (x9 &&& M.m3)
  ⟨c0.1, c1.1, c2.1, c3.1⟩

/-- pasta_fp.go:762-794 `FiatPastaFpOpp`, pasta_fq.go:759-791 `FiatPastaFqOpp` (body of `Sub` with zeros for
`arg1`). -/
def opp (M : Md) (a : Limbs) : Limbs := sub M ⟨0, 0, 0, 0⟩ a

/-- pasta_fp.go:882-890 (and 894-902, 906-914, 1058-1066, 1078-1086, ...): the reduction of four words `t0..t3`, result three words, carry, high word. -/
def redRow4 (M : Md) (t : Limbs) : UInt64 × UInt64 × UInt64 × UInt8 × UInt64 :=
  let m := (mulX t.l0 M.ninv).1
  let q3 := mulX m M.m3
  let q1 := mulX m M.m1
  let q0 := mulX m M.m0
  let s := addCarry 0 q0.2 q1.1
  let c0 := addCarry 0 t.l0 q0.1
  let c1 := addCarry c0.2 t.l1 s.1
  let c2 := addCarry c1.2 t.l2 (s.2.toUInt64 + q1.2)
  let c3 := addCarry c2.2 t.l3 q3.1
  (c1.1, c2.1, c3.1, c3.2, q3.2)

/-- pasta_fp.go:872-881: the first reduction of `FromMontgomery` and the addition of `arg1[1]`, giving the four
words of the next reduction. -/
def fromRow0 (M : Md) (a0 a1 : UInt64) : Limbs :=
  let m := (mulX a0 M.ninv).1
  let q3 := mulX m M.m3
  let q1 := mulX m M.m1
  let q0 := mulX m M.m0
  let s := addCarry 0 q0.2 q1.1
  let c0 := addCarry 0 a0 q0.1
  let c1 := addCarry c0.2 0 s.1
  let e := addCarry 0 c1.1 a1
  ⟨e.1, e.2.toUInt64 + (c1.2.toUInt64 + (s.2.toUInt64 + q1.2)), q3.1, q3.2⟩

/-- pasta_fp.go:891-893, 902 (and 903-905, 914): add one word of the argument to the accumulator. -/
def fromAdd (r : UInt64 × UInt64 × UInt64 × UInt8 × UInt64) (x : UInt64) : Limbs :=
  let e0 := addCarry 0 r.1 x
  let e1 := addCarry e0.2 r.2.1 0
  let e2 := addCarry e1.2 r.2.2.1 0
  ⟨e0.1, e1.1, e2.1, e2.2.toUInt64 + (r.2.2.2.1.toUInt64 + r.2.2.2.2)⟩

/-- pasta_fp.go:809-930 `FiatPastaFpFromMontgomery`, pasta_fq.go:806-926 `FiatPastaFqFromMontgomery`. -/
def fromMont (M : Md) (a : Limbs) : Limbs :=
  let r1 := redRow4 M (fromRow0 M a.l0 a.l1)
  let r2 := redRow4 M (fromAdd r1 a.l2)
  let r3 := redRow4 M (fromAdd r2 a.l3)
  condSub M ⟨⟨r3.1, r3.2.1, r3.2.2.1, r3.2.2.2.1.toUInt64 + r3.2.2.2.2⟩, 0⟩

/-- pasta_fp.go:1051-1057 (and 1067-1073, 1087-1093, 1107-1113): one word times the constant `2^512 mod m`: four words, the last carry and the
high word, not yet added. -/
def mulRow4 (x : UInt64) (b : Limbs) : Limbs × UInt8 × UInt64 :=
  let p3 := mulX x b.l3
  let p2 := mulX x b.l2
  let p1 := mulX x b.l1
  let p0 := mulX x b.l0
  let s1 := addCarry 0 p0.2 p1.1
  let s2 := addCarry s1.2 p1.2 p2.1
  let s3 := addCarry s2.2 p2.2 p3.1
  (⟨p0.1, s1.1, s2.1, s3.1⟩, s3.2, p3.2)

/-- pasta_fp.go:1067-1086 (and 1087-1106, 1107-1127): one later row of `ToMontgomery`. -/
def toStep (M : Md) (acc : Limbs) (x : UInt64) : Limbs :=
  let t := mulRow4 x M.r2
  let c0 := addCarry 0 acc.l0 t.1.l0
  let c1 := addCarry c0.2 acc.l1 t.1.l1
  let c2 := addCarry c1.2 acc.l2 t.1.l2
  let c3 := addCarry c2.2 acc.l3 t.1.l3
  let r := redRow4 M ⟨c0.1, c1.1, c2.1, c3.1⟩
  ⟨r.1, r.2.1, r.2.2.1,
    (r.2.2.2.1.toUInt64 + (c3.2.toUInt64 + (t.2.1.toUInt64 + t.2.2))) + r.2.2.2.2⟩

/-- pasta_fp.go:945-1141 `FiatPastaFpToMontgomery`, pasta_fq.go:941-1137 `FiatPastaFqToMontgomery`. -/
def toMont (M : Md) (a : Limbs) : Limbs :=
  let t := mulRow4 a.l0 M.r2
  let r := redRow4 M t.1
  let a0 : Limbs := ⟨r.1, r.2.1, r.2.2.1,
    (r.2.2.2.1.toUInt64 + (t.2.1.toUInt64 + t.2.2)) + r.2.2.2.2⟩
  let a1 := toStep M a0 a.l1
  let a2 := toStep M a1 a.l2
  let a3 := toStep M a2 a.l3
  condSub M ⟨a3, 0⟩

/-- pasta_fp.go:1155-1159 `FiatPastaFpNonZero`, pasta_fq.go:1151-1155. -/
def nonZero (a : Limbs) : UInt64 := a.l0 ||| (a.l1 ||| (a.l2 ||| a.l3))

/-- pasta_fp.go:1731-1741 `FiatPastaFpEquals`, pasta_fq.go:1701-1711 `FiatPastaFqEquals`. -/
def equals (M : Md) (a b : Limbs) : Bool := nonZero (sub M a b) = 0

/-- pasta_fp.go:1743-1750 `FiatPastaFpEqualsZero`. -/
def equalsZero (a : Limbs) : Bool := nonZero a = 0

/-- pasta_fp.go:1752-1765 `FiatPastaFpEqualsOne`. -/
def equalsOne (a : Limbs) : Bool := nonZero (sub Fp a Fp.one) = 0

/-- pasta_fp.go:1711-1724 `FiatPastaFpPow`: the bits, most significant first (`bits_len` is always the length of
the prefix used). -/
def pow (a : Limbs) (bits : List Bool) : Limbs :=
  bits.foldl (fun acc b =>
    let sq := square Fp acc
    if b then mul Fp sq a else sq) Fp.one

end Verif.Pasta
