import Verif.Bls.Fe

/-!
# BLS12-381 quadratic extension: model of bls12_381/bls/fp2.go

`fe2` is `[2]fe`; `c0 + c1 u` with `u² = -1`.

The functions of fp2.go keep temporaries in the receiver (`e.t`); every temporary is written before it
is read, so the model drops them.  None of the functions modelled here misbehaves when the output
aliases an input as the callers use it (the coordinate of an input that an output word would overwrite
is read before), so the model returns the output.
-/

namespace Verif.Bls

/-- field_element.go:12 `fe2`. -/
structure Fe2 where
  c0 : Fe
  c1 : Fe
deriving DecidableEq

namespace Fe2

/-- fp2.go:56-58 `zero`. -/
def zero : Fe2 := ⟨Fe.zero, Fe.zero⟩

/-- fp2.go:60-62 `one`. -/
def one : Fe2 := ⟨Fe.one, Fe.zero⟩

/-- fp2.go:81-83 `isZero`. -/
def isZero (a : Fe2) : Bool := Fe.isZero a.c0 && Fe.isZero a.c1

/-- fp2.go:89-91 `equal`. -/
def equal (a b : Fe2) : Bool := Fe.equal a.c0 b.c0 && Fe.equal a.c1 b.c1

/-- fp2.go:98-101 `add`. -/
def add (a b : Fe2) : Fe2 := ⟨Fe.add a.c0 b.c0, Fe.add a.c1 b.c1⟩

/-- fp2.go:113-116 `double`. -/
def double (a : Fe2) : Fe2 := ⟨Fe.double a.c0, Fe.double a.c1⟩

/-- fp2.go:129-132 `sub`. -/
def sub (a b : Fe2) : Fe2 := ⟨Fe.sub a.c0 b.c0, Fe.sub a.c1 b.c1⟩

/-- fp2.go:139-142 `neg`. -/
def neg (a : Fe2) : Fe2 := ⟨Fe.neg a.c0, Fe.neg a.c1⟩

/-- fp2.go:149-159 `mul` (Karatsuba). -/
def mul (a b : Fe2) : Fe2 :=
  let t1 := Fe.mul a.c0 b.c0
  let t2 := Fe.mul a.c1 b.c1
  let t0 := Fe.add a.c0 a.c1
  let t3 := Fe.add b.c0 b.c1
  ⟨Fe.sub t1 t2, Fe.sub (Fe.mul t0 t3) (Fe.add t1 t2)⟩

/-- fp2.go:173-180 `square`. -/
def square (a : Fe2) : Fe2 :=
  let t0 := Fe.ladd a.c0 a.c1
  let t1 := Fe.sub a.c0 a.c1
  let t2 := Fe.ldouble a.c0
  ⟨Fe.mul t0 t1, Fe.mul t2 a.c1⟩

/-- fp2.go:208-217 `inverse`. -/
def inverse (bd : Build) (a : Fe2) : Fe2 :=
  let t0 := Fe.inverse (Fe.add (Fe.square bd a.c0) (Fe.square bd a.c1))
  ⟨Fe.mul a.c0 t0, Fe.neg (Fe.mul t0 a.c1)⟩

/-- the loop of fp2.go:226-231: `k` bits of `s` are left, the next is bit `k - 1`. -/
def expLoop (a : Fe2) (s : Nat) : Nat → Fe2 → Fe2
  | 0, z => z
  | k + 1, z =>
    let z := square z
    expLoop a s k (if s.testBit k then mul z a else z)

/-- fp2.go:224-233 `exp`. -/
def exp (a : Fe2) (s : Nat) : Fe2 := expLoop a s (Fe.bitLen s) one

/-- bls12_381.go:26-29 `negativeOne2`. -/
def negativeOne2 : Fe2 :=
  ⟨⟨0x43f5fffffffcaaae, 0x32b7fff2ed47fffd, 0x07e83a49a2e99d69, 0xeca8f3318332bb7a,
    0xef148d1ea0f4c069, 0x040ab3263eff0206⟩, Fe.zero⟩

/-- bls12_381.go:35-36 `pMinus3Over4`. -/
def pMinus3Over4 : Nat :=
  0x680447a8e5ff9a692c6e9ed90d2eb35d91dd2e13ce144afd9cc34a83dac3d8907aaffffac54ffffee7fbfffffffeaaa

/-- bls12_381.go:43-44 `pMinus1Over2`. -/
def pMinus1Over2 : Nat :=
  0xd0088f51cbff34d258dd3db21a5d66bb23ba5c279c2895fb39869507b587b120f55ffff58a9ffffdcff7fffffffd555

/-- fp2.go:257-275 `sqrt`; the output and whether it is a root. -/
def sqrt (a : Fe2) : Fe2 × Bool :=
  let a1 := exp a pMinus3Over4
  let alpha := mul (square a1) a
  let x0 := mul a1 a
  if equal alpha negativeOne2 then (⟨Fe.neg x0.c1, x0.c0⟩, true)
  else
    let alpha := exp (add alpha one) pMinus1Over2
    let c := mul alpha x0
    (c, equal (square c) a)

/-- fp2.go:30-43 `fromBytes`. -/
def fromBytes (b : Bytes) : Option Fe2 :=
  if b.length ≠ 96 then none
  else match Fe.fromBytes (b.take 48) with
    | none => none
    | some c1 => match Fe.fromBytes (b.drop 48) with
      | none => none
      | some c0 => some ⟨c0, c1⟩

/-- fp2.go:45-50 `toBytes`. -/
def toBytes (a : Fe2) : Bytes := Fe.toBytes a.c1 ++ Fe.toBytes a.c0

/-- field_element.go:310-315 `signBE`. -/
def signBE (a : Fe2) : Bool := if !Fe.isZero a.c1 then Fe.signBE a.c1 else Fe.signBE a.c0

end Fe2

end Verif.Bls
