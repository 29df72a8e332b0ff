import Verif.Go
import Verif.Pasta.Field

/-!
# The Pallas group: model of pasta/const.go, pasta/crypto.go and the power functions of pasta_fp.go
-/

namespace Verif.Pasta

/-- pasta_fp.go:6 `PMinus1Over2` (with `Pminus1Over2Len`, all its bits). -/
def pMinus1Over2 : List Bool := [
  true, false, false, false, false, false, false, false, false, false, false, false, false, false, false, false,
  false, false, false, false, false, false, false, false, false, false, false, false, false, false, false, false,
  false, false, false, false, false, false, false, false, false, false, false, false, false, false, false, false,
  false, false, false, false, false, false, false, false, false, false, false, false, false, false, false, false,
  false, false, false, false, false, false, false, false, false, false, false, false, false, false, false, false,
  false, false, false, false, false, false, false, false, false, false, false, false, false, false, false, false,
  false, false, false, false, false, false, false, false, false, false, false, false, false, false, false, false,
  false, false, false, false, false, false, false, false, false, false, false, false, false, false, false, false,
  false, true, false, false, false, true, false, false, true, false, false, false, true, true, false, true, false,
  false, true, true, false, false, false, true, true, true, true, true, true, false, false, false, false, false,
  false, true, false, false, true, false, true, false, false, true, true, false, false, true, true, true, true, true,
  false, false, true, false, false, false, true, true, false, true, true, true, false, false, true, true, false,
  false, true, false, false, true, false, true, true, false, true, false, false, true, true, false, false, false,
  false, true, true, true, false, true, true, false, true, false, false, false, false, false, false, false, false,
  false, false, false, false, false, false, false, false, false, false, false, false, false, false, false, false,
  false, false, false, false, false, false, false]

/-- pasta_fp.go:1727 `PMinus2`. -/
def pMinus2 : List Bool := [
  true, false, false, false, false, false, false, false, false, false, false, false, false, false, false, false,
  false, false, false, false, false, false, false, false, false, false, false, false, false, false, false, false,
  false, false, false, false, false, false, false, false, false, false, false, false, false, false, false, false,
  false, false, false, false, false, false, false, false, false, false, false, false, false, false, false, false,
  false, false, false, false, false, false, false, false, false, false, false, false, false, false, false, false,
  false, false, false, false, false, false, false, false, false, false, false, false, false, false, false, false,
  false, false, false, false, false, false, false, false, false, false, false, false, false, false, false, false,
  false, false, false, false, false, false, false, false, false, false, false, false, false, false, false, false,
  false, true, false, false, false, true, false, false, true, false, false, false, true, true, false, true, false,
  false, true, true, false, false, false, true, true, true, true, true, true, false, false, false, false, false,
  false, true, false, false, true, false, true, false, false, true, true, false, false, true, true, true, true, true,
  false, false, true, false, false, false, true, true, false, true, true, true, false, false, true, true, false,
  false, true, false, false, true, false, true, true, false, true, false, false, true, true, false, false, false,
  false, true, true, true, false, true, true, false, false, true, true, true, true, true, true, true, true, true,
  true, true, true, true, true, true, true, true, true, true, true, true, true, true, true, true, true, true, true,
  true, true, true, true]

/-- pasta_fp.go:1803 `T_MINUS_ONE_DIV_TWO`. -/
def tMinus1Div2 : List Bool := [
  true, false, false, false, false, false, false, false, false, false, false, false, false, false, false, false,
  false, false, false, false, false, false, false, false, false, false, false, false, false, false, false, false,
  false, false, false, false, false, false, false, false, false, false, false, false, false, false, false, false,
  false, false, false, false, false, false, false, false, false, false, false, false, false, false, false, false,
  false, false, false, false, false, false, false, false, false, false, false, false, false, false, false, false,
  false, false, false, false, false, false, false, false, false, false, false, false, false, false, false, false,
  false, false, false, false, false, false, false, false, false, false, false, false, false, false, false, false,
  false, false, false, false, false, false, false, false, false, false, false, false, false, false, false, false,
  false, true, false, false, false, true, false, false, true, false, false, false, true, true, false, true, false,
  false, true, true, false, false, false, true, true, true, true, true, true, false, false, false, false, false,
  false, true, false, false, true, false, true, false, false, true, true, false, false, true, true, true, true, true,
  false, false, true, false, false, false, true, true, false, true, true, true, false, false, true, true, false,
  false, true, false, false, true, false, true, true, false, true, false, false, true, true, false, false, false,
  false, true, true, true, false, true, true, false]

/-- pasta_fp.go:1726-1729 `FiatPastaFpInv`. -/
def inv (a : Limbs) : Limbs := pow a pMinus2

/-- pasta_fp.go:1817-1821: square until one, counting; `none` when that did not happen within the fuel. -/
def sqCount : Nat → Limbs → Nat → Option Nat
  | 0, _, _ => none
  | f + 1, b2m, m => if equalsOne b2m then some m else sqCount f (square Fp b2m) (m + 1)

/-- pasta_fp.go:1827-1831: `j` squarings. -/
def sqTimes (j : Nat) (w : Limbs) : Limbs := Nat.repeat (square Fp) j w

/-- pasta_fp.go:1814-1838: the Tonelli-Shanks loop.  The Go loop has no bound; `Go.panic` stands for a loop
that did not end within the fuel (proved not to happen).  `j := v - m - 1` counts down while positive. -/
def sqrtLoop : Nat → Nat → Limbs → Limbs → Limbs → Go Limbs
  | 0, _, _, _, _ => .panic
  | f + 1, v, z, b, x =>
    if equalsOne b then .ret x
    else match sqCount 64 b 0 with
      | none => .panic
      | some m =>
        let w := sqTimes (v - m - 1) z
        let z' := square Fp w
        sqrtLoop f m z' (mul Fp b z') (mul Fp x w)

/-- pasta_fp.go:1801: `z`. -/
def sqrtZ : Limbs := ⟨0xa28db849bad6dbf0, 0x9083cd03d3b539df, 0xfba6b9ca9dc8448e, 0x3ec928747b89c6da⟩

/-- pasta_fp.go:1781-1840 `FiatPastaFpSqrt`: `none` for the result `false`. -/
def sqrt (value : Limbs) : Go (Option Limbs) :=
  if equalsZero value then .ret (some ⟨0, 0, 0, 0⟩)
  else
    let check := pow value pMinus1Over2
    if equalsOne check = false then .ret none
    else
      let w := pow value tMinus1Div2
      let x := mul Fp value w
      let b := mul Fp x w
      do return some (← sqrtLoop 64 32 sqrtZ b x)

/-- crypto.go:51-55 `Group`: Jacobian coordinates in Montgomery form. -/
structure Group where
  X : Limbs
  Y : Limbs
  Z : Limbs
deriving DecidableEq

/-- crypto.go:57-60 `Affine`: affine coordinates in Montgomery form. -/
structure Affine where
  X : Limbs
  Y : Limbs
deriving DecidableEq

/-- const.go:12. -/
def groupCoeffB : Limbs := ⟨0xa1a55e68ffffffed, 0x74c2a54b4f4982f3, 0xfffffffffffffffd, 0x3fffffffffffffff⟩
/-- const.go:13. -/
def fieldOne : Limbs := ⟨0x34786d38fffffffd, 0x992c350be41914ad, 0xffffffffffffffff, 0x3fffffffffffffff⟩
/-- const.go:14. -/
def fieldThree : Limbs := ⟨0x6b0ee5d0fffffff5, 0x86f76d2b99b14bd0, 0xfffffffffffffffe, 0x3fffffffffffffff⟩
/-- const.go:16. -/
def fieldEight : Limbs := ⟨0x7387134cffffffe1, 0xd973797adfadd5a8, 0xfffffffffffffffb, 0x3fffffffffffffff⟩
/-- const.go:17 (and `ScalarZero`, const.go:18). -/
def fieldZero : Limbs := ⟨0, 0, 0, 0⟩
/-- const.go:20-24. -/
def groupZero : Group :=
  ⟨⟨0, 0, 0, 0⟩, ⟨0x34786d38fffffffd, 0x992c350be41914ad, 0xffffffffffffffff, 0x3fffffffffffffff⟩, ⟨0, 0, 0, 0⟩⟩
/-- const.go:26-29. -/
def affineOne : Affine :=
  ⟨⟨0x34786d38fffffffd, 0x992c350be41914ad, 0xffffffffffffffff, 0x3fffffffffffffff⟩,
   ⟨0x2f474795455d409d, 0xb443b9b74b8255d9, 0x270c412f2c9a5d66, 0x8e00f71ba43dd6b⟩⟩

/-- crypto.go:178-185 `FieldIsOdd`. -/
def fieldIsOdd (y : Limbs) : Bool := (fromMont Fp y).l0 &&& 1 = 1

/-- crypto.go:310-312 `IsZero`. -/
def isZero (p : Group) : Bool := equals Fp p.Z fieldZero

/-- crypto.go:348-358 `AffineToGroup`. -/
def affineToGroup (p : Affine) : Group :=
  if equals Fp p.X fieldZero && equals Fp p.Y fieldZero then ⟨fieldZero, fieldOne, fieldZero⟩
  else ⟨p.X, p.Y, fieldOne⟩

/-- crypto.go:360-372 `AffineFromGroup`. -/
def affineFromGroup (p : Group) : Affine :=
  if equals Fp p.Z fieldZero then ⟨fieldZero, fieldZero⟩
  else
    let zi := inv p.Z
    let zi2 := mul Fp zi zi
    let zi3 := mul Fp zi2 zi
    ⟨mul Fp p.X zi2, mul Fp p.Y zi3⟩

/-- crypto.go:378-409 `GroupDbl`. -/
def groupDbl (p : Group) : Group :=
  if isZero p then p
  else
    let a := square Fp p.X
    let b := square Fp p.Y
    let cc := square Fp b
    let rX := add Fp p.X b
    let rY := square Fp rX
    let rZ := sub Fp rY a
    let rX := sub Fp rZ cc
    let d := add Fp rX rX
    let e := mul Fp fieldThree a
    let f := square Fp e
    let rY := add Fp d d
    let rX := sub Fp f rY
    let rY := sub Fp d rX
    let f := mul Fp fieldEight cc
    let rZ := mul Fp e rY
    let rY := sub Fp rZ f
    let f := mul Fp p.Y p.Z
    let rZ := add Fp f f
    ⟨rX, rY, rZ⟩

/-- crypto.go:411-468 `GroupAdd`. -/
def groupAdd (p q : Group) : Group :=
  if isZero p then q
  else if isZero q then p
  else if equals Fp p.X q.X && equals Fp p.Y q.Y && equals Fp p.Z q.Z then groupDbl p
  else
    let z1z1 := square Fp p.Z
    let z2z2 := square Fp q.Z
    let u1 := mul Fp p.X z2z2
    let u2 := mul Fp q.X z1z1
    let rX := mul Fp q.Z z2z2
    let s1 := mul Fp p.Y rX
    let rY := mul Fp p.Z z1z1
    let s2 := mul Fp q.Y rY
    let h := sub Fp u2 u1
    let rZ := add Fp h h
    let i := square Fp rZ
    let j := mul Fp h i
    let rX := sub Fp s2 s1
    let w := add Fp rX rX
    let v := mul Fp u1 i
    let rX := square Fp w
    let rY := add Fp v v
    let rZ := sub Fp rX j
    let rX := sub Fp rZ rY
    let rY := sub Fp v rX
    let rZ := mul Fp s1 j
    let s1 := add Fp rZ rZ
    let rZ := mul Fp w rY
    let rY := sub Fp rZ s1
    let rZ := add Fp p.Z q.Z
    let s1 := square Fp rZ
    let rZ := sub Fp s1 z1z1
    let j := sub Fp rZ z2z2
    let rZ := mul Fp j h
    ⟨rX, rY, rZ⟩

/-- the word `limb_idx` of crypto.go:486-489. -/
def Limbs.get (a : Limbs) (i : Nat) : UInt64 :=
  if i = 0 then a.l0 else if i = 1 then a.l1 else if i = 2 then a.l2 else a.l3

/-- crypto.go:487-489: bit `j` of the scalar. -/
def scalarBit (k : Limbs) (j : Nat) : Bool := (k.get (j / 64) >>> (UInt64.ofNat (j % 64))) &&& 1 = 1

/-- crypto.go:485-500: the loop of `GroupScalarMul`; `n` bits remain, the next is bit `n - 1`. -/
def scalarLoop (k : Limbs) (p : Group) : Nat → Group → Group
  | 0, r => r
  | n + 1, r =>
    let tmp := groupDbl r
    scalarLoop k p n (if scalarBit k n then groupAdd tmp p else tmp)

/-- crypto.go:470-501 `GroupScalarMul`; `FieldSizeInBits` is 255 (const.go:3). -/
def groupScalarMul (k : Limbs) (p : Group) : Group :=
  if isZero p then groupZero
  else if equals Fq k fieldZero then groupZero
  else scalarLoop (fromMont Fq k) p 255 groupZero

/-- crypto.go:509-514 `AffineScalarMul`. -/
def affineScalarMul (k : Limbs) (p : Affine) : Affine := affineFromGroup (groupScalarMul k (affineToGroup p))

/-- crypto.go:520-526 `AffineAdd`. -/
def affineAdd (p q : Affine) : Affine := affineFromGroup (groupAdd (affineToGroup p) (affineToGroup q))

/-- crypto.go:573-583: the root with the wanted parity. -/
def pickRoot (y : Limbs) (isOdd : Bool) : Limbs := if fieldIsOdd y = isOdd then y else opp Fp y

/-- crypto.go:569-584 `Decompress` after the square root, into an affine point whose `Y` is zero: when there is no square root, `X` is set
and `Y` stays zero (the only caller, crypto.go:83, ignores the result). -/
def decompressWith (x : Limbs) (isOdd : Bool) : Option Limbs → Affine
  | none => ⟨x, fieldZero⟩
  | some y => ⟨x, pickRoot y isOdd⟩

/-- crypto.go:560-567: the right-hand side `x³ + b` of the curve equation. -/
def curveRhs (x : Limbs) : Limbs := add Fp (mul Fp (square Fp x) x) groupCoeffB

/-- a pure function after a computation. -/
def goMap (f : Option Limbs → Affine) : Go (Option Limbs) → Go Affine
  | .ret r => .ret (f r)
  | .panic => .panic

/-- crypto.go:559-585 `Decompress`. -/
def decompress (x : Limbs) (isOdd : Bool) : Go Affine := 
  goMap (decompressWith x isOdd) (sqrt (curveRhs x))

end Verif.Pasta
