import Verif.Bytes
import Verif.BigInt
import Verif.EC.Curve

/-!
# Model of /repo/secp256k1.go (curve arithmetic)

`*big.Int` is `Int`.  Every Go statement sequence is transcribed as nested `let`s; the in-place
receiver updates become rebinding.
-/

namespace Verif.Secp256k1

/-- secp256k1.go:31 (`initsecp256k1Param`). -/
def P : Int := 0xfffffffffffffffffffffffffffffffffffffffffffffffffffffffefffffc2f
/-- secp256k1.go:32. -/
def N : Int := 0xfffffffffffffffffffffffffffffffebaaedce6af48a03bbfd25e8cd0364141
/-- secp256k1.go:33. -/
def B : Int := 0x0000000000000000000000000000000000000000000000000000000000000007
/-- secp256k1.go:34. -/
def Gx : Int := 0x79be667ef9dcbbac55a06295ce870b07029bfcdb2dce28d959f2815b16f81798
/-- secp256k1.go:35. -/
def Gy : Int := 0x483ada7726a3c4655da4fbfc0e1108a8fd17b448a68554199c47d08ffb10d4b8

/-- secp256k1.go:43-56 `IsOnCurve`. -/
def isOnCurve (x y : Int) : Bool :=
  let y2 := y * y
  let y2 := y2 % P
  let x3 := x * x
  let x3 := x3 * x
  let x3 := x3 + B
  let x3 := x3 % P
  x3 == y2

/-- utils.go:28-34 `zForAffine`. -/
def zForAffine (x y : Int) : Int := if x ≠ 0 ∨ y ≠ 0 then 1 else 0

/-- secp256k1.go:65-79 `affineFromJacobian`.  `zinv` is nil when `z` is not invertible, and the next
line would crash; `affineFromJacobian_no_panic` (Refine) shows that for `0 ≤ z < P` this cannot happen,
so the `getD` default is never used by any caller. -/
def affineFromJacobian (x y z : Int) : Int × Int :=
  if z = 0 then (0, 0) else
  let zinv := (modInverse z P).getD 0
  let zinvsq := zinv * zinv
  let xOut := x * zinvsq
  let xOut := xOut % P
  let zinvsq := zinvsq * zinv
  let yOut := y * zinvsq
  let yOut := yOut % P
  (xOut, yOut)

/-- secp256k1.go:167-217 `doubleJacobian`. -/
def doubleJacobian (x y z : Int) : Int × Int × Int :=
  let a := x * x
  let a := a % P
  let b := y * y
  let b := b % P
  let c := b * b
  let c := c % P
  let d := x + b
  let d := d * d
  let d := d - a
  let d := d - c
  let d := d * 2
  let d := if d < 0 then d + P else d % P
  let e := 3 * a
  let e := e % P
  let f := e * e
  let f := f % P
  let x3 := d * 2
  let x3 := f - x3
  let x3 := if x3 < 0 then x3 + P else x3 % P
  let y3 := d - x3
  let y3 := e * y3
  let c := c * 8
  let y3 := y3 - c
  let y3 := if y3 < 0 then y3 + P else y3 % P
  let z3 := y * z
  let z3 := z3 * 2
  let z3 := z3 % P
  (x3, y3, z3)

/-- secp256k1.go:89-163 `addJacobian`. -/
def addJacobian (x1 y1 z1 x2 y2 z2 : Int) : Int × Int × Int :=
  if z1 = 0 then (x2, y2, z2) else
  if z2 = 0 then (x1, y1, z1) else
  let z1z1 := z1 * z1
  let z1z1 := z1z1 % P
  let z2z2 := z2 * z2
  let z2z2 := z2z2 % P
  let u1 := x1 * z2z2
  let u1 := u1 % P
  let u2 := x2 * z1z1
  let u2 := u2 % P
  let h := u2 - u1
  let xEqual := h == 0
  let h := if h < 0 then h + P else h
  let i := h * 2
  let i := i * i
  let j := h * i
  let s1 := y1 * z2
  let s1 := s1 * z2z2
  let s1 := s1 % P
  let s2 := y2 * z1
  let s2 := s2 * z1z1
  let s2 := s2 % P
  let r := s2 - s1
  let r := if r < 0 then r + P else r
  let yEqual := r == 0
  if xEqual && yEqual then doubleJacobian x1 y1 z1 else
  let r := r * 2
  let v := u1 * i
  let x3 := r
  let x3 := x3 * x3
  let x3 := x3 - j
  let x3 := x3 - v
  let x3 := x3 - v
  let x3 := x3 % P
  let y3 := r
  let v := v - x3
  let y3 := y3 * v
  let s1 := s1 * j
  let s1 := s1 * 2
  let y3 := y3 - s1
  let y3 := y3 % P
  let z3 := z1 + z2
  let z3 := z3 * z3
  let z3 := z3 - z1z1
  let z3 := z3 - z2z2
  let z3 := z3 * h
  let z3 := z3 % P
  (x3, y3, z3)

/-- secp256k1.go:58-61 `Double`. -/
def double (x1 y1 : Int) : Int × Int :=
  let r := doubleJacobian x1 y1 (zForAffine x1 y1)
  affineFromJacobian r.1 r.2.1 r.2.2

/-- secp256k1.go:81-85 `Add`. -/
def add (x1 y1 x2 y2 : Int) : Int × Int :=
  let r := addJacobian x1 y1 (zForAffine x1 y1) x2 y2 (zForAffine x2 y2)
  affineFromJacobian r.1 r.2.1 r.2.2

/-- secp256k1.go:224-230, the inner loop of `ScalarMult`: `n` more bits of `byte`, most significant
first. -/
def bitLoop (Bx By : Int) : Nat → UInt8 → Int × Int × Int → Int × Int × Int
  | 0, _, acc => acc
  | n + 1, byte, acc =>
    let acc := doubleJacobian acc.1 acc.2.1 acc.2.2
    let acc := if byte &&& 0x80 == 0x80 then addJacobian Bx By 1 acc.1 acc.2.1 acc.2.2 else acc
    bitLoop Bx By n (byte <<< 1) acc

/-- secp256k1.go:219-234 `ScalarMult`. -/
def scalarMult (Bx By : Int) (k : Bytes) : Int × Int :=
  let r := k.foldl (fun acc byte => bitLoop Bx By 8 byte acc) (0, 0, 0)
  affineFromJacobian r.1 r.2.1 r.2.2

/-- secp256k1.go:236-238 `ScalarBaseMult`. -/
def scalarBaseMult (k : Bytes) : Int × Int := scalarMult Gx Gy k

/-- the curve value `secp256k1` (secp256k1.go:21-37). -/
def impl : EC.CurveImpl := { add := add, scalarMult := scalarMult, scalarBaseMult := scalarBaseMult }

end Verif.Secp256k1
