import Verif.Bls.GT
import Verif.Pasta.Helpers
import Verif.Go

/-!
# Field elements as numbers and text, and the methods of target group elements

`PointG1` is an array of `fe` and `E` is an array of arrays of `fe`, so that a caller reaches the exported methods of `fe` through an index.
The model has the new words of the receiver; every one of these methods except `E.One` returns the receiver.
Strings are their bytes.
-/

namespace Verif.Bls

namespace Fe

/-- field_element.go:52-54 `SetBig`, 226-228 `setBig`: `Bytes` of math/big is the absolute value. -/
def setBig (z : Int) : Fe := ofBytes (natBytes z.natAbs)

/-- field_element.go:102-104 `Big`, 247-249 `big`. -/
def big (a : Fe) : Nat := beNat (bytes a)

/-- field_element.go:66-75 `SetString`: `s[:2]` panics for a shorter string; `none` for an error. -/
def setString (s : Bytes) : Go (Option Fe) :=
  if s.length < 2 then .panic
  else match Pasta.hexDecode (if s.take 2 = [48, 120] then s.drop 2 else s) with
    | none => .ret none
    | some b => .ret (some (ofBytes b))

/-- a lower-case digit of fmt's verb `x`. -/
def digit (d : UInt64) : UInt8 := if d < 10 then 48 + d.toUInt8 else 87 + d.toUInt8

/-- fmt's `%16.16x` of a word: sixteen digits. -/
def hex16 (w : UInt64) : Bytes :=
  (List.range 16).map fun i => digit ((w >>> (UInt64.ofNat (60 - 4 * i))) &&& 15)

/-- field_element.go:106-111 `String`. -/
def toText (a : Fe) : Bytes :=
  [48, 120] ++ (hex16 a.l5 ++ hex16 a.l4 ++ hex16 a.l3 ++ hex16 a.l2 ++ hex16 a.l1 ++ hex16 a.l0)

/-- field_element.go:97-100 `SetOne`, 200-202 `one`. -/
def setOne : Fe := r1

/-- field_element.go:113-116 `IsOdd`. -/
def isOdd (a : Fe) : Bool := a.l0 &&& 1 != 0

/-- field_element.go:127-129 `IsOne`, the exported method. -/
def isOne (a : Fe) : Bool := 1 == a.l0 && 0 == a.l1 && 0 == a.l2 && 0 == a.l3 && 0 == a.l4 && 0 == a.l5

/-- field_element.go:263-265 `isOne`, fp.go:122-124 `isOne`. -/
def isMontOne (a : Fe) : Bool := equal a r1

end Fe

/-- field_element.go:297-299 `isOne`, fp2.go:85-87. -/
def Fe2.isOne (a : Fe2) : Bool := Fe.isMontOne a.c0 && Fe.isZero a.c1

/-- field_element.go:365-367 `isOne`. -/
def Fe6.isOne (a : Fe6) : Bool := Fe2.isOne a.c0 && Fe2.isZero a.c1 && Fe2.isZero a.c2

/-- field_element.go:407-409 `isOne`. -/
def Fe12.isOne (a : Fe12) : Bool := Fe6.isOne a.c0 && Fe6.isZero a.c1

namespace E

/-- bls/gt.go:17-19 `Set`: the receiver afterwards. -/
def set (_e e2 : Fe12) : Fe12 := e2

/-- bls/gt.go:22-25 `One`: the receiver afterwards and the element returned.  The assignment is to the local pointer. -/
def one (e : Fe12) : Fe12 × Fe12 := (e, Fe12.one)

/-- bls/gt.go:28-30 `IsOne`. -/
def isOne (e : Fe12) : Bool := Fe12.isOne e

/-- bls/gt.go:33-35 `Equal`. -/
def equal (e e2 : Fe12) : Bool := Fe12.equal e e2

end E

/-- bls/gt.go:84-86 `IsOne`. -/
def GT.isOne (e : Fe12) : Bool := Fe12.equal e Fe12.one

end Verif.Bls
