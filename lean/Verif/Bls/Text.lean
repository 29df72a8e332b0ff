import Verif.Bls.Suite

/-!
# Names, sizes and texts of the BLS12-381 groups and their elements

Strings are their bytes.
-/

namespace Verif.Bls.Text

/-- a digit of encoding/hex `EncodeToString`. -/
def hexDigit (d : UInt8) : UInt8 := if d < 10 then 48 + d else 87 + d

/-- encoding/hex `EncodeToString`. -/
def hexEncode : Bytes → Bytes
  | [] => []
  | x :: b => hexDigit (x / 16) :: hexDigit (x % 16) :: hexEncode b

/-- bls12_381/g1.go:126-129 `String`: the text and the point afterwards, which `MarshalBinary` leaves in affine form. -/
def stringG1 (bd : Build) (p : P3 Fe) : Bytes × P3 Fe :=
  ("bls12-381.G1: ".toUTF8.toList ++ hexEncode ((g1 bd).toCompressed p), (g1 bd).affine p)

/-- bls12_381/g2.go:132-135 `String`: with the name of G1. -/
def stringG2 (bd : Build) (p : P3 Fe2) : Bytes × P3 Fe2 :=
  ("bls12-381.G1: ".toUTF8.toList ++ hexEncode ((g2 bd).toCompressed p), (g2 bd).affine p)

/-- bls12_381/gt.go:109-112 `String`. -/
def stringGT (a : Fe12) : Bytes := "bls12-381.GT: ".toUTF8.toList ++ hexEncode (OwGT.marshal a)

/-- bls12_381/group.go:22-26 `groupBls`; the function `newPoint` is represented by the size its points report. -/
structure Group where
  str : Bytes
  size : Nat
  isPrime : Bool

/-- bls12_381/group.go:64-70 `NewGroupG1`, g1.go:122-124 `MarshalSize`. -/
def groupG1 : Group := ⟨"bls12-381.G1".toUTF8.toList, 48, true⟩

/-- bls12_381/group.go:72-78 `NewGroupG2`, g2.go:128-130 `MarshalSize`. -/
def groupG2 : Group := ⟨"bls12-381.G2".toUTF8.toList, 96, false⟩

/-- bls12_381/group.go:80-86 `NewGroupGT`, gt.go:105-107 `MarshalSize`. -/
def groupGT : Group := ⟨"bls12-381.GT".toUTF8.toList, 576, false⟩

/-- bls12_381/group.go:28-30 `String`. -/
def Group.string (g : Group) : Bytes := g.str

/-- bls12_381/group.go:40-42 `PointLen`. -/
def Group.pointLen (g : Group) : Nat := g.size

/-- bls12_381/group.go:48-50 `IsPrimeOrder`. -/
def Group.isPrimeOrder (g : Group) : Bool := g.isPrime

end Verif.Bls.Text
