import Verif.Pasta.Api

/-!
# Package pasta: the exported helper functions of pasta/crypto.go, pasta_fp.go and pasta_fq.go

A Go function that writes its result through a pointer is modelled by the value it writes.  Parameters of an array type passed by value
are copies: what is written into them is lost when the function returns.
-/

namespace Verif.Pasta

/-! ## field and scalar functions -/

/-- crypto.go:172-176 `FieldCopy`, 270-274 `ScalarCopy`, pasta_fp.go:1705-1709 `FiatPastaFpCopy`, pasta_fq.go:1713-1717
`FiatPastaFqCopy`: word by word. -/
def copyWords (a : Limbs) : Limbs := ⟨a.get 0, a.get 1, a.get 2, a.get 3⟩

/-- crypto.go:187-191 `FieldAdd`. -/
def fieldAdd (a b : Limbs) : Limbs := add Fp a b
/-- crypto.go:193-197 `FieldSub`. -/
def fieldSub (a b : Limbs) : Limbs := sub Fp a b
/-- crypto.go:199-203 `FieldMul`. -/
def fieldMul (a b : Limbs) : Limbs := mul Fp a b
/-- crypto.go:205-209 `FieldSq`. -/
def fieldSq (a : Limbs) : Limbs := square Fp a
/-- crypto.go:228-232 `FieldInv`. -/
def fieldInv (a : Limbs) : Limbs := inv a
/-- crypto.go:234-238 `FieldNegate`. -/
def fieldNegate (a : Limbs) : Limbs := opp Fp a
/-- crypto.go:240-245 `FieldEq`: 1 or 0. -/
def fieldEq (a b : Limbs) : Nat := if equals Fp a b then 1 else 0

/-- crypto.go:276-280 `ScalarAdd`. -/
def scalarAdd (a b : Limbs) : Limbs := add Fq a b
/-- crypto.go:282-286 `ScalarSub`. -/
def scalarSub (a b : Limbs) : Limbs := sub Fq a b
/-- crypto.go:288-292 `ScalarMul`. -/
def scalarMul (a b : Limbs) : Limbs := mul Fq a b
/-- crypto.go:294-298 `ScalarSq`. -/
def scalarSq (a : Limbs) : Limbs := square Fq a
/-- crypto.go:300-304 `ScalarNegate`. -/
def scalarNegate (a : Limbs) : Limbs := opp Fq a
/-- crypto.go:306-308 `ScalarEq` (pasta_fq.go:1701-1711 `FiatPastaFqEquals`). -/
def scalarEq (a b : Limbs) : Bool := equals Fq a b

/-- crypto.go:261-268 `ScalarFromWords`: the two top bits of the last word are dropped. -/
def scalarFromWords (w : Limbs) : Limbs := toMont Fq ⟨w.l0, w.l1, w.l2, w.l3 &&& (((1 : UInt64) <<< 62) - 1)⟩

/-- encoding/hex `fromHexChar`: the value of a digit, upper or lower case. -/
def hexVal (ch : UInt8) : Option UInt8 :=
  if 48 ≤ ch ∧ ch ≤ 57 then some (ch - 48)
  else if 97 ≤ ch ∧ ch ≤ 102 then some (ch - 97 + 10)
  else if 65 ≤ ch ∧ ch ≤ 70 then some (ch - 65 + 10)
  else none

/-- encoding/hex `DecodeString`: `none` for an error (a character that is no digit, or an odd length). -/
def hexDecode : Bytes → Option Bytes
  | [] => some []
  | [_] => none
  | x :: y :: rest =>
    match hexVal x, hexVal y, hexDecode rest with
    | some h, some l, some r => some (((h <<< 4) ||| l) :: r)
    | _, _, _ => none

/-- crypto.go:157-170 `FieldFromHex` (`M = Fp`) and 247-259 `ScalarFromHex` (`M = Fq`): `none` for the result `false`, otherwise the words
written; `BytesArrayTo32LengthBytesArray` (utils.go:49-59) copies the 32 bytes. -/
def fromHex (M : Md) (hexStr : Bytes) : Option Limbs :=
  match hexDecode hexStr with
  | none => none
  | some b => if b.length ≠ 32 ∨ ¬ (b.getD 31 0 &&& 0xC0 = 0) then none else some (toMont M (bytesToLimbs b))

/-- pasta_fp.go:1767-1779 `FiatPastaFpLegendRe`. -/
def legendre (a : Limbs) : Int :=
  let tmp := pow a pMinus1Over2
  if nonZero a = 0 then 0
  else if equalsOne tmp then 1
  else -1

/-! ## points -/

/-- crypto.go:314-319 `AffineIsZero`: 1 or 0. -/
def affineIsZero (p : Affine) : Nat := if fieldEq p.X fieldZero = 1 ∧ fieldEq p.Y fieldZero = 1 then 1 else 0

/-- crypto.go:321-346 `GroupIsOnCurve`: 1 or 0. -/
def groupIsOnCurve (p : Group) : Nat :=
  if isZero p then 1
  else if fieldEq p.Z fieldOne = 1 then
    let lhs := fieldSq p.Y
    let rhs := fieldSq p.X
    let rhs := fieldMul rhs p.X
    let rhs := fieldAdd rhs groupCoeffB
    fieldEq lhs rhs
  else
    let x3 := fieldSq p.X
    let x3 := fieldMul x3 p.X
    let lhs := fieldSq p.Y
    let z6 := fieldSq p.Z
    let z6 := fieldSq z6
    let z6 := fieldMul z6 p.Z
    let z6 := fieldMul z6 p.Z
    let rhs := fieldMul z6 groupCoeffB
    let rhs := fieldAdd x3 rhs
    fieldEq lhs rhs

/-- crypto.go:374-376 `GroupOne`. -/
def groupOne : Group := affineToGroup affineOne

/-- crypto.go:503-507 `GroupNegate`: the three coordinates are copied. -/
def groupNegate (p : Group) : Group := ⟨copyWords p.X, copyWords p.Y, copyWords p.Z⟩

/-- crypto.go:516-518 `AffineEq`. -/
def affineEq (p q : Affine) : Bool := decide (fieldEq p.X q.X = 1) && decide (fieldEq p.Y q.Y = 1)

/-- crypto.go:528-533 `AffineNegate`. -/
def affineNegate (p : Affine) : Affine := affineFromGroup (groupNegate (affineToGroup p))

/-- crypto.go:535-539 `AffineIsOnCurve`. -/
def affineIsOnCurve (p : Affine) : Bool := groupIsOnCurve (affineToGroup p) = 1

/-- crypto.go:543-545 `GeneratePubkey`. -/
def generatePubkey (priv : Limbs) : Affine := affineScalarMul priv affineOne

/-! ## compressed points and encodings -/

/-- crypto.go:111-114 `Compressed`. -/
structure Compressed where
  X : Limbs
  isOdd : Bool
deriving DecidableEq

/-- crypto.go:547-557 `Compress`: `X` leaves Montgomery form. -/
def compress (pt : Affine) : Compressed := ⟨fromMont Fp pt.X, decide ((fromMont Fp pt.Y).l0 &&& 1 = 1)⟩

/-- crypto.go:567-582: the end of `Decompress`, after the square root, on any destination. -/
def decompressEnd (old : Affine) (cp : Compressed) : Option Limbs → Affine × Bool
  | none => (⟨cp.X, old.Y⟩, false)
  | some y => (⟨cp.X, pickRoot y cp.isOdd⟩, true)

/-- a pure function after a computation. -/
def goMapInto (f : Option Limbs → Affine × Bool) : Go (Option Limbs) → Go (Affine × Bool)
  | .ret r => .ret (f r)
  | .panic => .panic

/-- crypto.go:559-583 `Decompress` on any destination: its contents afterwards and the result. -/
def decompressInto (old : Affine) (cp : Compressed) : Go (Affine × Bool) :=
  goMapInto (decompressEnd old cp) (sqrt (curveRhs cp.X))

/-- crypto.go:29-35 `Field.ToBigEndianBytes`: the words as they are. -/
def wordBytes (a : Limbs) : Bytes := reverseBytes (limbsToBytes a)

/-- crypto.go:116-125 `Compressed.ToBigEndianBytes`. -/
def compressedBytes (cp : Compressed) : Bytes := (if cp.isOdd then 3 else 2) :: wordBytes cp.X

/-- crypto.go:127-145 `Compressed.FromBigEndianBytes` on any destination: a leading byte other than 2 and 3 is not an error and leaves
`IsOdd` as it was. -/
def compressedFromBytes (old : Compressed) (p : Bytes) : Except Err Compressed :=
  if p.length ≠ 33 then .error .other
  else
    let odd := if p.getD 0 0 = 2 then false else if p.getD 0 0 = 3 then true else old.isOdd
    .ok ⟨fpMont (p.drop 1), odd⟩

/-- crypto.go:105-109 `Affine.ToBigEndianMontgomeryBytes`. -/
def affineMontBytes (a : Affine) : Bytes := wordBytes a.X ++ wordBytes a.Y

/-! ## pasta_fp.go, pasta_fq.go: functions whose outputs are arrays passed by value -/

/-- pasta_fp.go:1173-1184, pasta_fq.go:1169-1180 `SelectZnz`: the words computed. -/
def selectZnz (cond : UInt8) (a b : Limbs) : Limbs :=
  ⟨cmov cond a.l0 b.l0, cmov cond a.l1 b.l1, cmov cond a.l2 b.l2, cmov cond a.l3 b.l3⟩

/-- one word in `ToBytes` (pasta_fp.go:1256-1311): seven times mask and shift, then what is left. -/
def wordToBytes (x : UInt64) : Bytes :=
  let x6 := x >>> 8
  let x8 := x6 >>> 8
  let x10 := x8 >>> 8
  let x12 := x10 >>> 8
  let x14 := x12 >>> 8
  let x16 := x14 >>> 8
  [(x &&& 0xff).toUInt8, (x6 &&& 0xff).toUInt8, (x8 &&& 0xff).toUInt8, (x10 &&& 0xff).toUInt8, (x12 &&& 0xff).toUInt8,
    (x14 &&& 0xff).toUInt8, (x16 &&& 0xff).toUInt8, (x16 >>> 8).toUInt8]

/-- pasta_fp.go:1198-1344, pasta_fq.go:1194-1340 `ToBytes`: the bytes computed. -/
def toBytesLocal (a : Limbs) : Bytes := wordToBytes a.l0 ++ (wordToBytes a.l1 ++ (wordToBytes a.l2 ++ wordToBytes a.l3))

/-- one word in `FromBytes` (pasta_fp.go:1396-1428): eight bytes, from the lowest. -/
def wordFromBytes (b0 b1 b2 b3 b4 b5 b6 b7 : UInt8) : UInt64 :=
  let x33 := (b1.toUInt64 <<< 8) + b0.toUInt64
  let x34 := (b2.toUInt64 <<< 16) + x33
  let x35 := (b3.toUInt64 <<< 24) + x34
  let x36 := (b4.toUInt64 <<< 32) + x35
  let x37 := (b5.toUInt64 <<< 40) + x36
  let x38 := (b6.toUInt64 <<< 48) + x37
  (b7.toUInt64 <<< 56) + x38

/-- pasta_fp.go:1357-1434, pasta_fq.go:1353-1430 `FromBytes`: the words computed. -/
def fromBytesLocal (b : Bytes) : Limbs :=
  let w := fun i => wordFromBytes (b.getD i 0) (b.getD (i + 1) 0) (b.getD (i + 2) 0) (b.getD (i + 3) 0) (b.getD (i + 4) 0)
    (b.getD (i + 5) 0) (b.getD (i + 6) 0) (b.getD (i + 7) 0)
  ⟨w 0, w 8, w 16, w 24⟩

/-- pasta_fp.go:1443-1448 `FiatPastaFpSetOne`: `out1` is a pointer, the caller's array after the call. -/
def fpSetOne (_out : Limbs) : Limbs := Fp.one

/-- a call with an array passed by value: the callee fills its copy with `computed`, the caller's array is what it was. -/
def byValue {α : Type} (caller _computed : α) : α := caller

/-- pasta_fq.go:1439-1444 `FiatPastaFqSetOne(out1 [4]uint64)`: the caller's array after the call. -/
def fqSetOne (out : Limbs) : Limbs := byValue out Fq.one

/-- pasta_fp.go:1173 `SelectZnz(out1 [4]uint64, ...)`: the caller's array after the call. -/
def selectZnzCall (out : Limbs) (cond : UInt8) (a b : Limbs) : Limbs := byValue out (selectZnz cond a b)

/-- pasta_fp.go:1198 `ToBytes(out1 [32]uint8, ...)`: the caller's array after the call. -/
def toBytesCall (out : Bytes) (a : Limbs) : Bytes := byValue out (toBytesLocal a)

/-- pasta_fp.go:1357 `FromBytes(out1 [4]uint64, ...)`: the caller's array after the call. -/
def fromBytesCall (out : Limbs) (b : Bytes) : Limbs := byValue out (fromBytesLocal b)

/-- pasta_fp.go:1460-1466, pasta_fq.go:1456-1462 `MSat(out1 [5]uint64)`: the words of the modulus, into a copy. -/
def mSatCall (M : Md) (out : List UInt64) : List UInt64 := byValue out [M.m0, M.m1, 0, M.m3, 0]

end Verif.Pasta
