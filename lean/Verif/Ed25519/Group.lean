import Verif.Ed25519.Const
import Verif.Ed25519.Scalar

/-!
# Model of /repo/eddsa/edwards25519/edwards25519.go: group elements

A method that fills in a result through a pointer returns that result.  The five representations of a point are structures of field
elements as in the Go code.
-/

namespace Verif.Ed25519

/-- edwards25519.go:511-513 `ProjectiveGroupElement` -/
structure Proj where
  X : Fe
  Y : Fe
  Z : Fe

/-- edwards25519.go:515-517 `ExtendedGroupElement` -/
structure Ext where
  X : Fe
  Y : Fe
  Z : Fe
  T : Fe

/-- edwards25519.go:519-521 `CompletedGroupElement` -/
structure Compl where
  X : Fe
  Y : Fe
  Z : Fe
  T : Fe

/-- edwards25519.go:527-529 `CachedGroupElement` -/
structure Cached where
  yPlusX : Fe
  yMinusX : Fe
  Z : Fe
  T2d : Fe

/-- edwards25519.go:531-535 `ProjectiveGroupElement.Zero` -/
def projZero : Proj := ⟨feZero, feOne, feOne⟩

/-- edwards25519.go:537-549 `ProjectiveGroupElement.Double` -/
def projDouble (p : Proj) : Compl :=
  let rX := feSquare p.X
  let rZ := feSquare p.Y
  let rT := feSquare2 p.Z
  let rY := feAdd p.X p.Y
  let t0 := feSquare rY
  let rY := feAdd rZ rX
  let rZ := feSub rZ rX
  let rX := feSub t0 rY
  let rT := feSub rT rZ
  ⟨rX, rY, rZ, rT⟩

/-- the last byte xor `x`: `s[31] ^= x` on a 32-byte string. -/
def xorLast (s : Bytes) (x : UInt8) : Bytes := s.set 31 (s.getD 31 0 ^^^ x)

/-- edwards25519.go:551-559 `ProjectiveGroupElement.ToBytes` and :587-595 `ExtendedGroupElement.ToBytes`, which have the same body;
also the end of ed25519.go:159-183 `ScalarMultBaseAdd`. -/
def affBytes (X Y Z : Fe) : Bytes :=
  let recip := feInvert Z
  let x := feMul X recip
  let y := feMul Y recip
  xorLast (feToBytes y) (feIsNegative x <<< 7)

/-- edwards25519.go:551-559 `ProjectiveGroupElement.ToBytes` -/
def projToBytes (p : Proj) : Bytes := affBytes p.X p.Y p.Z

/-- edwards25519.go:561-566 `ExtendedGroupElement.Zero` -/
def extZero : Ext := ⟨feZero, feOne, feOne, feZero⟩

/-- edwards25519.go:581-585 `ExtendedGroupElement.ToProjective` -/
def extToProj (p : Ext) : Proj := ⟨p.X, p.Y, p.Z⟩

/-- edwards25519.go:568-572 `ExtendedGroupElement.Double` -/
def extDouble (p : Ext) : Compl := projDouble (extToProj p)

/-- edwards25519.go:574-579 `ExtendedGroupElement.ToCached` -/
def extToCached (p : Ext) : Cached := ⟨feAdd p.Y p.X, feSub p.Y p.X, p.Z, feMul p.T d2C⟩

/-- edwards25519.go:587-595 `ExtendedGroupElement.ToBytes` -/
def extToBytes (p : Ext) : Bytes := affBytes p.X p.Y p.Z

/-- edwards25519.go:597-621 (and x25519.go:521-545): from `Y` to `u`, `v`, the candidate `X` and `vxx`. -/
def sqrtCand (Y : Fe) : Fe × Fe × Fe :=
  let Z := feOne
  let u := feSquare Y
  let v := feMul u dC
  let u := feSub u Z
  let v := feAdd v Z
  let v3 := feSquare v
  let v3 := feMul v3 v
  let X := feSquare v3
  let X := feMul X v
  let X := feMul X u
  let X := fePow22523 X
  let X := feMul X v3
  let X := feMul X u
  let vxx := feSquare X
  let vxx := feMul vxx v
  (u, X, vxx)

/-- edwards25519.go:597-641 `ExtendedGroupElement.FromBytes` on a zero-valued receiver: the returned flag and the receiver after the
call.  `FeToBytes`, `FeIsNegative` leave canonical limbs in `p.X`. -/
def extFromBytes (s : Bytes) : Bool × Ext :=
  let Y := feFromBytes s
  let c := sqrtCand Y
  let u := c.1
  let X := c.2.1
  let vxx := c.2.2
  let sign (X : Fe) : Bool × Ext :=
    let neg := feIsNegative X
    let X := feReduce X
    let X := if neg ≠ s.getD 31 0 >>> 7 then feNeg X else X
    (true, ⟨X, Y, feOne, feMul X Y⟩)
  if feIsNonZero (feSub vxx u) = 1 then
    if feIsNonZero (feAdd vxx u) = 1 then (false, ⟨X, Y, feOne, feZero⟩)
    else sign (feReduce (feMul X sqrtM1C))
  else sign X

/-- edwards25519.go:643-647 `CompletedGroupElement.ToProjective` -/
def complToProj (p : Compl) : Proj := ⟨feMul p.X p.T, feMul p.Y p.Z, feMul p.Z p.T⟩

/-- edwards25519.go:649-654 `CompletedGroupElement.ToExtended` -/
def complToExt (p : Compl) : Ext := ⟨feMul p.X p.T, feMul p.Y p.Z, feMul p.Z p.T, feMul p.X p.Y⟩

/-- edwards25519.go:656-660 `PreComputedGroupElement.Zero` -/
def preZero : PreC := ⟨feOne, feOne, feZero⟩

/-- edwards25519.go:662-676 `geAdd` -/
def geAdd (p : Ext) (q : Cached) : Compl :=
  let rX := feAdd p.Y p.X
  let rY := feSub p.Y p.X
  let rZ := feMul rX q.yPlusX
  let rY := feMul rY q.yMinusX
  let rT := feMul q.T2d p.T
  let rX := feMul p.Z q.Z
  let t0 := feAdd rX rX
  let rX := feSub rZ rY
  let rY := feAdd rZ rY
  let rZ := feAdd t0 rT
  let rT := feSub t0 rT
  ⟨rX, rY, rZ, rT⟩

/-- edwards25519.go:678-692 `geSub` -/
def geSub (p : Ext) (q : Cached) : Compl :=
  let rX := feAdd p.Y p.X
  let rY := feSub p.Y p.X
  let rZ := feMul rX q.yMinusX
  let rY := feMul rY q.yPlusX
  let rT := feMul q.T2d p.T
  let rX := feMul p.Z q.Z
  let t0 := feAdd rX rX
  let rX := feSub rZ rY
  let rY := feAdd rZ rY
  let rZ := feSub t0 rT
  let rT := feAdd t0 rT
  ⟨rX, rY, rZ, rT⟩

/-- edwards25519.go:694-707 `geMixedAdd` -/
def geMixedAdd (p : Ext) (q : PreC) : Compl :=
  let rX := feAdd p.Y p.X
  let rY := feSub p.Y p.X
  let rZ := feMul rX q.yPlusX
  let rY := feMul rY q.yMinusX
  let rT := feMul q.xy2d p.T
  let t0 := feAdd p.Z p.Z
  let rX := feSub rZ rY
  let rY := feAdd rZ rY
  let rZ := feAdd t0 rT
  let rT := feSub t0 rT
  ⟨rX, rY, rZ, rT⟩

/-- edwards25519.go:709-722 `geMixedSub` -/
def geMixedSub (p : Ext) (q : PreC) : Compl :=
  let rX := feAdd p.Y p.X
  let rY := feSub p.Y p.X
  let rZ := feMul rX q.yMinusX
  let rY := feMul rY q.yPlusX
  let rT := feMul q.xy2d p.T
  let t0 := feAdd p.Z p.Z
  let rX := feSub rZ rY
  let rY := feAdd rZ rY
  let rZ := feSub t0 rT
  let rT := feAdd t0 rT
  ⟨rX, rY, rZ, rT⟩

/-! ## `slide` -/

/-- the value of an `int8` after wraparound. -/
def i8 (x : Int) : Int := Int.bmod x (2 ^ 8)

/-- edwards25519.go:725-727: the bits of a byte string, least significant first (256 of them for 32 bytes). -/
def bitsOf : Bytes → List Int
  | [] => []
  | b :: bs => (List.range 8).map (fun k => ((b.toNat / 2 ^ k % 2 : Nat) : Int)) ++ bitsOf bs

/-- edwards25519.go:738-744: add one at the first place of the list: ones become zeros up to the first zero. -/
def carryUp : List Int → List Int
  | [] => []
  | x :: xs => if x = 0 then 1 :: xs else 0 :: carryUp xs

/-- edwards25519.go:731-749: the loop over `b`, with `x` for `r[i]` and `r` for the digits after it; `f` counts the rounds left. -/
def slideIn : Nat → Nat → Int → List Int → Int × List Int
  | 0, _, x, r => (x, r)
  | f + 1, b, x, r =>
    if b - 1 < r.length then
      let y := r.getD (b - 1) 0
      if y ≠ 0 then
        if i8 (x + i8 (y * 2 ^ b)) ≤ 15 then slideIn f (b + 1) (i8 (x + i8 (y * 2 ^ b))) (r.set (b - 1) 0)
        else if i8 (x - i8 (y * 2 ^ b)) ≥ -15 then
          slideIn f (b + 1) (i8 (x - i8 (y * 2 ^ b))) (r.take (b - 1) ++ carryUp (r.drop (b - 1)))
        else (x, r)
      else slideIn f (b + 1) x r
    else (x, r)

/-- edwards25519.go:729-751: the loop over `i`.  A round does not touch the digits before `i`, so the list here starts at `i`; the
first argument counts the rounds left. -/
def slideGo : Nat → List Int → List Int
  | 0, r => r
  | _ + 1, [] => []
  | f + 1, x :: r =>
    if x ≠ 0 then
      let (x', r') := slideIn 6 1 x r
      x' :: slideGo f r'
    else x :: slideGo f r

/-- edwards25519.go:724-752 `slide` -/
def slide (a : Bytes) : List Int := slideGo 256 (bitsOf a)

/-! ## Scalar multiplication -/

/-- edwards25519.go:764-773: the cached odd multiples `A, 3A, …, 15A`; `n` counts the rounds left. -/
def oddMultiples (A2 : Ext) : Nat → Cached → List Cached
  | 0, c => [c]
  | n + 1, c => c :: oddMultiples A2 n (extToCached (complToExt (geAdd A2 c)))

/-- edwards25519.go:765-773: the table `Ai`. -/
def cachedTable (A : Ext) : List Cached := oddMultiples (complToExt (extDouble A)) 7 (extToCached A)

/-- a cached group element that is never used. -/
def cachedDflt : Cached := ⟨feZero, feZero, feZero, feZero⟩

/-- edwards25519.go:786-792: add the multiple of `A` selected by a digit.  The index is below 8 for the digits `slide` yields. -/
def addDigit (Ai : List Cached) (t : Compl) (e : Int) : Compl :=
  if e > 0 then geAdd (complToExt t) (Ai.getD (e / 2).toNat cachedDflt)
  else if e < 0 then geSub (complToExt t) (Ai.getD (-e / 2).toNat cachedDflt)
  else t

/-- edwards25519.go:794-800: add the multiple of the base point selected by a digit. -/
def addBaseDigit (t : Compl) (e : Int) : Compl :=
  if e > 0 then geMixedAdd (complToExt t) (biT.getD (e / 2).toNat preZero)
  else if e < 0 then geMixedSub (complToExt t) (biT.getD (-e / 2).toNat preZero)
  else t

/-- edwards25519.go:777-781: skip the leading zero digits (most significant first). -/
def skipZeros (l : List (Int × Int)) : List (Int × Int) := l.dropWhile (fun p => p.1 = 0 ∧ p.2 = 0)

/-- edwards25519.go:754-803 `GeDoubleScalarMultVartime`: `a * A + b * B` with `B` the base point. -/
def geDoubleScalarMult (a : Bytes) (A : Ext) (b : Bytes) : Proj :=
  let Ai := cachedTable A
  (skipZeros ((slide a).zip (slide b)).reverse).foldl
    (fun r e => complToProj (addBaseDigit (addDigit Ai (projDouble r) e.1) e.2)) projZero

/-- edwards25519.go:805-863 `GePointAddVarTime`: `a * A + b * BB`. -/
def gePointAdd (a : Bytes) (A : Ext) (b : Bytes) (BB : Ext) : Proj :=
  let Ai := cachedTable A
  let BBi := cachedTable BB
  (skipZeros ((slide a).zip (slide b)).reverse).foldl
    (fun r e => complToProj (addDigit BBi (addDigit Ai (projDouble r) e.1) e.2)) projZero

/-- edwards25519.go:875-879 `PreComputedGroupElementCMove` with the flag of `equal` or `negative`. -/
def preCMove (t u : PreC) (b : Bool) : PreC :=
  ⟨feCMove t.yPlusX u.yPlusX (if b then 1 else 0), feCMove t.yMinusX u.yMinusX (if b then 1 else 0),
   feCMove t.xy2d u.xy2d (if b then 1 else 0)⟩

/-- edwards25519.go:881-894 `selectPoint` -/
def selectPoint (pos : Nat) (b : Int) : PreC :=
  let row := baseT.getD pos []
  let bAbs := if b < 0 then -b else b
  let t := (List.range 8).foldl (fun (t : PreC) (i : Nat) => preCMove t (row.getD i preZero) (bAbs == (i : Int) + 1)) preZero
  let minusT : PreC := ⟨t.yMinusX, t.yPlusX, feNeg t.xy2d⟩
  preCMove t minusT (b < 0)

/-- edwards25519.go:899-902: the 64 nibbles. -/
def nibbles : Bytes → List Int
  | [] => []
  | v :: vs => ((v &&& 15).toNat : Int) :: (((v >>> 4) &&& 15).toNat : Int) :: nibbles vs

/-- edwards25519.go:904-910: signed digits; the last digit only receives the carry. -/
def recode : Int → List Int → List Int
  | _, [] => []
  | c, [x] => [i8 (x + c)]
  | c, x :: y :: xs =>
    let x := i8 (x + c)
    let c := i8 (x + 8) / 2 ^ 4
    i8 (x - c * 2 ^ 4) :: recode c (y :: xs)

/-- edwards25519.go:915-919 and :932-936: add the table entries of the digits at even (or odd) places, from `pos` on. -/
def addRows (h : Ext) (pos : Nat) : List Int → Ext
  | [] => h
  | e :: es => addRows (complToExt (geMixedAdd h (selectPoint pos e))) (pos + 1) es

/-- every second element, starting with the first. -/
def evens : List Int → List Int
  | [] => []
  | [x] => [x]
  | x :: _ :: xs => x :: evens xs

/-- edwards25519.go:896-937 `GeScalarMultBase` -/
def geScalarMultBase (a : Bytes) : Ext :=
  let e := recode 0 (nibbles a)
  let h := addRows extZero 0 (evens e.tail)
  let r := extDouble h
  let r := projDouble (complToProj r)
  let r := projDouble (complToProj r)
  let r := projDouble (complToProj r)
  addRows (complToExt r) 0 (evens e)

end Verif.Ed25519
