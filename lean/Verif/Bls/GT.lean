import Verif.Bls.Pairing

/-!
# The target group: model of bls12_381/bls/gt.go and bls12_381/gt.go

`GT` works on field elements of `Fq12`; `OwcryptGT` presents it as a kyber.Point (an additive group).
-/

namespace Verif.Bls

namespace Fe12

/-- fp12.go:72-74 `zero`. -/
def zero : Fe12 := ⟨Fe6.zero, Fe6.zero⟩

/-- fp12.go:110-115 `add`. -/
def add (a b : Fe12) : Fe12 := ⟨Fe6.add a.c0 b.c0, Fe6.add a.c1 b.c1⟩

/-- fp12.go:123-128 `sub`. -/
def sub (a b : Fe12) : Fe12 := ⟨Fe6.sub a.c0 b.c0, Fe6.sub a.c1 b.c1⟩

end Fe12

namespace GT

/-- bls/gt.go:99-101 `Add`. -/
def add (a b : Fe12) : Fe12 := Fe12.add a b

/-- bls/gt.go:104-106 `Sub`. -/
def sub (a b : Fe12) : Fe12 := Fe12.sub a b

/-- bls/gt.go:109-111 `Mul`. -/
def mul (a b : Fe12) : Fe12 := Fe12.mul a b

/-- bls/gt.go:114-116 `Square`. -/
def square (a : Fe12) : Fe12 := Fe12.cyclotomicSquare a

/-- bls/gt.go:119-121 `Exp`, for a non-negative exponent. -/
def exp (a : Fe12) (s : Nat) : Fe12 := Fe12.cyclotomicExp a s

/-- bls/gt.go:124-126 `Inverse`. -/
def inverse (bd : Build) (a : Fe12) : Fe12 := Fe12.inverse bd a

/-- bls/gt.go:50-59 `FromBytes`: the element (`none`: nil) and whether there is an error.  An element outside the
group is returned together with the error. -/
def fromBytes (b : Bytes) : Option Fe12 × Bool :=
  match Fe12.fromBytes b with
  | none => (none, true)
  | some e => if !Fe12.isValid e then (some e, true) else (some e, false)

end GT

namespace OwGT

/-- gt.go:16-18 `newEmptyGT`. -/
def new : Fe12 := Fe12.one

/-- gt.go:25-27 `Equal`. -/
def equal (a b : Fe12) : Bool := Fe12.equal a b

/-- gt.go:33, with the array of line 32 as an argument: the error of `FromBytes` is dropped. -/
def nullOf (zero : Bytes) : Option Fe12 := (GT.fromBytes zero).1

/-- gt.go:31-35 `Null`. -/
def null : Option Fe12 := nullOf (List.replicate 576 0)

/-- gt.go:56-61 `Add`. -/
def add (a b : Fe12) : Fe12 := GT.mul a b

/-- gt.go:63-68 `Sub`. -/
def sub (a b : Fe12) : Fe12 := GT.sub a b

/-- gt.go:78-80 `MarshalBinary`. -/
def marshal (a : Fe12) : Bytes := Fe12.toBytes a

/-- gt.go:90-94 `UnmarshalBinary`: what the receiver holds afterwards (`none`: nil), and whether there is an error. -/
def unmarshal (b : Bytes) : Option Fe12 × Bool := GT.fromBytes b

end OwGT

end Verif.Bls
