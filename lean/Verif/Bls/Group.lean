import Verif.Bls.Fp2

/-!
# BLS12-381 groups: model of bls12_381/bls/g1.go and g2.go

g1.go and g2.go are the same program over the two fields (`fe`, `fe2`): with `fe2` for `fe`, `g.f.` in
front of every field operation, `b2` for `b`, `infinity2` for `infinity`, `g2One` for `g1One` and the
byte sizes doubled, the functions modelled here agree statement by statement (the one difference:
g2.go:108 calls `Affine` before the infinity test of `ToUncompressed`, g1.go:104 after; `Affine` leaves
points at infinity alone).  The model is therefore written once, over a record of field operations, and
instantiated twice (`g1`, `g2`).

`PointG1`, `PointG2` are arrays `[x, y, z]` of Jacobian coordinates.  Functions that write through a
pointer (`Add(r, p1, p2)`, `Affine(p)`, …) return the written point here; the callers in the repo use
outputs that alias an input only where every coordinate of that input is read before it is overwritten.
The temporaries `g.t` are written before they are read and are dropped.
-/

namespace Verif.Bls

/-- the field operations g1.go / g2.go call, and the constants that differ between the two. -/
structure Ops (α : Type) where
  zero : α
  one : α
  isZero : α → Bool
  equal : α → α → Bool
  add : α → α → α
  sub : α → α → α
  mul : α → α → α
  double : α → α
  neg : α → α
  square : α → α
  inverse : α → α
  sqrt : α → α × Bool
  signBE : α → Bool
  /-- bytes of one field element (48 or 96). -/
  size : Nat
  fromBytes : Bytes → Option α
  toBytes : α → Bytes
  /-- the curve coefficient `b` / `b2`. -/
  b : α
  genX : α
  genY : α

/-- g1.go:12 `PointG1`, g2.go:12 `PointG2`. -/
structure P3 (α : Type) where
  x : α
  y : α
  z : α
deriving DecidableEq

/-- bls12_381.go:62-63 `b`. -/
def bG1 : Fe :=
  ⟨0xaa270000000cfff3, 0x53cc0032fc34000a, 0x478fe97a6b0a807f, 0xb1d37ebee6ba24d7,
   0x8ec9733bbf78ab2f, 0x09d645513d83de7e⟩

/-- bls12_381.go:65-69 `b2`. -/
def bG2 : Fe2 := ⟨bG1, bG1⟩

/-- bls12_381.go:71-73 `q` (the group order). -/
def order : Nat := 0x73eda753299d7d483339d80809a1d80553bda402fffe5bfeffffffff00000001

/-- the operations g1.go uses (fp.go, arithmetic_*.go, field_element.go); `genX`, `genY`:
bls12_381.go:105-109 `g1One` (whose third coordinate is `r1`, i.e. one). -/
def g1 (bd : Build) : Ops Fe where
  zero := Fe.zero
  one := Fe.one
  isZero := Fe.isZero
  equal := Fe.equal
  add := Fe.add
  sub := Fe.sub
  mul := Fe.mul
  double := Fe.double
  neg := Fe.neg
  square := Fe.square bd
  inverse := Fe.inverse
  sqrt := Fe.sqrt bd
  signBE := Fe.signBE
  size := 48
  fromBytes := Fe.fromBytes
  toBytes := Fe.toBytes
  b := bG1
  genX := ⟨0x5cb38790fd530c16, 0x7817fc679976fff5, 0x154f95c7143ba1c1, 0xf0ae6acdf3d0e747,
    0xedce6ecc21dbf440, 0x120177419e0bfb75⟩
  genY := ⟨0xbaac93d50ce72271, 0x8c22631a7918fd8e, 0xdd595f13570725ce, 0x51ac582950405194,
    0x0e1c8c3fad0059c0, 0x0bbc3efc5008a26a⟩

/-- the operations g2.go uses (fp2.go); `genX`, `genY`: bls12_381.go:119-132 `g2One`. -/
def g2 (bd : Build) : Ops Fe2 where
  zero := Fe2.zero
  one := Fe2.one
  isZero := Fe2.isZero
  equal := Fe2.equal
  add := Fe2.add
  sub := Fe2.sub
  mul := Fe2.mul
  double := Fe2.double
  neg := Fe2.neg
  square := Fe2.square
  inverse := Fe2.inverse bd
  sqrt := Fe2.sqrt
  signBE := Fe2.signBE
  size := 96
  fromBytes := Fe2.fromBytes
  toBytes := Fe2.toBytes
  b := bG2
  genX := ⟨⟨0xf5f28fa202940a10, 0xb3f5fb2687b4961a, 0xa1a893b53e2ae580, 0x9894999d1a3caee9,
      0x6f67b7631863366b, 0x058191924350bcd7⟩,
    ⟨0xa5a9c0759e23f606, 0xaaa0c59dbccd60c3, 0x3bb17e18e2867806, 0x1b1ab6cc8541b367,
      0xc2b6ed0ef2158547, 0x11922a097360edf3⟩⟩
  genY := ⟨⟨0x4c730af860494c4a, 0x597cfa1f5e369c5a, 0xe7e6856caa0a635a, 0xbbefb5e96e0d495f,
      0x07d3a975f0ef25a2, 0x083fd8e7e80dae5⟩,
    ⟨0xadc0fc92df64b05d, 0x18aa270a2b1461dc, 0x86adac6a3be4eba0, 0x79495c4ec93da33a,
      0xe7175850a43ccaed, 0xb2bc2a163de1bf2⟩⟩

namespace Ops

variable {α : Type} (g : Ops α)

/-- `&PointG1{}` / `&PointG2{}`: all coordinates zero (also `NullOwcryptG1`, `NullOwcryptG2`,
bls12_381/g1.go:18-21, g2.go:23-26). -/
def blank : P3 α := ⟨g.zero, g.zero, g.zero⟩

/-- g1.go:238-244, g2.go:246-252 `Zero`; also `infinity` (bls12_381.go:84-87) and `infinity2`
(bls12_381.go:90-103). -/
def infinity : P3 α := ⟨g.zero, g.one, g.zero⟩

/-- g1.go:247-249, g2.go:255-257 `One`. -/
def gen : P3 α := ⟨g.genX, g.genY, g.one⟩

/-- g1.go:257-259, g2.go:265-267 `IsZero`. -/
def isInf (p : P3 α) : Bool := g.isZero p.z

/-- g1.go:262-279, g2.go:270-287 `Equal`. -/
def eqPt (p1 p2 : P3 α) : Bool :=
  if g.isInf p1 then g.isInf p2
  else if g.isInf p2 then g.isInf p1
  else
    let t0 := g.square p1.z
    let t1 := g.square p2.z
    let t2 := g.mul t0 p2.x
    let t3 := g.mul t1 p1.x
    let t0 := g.mul t0 p1.z
    let t1 := g.mul t1 p2.z
    let t1 := g.mul t1 p1.y
    let t0 := g.mul t0 p2.y
    g.equal t0 t1 && g.equal t2 t3

/-- g1.go:289-303, g2.go:297-311 `IsOnCurve`. -/
def isOnCurve (p : P3 α) : Bool :=
  if g.isInf p then true
  else
    let t0 := g.square p.y
    let t1 := g.mul (g.square p.x) p.x
    let t2 := g.square p.z
    let t3 := g.square t2
    let t2 := g.mul g.b (g.mul t2 t3)
    g.equal t0 (g.add t1 t2)

/-- g1.go:306-308, g2.go:314-316 `IsAffine`. -/
def isAffine (p : P3 α) : Bool := g.equal p.z g.one

/-- g1.go:311-325, g2.go:319-333 `Affine`. -/
def affine (p : P3 α) : P3 α :=
  if g.isInf p then p
  else if !g.isAffine p then
    let t0 := g.inverse p.z
    let t1 := g.square t0
    ⟨g.mul p.x t1, g.mul p.y (g.mul t0 t1), g.one⟩
  else p

/-- g1.go:379-409, g2.go:387-417 `Double`. -/
def dbl (p : P3 α) : P3 α :=
  if g.isInf p then p
  else
    let t0 := g.square p.x
    let t1 := g.square p.y
    let t2 := g.square t1
    let t1 := g.add p.x t1
    let t1 := g.square t1
    let t1 := g.sub t1 t0
    let t1 := g.sub t1 t2
    let t1 := g.double t1
    let t3 := g.double t0
    let t0 := g.add t3 t0
    let t4 := g.square t0
    let t3 := g.double t1
    let x := g.sub t4 t3
    let t1 := g.sub t1 x
    let t2 := g.double t2
    let t2 := g.double t2
    let t2 := g.double t2
    let t0 := g.mul t0 t1
    let t1 := g.sub t0 t2
    let t0 := g.mul p.y p.z
    ⟨x, t1, g.double t0⟩

/-- g1.go:328-376, g2.go:336-384 `Add`. -/
def addPt (p1 p2 : P3 α) : P3 α :=
  if g.isInf p1 then p2
  else if g.isInf p2 then p1
  else
    let t7 := g.square p1.z
    let t1 := g.mul p2.x t7
    let t2 := g.mul p1.z t7
    let t0 := g.mul p2.y t2
    let t8 := g.square p2.z
    let t3 := g.mul p1.x t8
    let t4 := g.mul p2.z t8
    let t2 := g.mul p1.y t4
    if g.equal t1 t3 then
      if g.equal t0 t2 then g.dbl p1 else g.infinity
    else
      let t1 := g.sub t1 t3
      let t4 := g.double t1
      let t4 := g.square t4
      let t5 := g.mul t1 t4
      let t0 := g.sub t0 t2
      let t0 := g.double t0
      let t6 := g.square t0
      let t6 := g.sub t6 t5
      let t3 := g.mul t3 t4
      let t4 := g.double t3
      let x := g.sub t6 t4
      let t4 := g.sub t3 x
      let t6 := g.mul t2 t5
      let t6 := g.double t6
      let t0 := g.mul t0 t4
      let y := g.sub t0 t6
      let t0 := g.add p1.z p2.z
      let t0 := g.square t0
      let t0 := g.sub t0 t7
      let t0 := g.sub t0 t8
      ⟨x, y, g.mul t0 t1⟩

/-- g1.go:412-417, g2.go:420-425 `Neg`. -/
def negPt (p : P3 α) : P3 α := ⟨p.x, g.neg p.y, p.z⟩

/-- g1.go:420-425, g2.go:428-433 `Sub`. -/
def subPt (a b : P3 α) : P3 α := g.addPt a (g.negPt b)

/-- the loop of g1.go:432-437, g2.go:440-445 with `k` iterations left; `e` is the scalar. -/
def mulLoop (e : Nat) : Nat → Nat → P3 α → P3 α → P3 α
  | 0, _, q, _ => q
  | k + 1, i, q, n => mulLoop e k (i + 1) (if e.testBit i then g.addPt q n else q) (g.dbl n)

/-- g1.go:428-439, g2.go:436-447 `MulScalar`; the scalar is a `big.Int` that is never negative in the
repo, so a natural number. -/
def mulScalar (p : P3 α) (e : Nat) : P3 α := g.mulLoop e (Fe.bitLen e) 0 g.blank p

/-- g1.go:282-286, g2.go:290-294 `InCorrectSubgroup`. -/
def inSubgroup (p : P3 α) : Bool := g.isInf (g.mulScalar p order)

/-- the range loops of g1.go:67-71 and g1.go:125-129 (g2.go:75-79, 133-137): first byte `h`, all
others zero. -/
def onlyFlag (h : UInt8) (b : Bytes) : Bool :=
  match b with
  | [] => true
  | c :: t => c == h && t.all (· == 0)

/-- clears the flag bits, `in[0] &= 0x1f` (g1.go:74, 133; g2.go:82, 141). -/
def clearFlags : Bytes → Bytes
  | [] => []
  | c :: t => (c &&& 0x1f) :: t

/-- `out[0] |= v`. -/
def orHead (v : UInt8) : Bytes → Bytes
  | [] => []
  | c :: t => (c ||| v) :: t

/-- g1.go:138-155, g2.go:146-163, the end of `FromCompressed`: solve the curve equation for `y`, take the
root the sort flag `a` asks for, check the subgroup. -/
def solveY (a : Bool) (x : α) : Option (P3 α) :=
  let r := g.sqrt (g.add (g.mul (g.square x) x) g.b)
  if !r.2 then none
  else
    let y := if g.signBE r.1 == a then g.neg r.1 else r.1
    let p : P3 α := ⟨x, y, g.one⟩
    if g.inSubgroup p then some p else none

/-- g1.go:120-155, g2.go:128-163, `FromCompressed` after the copy to `in`; `h` is `in[0]`. -/
def parseCompressed (h : UInt8) (inp : Bytes) : Option (P3 α) :=
  if h &&& 0x80 == 0 then none
  else if h &&& 0x40 != 0 then
    if onlyFlag 0xc0 inp then some g.infinity else none
  else
    match g.fromBytes (clearFlags inp) with
    | none => none
    | some x => g.solveY (h &&& 0x20 != 0) x

/-- g1.go:114-156, g2.go:122-164 `FromCompressed`.  `none`: an error is returned. -/
def fromCompressed (compressed : Bytes) : Option (P3 α) :=
  if compressed.length < g.size then none
  else
    let inp := compressed.take g.size
    g.parseCompressed (inp.headD 0) inp

/-- g1.go:161-174, g2.go:169-182 `ToCompressed` (it also leaves `p` in affine form, the same point). -/
def toCompressed (p : P3 α) : Bytes :=
  let p := g.affine p
  let out :=
    if g.isInf p then orHead 0x40 (List.replicate g.size 0)
    else
      let out := g.toBytes p.x
      if !g.signBE p.y then orHead 0x20 out else out
  orHead 0x80 out

/-- g1.go:60-91, g2.go:68-99, `FromUncompressed` after the copy to `in`; `h` is `in[0]`. -/
def parseUncompressed (h : UInt8) (inp : Bytes) : Option (P3 α) :=
  if h &&& 0x80 != 0 then none
  else if h &&& 0x20 != 0 then none
  else if h &&& 0x40 != 0 then
    if onlyFlag 0x40 inp then some g.infinity else none
  else
    let inp := clearFlags inp
    match g.fromBytes (inp.take g.size) with
    | none => none
    | some x => match g.fromBytes (inp.drop g.size) with
      | none => none
      | some y =>
        let p : P3 α := ⟨x, y, g.one⟩
        if !g.isOnCurve p then none
        else if !g.inSubgroup p then none
        else some p

/-- g1.go:54-92, g2.go:62-100 `FromUncompressed`. -/
def fromUncompressed (u : Bytes) : Option (P3 α) :=
  if u.length < 2 * g.size then none
  else
    let inp := u.take (2 * g.size)
    g.parseUncompressed (inp.headD 0) inp

/-- g1.go:98-108, g2.go:106-116 `ToUncompressed`. -/
def toUncompressed (p : P3 α) : Bytes :=
  if g.isInf p then orHead 0x40 (List.replicate (2 * g.size) 0)
  else
    let p := g.affine p
    g.toBytes p.x ++ g.toBytes p.y

/-- g1.go:194-216, g2.go:202-224 `FromBytes`. -/
def fromBytesPt (b : Bytes) : Option (P3 α) :=
  if b.length < 2 * g.size then none
  else match g.fromBytes (b.take g.size) with
    | none => none
    | some x => match g.fromBytes (b.drop g.size) with
      | none => none
      | some y =>
        if g.isZero x && g.isZero y then some g.infinity
        else
          let p : P3 α := ⟨x, y, g.one⟩
          if !g.isOnCurve p then none else some p

/-- g1.go:221-230, g2.go:229-238 `ToBytes`. -/
def toBytesPt (p : P3 α) : Bytes :=
  if g.isInf p then List.replicate (2 * g.size) 0
  else
    let p := g.affine p
    g.toBytes p.x ++ g.toBytes p.y

end Ops

end Verif.Bls
