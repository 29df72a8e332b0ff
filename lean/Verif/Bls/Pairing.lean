import Verif.Bls.Tower

/-!
# BLS12-381 pairing: model of bls12_381/bls/pairing.go

The engine's list of pairs is a list; an entry holds affine points.  `AddPair` and `AddPairInv` also normalise (and
negate) the caller's points in place; the callers in the repo pass points they do not use again.
-/

namespace Verif.Bls

/-- `[3]fe2`, the coefficients of a line. -/
structure Coeff where
  c0 : Fe2
  c1 : Fe2
  c2 : Fe2

/-- bls12_381.go:254 `x` (the absolute value of the curve parameter). -/
def blsX : Nat := 0xd201000000010000

/-- pairing.go:85-117 `doublingStep`: the line coefficients and the new `r`. -/
def doublingStep (r : P3 Fe2) : Coeff × P3 Fe2 :=
  let t0 := Fe2.mul r.x r.y
  let t0 := Fe2.mulByFq t0 twoInv
  let t1 := Fe2.square r.y
  let t2 := Fe2.square r.z
  let t7 := Fe2.double t2
  let t7 := Fe2.add t7 t2
  let t3 := Fe2.mulByB t7
  let t4 := Fe2.double t3
  let t4 := Fe2.add t4 t3
  let t5 := Fe2.add t1 t4
  let t5 := Fe2.mulByFq t5 twoInv
  let t6 := Fe2.add r.y r.z
  let t6 := Fe2.square t6
  let t7 := Fe2.add t2 t1
  let t6 := Fe2.sub t6 t7
  let k0 := Fe2.sub t3 t1
  let t7 := Fe2.square r.x
  let t4 := Fe2.sub t1 t4
  let rx := Fe2.mul t4 t0
  let t2 := Fe2.square t3
  let t3 := Fe2.double t2
  let t3 := Fe2.add t3 t2
  let t5 := Fe2.square t5
  let ry := Fe2.sub t5 t3
  let rz := Fe2.mul t1 t6
  let t0 := Fe2.double t7
  let k1 := Fe2.add t0 t7
  let k2 := Fe2.neg t6
  (⟨k0, k1, k2⟩, ⟨rx, ry, rz⟩)

/-- pairing.go:119-148 `additionStep`: the line coefficients and the new `r`. -/
def additionStep (r q : P3 Fe2) : Coeff × P3 Fe2 :=
  let t0 := Fe2.mul q.y r.z
  let t0 := Fe2.neg t0
  let t0 := Fe2.add t0 r.y
  let t1 := Fe2.mul q.x r.z
  let t1 := Fe2.neg t1
  let t1 := Fe2.add t1 r.x
  let t2 := Fe2.square t0
  let t3 := Fe2.square t1
  let t4 := Fe2.mul t1 t3
  let t2 := Fe2.mul r.z t2
  let t3 := Fe2.mul r.x t3
  let t5 := Fe2.double t3
  let t5 := Fe2.sub t4 t5
  let t5 := Fe2.add t5 t2
  let rx := Fe2.mul t1 t5
  let t2 := Fe2.sub t3 t5
  let t2 := Fe2.mul t2 t0
  let t3 := Fe2.mul r.y t4
  let ry := Fe2.sub t2 t3
  let rz := Fe2.mul r.z t4
  let t2 := Fe2.mul t1 q.y
  let t3 := Fe2.mul t0 q.x
  let k0 := Fe2.sub t3 t2
  let k1 := Fe2.neg t0
  let k2 := t1
  (⟨k0, k1, k2⟩, ⟨rx, ry, rz⟩)

/-- the loop of pairing.go:158-166 (`preCompute`): `k` bits of `x` are left, the next is bit `k - 1`. -/
def preLoop (q : P3 Fe2) : Nat → P3 Fe2 → List Coeff
  | 0, _ => []
  | k + 1, r =>
    let d := doublingStep r
    if blsX.testBit k then
      let a := additionStep d.2 q
      d.1 :: a.1 :: preLoop q k a.2
    else d.1 :: preLoop q k d.2

/-- pairing.go:150-167 `preCompute`.  The array of 68 coefficients is a list of those that are written; for a
point at infinity (which `AddPair` keeps out of the engine) nothing is written. -/
def preCompute (bd : Build) (q : P3 Fe2) : List Coeff :=
  if (g2 bd).isInf q then [] else preLoop q (Fe.bitLen blsX - 1) q

/-- a pair with the line coefficients `millerLoop` has not used yet (`ellCoeffs[i][j:]`). -/
abbrev Lines := P3 Fe × List Coeff

/-- the inner loops of pairing.go:183-187 and 190-194: multiplies `f` by the current line of every pair. -/
def ell (f : Fe12) : List Lines → Fe12
  | [] => f
  | (p, cs) :: ps =>
    match cs with
    | [] => ell f ps
    | c :: _ => ell (Fe12.mulBy014Assign f c.c0 (Fe2.mulByFq c.c1 p.x) (Fe2.mulByFq c.c2 p.y)) ps

/-- `j++`. -/
def next (ps : List Lines) : List Lines := ps.map fun p => (p.1, p.2.tail)

/-- the loop of pairing.go:179-197 with `k` iterations left (`i = k - 1`). -/
def millerSteps : Nat → Fe12 → List Lines → Fe12
  | 0, f, _ => f
  | k + 1, f, ps =>
    let f := if k ≠ 62 then Fe12.square f else f
    let f := ell f ps
    let ps := next ps
    if blsX.testBit k then millerSteps k (ell f ps) (next ps) else millerSteps k f ps

/-- pairing.go:169-199 `millerLoop`. -/
def millerLoop (bd : Build) (pairs : List (P3 Fe × P3 Fe2)) : Fe12 :=
  Fe12.conjugate (millerSteps 63 Fe12.one (pairs.map fun p => (p.1, preCompute bd p.2)))

/-- pairing.go:201-205 `exp`. -/
def expX (a : Fe12) : Fe12 := Fe12.conjugate (Fe12.cyclotomicExp a blsX)

/-- pairing.go:207-241 `finalExp`. -/
def finalExp (bd : Build) (f : Fe12) : Fe12 :=
  let t0 := Fe12.frobeniusMap f 6
  let t1 := Fe12.inverse bd f
  let t2 := Fe12.mul t0 t1
  let t1 := t2
  let t2 := Fe12.frobeniusMapAssign t2 2
  let t2 := Fe12.mul t2 t1
  let t1 := Fe12.cyclotomicSquare t2
  let t1 := Fe12.conjugate t1
  let t3 := expX t2
  let t4 := Fe12.cyclotomicSquare t3
  let t5 := Fe12.mul t1 t3
  let t1 := expX t5
  let t0 := expX t1
  let t6 := expX t0
  let t6 := Fe12.mul t6 t4
  let t4 := expX t6
  let t5 := Fe12.conjugate t5
  let t4 := Fe12.mul t4 t5
  let t4 := Fe12.mul t4 t2
  let t5 := Fe12.conjugate t2
  let t1 := Fe12.mul t1 t2
  let t1 := Fe12.frobeniusMapAssign t1 3
  let t6 := Fe12.mul t6 t5
  let t6 := Fe12.frobeniusMapAssign t6 1
  let t3 := Fe12.mul t3 t0
  let t3 := Fe12.frobeniusMapAssign t3 2
  let t3 := Fe12.mul t3 t1
  let t3 := Fe12.mul t3 t6
  Fe12.mul t3 t4

/-- pairing.go:243-251 `calculate`. -/
def calculate (bd : Build) (pairs : List (P3 Fe × P3 Fe2)) : Fe12 :=
  if pairs.length = 0 then Fe12.one else finalExp bd (millerLoop bd pairs)

/-- pairing.go:54-61 `AddPair`. -/
def addPair (bd : Build) (pairs : List (P3 Fe × P3 Fe2)) (p : P3 Fe) (q : P3 Fe2) : List (P3 Fe × P3 Fe2) :=
  if !((g1 bd).isInf p || (g2 bd).isInf q) then pairs ++ [((g1 bd).affine p, (g2 bd).affine q)] else pairs

/-- pairing.go:64-68 `AddPairInv`. -/
def addPairInv (bd : Build) (pairs : List (P3 Fe × P3 Fe2)) (p : P3 Fe) (q : P3 Fe2) : List (P3 Fe × P3 Fe2) :=
  addPair bd pairs ((g1 bd).negPt p) q

/-- pairing.go:254-256 `Check`. -/
def check (bd : Build) (pairs : List (P3 Fe × P3 Fe2)) : Bool := Fe12.equal Fe12.one (calculate bd pairs)

/-- bls12_381/group.go:106-111 `ValidatePairing`. -/
def validatePairing (bd : Build) (p1 : P3 Fe) (p2 : P3 Fe2) (p3 : P3 Fe) (p4 : P3 Fe2) : Bool :=
  check bd (addPairInv bd (addPair bd [] p1 p2) p3 p4)

/-- bls12_381/group.go:113-118 `Pair`. -/
def pair (bd : Build) (p : P3 Fe) (q : P3 Fe2) : Fe12 := calculate bd (addPair bd [] p q)

end Verif.Bls
