import Verif.Go
import Verif.BigInt
import Verif.EC.Curve

/-!
# Model of /repo/ecdsa.go and /repo/utils.go (secp256k1 / secp256r1 branches)

The Go functions take a curve name and select a global curve value; the branches for secp256k1 and
secp256r1 are textually identical up to that value, so the model takes it as a parameter
(`Curve`).  The `sm2_std` branches are modelled under `Verif/SM2`.
-/

namespace Verif.ECDSA

open Verif.EC

/-- a curve value: the `elliptic.Curve` methods and the fields `P`, `N`. -/
structure Curve extends CurveImpl where
  P : Int
  N : Int

/-- `append(x, y...)` of two coordinates after the padding loops (ecdsa.go:97-108, 341-352, 387-398,
437-448). -/
def encode64 (q : Int × Int) : Bytes := be32 q.1.natAbs ++ be32 q.2.natAbs

/-- ecdsa.go:42-109 `genPublicKey`. -/
def genPublicKey (C : Curve) (privateKey : Bytes) : Except Err Bytes :=
  if privateKey.length ≠ 32 then .error .privateKeyIllegal else
  let d : Int := beNat privateKey
  if d = 0 then .error .privateKeyIllegal else
  if d ≥ C.N then .error .privateKeyIllegal else
  .ok (encode64 (C.scalarBaseMult privateKey))

/-- utils.go:166-179 `hashToInt`. -/
def hashToInt (N : Int) (hash : Bytes) : Int :=
  let orderBits := N.toNat.log2 + 1
  let orderBytes := (orderBits + 7) / 8
  let hash := if hash.length > orderBytes then hash.take orderBytes else hash
  let ret := beNat hash
  let excess : Int := (hash.length * 8 : Nat) - (orderBits : Nat)
  if excess > 0 then ((ret >>> excess.toNat : Nat) : Int) else ret

/-- utils.go:36-49 `randFieldElement`; `b` is the block read from the generator. -/
def randFieldElement (N : Int) (b : Bytes) : Int := (beNat b : Int) % (N - 1) + 1

/-- utils.go:55-59 `fermatInverse`. -/
def fermatInverse (k N : Int) : Int := modExp k (N - 2).toNat N.toNat

/-- utils.go:87 and 113: the "canonical" test on a big-endian integer padded to 32 bytes. -/
def canonical (b : Bytes) : Bool :=
  (b.getD 0 0 &&& 0x80 == 0) && !(b.getD 0 0 == 0 && (b.getD 1 0 &&& 0x80 == 0))

/-- utils.go:67-119: one pass of the two nested loops of `signGeneric` with the draw `b`.  `none` means
that the code goes back to drawing another `k` (the inner loop when `r` is zero or not canonical,
the outer loop when `s` is).  -/
def signTry (C : Curve) (D e : Int) (b : Bytes) : Option (Int × Int × UInt8) :=
  let k := randFieldElement C.N b
  let kInv := fermatInverse k C.N
  let p := C.scalarBaseMult (natBytes k.natAbs)
  let r := p.1 % C.N
  let ry := p.2
  if r = 0 then none else
  if !canonical (be32 r.natAbs) then none else
  let v : UInt8 := if ry % 2 = 1 then 1 else 0
  let s := D * r
  let s := s + e
  let s := s * kInv
  let s := s % C.N
  if s = 0 then none else
  let half := C.N / 2
  let (s, v) := if s > half then (C.N - s, v ^^^ 1) else (s, v)
  if !canonical (be32 s.natAbs) then none else
  some (r, s, v)

/-- utils.go:61-121 `signGeneric`.  The generator is an arbitrary finite sequence of draws; `none`
means that the loop is still running when the draws are used up.  (AES-CTR keyed by SHA-512 of key,
entropy and hash, utils.go:123-158, is not modelled: the draws are arbitrary.) -/
def signGeneric (C : Curve) (D e : Int) : List Bytes → Option (Int × Int × UInt8)
  | [] => none
  | b :: bs => match signTry C D e b with
    | some t => some t
    | none => signGeneric C D e bs

/-- ecdsa.go:111-194 `sign`.  `none`: the retry loop has not ended within the draws `rnd`.  The
slices `signature[32-len(rBytes):32]` cannot go out of range because `r, s < N < 2^256`. -/
def sign (C : Curve) (privateKey hash : Bytes) (rnd : List Bytes) : Option (Except Err (Bytes × UInt8)) :=
  if privateKey.length ≠ 32 then some (.error .privateKeyIllegal) else
  if hash.length ≠ 32 then some (.error .messageIllegal) else
  let d : Int := beNat privateKey
  if d = 0 then some (.error .privateKeyIllegal) else
  if d ≥ C.N then some (.error .privateKeyIllegal) else
  match signGeneric C d (hashToInt C.N hash) rnd with
  | none => none
  | some (r, s, v) => some (.ok (be32 r.natAbs ++ be32 s.natAbs, v))

/-- utils.go:200-229 `verifyGeneric`.  (`invertible` and `combinedMult` are implemented by neither
curve type.)  `panic` when `ModInverse` returns nil. -/
def verifyGeneric (C : Curve) (X Y e r s : Int) : Go Bool := do
  let w ← deref (modInverse s C.N)
  let u1 := e * w
  let u1 := u1 % C.N
  let u2 := r * w
  let u2 := u2 % C.N
  let p1 := C.scalarBaseMult (natBytes u1.natAbs)
  let p2 := C.scalarMult X Y (natBytes u2.natAbs)
  let p := C.add p1.1 p1.2 p2.1 p2.2
  if p.1 = 0 ∧ p.2 = 0 then return false
  return p.1 % C.N == r

/-- utils.go:185-198 `verifyesdsa`. -/
def verifyesdsa (C : Curve) (X Y : Int) (hash : Bytes) (r s : Int) : Go Bool :=
  if r ≤ 0 ∨ s ≤ 0 then .ret false else
  if r ≥ C.N ∨ s ≥ C.N then .ret false else
  verifyGeneric C X Y (hashToInt C.N hash) r s

/-- ecdsa.go:196-234 `verify`. -/
def verify (C : Curve) (publicKey hash signature : Bytes) : Go Bool :=
  if publicKey.length ≠ 64 then .ret false else
  if signature.length ≠ 64 then .ret false else
  if hash.length ≠ 32 then .ret false else
  verifyesdsa C (beNat (publicKey.take 32)) (beNat (publicKey.drop 32)) hash
    (beNat (signature.take 32)) (beNat (signature.drop 32))

/-- ecdsa.go:289-353 `MulBaseG_Add`.  The pair is (point, isinfinity). -/
def mulBaseGAdd (C : Curve) (pointin scalar : Bytes) : Go (Bytes × Bool) := do
  let px ← sliceTo pointin 32
  let py ← sliceFrom pointin 32
  let q := C.scalarBaseMult scalar
  let q := C.add q.1 q.2 (beNat px) (beNat py)
  if q.1 = 0 ∧ q.2 = 0 then return ([], true)
  return (encode64 q, false)

/-- ecdsa.go:355-399 `Add`.  Line 383 tests `x_big` twice and never `y_big`. -/
def addPoints (C : Curve) (point1 point2 : Bytes) : Go (Bytes × Bool) := do
  let x1 ← sliceTo point1 32
  let y1 ← sliceFrom point1 32
  let x2 ← sliceTo point2 32
  let y2 ← sliceFrom point2 32
  let q := C.add (beNat x1) (beNat y1) (beNat x2) (beNat y2)
  if q.1 = 0 ∧ q.1 = 0 then return ([], true)
  return (encode64 q, false)

/-- ecdsa.go:401-449 `Mul`. -/
def mulPoint (C : Curve) (pointin scalar : Bytes) : Go (Bytes × Bool) := do
  let px ← sliceTo pointin 32
  let py ← sliceFrom pointin 32
  let q := C.scalarMult (beNat px) (beNat py) scalar
  if q.1 = 0 ∧ q.2 = 0 then return ([], true)
  return (encode64 q, false)

/-- secp256k1.go:263-277 / secp256r1.go:60-74, the part of `decompress` after the right-hand side `rhs`
of the curve equation has been computed.  `y.ModSqrt` leaves `y = 0` when there is no root. -/
def decompressTail (P : Int) (ybit : Nat) (xb : Bytes) (rhs : Int) : Except Err Bytes :=
  let y : Int := ((modSqrt3 rhs.toNat P.toNat).getD 0 : Nat)
  let y := if y % 2 ≠ ybit then P - y else y
  if y % 2 ≠ ybit then .error .other else
  .ok (0x04 :: xb ++ be32 y.natAbs)

/-- secp256k1.go:240-278 / secp256r1.go:36-75 `decompress` with `rhs x` the computation of
`x³ + a x + b mod P`. -/
def decompress (P : Int) (rhs : Int → Int) (inp : Bytes) : Except Err Bytes :=
  match inp with
  | [] => .error .other
  | b0 :: xb =>
    if inp.length ≠ 33 ∨ (b0 ≠ 0x02 ∧ b0 ≠ 0x03) then .error .other else
    decompressTail P (if b0 = 0x02 then 0 else 1) xb (rhs (beNat xb))

/-- one iteration of the loop of `recover_public` (secp256k1.go:301-352 / secp256r1.go:97-146): candidate key
from the scalar `s` and the prefix byte `pre`.  Returns the key if it verifies. `buf1[1:33]` panics
when `PointDecompress` returned nil. -/
def recoverStep (C : Curve) (rhs : Int → Int) (rInv : Option Int) (rb sb hash : Bytes) (pre : UInt8)
    (s : Int) : Go (Option Bytes) := do
  let buf1 := match decompress C.P rhs (pre :: rb) with
    | .ok b => b
    | .error _ => []
  let t ← sliceTo buf1 33
  let Ry ← sliceFrom buf1 33
  let p1 := C.scalarMult (beNat (t.drop 1)) (beNat Ry) (natBytes s.natAbs)
  let p2 := C.scalarBaseMult hash
  let p2y := C.P - p2.2
  let p1 := C.add p1.1 p1.2 p2.1 p2y
  let ri ← deref rInv
  let p2 := C.scalarMult p1.1 p1.2 (natBytes ri.natAbs)
  let ok ← verifyesdsa C p2.1 p2.2 hash (beNat rb) (beNat sb)
  if ok then return some (encode64 p2) else return none

/-- secp256k1.go:280-354 / secp256r1.go:77-148 `recover_public`. -/
def recoverPublic (C : Curve) (rhs : Int → Int) (sig msg : Bytes) : Go (Except Err Bytes) :=
  if sig.length ≠ 65 ∨ msg.length ≠ 32 then .ret (.error .other) else
  let rb := sig.take 32
  let sb := (sig.drop 32).take 32
  let v := sig.getD 64 0
  let rInv := modInverse (beNat rb) C.N
  let s0 : Int := if v = 1 then C.N - beNat sb else 0
  let s1 : Int := if v = 0 then C.N - beNat sb else s0
  do
  let o ← recoverStep C rhs rInv rb sb msg 0x02 s0
  match o with
  | some k => return .ok k
  | none =>
    let o ← recoverStep C rhs rInv rb sb msg 0x03 s1
    match o with
    | some k => return .ok k
    | none => return .error .other

end Verif.ECDSA
