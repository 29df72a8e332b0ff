import Verif.Bls.Pairing
import Verif.Bls.HashG2
import Verif.Api.Model

/-!
# BLS signatures: model of bls12_381/bls12-381.go, g1.go, g2.go, scalar.go and group.go

Outside the repo, hence assumptions:

* github.com/drand/kyber `sign/bls`, `NewSchemeOnG2`.  `Sign(x, msg)` is
  `HM := Point().Hash(msg); HM.Mul(x, HM).MarshalBinary()`; `Verify(X, msg, sig)` is `HM := Point().Hash(msg);
  sigPoint.UnmarshalBinary(sig)` (an error is returned), then `ValidatePairing(X, HM, Base(), sigPoint)`;
  `AggregateSignatures` starts with `Point()`, and for each element unmarshals it (an error is returned) and adds
  it, then marshals.
* kyber's `mod.Int`: `NewInt64(0, M).SetBytes(b)` is the big-endian number `b` mod `M`.
* github.com/phoreproject/bls/g1pubs is the parameter `Phore`.
* crypto/sha256 is the parameter `H`.
-/

namespace Verif.Bls

open Verif.Api

/-- github.com/phoreproject/bls/g1pubs, as far as bls12-381.go calls it. -/
structure Phore where
  /-- `*g1pubs.PublicKey`'s point -/
  Pt : Type
  /-- `PrivToPub(DeserializeSecretKey(sk))` -/
  privToPub : Bytes → Pt
  /-- `PublicKey.Serialize` of a point in affine form -/
  serialize : Pt → Bytes
  /-- `DeserializePublicKey`; `none`: nil and an error -/
  deserialize : Bytes → Option Pt
  /-- `G1Projective.Add` -/
  add : Pt → Pt → Pt

/-- copies into a `[n]byte`: `copy(sk[:], skBytes)` (bls12-381.go:35-36, 76-77). -/
def copyTo (n : Nat) (b : Bytes) : Bytes := (b ++ List.replicate n 0).take n

/-- bls12-381.go:12-19 `isScalarLegal`. -/
def isScalarLegal (scalar : Bytes) : Bool := beNat scalar < order

/-- bls12-381.go:21-32 `GenPublicKey`. -/
def genPublicKey (X : Phore) (privateKey : Bytes) : Except Err Bytes :=
  if privateKey.length ≠ 32 then .error .other
  else if !isScalarLegal privateKey then .error .other
  else .ok (X.serialize (X.privToPub (copyTo 32 privateKey)))

/-- g2.go:137-140 `basic_scheme_dst`. -/
def basicDst : Bytes := "BLS_SIG_BLS12381G2_XMD:SHA-256_SSWU_RO_NUL_".toUTF8.toList
/-- g2.go:137-140 `aug_scheme_dst`. -/
def augDst : Bytes := "BLS_SIG_BLS12381G2_XMD:SHA-256_SSWU_RO_AUG_".toUTF8.toList

/-- g2.go:142-152 `OwcryptG2.Hash` of a new point (`NullOwcryptG2`); `none` is a nil `k.p`, the error of
`HashToCurve` being dropped.  `strings.Index(s, prefix) == 0` says that `s` starts with `prefix`. -/
def hashPoint (bd : Build) (H : Bytes → Bytes) (m : Bytes) : Go (Option (P3 Fe2)) :=
  if basicDst.isPrefixOf m then hashToG2 bd H (m.drop basicDst.length) (m.take basicDst.length)
  else if augDst.isPrefixOf m then hashToG2 bd H (m.drop augDst.length) (m.take augDst.length)
  else .ret (some (g2 bd).blank)

/-- scalar.go:16-18 `NewScalar`. -/
def newScalar (b : Bytes) : Nat := beNat b % order

/-- bls12-381.go:40-49 `Sign`, with kyber's `Sign`. -/
def sign (bd : Build) (H : Bytes → Bytes) (privateKey message : Bytes) : Go (Except Err Bytes) :=
  if privateKey.length ≠ 32 then .ret (.error .other)
  else do
    let hm ← deref (← hashPoint bd H message)
    return .ok ((g2 bd).toCompressed ((g2 bd).mulScalar hm (newScalar privateKey)))

/-- bls12-381.go:51-66 `Verify`, with kyber's `Verify`.  The error of `pk.UnmarshalBinary` is dropped; a public key
that does not parse leaves a nil pointer, which `ValidatePairing` dereferences. -/
def verify (bd : Build) (H : Bytes → Bytes) (publicKey message signature : Bytes) : Go Bool :=
  if publicKey.length ≠ 48 ∨ message.length = 0 ∨ signature.length ≠ 96 then .ret false
  else do
    let hm ← hashPoint bd H message
    match (g2 bd).fromCompressed signature with
    | none => return false
    | some s =>
      let pk ← deref ((g1 bd).fromCompressed publicKey)
      let hm ← deref hm
      return validatePairing bd pk hm (g1 bd).gen s

/-- the loop of kyber's `AggregateSignatures`. -/
def aggregateLoop (bd : Build) : P3 Fe2 → List Bytes → Option (P3 Fe2)
  | acc, [] => some acc
  | acc, s :: ss =>
    match (g2 bd).fromCompressed s with
    | none => none
    | some p => aggregateLoop bd ((g2 bd).addPt acc p) ss

/-- bls12-381.go:68-73 `AggregateSignatures`. -/
def aggregate (bd : Build) (sigs : List Bytes) : Except Err Bytes :=
  match aggregateLoop bd (g2 bd).blank sigs with
  | none => .error .other
  | some p => .ok ((g2 bd).toCompressed p)

/-- bls12-381.go:87-97 `scalarMulG`; `none`: nil and an error. -/
def scalarMulG (X : Phore) (scalar : Bytes) : Option X.Pt :=
  if scalar.length ≠ 32 then none
  else if !isScalarLegal scalar then none
  else some (X.privToPub (copyTo 32 scalar))

/-- bls12-381.go:99-115 `ScalarMultBaseAdd`: the errors are dropped, nil points are dereferenced. -/
def scalarMultBaseAdd (X : Phore) (pointin scalar : Bytes) : Go (Bytes × Bool) := do
  let pin ← deref (X.deserialize (copyTo 48 pointin))
  let ps ← deref (scalarMulG X scalar)
  let out := X.serialize (X.add pin ps)
  if beNat out = 0 then return ([], true) else return (out, false)

/-- the functions of package bls12_381 that eccset.go calls. -/
def scheme (bd : Build) (H : Bytes → Bytes) (X : Phore) : Scheme where
  genPub k := .ret (genPublicKey X k)
  sign := sign bd H
  verify := verify bd H

end Verif.Bls
