import Verif.ECDSA.Model
import Verif.Secp256k1.Ecdsa
import Verif.Secp256r1.Curve

/-!
# Model of /repo/eccset.go: the exported dispatch functions

`nil` slices are `[]`.  Return values are `(bytes, code)`.  Backends that live in other packages or are
modelled elsewhere are fields of `Env`, so the dispatch theorems hold whatever they do.
-/

namespace Verif.Api

open Verif.EC Verif.ECDSA

/-! profile.go curve identifiers -/
/-- profile.go:42 -/
def ECC_CURVE_SECP256K1 : UInt32 := 0xECC00000
/-- profile.go:43 -/
def ECC_CURVE_SECP256R1 : UInt32 := 0xECC00001
/-- profile.go:46 -/
def ECC_CURVE_SM2_STANDARD : UInt32 := 0xECC00002
/-- profile.go:47 -/
def ECC_CURVE_ED25519_NORMAL : UInt32 := 0xECC00003
/-- profile.go:48 -/
def ECC_CURVE_ED25519 : UInt32 := 0xECC00004
/-- profile.go:49 -/
def ECC_CURVE_X25519 : UInt32 := 0xECC00005
/-- profile.go:50 -/
def ECC_CURVE_CURVE25519_SHA256 : UInt32 := 0xECC00006
/-- profile.go:51 -/
def ECC_CURVE_BLS_NUL : UInt32 := 0xECC00007
/-- profile.go:52 -/
def ECC_CURVE_BLS_AUG : UInt32 := 0xECC00008
/-- profile.go:53 -/
def ECC_CURVE_PASTA : UInt32 := 0xECC00009

/-- profile.go:55 `BASIC_SCHEME_DST` ("BLS_SIG_BLS12381G2_XMD:SHA-256_SSWU_RO_NUL_") -/
def BASIC_SCHEME_DST : Bytes := "BLS_SIG_BLS12381G2_XMD:SHA-256_SSWU_RO_NUL_".toUTF8.toList
/-- profile.go:56 `AUG_SCHEME_DST` -/
def AUG_SCHEME_DST : Bytes := "BLS_SIG_BLS12381G2_XMD:SHA-256_SSWU_RO_AUG_".toUTF8.toList

/-- a signature scheme of a sub-package (eddsa, bls12_381, pasta). -/
structure Scheme where
  genPub : Bytes → Go (Except Err Bytes)
  sign : Bytes → Bytes → Go (Except Err Bytes)
  verify : Bytes → Bytes → Bytes → Go Bool

/-- the SM2 functions of sm2_std.go that the dispatcher calls. -/
structure Sm2 where
  curve : ECDSA.Curve
  sign : Bytes → Option Bytes → Bytes → List Bytes → Option (Go (Except Err (Bytes × UInt8)))
  verify : Bytes → Option Bytes → Bytes → Bytes → Go Bool
  encrypt : Bytes → Bytes → List Bytes → Option (Go (Except Err Bytes))
  decrypt : Bytes → Bytes → Go (Except Err Bytes × Bytes)
  decompress : Bytes → Go (Except Err Bytes)
  recover : Bytes → Bytes → Go (Except Err Bytes)

/-- everything the dispatcher calls outside the secp256k1/secp256r1 code. -/
structure Env where
  /-- `crypto/elliptic.CurveParams` methods used by secp256r1 -/
  ell : CurveImpl
  sm2 : Sm2
  edNormal : Scheme
  ed : Scheme
  x25519 : Scheme
  c25519sha256 : Scheme
  bls : Scheme
  pasta : Scheme
  blsAggregate : List Bytes → Go (Except Err Bytes)
  blsMulBaseAdd : Bytes → Bytes → Go (Bytes × Bool)
  edMulBaseAdd : Bytes → Bytes → Go (Bytes × Bool)
  edAdd : Bytes → Bytes → Go (Bytes × Bool)
  pastaMulBaseAdd : Bytes → Bytes → Go Bytes
  pastaAdd : Bytes → Bytes → Go Bytes
  pastaMul : Bytes → Bytes → Go Bytes
  pastaDecompress : Bytes → Go (Except Err Bytes)

/-- the curve value behind a curve identifier, for the three `crypto/elliptic`-style curves. -/
def Env.k1 (_ : Env) : ECDSA.Curve := Secp256k1.curve
def Env.r1 (E : Env) : ECDSA.Curve := Secp256r1.curve E.ell

/-- eccset.go:57-67: error mapping of `GenPubkey`. -/
def genPubErr : Except Err Bytes → Bytes × Nat
  | .ok b => (b, SUCCESS)
  | .error .privateKeyIllegal => ([], ECC_PRIKEY_ILLEGAL)
  | .error .unknownCurve => ([], ECC_WRONG_TYPE)
  | .error _ => ([], FAILURE)

/-- eccset.go:25-70 `GenPubkey`. -/
def genPubkey (E : Env) (prikey : Bytes) (t : UInt32) : Go (Bytes × Nat) :=
  if t = ECC_CURVE_ED25519_NORMAL then do return genPubErr (← E.edNormal.genPub prikey)
  else if t = ECC_CURVE_ED25519 then do return genPubErr (← E.ed.genPub prikey)
  else if t = ECC_CURVE_X25519 then do return genPubErr (← E.x25519.genPub prikey)
  else if t = ECC_CURVE_CURVE25519_SHA256 then do return genPubErr (← E.c25519sha256.genPub prikey)
  else if t = ECC_CURVE_SECP256K1 then .ret (genPubErr (genPublicKey E.k1 prikey))
  else if t = ECC_CURVE_SECP256R1 then .ret (genPubErr (genPublicKey E.r1 prikey))
  else if t = ECC_CURVE_SM2_STANDARD then .ret (genPubErr (genPublicKey E.sm2.curve prikey))
  else if t = ECC_CURVE_BLS_AUG ∨ t = ECC_CURVE_BLS_NUL then do return genPubErr (← E.bls.genPub prikey)
  else if t = ECC_CURVE_PASTA then do return genPubErr (← E.pasta.genPub prikey)
  else .ret ([], ECC_WRONG_TYPE)

/-- eccset.go:112-125: error mapping of `Signature`. -/
def signErr : Except Err (Bytes × UInt8) → Bytes × UInt8 × Nat
  | .ok (b, v) => (b, v, SUCCESS)
  | .error .privateKeyIllegal => ([], 0, ECC_PRIKEY_ILLEGAL)
  | .error .unknownCurve => ([], 0, ECC_WRONG_TYPE)
  | .error .messageIllegal => ([], 0, MESSAGE_ILLEGAL)
  | .error _ => ([], 0, FAILURE)

/-- adds the zero `v` of the schemes that have none. -/
def noV : Except Err Bytes → Except Err (Bytes × UInt8)
  | .ok b => .ok (b, 0)
  | .error e => .error e

/-- eccset.go:72-128 `Signature`.  `none`: a retry loop has not ended within the draws `rnd`. -/
def signature (E : Env) (prikey : Bytes) (ID : Option Bytes) (message : Bytes) (t : UInt32)
    (rnd : List Bytes) : Option (Go (Bytes × UInt8 × Nat)) :=
  if t = ECC_CURVE_ED25519_NORMAL then some do return signErr (noV (← E.edNormal.sign prikey message))
  else if t = ECC_CURVE_ED25519 then some do return signErr (noV (← E.ed.sign prikey message))
  else if t = ECC_CURVE_X25519 then some do return signErr (noV (← E.x25519.sign prikey message))
  else if t = ECC_CURVE_CURVE25519_SHA256 then
    some do return signErr (noV (← E.c25519sha256.sign prikey message))
  else if t = ECC_CURVE_SECP256K1 then (sign E.k1 prikey message rnd).map fun r => .ret (signErr r)
  else if t = ECC_CURVE_SECP256R1 then (sign E.r1 prikey message rnd).map fun r => .ret (signErr r)
  else if t = ECC_CURVE_SM2_STANDARD then
    (E.sm2.sign prikey ID message rnd).map fun r => do return signErr (← r)
  else if t = ECC_CURVE_BLS_NUL then
    some do return signErr (noV (← E.bls.sign prikey (BASIC_SCHEME_DST ++ message)))
  else if t = ECC_CURVE_BLS_AUG then some do
    let (pubkey, _) ← genPubkey E prikey t
    return signErr (noV (← E.bls.sign prikey (AUG_SCHEME_DST ++ (pubkey ++ message))))
  else if t = ECC_CURVE_PASTA then some do return signErr (noV (← E.pasta.sign prikey message))
  else some (.ret ([], 0, ECC_WRONG_TYPE))

/-- eccset.go:130-150 `AggregateSignatures`. -/
def aggregateSignatures (E : Env) (t : UInt32) (sigs : List Bytes) : Go (Bytes × Nat) :=
  if sigs.length = 0 then .ret ([], FAILURE)
  else if t = ECC_CURVE_BLS_NUL ∨ t = ECC_CURVE_BLS_AUG then do
    match ← E.blsAggregate sigs with
    | .ok b => return (b, SUCCESS)
    | .error _ => return ([], FAILURE)
  else .ret ([], ECC_WRONG_TYPE)

/-- eccset.go:189-195. -/
def passCode (b : Bool) : Nat := if b then SUCCESS else FAILURE

/-- eccset.go:152-196 `Verify`. -/
def verify (E : Env) (pubkey : Bytes) (ID : Option Bytes) (message signature : Bytes) (t : UInt32) : Go Nat :=
  if t = ECC_CURVE_ED25519_NORMAL then do return passCode (← E.edNormal.verify pubkey message signature)
  else if t = ECC_CURVE_ED25519 then do return passCode (← E.ed.verify pubkey message signature)
  else if t = ECC_CURVE_X25519 then do return passCode (← E.x25519.verify pubkey message signature)
  else if t = ECC_CURVE_CURVE25519_SHA256 then do
    return passCode (← E.c25519sha256.verify pubkey message signature)
  else if t = ECC_CURVE_SECP256K1 then do return passCode (← ECDSA.verify E.k1 pubkey message signature)
  else if t = ECC_CURVE_SECP256R1 then do return passCode (← ECDSA.verify E.r1 pubkey message signature)
  else if t = ECC_CURVE_SM2_STANDARD then do return passCode (← E.sm2.verify pubkey ID message signature)
  else if t = ECC_CURVE_BLS_NUL then do
    return passCode (← E.bls.verify pubkey (BASIC_SCHEME_DST ++ message) signature)
  else if t = ECC_CURVE_BLS_AUG then do
    return passCode (← E.bls.verify pubkey (AUG_SCHEME_DST ++ (pubkey ++ message)) signature)
  else if t = ECC_CURVE_PASTA then do return passCode (← E.pasta.verify pubkey message signature)
  else .ret ECC_WRONG_TYPE

/-- eccset.go:198-224 `Encryption`; errors other than the three listed fall through to SUCCESS with the
value returned next to the error (nil). -/
def encryption (E : Env) (pubkey plain : Bytes) (t : UInt32) (rnd : List Bytes) : Option (Go (Bytes × Nat)) :=
  if t = ECC_CURVE_SM2_STANDARD then
    (E.sm2.encrypt pubkey plain rnd).map fun g => do
      match ← g with
      | .ok b => return (b, SUCCESS)
      | .error .publicKeyIllegal => return ([], ECC_PUBKEY_ILLEGAL)
      | .error .messageIllegal => return ([], MESSAGE_ILLEGAL)
      | .error .unknownCurve => return ([], ECC_WRONG_TYPE)
      | .error _ => return ([], SUCCESS)
  else some (.ret ([], ECC_WRONG_TYPE))

/-- eccset.go:226-251 `Decryption`.  The backend returns the error and the value returned next to it;
an error outside the three listed ones falls through to SUCCESS with that value. -/
def decryption (E : Env) (prikey cipher : Bytes) (t : UInt32) : Go (Bytes × Nat) :=
  if t = ECC_CURVE_SM2_STANDARD then do
    let (r, plain) ← E.sm2.decrypt prikey cipher
    match r with
    | .ok b => return (b, SUCCESS)
    | .error .privateKeyIllegal => return ([], ECC_PRIKEY_ILLEGAL)
    | .error .messageIllegal => return ([], MESSAGE_ILLEGAL)
    | .error .unknownCurve => return ([], ECC_WRONG_TYPE)
    | .error _ => return (plain, SUCCESS)
  else .ret ([], ECC_WRONG_TYPE)

/-- `ret, _ := f(...)`: the error is dropped and the value next to it is nil. -/
def okOrNil : Except Err Bytes → Bytes
  | .ok b => b
  | .error _ => []

/-- eccset.go:580-602 `PointCompress`. -/
def pointCompress (point : Bytes) (t : UInt32) : Bytes :=
  if t ≠ ECC_CURVE_SECP256K1 ∧ t ≠ ECC_CURVE_SECP256R1 ∧ t ≠ ECC_CURVE_SM2_STANDARD ∧ t ≠ ECC_CURVE_PASTA then []
  else
  let point := if point.length = 65 ∧ point.getD 0 0 = 0x04 then point.drop 1 else point
  if point.length ≠ 64 then []
  else if point.getD 63 0 % 2 = 0 then 0x02 :: point.take 32
  else 0x03 :: point.take 32

/-- eccset.go:604-641 `PointDecompress`. -/
def pointDecompress (E : Env) (point : Bytes) (t : UInt32) : Go Bytes :=
  if point.length ≠ 33 then .ret []
  else if t = ECC_CURVE_SECP256K1 then .ret (okOrNil (decompress Secp256k1.P Secp256k1.rhs point))
  else if t = ECC_CURVE_SECP256R1 then .ret (okOrNil (decompress Secp256r1.P Secp256r1.rhs point))
  else if t = ECC_CURVE_SM2_STANDARD then do return okOrNil (← E.sm2.decompress point)
  else if t = ECC_CURVE_PASTA then do return okOrNil (← E.pastaDecompress point)
  else .ret []

/-- eccset.go:355-388 `Point_mulBaseG`. -/
def pointMulBaseG (E : Env) (scalar : Bytes) (t : UInt32) : Go Bytes :=
  if scalar.length ≠ 32 then .ret []
  else if t = ECC_CURVE_SECP256K1 then .ret (pointCompress (okOrNil (genPublicKey E.k1 scalar)) t)
  else if t = ECC_CURVE_SECP256R1 then .ret (pointCompress (okOrNil (genPublicKey E.r1 scalar)) t)
  else if t = ECC_CURVE_SM2_STANDARD then .ret (pointCompress (okOrNil (genPublicKey E.sm2.curve scalar)) t)
  else if t = ECC_CURVE_ED25519 then do return okOrNil (← E.ed.genPub scalar)
  else if t = ECC_CURVE_BLS_NUL ∨ t = ECC_CURVE_BLS_AUG then do return okOrNil (← E.bls.genPub scalar)
  else if t = ECC_CURVE_PASTA then do return pointCompress (okOrNil (← E.pasta.genPub scalar)) t
  else .ret []

/-- eccset.go:390-425 `Point_mulBaseG_add`. -/
def pointMulBaseGAdd (E : Env) (pointin scalar : Bytes) (t : UInt32) : Go (Bytes × Bool) :=
  if scalar.length ≠ 32 then .ret ([], false)
  else if t = ECC_CURVE_SECP256K1 then mulBaseGAdd E.k1 pointin scalar
  else if t = ECC_CURVE_SECP256R1 then mulBaseGAdd E.r1 pointin scalar
  else if t = ECC_CURVE_SM2_STANDARD then mulBaseGAdd E.sm2.curve pointin scalar
  else if t = ECC_CURVE_ED25519 then E.edMulBaseAdd pointin scalar
  else if t = ECC_CURVE_BLS_NUL ∨ t = ECC_CURVE_BLS_AUG then E.blsMulBaseAdd pointin scalar
  else if t = ECC_CURVE_PASTA then do return (← E.pastaMulBaseAdd pointin scalar, false)
  else .ret ([], false)

/-- eccset.go:433-440 (also 442-448 and 497-503): normalisation of a point argument to 64 bytes;
`none` stands for the early `return nil, FAILURE`.  `PointDecompress(...)[1:]` panics on nil. -/
def normPoint (E : Env) (p : Bytes) (t : UInt32) : Go (Option Bytes) :=
  if p.length = 33 then do
    let d ← pointDecompress E p t
    let s ← sliceFrom d 1
    return some s
  else if p.length = 65 then .ret (some (p.drop 1))
  else if p.length ≠ 64 then .ret none
  else .ret (some p)

/-- `if is_infinity { return nil, FAILURE }; return point, SUCCESS`. -/
def infCode (r : Bytes × Bool) : Bytes × Nat := if r.2 then ([], FAILURE) else (r.1, SUCCESS)

/-- eccset.go:427-489 `Point_add`. -/
def pointAdd (E : Env) (point1 point2 : Bytes) (t : UInt32) : Go (Bytes × Nat) :=
  if t = ECC_CURVE_ED25519 then
    if point1.length ≠ 32 ∨ point2.length ≠ 32 then .ret ([], FAILURE)
    else do return infCode (← E.edAdd point1 point2)
  else do
    match ← normPoint E point1 t with
    | none => return ([], FAILURE)
    | some p1 =>
      match ← normPoint E point2 t with
      | none => return ([], FAILURE)
      | some p2 =>
        if t = ECC_CURVE_SECP256K1 then return infCode (← addPoints E.k1 p1 p2)
        else if t = ECC_CURVE_SECP256R1 then return infCode (← addPoints E.r1 p1 p2)
        else if t = ECC_CURVE_SM2_STANDARD then return infCode (← addPoints E.sm2.curve p1 p2)
        else if t = ECC_CURVE_PASTA then return (← E.pastaAdd p1 p2, SUCCESS)
        else return ([], FAILURE)

/-- eccset.go:491-549 `Point_mul`. -/
def pointMul (E : Env) (pointin scalar : Bytes) (t : UInt32) : Go (Bytes × Nat) :=
  if t = ECC_CURVE_ED25519 then .ret ([], FAILURE)
  else do
    match ← normPoint E pointin t with
    | none => return ([], FAILURE)
    | some p =>
      if scalar.length ≠ 32 then return ([], FAILURE)
      else if t = ECC_CURVE_SECP256K1 then return infCode (← mulPoint E.k1 p scalar)
      else if t = ECC_CURVE_SECP256R1 then return infCode (← mulPoint E.r1 p scalar)
      else if t = ECC_CURVE_SM2_STANDARD then return infCode (← mulPoint E.sm2.curve p scalar)
      else if t = ECC_CURVE_PASTA then return (← E.pastaMul p scalar, SUCCESS)
      else return ([], FAILURE)

/-- eccset.go:551-578 `GetCurveOrder`. -/
def getCurveOrder (t : UInt32) : Bytes :=
  if t = ECC_CURVE_SECP256K1 then natBytes 0xfffffffffffffffffffffffffffffffebaaedce6af48a03bbfd25e8cd0364141
  else if t = ECC_CURVE_SECP256R1 then natBytes 0xffffffff00000000ffffffffffffffffbce6faada7179e84f3b9cac2fc632551
  else if t = ECC_CURVE_SM2_STANDARD then natBytes 0xFFFFFFFEFFFFFFFFFFFFFFFFFFFFFFFF7203DF6B21C6052B53BBF40939D54123
  else if t = ECC_CURVE_ED25519 then natBytes 0x1000000000000000000000000000000014def9dea2f79cd65812631a5cf5d3ed
  else if t = ECC_CURVE_PASTA then natBytes 0x40000000000000000000000000000000224698fc0994a8dd8c46eb2100000001
  else []

/-- eccset.go:643-672 `RecoverPubkey`. -/
def recoverPubkey (E : Env) (sig msg : Bytes) (t : UInt32) : Go (Bytes × Nat) :=
  let code : Except Err Bytes → Bytes × Nat := fun r => match r with
    | .ok b => (b, SUCCESS)
    | .error _ => ([], FAILURE)
  if t = ECC_CURVE_SECP256K1 then do return code (← recoverPublic E.k1 Secp256k1.rhs sig msg)
  else if t = ECC_CURVE_SECP256R1 then do return code (← recoverPublic E.r1 Secp256r1.rhs sig msg)
  else if t = ECC_CURVE_SM2_STANDARD then do return code (← E.sm2.recover sig msg)
  else .ret ([], ECC_WRONG_TYPE)

end Verif.Api
