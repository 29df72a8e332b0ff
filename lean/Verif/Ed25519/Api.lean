import Verif.Ed25519.Group
import Verif.Api.Model

/-!
# Model of /repo/eddsa/{curve25519,ed25519,x25519,convert}.go

SHA-512 (crypto/sha512) is a parameter; `h.Write` several times and `h.Sum` hash the concatenation.  Bytes drawn from crypto/rand are
a parameter.  `eddsa.ErrPrivateKeyIllegal` is a different value from the error of the same name in package owcrypt, so the dispatcher
does not recognise it: it is `Err.other` here.  A nil slice is the empty list.
-/

namespace Verif.Ed25519

/-- change one byte of a string. -/
def setByte (s : Bytes) (i : Nat) (f : UInt8 → UInt8) : Bytes := s.set i (f (s.getD i 0))

/-- curve25519.go:29-31: the clamping in `CURVE25519_genPub`. -/
def clampPub (s : Bytes) : Bytes := setByte (setByte s 0 (· &&& 248)) 31 (fun x => x &&& 127 ||| 64)

/-- curve25519.go:62-64 and ed25519.go:60-62: the clamping in the two `sign` functions. -/
def clampSign (s : Bytes) : Bytes := setByte (setByte s 0 (· &&& 248)) 31 (fun x => x &&& 63 ||| 64)

/-- curve25519.go:23-42 `CURVE25519_genPub` -/
def curveGenPub (sha512 : Bytes → Bytes) (prikey : Bytes) : Except Err Bytes :=
  if prikey.length ≠ 32 then .error .other
  else
    let digest := clampPub (sha512 prikey)
    .ok (extToBytes (geScalarMultBase (digest.take 32)))

/-- curve25519.go:66-94 and ed25519.go:64-92: the common end of the two `sign` functions, from the prefix of the nonce hash. -/
def signCore (sha512 : Bytes → Bytes) (expanded pubkey seed message : Bytes) : Bytes :=
  let nonce := scReduce (sha512 (seed ++ message))
  let encodedR := extToBytes (geScalarMultBase nonce)
  let hram := scReduce (sha512 (encodedR ++ pubkey ++ message))
  encodedR ++ scMulAdd hram expanded nonce

/-- curve25519.go:44-95 `CURVE25519_sign` -/
def curveSign (sha512 : Bytes → Bytes) (prikey message : Bytes) : Except Err Bytes :=
  match curveGenPub sha512 prikey with
  | .error e => .error e
  | .ok pubkey =>
    let digest1 := sha512 prikey
    .ok (signCore sha512 (clampSign (digest1.take 32)) pubkey (digest1.drop 32) message)

/-- negate a point as the verification functions do: `FeNeg` on `X` and `T`. -/
def extNeg (A : Ext) : Ext := ⟨feNeg A.X, A.Y, A.Z, feNeg A.T⟩

/-- curve25519.go:98-137 `CURVE25519_verify` and ed25519.go:95-134 `ED25519_verify`, which have the same body. -/
def edVerify (sha512 : Bytes → Bytes) (pubkey message sig : Bytes) : Bool :=
  if pubkey.length ≠ 32 then false
  else if sig.length ≠ 64 ∨ sig.getD 63 0 &&& 224 ≠ 0 then false
  else
    let r := extFromBytes pubkey
    if ¬ r.1 then false
    else
      let h := scReduce (sha512 (sig.take 32 ++ pubkey ++ message))
      let R := geDoubleScalarMult h (extNeg r.2) (sig.drop 32)
      projToBytes R == sig.take 32

/-- ed25519.go:29-43 `ED25519_genPub` -/
def edGenPub (prikey : Bytes) : Except Err Bytes :=
  if prikey.length ≠ 32 then .error .other else .ok (extToBytes (geScalarMultBase prikey))

/-- ed25519.go:46-93 `ED25519_sign`; `rnd` are the 32 bytes read at line 63. -/
def edSign (sha512 : Bytes → Bytes) (rnd prikey message : Bytes) : Except Err Bytes :=
  match edGenPub prikey with
  | .error e => .error e
  | .ok pubkey => .ok (signCore sha512 (clampSign prikey) pubkey rnd message)

/-- ed25519.go:136-145 `feIsZero` -/
def feIsZero (f : Fe) : Bool := feToBytes f == List.replicate 32 0

/-- ed25519.go:147-157 `feIsOne` -/
def feIsOne (f : Fe) : Bool := feToBytes f == 1 :: List.replicate 31 0

/-- the array `one` of ed25519.go:166,169 and :190,193. -/
def oneBytes : Bytes := 1 :: List.replicate 31 0

/-- ed25519.go:172-182 and :198-208: the end of `ScalarMultBaseAdd` and `Point_add`; `(nil, true)` when the point is the identity
(eccset.go:405-413, :471-479). -/
def affOut (R : Proj) : Bytes × Bool :=
  let recip := feInvert R.Z
  let x := feMul R.X recip
  let y := feMul R.Y recip
  if feIsZero x && feIsOne y then ([], true)
  else (affBytes R.X R.Y R.Z, false)

/-- `copy` into a zeroed 32-byte array. -/
def fit32 (s : Bytes) : Bytes := (s ++ List.replicate 32 0).take 32

/-- ed25519.go:159-183 `ScalarMultBaseAdd` with eccset.go:405-413; the result of `FromBytes` is not looked at. -/
def edMulBaseAdd (pointin scalar : Bytes) : Bytes × Bool :=
  affOut (geDoubleScalarMult oneBytes (extFromBytes (fit32 pointin)).2 (fit32 scalar))

/-- ed25519.go:185-209 `Point_add` with eccset.go:471-479; the results of `FromBytes` are not looked at. -/
def edAdd (point1 point2 : Bytes) : Bytes × Bool :=
  affOut (gePointAdd oneBytes (extFromBytes (fit32 point1)).2 oneBytes (extFromBytes (fit32 point2)).2)

/-! ## convert.go -/

/-- convert.go:27-42 `montToEdy` -/
def montToEdy (u : Fe) : Fe :=
  let um1 := feSub u feOne
  let up1 := feAdd u feOne
  feMul um1 (feInvert up1)

/-- convert.go:44-59 `montFromEdy` -/
def montFromEdy (y : Fe) : Fe :=
  let um1 := feSub feOne y
  let um1 := feInvert um1
  let up1 := feAdd y feOne
  feMul um1 up1

/-- convert.go:69-81 `feIsReduced`: true when the string is NOT the canonical encoding of its value. -/
def feIsReduced (s : Bytes) : Bool := s != feToBytes (feFromBytes s)

/-- convert.go:84-97 `ConvertXToEd` -/
def convertXToEd (x : Bytes) : Except Err Bytes :=
  if feIsReduced x then .error .other else .ok (feToBytes (montToEdy (feFromBytes x)))

/-- convert.go:99-112 `ConvertEdToX` -/
def convertEdToX (ed : Bytes) : Except Err Bytes :=
  let x := feToBytes (montFromEdy (feFromBytes ed))
  if feIsReduced x then .error .other else .ok x

/-- eccset.go:674-686 `CURVE25519_convert_X_to_Ed` -/
def apiXToEd (x : Bytes) : Except Err Bytes := if x.length ≠ 32 then .error .other else convertXToEd x

/-- eccset.go:688-699 `CURVE25519_convert_Ed_to_X` -/
def apiEdToX (ed : Bytes) : Except Err Bytes := if ed.length ≠ 32 then .error .other else convertEdToX ed

/-! ## x25519.go -/

/-- x25519.go:24-40 `X25519_genPub` -/
def xGenPub (prikey : Bytes) : Except Err Bytes :=
  if prikey.length ≠ 32 then .error .other
  else convertEdToX (extToBytes (geScalarMultBase prikey))

/-- x25519.go:398-403: the first 32 bytes of the buffer. -/
def noncePrefix : Bytes := 0xFE :: List.replicate 31 0xFF

/-- x25519.go:394-431 `sign_modify` on a buffer of `len(message) + 128` bytes; `x25519_sc_reduce` (:54-392) is `ScReduce`. -/
def signModify (sha512 : Bytes → Bytes) (message prikey edPub random : Bytes) : Bytes :=
  let nonce := scReduce (sha512 (noncePrefix ++ prikey ++ message ++ random))
  let Rbytes := extToBytes (geScalarMultBase nonce)
  let hram := scReduce (sha512 (Rbytes ++ edPub ++ message))
  Rbytes ++ scMulAdd hram prikey nonce

/-- x25519.go:433-454 `X25519_sign`; `random` are the 64 bytes read at line 446. -/
def xSign (sha512 : Bytes → Bytes) (random prikey message : Bytes) : Except Err Bytes :=
  match edGenPub prikey with
  | .error e => .error e
  | .ok edPub =>
    let signbit := edPub.getD 31 0 &&& 0x80
    .ok (setByte (signModify sha512 message prikey edPub random) 63 (fun x => x &&& 0x7F ||| signbit))

/-- x25519.go:521-559 `geFromBytesNegateVartime` on a zero-valued receiver. -/
def extFromBytesNegate (s : Bytes) : Bool × Ext :=
  let Y := feFromBytes s
  let c := sqrtCand Y
  let u := c.1
  let X := c.2.1
  let vxx := c.2.2
  let sign (X : Fe) : Bool × Ext :=
    let neg := feIsNegative X
    let X := feReduce X
    let X := if neg = s.getD 31 0 >>> 7 then feNeg X else X
    (true, ⟨X, Y, feOne, feMul X Y⟩)
  if feIsNonZero (feSub vxx u) ≠ 0 then
    if feIsNonZero (feAdd vxx u) ≠ 0 then (false, ⟨X, Y, feOne, feZero⟩)
    else sign (feMul X sqrtM1C)
  else sign X

/-- x25519.go:570-604 `verify_modify`: `R`, `S`, the public key and the message. -/
def verifyModify (sha512 : Bytes → Bytes) (R S message pk : Bytes) : Bool :=
  if S.getD 31 0 &&& 224 ≠ 0 then false
  else
    let A := extFromBytesNegate pk
    if ¬ A.1 then false
    else
      let h := scReduce (sha512 (R ++ pk ++ message))
      projToBytes (geDoubleScalarMult h A.2 S) == R

/-- x25519.go:606-631 `X25519_verify` -/
def xVerify (sha512 : Bytes → Bytes) (pubkey message sig : Bytes) : Bool :=
  if sig.length ≠ 64 ∨ pubkey.length ≠ 32 ∨ message.length = 0 then false
  else
    let y := montToEdy (feFromBytes pubkey)
    let edPub := setByte (feToBytes y) 31 (fun x => x &&& 0x7F ||| (sig.getD 63 0 &&& 0x80))
    verifyModify sha512 (sig.take 32) (setByte (sig.drop 32) 31 (· &&& 0x7F)) message edPub

/-! ## The schemes of the dispatcher -/

/-- `ECC_CURVE_ED25519_NORMAL` -/
def edNormalScheme (sha512 : Bytes → Bytes) : Api.Scheme where
  genPub k := .ret (curveGenPub sha512 k)
  sign k m := .ret (curveSign sha512 k m)
  verify p m s := .ret (edVerify sha512 p m s)

/-- `ECC_CURVE_ED25519`, when `crypto/rand` yields `rnd`. -/
def edScheme (sha512 : Bytes → Bytes) (rnd : Bytes) : Api.Scheme where
  genPub k := .ret (edGenPub k)
  sign k m := .ret (edSign sha512 rnd k m)
  verify p m s := .ret (edVerify sha512 p m s)

/-- `ECC_CURVE_X25519`, when `crypto/rand` yields `rnd`. -/
def xScheme (sha512 : Bytes → Bytes) (rnd : Bytes) : Api.Scheme where
  genPub k := .ret (xGenPub k)
  sign k m := .ret (xSign sha512 rnd k m)
  verify p m s := .ret (xVerify sha512 p m s)

end Verif.Ed25519
