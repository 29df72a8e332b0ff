import Verif.SM2.Curve
import Verif.ECDSA.Model
import Verif.Api.Model

/-!
# Model of the SM2 signature, encryption and key agreement of /repo/sm2_std.go

`Run` is a Go computation (it may panic) that carries the ghost flag of the field arithmetic: `bad` says that some
field multiplication of the run underflowed (`Verif/SM2/Field.lean`).  The flag never influences a value.

The hash is a parameter `H`.  The code uses `sm3.New`, `Write` … `Sum(nil)` and `Reset` only in the pattern "write
everything, then one `Sum(nil)`", and `sm3.Sm3Sum`; `Verif/Hash/SM3.lean` models that package.
-/

namespace Verif.SM2

open Verif.ECDSA

/-- a Go result with the ghost flag. -/
structure Run (α : Type) where
  val : Go α
  bad : Bool

instance : Monad Run where
  pure a := ⟨.ret a, false⟩
  bind m f := match m.val with
    | .ret a => let r := f a; ⟨r.val, m.bad || r.bad⟩
    | .panic => ⟨.panic, m.bad⟩

/-- a field computation as a run. -/
def Gh.run {α : Type} (m : Gh α) : Run α := ⟨.ret m.val, m.bad⟩
/-- a Go computation without field arithmetic as a run. -/
def ofGo {α : Type} (g : Go α) : Run α := ⟨g, false⟩

/-- the curve value `sm2_std` (sm2_std.go:46-67) as the generic functions of ecdsa.go and utils.go see it. -/
def curve : ECDSA.Curve := { impl with P := P, N := N }

/-- sm2_std.go:1625-1635: right-hand side of the curve equation in `sm2_std_decompress`; `xa` is set from literal
bytes. -/
def rhs (x : Int) : Int :=
  let x3b := x * x
  let x3b := x3b * x
  let xa : Int := 0xFFFFFFFEFFFFFFFFFFFFFFFFFFFFFFFFFFFFFFFF00000000FFFFFFFFFFFFFFFC
  let xa := xa * x
  let x3b := x3b + B
  let x3b := x3b + xa
  x3b % P

/-- ecdsa.go:42-109 `genPublicKey`, the `sm2_std` branch. -/
def genPublicKeyR (privateKey : Bytes) : Run (Except Err Bytes) := do
  if privateKey.length ≠ 32 then return .error .privateKeyIllegal else
  let d : Int := beNat privateKey
  if d = 0 then return .error .privateKeyIllegal else
  if d ≥ N then return .error .privateKeyIllegal else
  let p ← (scalarBaseMultGh privateKey).run
  return .ok (encode64 p)

/-- the two bytes of `uint16(8 * uidLen)` (sm2_std.go:986-988). -/
def entl (uidLen : Nat) : Bytes :=
  let e := 8 * uidLen % 65536
  [UInt8.ofNat (e / 256 % 256), UInt8.ofNat (e % 256)]

/-- sm2_std.go:980-1005 `ZA`.  `copy(xBuf[32-len(tmp):], tmp)` is the padding to 32 bytes; the coordinates are below
`2^256` at every call. -/
def ZA (H : Bytes → Bytes) (X Y : Int) (uid : Bytes) : Except Err Bytes :=
  if uid.length ≥ 8192 then .error .other else
  .ok (H (entl uid.length ++ uid ++ natBytes (toBig feA).natAbs ++ natBytes B.natAbs ++ natBytes Gx.natAbs ++
    natBytes Gy.natAbs ++ be32 X.natAbs ++ be32 Y.natAbs))

/-- sm2_std.go:1007-1012 `msgHash`. -/
def msgHash (H : Bytes → Bytes) (za msg : Bytes) : Int := beNat (H (za ++ msg))

/-- sm2_std.go:1016-1033 and 1107-1123: the integer `e` that is signed. -/
def digest (H : Bytes → Bytes) (X Y : Int) (hash : Bytes) (uid : Option Bytes) : Except Err Int :=
  match uid with
  | none => if hash.length ≠ 32 then .error .messageIllegal else .ok (beNat hash)
  | some uid => match ZA H X Y uid with
    | .error e => .error e
    | .ok za => .ok (msgHash H za hash)

/-- sm2_std.go:1064-1099: one pass of the two nested loops with the draw `b`; `none` means that the code draws
again.  Lines 1082-1087 leave the inner loop when `r ≠ 0`, and also when `r = 0` and `r + k = N`. -/
def signTry (D e : Int) (b : Bytes) : Run (Option (Int × Int × UInt8)) := do
  let k := randFieldElement N b
  let p ← (scalarBaseMultGh (natBytes k.natAbs)).run
  let r := (p.1 + e) % N
  let v : UInt8 := if p.2 % 2 = 1 then 0x01 else 0x00
  if r = 0 ∧ ¬ (r + k = N) then return none else
  let rD := D * r
  let s := k - rD
  let d1Inv ← ofGo (deref (modInverse (D + 1) N))
  let s := s * d1Inv % N
  if s = 0 then return none else
  return some (r, s, v)

/-- sm2_std.go:1063-1101: the loops over a finite sequence of draws; `none` means that they are used up.  (The
generator, AES-CTR keyed by SHA-512, lines 1035-1056, is not modelled: the draws are arbitrary.) -/
def signLoop (D e : Int) : List Bytes → Run (Option (Int × Int × UInt8))
  | [] => pure none
  | b :: bs => do
    let o ← signTry D e b
    match o with
    | some t => return some t
    | none => signLoop D e bs

/-- ecdsa.go:111-169 `sign`, the `sm2_std` branch, with sm2_std.go:1014-1103 `sm2_std_sign`. -/
def signR (H : Bytes → Bytes) (privateKey : Bytes) (ID : Option Bytes) (hash : Bytes) (rnd : List Bytes) :
    Run (Option (Except Err (Bytes × UInt8))) := do
  if privateKey.length ≠ 32 then return some (.error .privateKeyIllegal) else
  if hash.length ≠ 32 then return some (.error .messageIllegal) else
  let d : Int := beNat privateKey
  if d = 0 then return some (.error .privateKeyIllegal) else
  if d ≥ N then return some (.error .privateKeyIllegal) else
  let p ← (scalarBaseMultGh privateKey).run
  match digest H p.1 p.2 hash ID with
  | .error e => return some (.error e)
  | .ok e =>
    let o ← signLoop d e rnd
    match o with
    | none => return none
    | some (r, s, v) => return some (.ok (be32 r.natAbs ++ be32 s.natAbs, v))

/-- sm2_std.go:1125-1148: `sm2_std_verify` after `e` is known. -/
def verifyCore (X Y e r s : Int) : Gh Bool := do
  if r ≤ 0 ∨ s ≤ 0 then return false else
  if r ≥ N ∨ s ≥ N then return false else
  let t := (r + s) % N
  if t = 0 then return false else
  let p1 ← scalarBaseMultGh (natBytes s.natAbs)
  let p2 ← scalarMultGh X Y (natBytes t.natAbs)
  let p ← addGh p1.1 p1.2 p2.1 p2.2
  return (p.1 + e) % N == r

/-- ecdsa.go:196-234 `verify`, the `sm2_std` branch, with sm2_std.go:1105-1149 `sm2_std_verify`. -/
def verifyR (H : Bytes → Bytes) (publicKey : Bytes) (ID : Option Bytes) (hash signature : Bytes) : Gh Bool := do
  if publicKey.length ≠ 64 then return false else
  if signature.length ≠ 64 then return false else
  if hash.length ≠ 32 then return false else
  let X : Int := beNat (publicKey.take 32)
  let Y : Int := beNat (publicKey.drop 32)
  match digest H X Y hash ID with
  | .error _ => return false
  | .ok e => verifyCore X Y e (beNat (signature.take 32)) (beNat (signature.drop 32))

/-- sm2_std.go:1151-1156 `intToBytes`: the four big-endian bytes of `uint32(x)`. -/
def be4 (n : Nat) : Bytes :=
  [UInt8.ofNat (n / 16777216), UInt8.ofNat (n / 65536), UInt8.ofNat (n / 256), UInt8.ofNat n]

/-- sm2_std.go:1164-1175: the passes `i = j - n, …, j - 1` of the loop of `kdf`, appended to `c`; `ct = i + 1`. -/
def kdfLoop (H : Bytes → Bytes) (z : Bytes) (length j : Nat) : Nat → Bytes → Bytes
  | 0, c => c
  | n + 1, c =>
    let i := j - (n + 1)
    let hash := H (z ++ be4 (i + 1))
    let c := if i + 1 = j ∧ length % 32 ≠ 0 then c ++ hash.take (length % 32) else c ++ hash
    kdfLoop H z length j n c

/-- sm2_std.go:1158-1182 `kdf`: the stream and whether one of its bytes is non-zero.  (Go's `length` is an `int`, negative
in `sm2_std_decrypt` for a short ciphertext; the loops then do nothing, as for 0.) -/
def kdf (H : Bytes → Bytes) (x y : Bytes) (length : Nat) : Bytes × Bool :=
  let j := (length + 31) / 32
  let c := kdfLoop H (x ++ y) length j j []
  (c, (c.take length).any (· ≠ 0))

/-- `c[i] ^= data[i]` for all i. -/
def xorBytes (a b : Bytes) : Bytes := List.zipWith (· ^^^ ·) a b

/-- sm2_std.go:1187-1226: one pass of the loop of `sm2_std_encrypt` with the draw `b`; `none`: the KDF output was all
zeros. -/
def encryptTry (H : Bytes → Bytes) (X Y : Int) (data b : Bytes) : Gh (Option Bytes) := do
  let k := randFieldElement N b
  let p1 ← scalarBaseMultGh (natBytes k.natAbs)
  let p2 ← scalarMultGh X Y (natBytes k.natAbs)
  let c := be32 p1.1.natAbs ++ be32 p1.2.natAbs
  let h := H (be32 p2.1.natAbs ++ data ++ be32 p2.2.natAbs)
  let c := c ++ h
  let ct := kdf H (be32 p2.1.natAbs) (be32 p2.2.natAbs) data.length
  if !ct.2 then return none else
  return some (0x04 :: (c ++ xorBytes ct.1 data))

/-- sm2_std.go:1186-1227: the loop. -/
def encryptLoop (H : Bytes → Bytes) (X Y : Int) (data : Bytes) : List Bytes → Gh (Option Bytes)
  | [] => pure none
  | b :: bs => do
    let o ← encryptTry H X Y data b
    match o with
    | some c => return some c
    | none => encryptLoop H X Y data bs

/-- ecdsa.go:236-255 `encrypt` with sm2_std.go:1184-1228 `sm2_std_encrypt`. -/
def encryptR (H : Bytes → Bytes) (pubkey plain : Bytes) (rnd : List Bytes) : Gh (Option (Except Err Bytes)) := do
  if pubkey.length ≠ 64 then return some (.error .publicKeyIllegal) else
  if plain.length = 0 then return some (.error .messageIllegal) else
  let o ← encryptLoop H (beNat (pubkey.take 32)) (beNat (pubkey.drop 32)) plain rnd
  return o.map .ok

/-- sm2_std.go:1230-1262 `sm2_std_decrypt`: the error (if any) and the value returned with it. -/
def decryptCore (H : Bytes → Bytes) (D : Int) (data : Bytes) : Run (Except Err Bytes × Bytes) := do
  let data ← ofGo (sliceFrom data 1)
  let x ← ofGo (sliceTo data 32)
  let y ← ofGo (sliceTo data 64)
  let length := data.length - 96
  let p2 ← (scalarMultGh (beNat x) (beNat (y.drop 32)) (natBytes D.natAbs)).run
  let ct := kdf H (be32 p2.1.natAbs) (be32 p2.2.natAbs) length
  if !ct.2 then return (.error .other, []) else
  let c := xorBytes ct.1 (data.drop 96)
  let h := H (be32 p2.1.natAbs ++ c ++ be32 p2.2.natAbs)
  if h ≠ (data.drop 64).take 32 then return (.error .other, c) else
  return (.ok c, c)

/-- ecdsa.go:257-287 `decrypt`.  (The public key computed on line 284 is not used.) -/
def decryptR (H : Bytes → Bytes) (prikey cipher : Bytes) : Run (Except Err Bytes × Bytes) := do
  if prikey.length ≠ 32 then return (.error .privateKeyIllegal, []) else
  if cipher.length = 0 then return (.error .messageIllegal, []) else
  let d : Int := beNat prikey
  if d ≥ N then return (.error .privateKeyIllegal, []) else
  let _ ← (scalarBaseMultGh prikey).run
  decryptCore H d cipher

/-- sm2_std.go:1276-1305: the passes `i, i+1, …` (`n` of them) of the loop of `ka_kdf`, `bits` being the `uint16`
`keyLengthbit` at pass `i`. -/
def kaKdfLoop (H : Bytes → Bytes) (z : Bytes) : Nat → Nat → Nat → Bytes → Bytes
  | 0, _, _, key => key
  | n + 1, i, bits, key =>
    let h := H (z ++ be4 i)
    let key := if bits ≥ 256 then key ++ h else key ++ h.take (bits / 8)
    kaKdfLoop H z n (i + 1) ((bits + 65536 - 256) % 65536) key

/-- sm2_std.go:1264-1308 `ka_kdf`; `bits` is a `uint16`. -/
def kaKdf (H : Bytes → Bytes) (X Y : Int) (Zi Zr : Bytes) (bits : Nat) : Bytes :=
  let hlen := if bits % 256 = 0 then bits / 256 else bits / 256 + 1
  kaKdfLoop H (be32 X.natAbs ++ be32 Y.natAbs ++ Zi ++ Zr) hlen 1 bits []

/-- sm2_std.go:1310-1333 `ka_check`. -/
def kaCheck (H : Bytes → Bytes) (value : UInt8) (Zi Zr Ri Rr : Bytes) (X Y : Int) : Bytes :=
  let tmp := H (be32 X.natAbs ++ Zi ++ Zr ++ Ri ++ Rr)
  H (value :: (be32 Y.natAbs ++ tmp))

/-- sm2_std.go:1336-1348 `sm2_std_ka_initiaor_step1`; `random` is what `rand.Read` delivers. -/
def kaInitiator1 (random : Bytes) : Run (Bytes × Bytes) := do
  let tmpPrikey := be32 ((beNat random : Int) % N).natAbs
  let pub ← genPublicKeyR tmpPrikey
  match pub with
  | .ok pub => return (tmpPrikey, pub)
  | .error _ => return (tmpPrikey, [])

/-- sm2_std.go:1381-1383 (and 1404-1406, 1509-1511, 1529-1531): the middle bytes 16 … 31 of a point with the top bit set. -/
def xbar (pub : Bytes) : Bytes :=
  match (pub.drop 16).take 16 with
  | [] => []
  | b :: bs => (b ||| 0x80) :: bs

/-- sm2_std.go:1389-1419 (and 1518-1545): the shared point of one side with static key `d`, temporary key `r` (and its
public part `R`), for the other side's `pub` and `tmpPub`.  `pub[:32]` and `pub[32:]` panic when `pub` is short. -/
def kaPoint (d r : Bytes) (R tmpPub pub : Bytes) : Run (Int × Int) := do
  let t := ((beNat d : Int) + (beNat (xbar R) : Int) * beNat r) % N
  let p1 ← (scalarMultGh (beNat (tmpPub.take 32)) (beNat (tmpPub.drop 32)) (xbar tmpPub)).run
  let x2 ← ofGo (sliceTo pub 32)
  let y2 ← ofGo (sliceFrom pub 32)
  let p ← (addGh p1.1 p1.2 (beNat x2) (beNat y2)).run
  (scalarMultGh p.1 p.2 (natBytes t.natAbs)).run

/-- `IsOnCurve` on the two halves of a 64-byte point (sm2_std.go:1366-1373, 1479-1486). -/
def onCurve64 (b : Bytes) : Gh Bool := isOnCurveGh (beNat (b.take 32)) (beNat (b.drop 32))

/-- sm2_std.go:1421-1452 (and 1547-1574): the two identity hashes, or an error. -/
def kaIds (H : Bytes → Bytes) (IDi IDr pubI pubR : Bytes) : Except Err (Bytes × Bytes) :=
  if pubI.length ≠ 64 then .error .other else
  if pubR.length ≠ 64 then .error .other else
  if IDi.length = 0 then .error .other else
  match ZA H (beNat (pubI.take 32)) (beNat (pubI.drop 32)) IDi with
  | .error e => .error e
  | .ok Zi =>
    if IDr.length = 0 then .error .other else
    match ZA H (beNat (pubR.take 32)) (beNat (pubR.drop 32)) IDr with
    | .error e => .error e
    | .ok Zr => .ok (Zi, Zr)

/-- what the initiator's second step returns: `key`, `Sout` and whether `err` is nil. -/
structure KaInit where
  key : Bytes
  sout : Bytes
  ok : Bool
  deriving DecidableEq, Repr

/-- sm2_std.go:1350-1464 `sm2_std_ka_initiator_step2`.  `keylen * 8` is a `uint16` product. -/
def kaInitiator2 (H : Bytes → Bytes) (IDi IDr priI pubI pubR tmpPriI tmpPubI tmpPubR Sin : Bytes) (keylen : UInt16) :
    Run KaInit := do
  if tmpPubR.length ≠ 64 then return ⟨[], [], false⟩ else
  let on ← (onCurve64 tmpPubR).run
  if !on then return ⟨[], [], false⟩ else
  if tmpPubI.length ≠ 64 then return ⟨[], [], false⟩ else
  if tmpPriI.length ≠ 32 then return ⟨[], [], false⟩ else
  if priI.length ≠ 32 then return ⟨[], [], false⟩ else
  let p ← kaPoint priI tmpPriI tmpPubI tmpPubR pubR
  match kaIds H IDi IDr pubI pubR with
  | .error _ => return ⟨[], [], false⟩
  | .ok (Zi, Zr) =>
    let key := kaKdf H p.1 p.2 Zi Zr (keylen * 8).toNat
    let sCheck := kaCheck H 0x02 Zi Zr tmpPubI tmpPubR p.1 p.2
    if Sin.length ≠ 32 ∨ Sin.length ≠ sCheck.length then return ⟨key, [], false⟩ else
    if sCheck.take 32 ≠ Sin.take 32 then return ⟨key, [], false⟩ else
    return ⟨key, kaCheck H 0x03 Zi Zr tmpPubI tmpPubR p.1 p.2, true⟩

/-- what the responder's first step returns. -/
structure KaResp where
  key : Bytes
  tmpPub : Bytes
  sinner : Bytes
  souter : Bytes
  ok : Bool
  deriving DecidableEq, Repr

/-- sm2_std.go:1491-1505: the responder's temporary private key; `drawn` is what `rand.Read` delivers and `random` the
caller's argument.  `none`: wrong length. -/
def kaTmpPri (random : Option Bytes) (drawn : Bytes) : Option Bytes :=
  match random with
  | none => some (be32 ((beNat drawn : Int) % N).natAbs)
  | some r => if r.length ≠ 32 then none else some r

/-- sm2_std.go:1466-1583 `sm2_std_ka_responder_step1`. -/
def kaResponder1 (H : Bytes → Bytes) (IDi IDr priR pubR pubI tmpPubI : Bytes) (random : Option Bytes) (drawn : Bytes)
    (keylen : UInt16) : Run KaResp := do
  if tmpPubI.length ≠ 64 then return ⟨[], [], [], [], false⟩ else
  let on ← (onCurve64 tmpPubI).run
  if !on then return ⟨[], [], [], [], false⟩ else
  match kaTmpPri random drawn with
  | none => return ⟨[], [], [], [], false⟩
  | some tmpPri =>
    let pub ← genPublicKeyR tmpPri
    match pub with
    | .error _ => return ⟨[], [], [], [], false⟩
    | .ok tmpPubR =>
      if priR.length ≠ 32 then return ⟨[], tmpPubR, [], [], false⟩ else
      let p ← kaPoint priR tmpPri tmpPubR tmpPubI pubI
      match kaIds H IDi IDr pubI pubR with
      | .error _ => return ⟨[], tmpPubR, [], [], false⟩
      | .ok (Zi, Zr) =>
        return ⟨kaKdf H p.1 p.2 Zi Zr (keylen * 8).toNat, tmpPubR, kaCheck H 0x03 Zi Zr tmpPubI tmpPubR p.1 p.2,
          kaCheck H 0x02 Zi Zr tmpPubI tmpPubR p.1 p.2, true⟩

/-- sm2_std.go:1585-1601 `sm2_std_ka_responder_step2`. -/
def kaResponder2 (Si Sr : Bytes) : Bool :=
  if Si.length ≠ 32 then false else
  if Sr.length ≠ 32 then false else
  Si == Sr

/-- the loops of `sm2_std_sign` as the dispatcher sees them: `none` when the draws are used up. -/
def outcome {α : Type} (g : Go (Option α)) : Option (Go α) :=
  match g with
  | .ret none => none
  | .ret (some a) => some (.ret a)
  | .panic => some .panic

/-- the SM2 functions behind the dispatcher of eccset.go. -/
def backend (H : Bytes → Bytes) : Api.Sm2 where
  curve := curve
  sign key ID hash rnd := outcome (signR H key ID hash rnd).val
  verify pub ID hash sig := .ret (verifyR H pub ID hash sig).val
  encrypt pub m rnd := (encryptR H pub m rnd).val.map .ret
  decrypt key ct := (decryptR H key ct).val
  decompress b := .ret (decompress P rhs b)
  recover sig msg := recoverPublic curve rhs sig msg

/-- eccset.go:254-257 `KeyAgreement_initiator_step1`. -/
def keyAgreementInitiatorStep1 (_t : UInt32) (random : Bytes) : Run (Bytes × Bytes) := kaInitiator1 random

/-- eccset.go:259-287 `KeyAgreement_initiator_step2`: key, Sout, code. -/
def keyAgreementInitiatorStep2 (H : Bytes → Bytes) (IDi IDr priI pubI pubR tmpPriI tmpPubI tmpPubR Sin : Bytes)
    (keylen : UInt16) (t : UInt32) : Run (Bytes × Bytes × Nat) := do
  if t ≠ Api.ECC_CURVE_SM2_STANDARD then return ([], [], ECC_WRONG_TYPE) else
  let r ← kaInitiator2 H IDi IDr priI pubI pubR tmpPriI tmpPubI tmpPubR Sin keylen
  return (r.key, r.sout, if r.ok then SUCCESS else FAILURE)

/-- eccset.go:289-314 `KeyAgreement_responder_step1` (`random` is nil) and eccset.go:316-342
`KeyAgreement_responder_ElGamal_step1`: key, temporary public key, Sinner, Souter, code. -/
def keyAgreementResponderStep1 (H : Bytes → Bytes) (IDi IDr priR pubR pubI tmpPubI : Bytes) (keylen : UInt16)
    (random : Option Bytes) (drawn : Bytes) (t : UInt32) : Run (Bytes × Bytes × Bytes × Bytes × Nat) := do
  if t ≠ Api.ECC_CURVE_SM2_STANDARD then return ([], [], [], [], ECC_WRONG_TYPE) else
  let r ← kaResponder1 H IDi IDr priR pubR pubI tmpPubI random drawn keylen
  return (r.key, r.tmpPub, r.sinner, r.souter, if r.ok then SUCCESS else FAILURE)

/-- eccset.go:344-353 `KeyAgreement_responder_step2`. -/
def keyAgreementResponderStep2 (Si Sr : Bytes) (t : UInt32) : Nat :=
  if t ≠ Api.ECC_CURVE_SM2_STANDARD then ECC_WRONG_TYPE else
  if kaResponder2 Si Sr then SUCCESS else FAILURE

end Verif.SM2
