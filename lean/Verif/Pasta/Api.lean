import Verif.Api.Model
import Verif.Pasta.Poseidon

/-!
# Package pasta: model of pasta/pasta.go, pasta/mina.go, pasta/utils.go and the encodings in pasta/crypto.go

`encoding/json` is a parameter: `parse` is `NewMinaMessage` (mina.go:19-26), `none` for its error.  Bytes from crypto/rand are a list of draws.
-/

namespace Verif.Pasta

/-- utils.go:19-24 `BigEndianBytesToFqMontgomeryArray` of 32 bytes. -/
def fqMont (b : Bytes) : Limbs := toMont Fq (bytesToLimbs (reverseBytes b))

/-- utils.go:26-31 `BigEndianBytesToFpMontgomeryArray` of 32 bytes (and crypto.go:93-96, 139-142). -/
def fpMont (b : Bytes) : Limbs := toMont Fp (bytesToLimbs (reverseBytes b))

/-- utils.go:33-39 `FqMontgomeryArrayToBigEndianBytes`. -/
def fqBytes (a : Limbs) : Bytes := reverseBytes (limbsToBytes (fromMont Fq a))

/-- crypto.go:29-35 `Field.ToBigEndianBytes` after `FiatPastaFpFromMontgomery` (crypto.go:65-68). -/
def fpBytes (a : Limbs) : Bytes := reverseBytes (limbsToBytes (fromMont Fp a))

/-- crypto.go:62-71 `Affine.ToBigEndianBytes`. -/
def affineBytes (a : Affine) : Bytes := fpBytes a.X ++ fpBytes a.Y

/-- crypto.go:73-103 `Affine.FromBigEndianBytes` (with `Compressed.FromBigEndianBytes`, crypto.go:127-145): a 65-byte input
leaves the coordinates zero, a bad prefix byte of a 33-byte input is not an error, and neither is a missing square root. -/
def parsePoint (p : Bytes) : Go (Except Err Affine) :=
  if p.length = 33 then do
    let a ← decompress (fpMont (p.drop 1)) (p.getD 0 0 = 3)
    return .ok a
  else if p.length = 65 then
    if p.getD 0 0 ≠ 4 then .ret (.error .other) else .ret (.ok ⟨fieldZero, fieldZero⟩)
  else if p.length = 64 then .ret (.ok ⟨fpMont (p.take 32), fpMont (p.drop 32)⟩)
  else .ret (.error .other)

/-- mina.go:5-9 `MinaMessage`. -/
structure MinaMessage where
  pre : List Limbs
  suffix : List Limbs
  iv : Limbs × Limbs × Limbs

/-- mina.go:28-39 `MessageHash`; the error of `FromBigEndianBytes` is ignored (the callers have parsed the same bytes before). -/
def messageHash (pub : Bytes) (r : Limbs) (m : MinaMessage) : Go Bytes := do
  let a := match ← parsePoint pub with
    | .ok a => a
    | .error _ => ⟨fieldZero, fieldZero⟩
  let transaction := m.pre ++ (a.X :: a.Y :: r :: m.suffix)
  return poseidonDigest (poseidonUpdate (poseidonInit [m.iv.1, m.iv.2.1, m.iv.2.2]) transaction)

/-- pasta.go:11-19 `GenPublicKey`. -/
def genPublicKey (priv : Bytes) : Except Err Bytes :=
  if priv.length ≠ 32 ∨ priv.getD 0 0 &&& 0xC0 ≠ 0 then .error .other
  else .ok (affineBytes (affineScalarMul (fqMont priv) affineOne))

/-- pasta.go:30-33: one draw, the six top bits cleared. -/
def drawK (b : Bytes) : Limbs := fqMont ((b.getD 0 0 &&& 0x03) :: b.drop 1)

/-- pasta.go:29-41: draw until nonzero; `none` when no draw of the list is usable. -/
def pickK : List Bytes → Option Limbs
  | [] => none
  | b :: rest => let k := drawK b; if nonZero k = 0 then pickK rest else some k

/-- pasta.go:21-68 `Sign`.  `Go.panic` at the end of the draws stands for a loop that is still running. -/
def sign (parse : Bytes → Option MinaMessage) (draws : List Bytes) (priv msg : Bytes) : Go (Except Err Bytes) :=
  match genPublicKey priv with
  | .error e => .ret (.error e)
  | .ok pub =>
    match pickK draws with
    | none => .panic
    | some k =>
      let r := affineScalarMul k affineOne
      let rBytes := (affineBytes r).take 32
      let k := if fieldIsOdd r.Y then opp Fq k else k
      match parse msg with
      | none => .ret (.error .other)
      | some mm => do
        let hash ← messageHash pub r.X mm
        let ePriv := mul Fq (fqMont hash) (fqMont priv)
        let s := add Fq k ePriv
        return .ok (rBytes ++ fqBytes s)

/-- pasta.go:70-123 `Verify`.  A nil argument is an empty one: a nil key fails to parse, a nil signature has length 0, and
`json.Unmarshal` of an empty message is an error, so `parse [] = none`. -/
def verify (parse : Bytes → Option MinaMessage) (pub msg sig : Bytes) : Go Bool :=
  if sig.length ≠ 64 then .ret false
  else do
    match ← parsePoint pub with
    | .error _ => return false
    | .ok pubA =>
      let r := fpMont (sig.take 32)
      let s := fqMont (sig.drop 32)
      match parse msg with
      | none => return false
      | some mm =>
        let hash ← messageHash pub r mm
        let e := fqMont hash
        let sg := groupScalarMul s (affineToGroup affineOne)
        let epub := groupScalarMul e (affineToGroup pubA)
        let neg : Group := ⟨epub.X, opp Fp epub.Y, epub.Z⟩
        let raff := affineFromGroup (groupAdd sg neg)
        return (((fromMont Fp raff.Y).l0 &&& 1 = 0 : Bool) && equals Fp raff.X r)

/-- pasta.go:137-153 `PointAdd`. -/
def pointAdd (p1 p2 : Bytes) : Go (Except Err Bytes) := do
  match ← parsePoint p1 with
  | .error e => return .error e
  | .ok p =>
    match ← parsePoint p2 with
    | .error e => return .error e
    | .ok q => return .ok (affineBytes (affineAdd p q))

/-- pasta.go:125-135 `PointMulBaseGAdd`. -/
def pointMulBaseGAdd (pointin scalar : Bytes) : Go (Except Err Bytes) :=
  if scalar.length ≠ 32 then .ret (.error .other)
  else match genPublicKey scalar with
    | .error e => .ret (.error e)
    | .ok t => pointAdd t pointin

/-- pasta.go:155-169 `PointMul`. -/
def pointMul (pointin scalar : Bytes) : Go (Except Err Bytes) :=
  if scalar.length ≠ 32 then .ret (.error .other)
  else do
    match ← parsePoint pointin with
    | .error e => return .error e
    | .ok p => return .ok (affineBytes (affineScalarMul (fqMont scalar) p))

/-- pasta.go:171-178 `PointDecompress`. -/
def pointDecompress (point : Bytes) : Go (Except Err Bytes) := do
  match ← parsePoint point with
  | .error e => return .error e
  | .ok a => return .ok (4 :: affineBytes a)

/-- package pasta as the API uses it (eccset.go:52-54, 106-108, 185-187). -/
def scheme (parse : Bytes → Option MinaMessage) (draws : List Bytes) : Api.Scheme where
  genPub := fun k => .ret (genPublicKey k)
  sign := sign parse draws
  verify := verify parse

/-- eccset.go:419, 482, 542: `pout, _ := …`, the error is dropped. -/
def dropErr (r : Go (Except Err Bytes)) : Go Bytes := do
  match ← r with
  | .ok b => return b
  | .error _ => return []

end Verif.Pasta
