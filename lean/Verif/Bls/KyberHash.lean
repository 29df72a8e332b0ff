import Verif.Bls.Scheme
import Verif.Bls.HashG1

/-!
# The kyber point objects: `Hash`, `Pick`, `String` of g1.go and g2.go

A point object is its pointer `k.p` (`none` is nil), a stream is the function from positions to key stream bytes.
-/

namespace Verif.Bls

/-- g2.go:17 `Domain`, used by g1.go:132 only. -/
def hashDomain : Bytes := "BLS_SIG_BLS12381G2_XMD:SHA-256_SSWU_RO_AUG_".toUTF8.toList

/-- g1.go:131-136 `OwcryptG1.Hash`: the new value of the pointer; the error of `HashToCurve` is dropped. -/
def owG1Hash (bd : Build) (H : Bytes → Bytes) (_k : Option (P3 Fe)) (m : Bytes) : Go (Option (P3 Fe)) := hashToG1 bd H m hashDomain

/-- g2.go:142-152 `OwcryptG2.Hash`: the new value of the pointer; `hashPoint` is the case of a new object. -/
def owG2Hash (bd : Build) (H : Bytes → Bytes) (k : Option (P3 Fe2)) (m : Bytes) : Go (Option (P3 Fe2)) :=
  if basicDst.isPrefixOf m then hashToG2 bd H (m.drop basicDst.length) (m.take basicDst.length)
  else if augDst.isPrefixOf m then hashToG2 bd H (m.drop augDst.length) (m.take augDst.length)
  else .ret k

/-- g1.go:39-40, g2.go:45-46: XOR of 32 zero bytes with the key stream. -/
def streamBytes (stream : Nat → UInt8) : Bytes := (List.range 32).map stream

/-- g1.go:38-42 `OwcryptG1.Pick`. -/
def owG1Pick (bd : Build) (H : Bytes → Bytes) (k : Option (P3 Fe)) (stream : Nat → UInt8) : Go (Option (P3 Fe)) :=
  owG1Hash bd H k (streamBytes stream)

/-- g2.go:44-48 `OwcryptG2.Pick`. -/
def owG2Pick (bd : Build) (H : Bytes → Bytes) (k : Option (P3 Fe2)) (stream : Nat → UInt8) : Go (Option (P3 Fe2)) :=
  owG2Hash bd H k (streamBytes stream)

/-- one digit of `hex.EncodeToString`. -/
def hexDigit (n : Nat) : Char := if n < 10 then Char.ofNat (48 + n) else Char.ofNat (87 + n)

/-- encoding/hex `EncodeToString`. -/
def hexString (b : Bytes) : List Char := b.flatMap fun c => [hexDigit (c.toNat / 16), hexDigit (c.toNat % 16)]

/-- g1.go:126-129 `OwcryptG1.String`; a nil pointer panics. -/
def owG1String (bd : Build) (k : Option (P3 Fe)) : Go (List Char) :=
  match k with
  | none => .panic
  | some p => .ret ("bls12-381.G1: ".toList ++ hexString ((g1 bd).toCompressed p))

/-- g2.go:132-135 `OwcryptG2.String`; the text names G1. -/
def owG2String (bd : Build) (k : Option (P3 Fe2)) : Go (List Char) :=
  match k with
  | none => .panic
  | some p => .ret ("bls12-381.G1: ".toList ++ hexString ((g2 bd).toCompressed p))

end Verif.Bls
