import Verif.Api.Model
import Verif.C25519.Sign

/-!
# Caller memory: the API calls that write to their arguments

The other models take the contents of the slices.  Here the slices of a caller lie in one backing array, and two functions are modelled with
their effect on it: the private key on CURVE25519_SHA256 (curve25519_sha256.go clamps the caller's key) and the `append` to the caller's
public key in `Verify` on BLS AUG (eccset.go:181).
-/

namespace Verif.Api

open Verif

/-- a Go slice: offset into the backing array, length and capacity. -/
structure Slice where
  off : Nat
  len : Nat
  cap : Nat

/-- the slice lies in the array. -/
def Slice.Valid (s : Slice) (mem : Bytes) : Prop := s.len ≤ s.cap ∧ s.off + s.cap ≤ mem.length

/-- the contents of a slice. -/
def Slice.read (s : Slice) (mem : Bytes) : Bytes := (mem.drop s.off).take s.len

/-- write bytes into the array from an index on. -/
def write (mem : Bytes) (i : Nat) (b : Bytes) : Bytes := mem.take i ++ b ++ mem.drop (i + b.length)

/-- Go's `append(s, data...)`, the effect on the array of `s`: the data are written after the slice when the capacity suffices; otherwise a new
array is allocated.  The contents of the result are `s.read mem ++ data` in both cases. -/
def appendMem (mem : Bytes) (s : Slice) (data : Bytes) : Bytes :=
  if s.len + data.length ≤ s.cap then write mem (s.off + s.len) data else mem

/-- eccset.go:180-184: `Verify` on BLS AUG, for a public key, message and signature in the same array: the new array and the result. -/
def verifyAugMem (E : Env) (mem : Bytes) (pubkey message signature : Slice) : Bytes × Go Bool :=
  let data := message.read mem
  let m1 := pubkey.read mem ++ data
  let mem := appendMem mem pubkey data
  (mem, E.bls.verify (pubkey.read mem) (AUG_SCHEME_DST ++ m1) (signature.read mem))

/-- eccset.go:37-39 and curve25519_sha256.go:20-30, :146-149: `GenPubkey` on CURVE25519_SHA256 for a key in an array: the new array and the
result. -/
def genPubC25519Mem (mem : Bytes) (prikey : Slice) : Bytes × Except Err Bytes :=
  let k := prikey.read mem
  if k.length ≠ 32 then (mem, .error .other) else (write mem prikey.off (C25519.keygen k).2, .ok (C25519.keygen k).1)

end Verif.Api
