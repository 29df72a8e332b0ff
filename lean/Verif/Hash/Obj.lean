import Verif.Hash.SM3
import Verif.Hash.SHA3
import Verif.Hash.Blake
import Verif.Hash.Blake2s

/-!
# The `hash.Hash` values of the packages sm3, sha3, blake256, blake512 and blake2s

`HashObj` is the part of Go's `hash.Hash` interface that the callers use: a fresh value, `Write`, `Sum` and `Reset`, each with
the state it leaves, and `BlockSize`.
-/

namespace Verif.Hash

/-- a `hash.Hash` with states `S`. -/
structure HashObj (S : Type) where
  init : S
  write : S → Bytes → Go S
  sum : S → Bytes → Go (S × Bytes)
  reset : S → S
  blockSize : Nat

/-- sm3.go: `New`, `Write`, `Sum`, `Reset`, `BlockSize`. -/
def sm3Obj : HashObj SM3.St where
  init := SM3.reset
  write s p := .ret (SM3.write s p)
  sum s b := .ret (SM3.sum s b)
  reset _ := SM3.reset
  blockSize := 64

/-- sha3/hashes.go:7-17: the value of one of the constructors; `Sum` leaves the state as it is. -/
def sha3Obj (s0 : SHA3.St) : HashObj SHA3.St where
  init := s0
  write := SHA3.write
  sum s b := do
    let out ← SHA3.sum s b
    .ret (s, out)
  reset := SHA3.reset
  blockSize := s0.rate

/-- blake256.go, blake512.go: `Sum` works on a copy. -/
def blakeObj {w : Nat} (C : Blake.Cfg w) (short : Bool) (iv salt : List (BitVec w)) : HashObj (Blake.St w) where
  init := Blake.new short iv salt
  write s p := .ret (Blake.write C s p)
  sum s b := .ret (s, Blake.sum C s b)
  reset := Blake.reset iv
  blockSize := C.blockSize

/-- blake2s.go: `Sum` works on a copy. -/
def blake2sObj (d : Blake2s.St) : HashObj Blake2s.St where
  init := d
  write s p := .ret (Blake2s.write s p)
  sum s b := .ret (s, Blake2s.sum s b)
  reset := Blake2s.reset
  blockSize := 64

/-- `Write` of every chunk. -/
def HashObj.writes {S : Type} (O : HashObj S) : S → List Bytes → Go S
  | s, [] => .ret s
  | s, p :: ps => do
    let s ← O.write s p
    O.writes s ps

/-- one `Write` and `Sum(nil)`, as in hashset.go. -/
def HashObj.digest {S : Type} (O : HashObj S) (data : Bytes) : Go Bytes := do
  let s ← O.write O.init data
  let r ← O.sum s []
  .ret r.2

/-- one step of a history. -/
inductive Op where
  | write (p : Bytes)
  | sum (b : Bytes)
  | reset
  deriving DecidableEq

/-- the results of the `Sum` calls of a history. -/
def HashObj.run {S : Type} (O : HashObj S) : S → List Op → Go (List Bytes)
  | _, [] => .ret []
  | s, .write p :: ops => do
    let s ← O.write s p
    O.run s ops
  | s, .sum b :: ops => do
    let r ← O.sum s b
    let out ← O.run r.1 ops
    .ret (r.2 :: out)
  | s, .reset :: ops => O.run (O.reset s) ops

/-! ## crypto/hmac -/

/-- `copy` of the key into a zeroed block of `n` bytes, and `pad[i] ^= c` for all of it. -/
def hmacKey (n : Nat) (key : Bytes) (c : UInt8) : Bytes := (key.take n ++ List.replicate (n - key.length) 0).map (· ^^^ c)

/-- the standard library's crypto/hmac: `New(h, key)`, one `Write(data)`, `Sum(nil)`. -/
def hmac {S : Type} (O : HashObj S) (key data : Bytes) : Go Bytes := do
  let outer := O.init
  let inner := O.init
  let (outer, key) ←
    if key.length > O.blockSize then do
      let outer ← O.write outer key
      O.sum outer []
    else .ret (outer, key)
  let ipad := hmacKey O.blockSize key 0x36
  let opad := hmacKey O.blockSize key 0x5c
  let inner ← O.write inner ipad
  let inner ← O.write inner data
  let (_, h) ← O.sum inner []
  let outer := O.reset outer
  let outer ← O.write outer opad
  let outer ← O.write outer h
  let (_, out) ← O.sum outer []
  .ret out

end Verif.Hash
