import Verif.Hash.Obj

/-!
# Model of /repo/hashset.go: `Hash` and `Hmac`

The functions of the Go standard library and of golang.org/x/crypto are parameters (`Ext`): they are not code of the repository.
Their `Write` never returns an error, like those of the repository, so the branches `if err != nil { return nil }` after a
`Write` are dead and left out.  A nil result is `none`.
-/

namespace Verif.Api

open Verif.Hash

/-- the hash functions that are imported. -/
structure Ext where
  md4 : Bytes → Bytes
  md5 : Bytes → Bytes
  sha1 : Bytes → Bytes
  ripemd160 : Bytes → Bytes
  sha256 : Bytes → Bytes
  sha512 : Bytes → Bytes
  /-- `blake2b.New(n, nil)` for `n` from 1 to 64, `Write`, `Sum(nil)` -/
  blake2b : Nat → Bytes → Bytes

/-- a value of an imported hash function: what was written so far. -/
def extObj (H : Bytes → Bytes) (n : Nat) : HashObj Bytes where
  init := []
  write s p := .ret (s ++ p)
  sum s b := .ret (s, b ++ H s)
  reset _ := []
  blockSize := n

/-- a digest that is returned. -/
def some' (r : Go Bytes) : Go (Option Bytes) := do
  let d ← r
  .ret (some d)

/-- hashset.go:34-241 `Hash`; `digestLen` is a `uint16`, `typeChoose` a `uint32` (profile.go:18-36). -/
def hash (E : Ext) (data : Bytes) (digestLen typeChoose : Nat) : Go (Option Bytes) :=
  match typeChoose with
  | 0xA0000004 => .ret (some (E.md4 data))
  | 0xA0000005 => .ret (some (E.md5 data))
  | 0xA0000000 => .ret (some (E.sha1 data))
  | 0xA0000006 => .ret (some (E.ripemd160 data))
  | 0xA000000B => .ret (some (E.ripemd160 (E.sha256 data)))
  | 0xA000000F => do
    let tmp ← (sha3Obj SHA3.newKeccak256).digest data
    .ret (some (E.ripemd160 tmp))
  | 0xA0000010 => do
    let tmp ← (sha3Obj SHA3.new256).digest data
    .ret (some (E.ripemd160 tmp))
  | 0xA0000002 => .ret (some (E.sha256 data))
  | 0xA000000A => .ret (some (E.sha256 (E.sha256 data)))
  | 0xA0000009 => some' (sm3Obj.digest data)
  | 0xA000000E => some' ((sha3Obj SHA3.newKeccak256).digest data)
  | 0xA0000001 => some' ((sha3Obj SHA3.new256).digest data)
  | 0xA000000C => some' ((blakeObj Blake.cfg256 false Blake.iv256 Blake.noSalt).digest data)
  | 0xA0000003 => .ret (some (E.sha512 data))
  | 0xA0000012 => some' ((sha3Obj SHA3.new512).digest data)
  | 0xA0000011 => some' ((sha3Obj SHA3.newKeccak512).digest data)
  | 0xA000000D => some' ((blakeObj Blake.cfg512 false Blake.iv512 Blake.noSalt).digest data)
  | 0xA0000007 => .ret (if 1 ≤ digestLen ∧ digestLen ≤ 64 then some (E.blake2b digestLen data) else none)
  | 0xA0000008 => do
    let d ← Blake2s.newMAC (UInt8.ofNat digestLen) []
    some' ((blake2sObj d).digest data)
  | _ => .ret none

/-- hashset.go:243-265 `Hmac`. -/
def hmac (E : Ext) (key data : Bytes) (typeChoose : Nat) : Go (Option Bytes) :=
  match typeChoose with
  | 0x50505050 => some' (Hash.hmac (extObj E.sha256 64) key data)
  | 0x50505052 => some' (Hash.hmac sm3Obj key data)
  | 0x50505051 => some' (Hash.hmac (extObj E.sha512 128) key data)
  | _ => .ret none

end Verif.Api
