import Verif.Hash.BlakeCore
import Verif.Go

/-!
# Model of /repo/blake2s (blake2s.go, block.go)

The array `x` is modelled by its first `nx` bytes: `checkSum` zeroes the others before it uses them.  The counters `t[0]` and
`t[1]` are `uint32`, kept as numbers below 2^32.
-/

namespace Verif.Blake2s

open Verif.Hash Verif.Blake

/-- blake2s.go:59-67 `Tree`; `leafSize` is a `uint32`, `nodeOffset` a `uint64`. -/
structure Tree where
  fanout : UInt8
  maxDepth : UInt8
  leafSize : Nat
  nodeOffset : Nat
  nodeDepth : UInt8
  innerHashSize : UInt8
  isLastNode : Bool
  deriving DecidableEq

/-- blake2s.go:51-57 `Config`; a nil slice is the empty one. -/
structure Config where
  size : UInt8
  key : Bytes
  salt : Bytes
  person : Bytes
  tree : Option Tree
  deriving DecidableEq

/-- blake2s.go:69 `defaultConfig` -/
def defaultConfig : Config := ⟨32, [], [], [], none⟩

/-- blake2s.go:31-43: the struct `digest`; `paddedKey` is empty when `isKeyed` is false. -/
structure St where
  h : List (BitVec 32)
  t0 : Nat
  t1 : Nat
  f0 : BitVec 32
  f1 : BitVec 32
  x : Bytes
  ih : List (BitVec 32)
  paddedKey : Bytes
  isKeyed : Bool
  size : UInt8
  isLastNode : Bool
  deriving DecidableEq

/-- blake2s.go:45-48 `iv` -/
def iv : List (BitVec 32) :=
  [0x6a09e667, 0xbb67ae85, 0x3c6ef372, 0xa54ff53a, 0x510e527f, 0x9b05688c, 0x1f83d9ab, 0x5be0cd19]

/-- blake2s/block.go:43-1179: the groups of the unrolled rounds, sixteen for each round. -/
def prog2s : List Instr :=
  [⟨0, 4, 8, 12, 0, 0, 16, 12⟩, ⟨1, 5, 9, 13, 2, 0, 16, 12⟩, ⟨2, 6, 10, 14, 4, 0, 16, 12⟩, ⟨3, 7, 11, 15, 6, 0, 16, 12⟩,
   ⟨2, 6, 10, 14, 5, 0, 8, 7⟩, ⟨3, 7, 11, 15, 7, 0, 8, 7⟩, ⟨1, 5, 9, 13, 3, 0, 8, 7⟩, ⟨0, 4, 8, 12, 1, 0, 8, 7⟩,
   ⟨0, 5, 10, 15, 8, 0, 16, 12⟩, ⟨1, 6, 11, 12, 10, 0, 16, 12⟩, ⟨2, 7, 8, 13, 12, 0, 16, 12⟩, ⟨3, 4, 9, 14, 14, 0, 16, 12⟩,
   ⟨2, 7, 8, 13, 13, 0, 8, 7⟩, ⟨3, 4, 9, 14, 15, 0, 8, 7⟩, ⟨1, 6, 11, 12, 11, 0, 8, 7⟩, ⟨0, 5, 10, 15, 9, 0, 8, 7⟩,
   ⟨0, 4, 8, 12, 14, 0, 16, 12⟩, ⟨1, 5, 9, 13, 4, 0, 16, 12⟩, ⟨2, 6, 10, 14, 9, 0, 16, 12⟩, ⟨3, 7, 11, 15, 13, 0, 16, 12⟩,
   ⟨2, 6, 10, 14, 15, 0, 8, 7⟩, ⟨3, 7, 11, 15, 6, 0, 8, 7⟩, ⟨1, 5, 9, 13, 8, 0, 8, 7⟩, ⟨0, 4, 8, 12, 10, 0, 8, 7⟩,
   ⟨0, 5, 10, 15, 1, 0, 16, 12⟩, ⟨1, 6, 11, 12, 0, 0, 16, 12⟩, ⟨2, 7, 8, 13, 11, 0, 16, 12⟩, ⟨3, 4, 9, 14, 5, 0, 16, 12⟩,
   ⟨2, 7, 8, 13, 7, 0, 8, 7⟩, ⟨3, 4, 9, 14, 3, 0, 8, 7⟩, ⟨1, 6, 11, 12, 2, 0, 8, 7⟩, ⟨0, 5, 10, 15, 12, 0, 8, 7⟩,
   ⟨0, 4, 8, 12, 11, 0, 16, 12⟩, ⟨1, 5, 9, 13, 12, 0, 16, 12⟩, ⟨2, 6, 10, 14, 5, 0, 16, 12⟩, ⟨3, 7, 11, 15, 15, 0, 16, 12⟩,
   ⟨2, 6, 10, 14, 2, 0, 8, 7⟩, ⟨3, 7, 11, 15, 13, 0, 8, 7⟩, ⟨1, 5, 9, 13, 0, 0, 8, 7⟩, ⟨0, 4, 8, 12, 8, 0, 8, 7⟩,
   ⟨0, 5, 10, 15, 10, 0, 16, 12⟩, ⟨1, 6, 11, 12, 3, 0, 16, 12⟩, ⟨2, 7, 8, 13, 7, 0, 16, 12⟩, ⟨3, 4, 9, 14, 9, 0, 16, 12⟩,
   ⟨2, 7, 8, 13, 1, 0, 8, 7⟩, ⟨3, 4, 9, 14, 4, 0, 8, 7⟩, ⟨1, 6, 11, 12, 6, 0, 8, 7⟩, ⟨0, 5, 10, 15, 14, 0, 8, 7⟩,
   ⟨0, 4, 8, 12, 7, 0, 16, 12⟩, ⟨1, 5, 9, 13, 3, 0, 16, 12⟩, ⟨2, 6, 10, 14, 13, 0, 16, 12⟩, ⟨3, 7, 11, 15, 11, 0, 16, 12⟩,
   ⟨2, 6, 10, 14, 12, 0, 8, 7⟩, ⟨3, 7, 11, 15, 14, 0, 8, 7⟩, ⟨1, 5, 9, 13, 1, 0, 8, 7⟩, ⟨0, 4, 8, 12, 9, 0, 8, 7⟩,
   ⟨0, 5, 10, 15, 2, 0, 16, 12⟩, ⟨1, 6, 11, 12, 5, 0, 16, 12⟩, ⟨2, 7, 8, 13, 4, 0, 16, 12⟩, ⟨3, 4, 9, 14, 15, 0, 16, 12⟩,
   ⟨2, 7, 8, 13, 0, 0, 8, 7⟩, ⟨3, 4, 9, 14, 8, 0, 8, 7⟩, ⟨1, 6, 11, 12, 10, 0, 8, 7⟩, ⟨0, 5, 10, 15, 6, 0, 8, 7⟩,
   ⟨0, 4, 8, 12, 9, 0, 16, 12⟩, ⟨1, 5, 9, 13, 5, 0, 16, 12⟩, ⟨2, 6, 10, 14, 2, 0, 16, 12⟩, ⟨3, 7, 11, 15, 10, 0, 16, 12⟩,
   ⟨2, 6, 10, 14, 4, 0, 8, 7⟩, ⟨3, 7, 11, 15, 15, 0, 8, 7⟩, ⟨1, 5, 9, 13, 7, 0, 8, 7⟩, ⟨0, 4, 8, 12, 0, 0, 8, 7⟩,
   ⟨0, 5, 10, 15, 14, 0, 16, 12⟩, ⟨1, 6, 11, 12, 11, 0, 16, 12⟩, ⟨2, 7, 8, 13, 6, 0, 16, 12⟩, ⟨3, 4, 9, 14, 3, 0, 16, 12⟩,
   ⟨2, 7, 8, 13, 8, 0, 8, 7⟩, ⟨3, 4, 9, 14, 13, 0, 8, 7⟩, ⟨1, 6, 11, 12, 12, 0, 8, 7⟩, ⟨0, 5, 10, 15, 1, 0, 8, 7⟩,
   ⟨0, 4, 8, 12, 2, 0, 16, 12⟩, ⟨1, 5, 9, 13, 6, 0, 16, 12⟩, ⟨2, 6, 10, 14, 0, 0, 16, 12⟩, ⟨3, 7, 11, 15, 8, 0, 16, 12⟩,
   ⟨2, 6, 10, 14, 11, 0, 8, 7⟩, ⟨3, 7, 11, 15, 3, 0, 8, 7⟩, ⟨1, 5, 9, 13, 10, 0, 8, 7⟩, ⟨0, 4, 8, 12, 12, 0, 8, 7⟩,
   ⟨0, 5, 10, 15, 4, 0, 16, 12⟩, ⟨1, 6, 11, 12, 7, 0, 16, 12⟩, ⟨2, 7, 8, 13, 15, 0, 16, 12⟩, ⟨3, 4, 9, 14, 1, 0, 16, 12⟩,
   ⟨2, 7, 8, 13, 14, 0, 8, 7⟩, ⟨3, 4, 9, 14, 9, 0, 8, 7⟩, ⟨1, 6, 11, 12, 5, 0, 8, 7⟩, ⟨0, 5, 10, 15, 13, 0, 8, 7⟩,
   ⟨0, 4, 8, 12, 12, 0, 16, 12⟩, ⟨1, 5, 9, 13, 1, 0, 16, 12⟩, ⟨2, 6, 10, 14, 14, 0, 16, 12⟩, ⟨3, 7, 11, 15, 4, 0, 16, 12⟩,
   ⟨2, 6, 10, 14, 13, 0, 8, 7⟩, ⟨3, 7, 11, 15, 10, 0, 8, 7⟩, ⟨1, 5, 9, 13, 15, 0, 8, 7⟩, ⟨0, 4, 8, 12, 5, 0, 8, 7⟩,
   ⟨0, 5, 10, 15, 0, 0, 16, 12⟩, ⟨1, 6, 11, 12, 6, 0, 16, 12⟩, ⟨2, 7, 8, 13, 9, 0, 16, 12⟩, ⟨3, 4, 9, 14, 8, 0, 16, 12⟩,
   ⟨2, 7, 8, 13, 2, 0, 8, 7⟩, ⟨3, 4, 9, 14, 11, 0, 8, 7⟩, ⟨1, 6, 11, 12, 3, 0, 8, 7⟩, ⟨0, 5, 10, 15, 7, 0, 8, 7⟩,
   ⟨0, 4, 8, 12, 13, 0, 16, 12⟩, ⟨1, 5, 9, 13, 7, 0, 16, 12⟩, ⟨2, 6, 10, 14, 12, 0, 16, 12⟩, ⟨3, 7, 11, 15, 3, 0, 16, 12⟩,
   ⟨2, 6, 10, 14, 1, 0, 8, 7⟩, ⟨3, 7, 11, 15, 9, 0, 8, 7⟩, ⟨1, 5, 9, 13, 14, 0, 8, 7⟩, ⟨0, 4, 8, 12, 11, 0, 8, 7⟩,
   ⟨0, 5, 10, 15, 5, 0, 16, 12⟩, ⟨1, 6, 11, 12, 15, 0, 16, 12⟩, ⟨2, 7, 8, 13, 8, 0, 16, 12⟩, ⟨3, 4, 9, 14, 2, 0, 16, 12⟩,
   ⟨2, 7, 8, 13, 6, 0, 8, 7⟩, ⟨3, 4, 9, 14, 10, 0, 8, 7⟩, ⟨1, 6, 11, 12, 4, 0, 8, 7⟩, ⟨0, 5, 10, 15, 0, 0, 8, 7⟩,
   ⟨0, 4, 8, 12, 6, 0, 16, 12⟩, ⟨1, 5, 9, 13, 14, 0, 16, 12⟩, ⟨2, 6, 10, 14, 11, 0, 16, 12⟩, ⟨3, 7, 11, 15, 0, 0, 16, 12⟩,
   ⟨2, 6, 10, 14, 3, 0, 8, 7⟩, ⟨3, 7, 11, 15, 8, 0, 8, 7⟩, ⟨1, 5, 9, 13, 9, 0, 8, 7⟩, ⟨0, 4, 8, 12, 15, 0, 8, 7⟩,
   ⟨0, 5, 10, 15, 12, 0, 16, 12⟩, ⟨1, 6, 11, 12, 13, 0, 16, 12⟩, ⟨2, 7, 8, 13, 1, 0, 16, 12⟩, ⟨3, 4, 9, 14, 10, 0, 16, 12⟩,
   ⟨2, 7, 8, 13, 4, 0, 8, 7⟩, ⟨3, 4, 9, 14, 5, 0, 8, 7⟩, ⟨1, 6, 11, 12, 7, 0, 8, 7⟩, ⟨0, 5, 10, 15, 2, 0, 8, 7⟩,
   ⟨0, 4, 8, 12, 10, 0, 16, 12⟩, ⟨1, 5, 9, 13, 8, 0, 16, 12⟩, ⟨2, 6, 10, 14, 7, 0, 16, 12⟩, ⟨3, 7, 11, 15, 1, 0, 16, 12⟩,
   ⟨2, 6, 10, 14, 6, 0, 8, 7⟩, ⟨3, 7, 11, 15, 5, 0, 8, 7⟩, ⟨1, 5, 9, 13, 4, 0, 8, 7⟩, ⟨0, 4, 8, 12, 2, 0, 8, 7⟩,
   ⟨0, 5, 10, 15, 15, 0, 16, 12⟩, ⟨1, 6, 11, 12, 9, 0, 16, 12⟩, ⟨2, 7, 8, 13, 3, 0, 16, 12⟩, ⟨3, 4, 9, 14, 13, 0, 16, 12⟩,
   ⟨2, 7, 8, 13, 12, 0, 8, 7⟩, ⟨3, 4, 9, 14, 0, 0, 8, 7⟩, ⟨1, 6, 11, 12, 14, 0, 8, 7⟩, ⟨0, 5, 10, 15, 11, 0, 8, 7⟩]

/-- block.go:36-41: four bytes, least significant first. -/
def word (b : Bytes) : BitVec 32 := BitVec.ofNat 32 (leNat (b.take 4))

/-- block.go:20-1190: one pass of the loop of `blocks`, from the chaining value and the counters. -/
def pass (f0 f1 : BitVec 32) (s : List (BitVec 32) × Nat × Nat) (p : Bytes) : List (BitVec 32) × Nat × Nat :=
  let h := s.1
  let t0 := (s.2.1 + 64) % 2 ^ 32
  let t1 := if t0 < 64 then (s.2.2 + 1) % 2 ^ 32 else s.2.2
  let v := [h.getD 0 0, h.getD 1 0, h.getD 2 0, h.getD 3 0, h.getD 4 0, h.getD 5 0, h.getD 6 0, h.getD 7 0,
    iv.getD 0 0, iv.getD 1 0, iv.getD 2 0, iv.getD 3 0, iv.getD 4 0 ^^^ BitVec.ofNat 32 t0, iv.getD 5 0 ^^^ BitVec.ofNat 32 t1,
    iv.getD 6 0 ^^^ f0, iv.getD 7 0 ^^^ f1]
  let m := fun i => word (p.drop (4 * i))
  let v := prog2s.foldl (exec fun i _ => m i) v
  ((List.range 8).map fun i => h.getD i 0 ^^^ (v.getD i 0 ^^^ v.getD (i + 8) 0), t0, t1)

/-- block.go:17-1193 `blocks(d, p)`. -/
def blocks (d : St) (p : Bytes) : St :=
  let r := fullBlocks 64 (pass d.f0 d.f1) (d.h, d.t0, d.t1) p
  { d with h := r.1, t0 := r.2.1, t1 := r.2.2 }

/-- blake2s.go:188-209 `Write`. -/
def write (d : St) (p : Bytes) : St :=
  let left := 64 - d.x.length
  let (d, p) :=
    if p.length > left then ({ blocks d (d.x ++ p.take left) with x := [] }, p.drop left)
    else (d, p)
  let (d, p) :=
    if p.length > 64 then
      let n := p.length / 64 * 64
      let n := if n = p.length then n - 64 else n
      (blocks d (p.take n), p.drop n)
    else (d, p)
  { d with x := d.x ++ p.take (64 - d.x.length) }

/-- the first `n` bytes of `copy` into a zero array. -/
def padRight (n : Nat) (b : Bytes) : Bytes := b.take n ++ List.replicate (n - b.length) 0

/-- blake2s.go:110-136: the parameter block of `initialize`. -/
def params (c : Config) : Bytes :=
  [c.size, UInt8.ofNat c.key.length] ++
  (match c.tree with
    | some t =>
      [t.fanout, t.maxDepth, UInt8.ofNat t.leafSize, UInt8.ofNat (t.leafSize / 2 ^ 8), UInt8.ofNat (t.leafSize / 2 ^ 16),
       UInt8.ofNat (t.leafSize / 2 ^ 24), UInt8.ofNat t.nodeOffset, UInt8.ofNat (t.nodeOffset / 2 ^ 8),
       UInt8.ofNat (t.nodeOffset / 2 ^ 16), UInt8.ofNat (t.nodeOffset / 2 ^ 24), UInt8.ofNat (t.nodeOffset / 2 ^ 32),
       UInt8.ofNat (t.nodeOffset / 2 ^ 40), t.nodeDepth, t.innerHashSize]
    | none => [1, 1, 0, 0, 0, 0, 0, 0, 0, 0, 0, 0, 0, 0]) ++
  padRight 8 c.salt ++ padRight 8 c.person

/-- blake2s.go:109-153 `initialize`. -/
def initDigest (c : Config) : St :=
  let p := params c
  let h := (List.range 8).map fun i => iv.getD i 0 ^^^ word (p.drop (i * 4))
  let d : St :=
    { h := h, t0 := 0, t1 := 0, f0 := 0, f1 := 0, x := [], ih := [], paddedKey := [], isKeyed := false, size := c.size,
      isLastNode := match c.tree with
        | some t => t.isLastNode
        | none => false }
  let d :=
    if c.key.length > 0 then
      let d := { d with paddedKey := padRight 64 c.key }
      { write d d.paddedKey with isKeyed := true }
    else d
  { d with ih := d.h }

/-- blake2s.go:71-91 `verifyConfig`: true when no error is returned. -/
def verifyConfig (c : Config) : Bool :=
  decide (c.size ≤ 32) && decide (c.key.length ≤ 32) && decide (c.salt.length ≤ 8) && decide (c.person.length ≤ 8) &&
  match c.tree with
  | some t => decide (t.innerHashSize ≤ 32) && decide (t.nodeOffset ≤ 2 ^ 48 - 1)
  | none => true

/-- blake2s.go:93-107 `New`: the digest, or none for an error.  The size 0 is replaced by 32 in the caller's `Config`. -/
def new : Option Config → Option St
  | none => some (initDigest defaultConfig)
  | some c =>
    let c := if c.size = 0 then { c with size := 32 } else c
    if verifyConfig c then some (initDigest c) else none

/-- blake2s.go:155-159 `New256` -/
def new256 : St := initDigest defaultConfig

/-- blake2s.go:161-167 `NewMAC` -/
def newMAC (outBytes : UInt8) (key : Bytes) : Go St :=
  match new (some ⟨outBytes, key, [], [], none⟩) with
  | some d => .ret d
  | none => .panic

/-- blake2s.go:169-179 `Reset` -/
def reset (d : St) : St :=
  let d := { d with h := d.ih, t0 := 0, t1 := 0, f0 := 0, f1 := 0, x := [] }
  if d.isKeyed then write d d.paddedKey else d

/-- the four bytes of a word, least significant first: blake2s.go:242-245. -/
def bytes (s : BitVec 32) : Bytes :=
  [UInt8.ofNat s.toNat, UInt8.ofNat (s.toNat / 2 ^ 8), UInt8.ofNat (s.toNat / 2 ^ 16), UInt8.ofNat (s.toNat / 2 ^ 24)]

/-- blake2s.go:217-249 `checkSum`, on a copy of the digest; the copy of the key is erased, which nothing observes. -/
def checkSum (d : St) : Bytes :=
  let dec := 64 - d.x.length
  let t1 := if d.t0 < dec then (d.t1 + 2 ^ 32 - 1) % 2 ^ 32 else d.t1
  let t0 := (d.t0 + 2 ^ 32 - dec) % 2 ^ 32
  let d := { d with t0 := t0, t1 := t1, x := d.x ++ List.replicate (64 - d.x.length) 0, f0 := 0xffffffff,
                    f1 := if d.isLastNode then 0xffffffff else d.f1 }
  let d := blocks d d.x
  let out := (d.h.take ((d.size.toNat + 255) % 256 / 4 + 1)).flatMap bytes
  out ++ List.replicate (32 - out.length) 0

/-- blake2s.go:211-215 `Sum` -/
def sum (d : St) (inp : Bytes) : Bytes := inp ++ (checkSum d).take d.size.toNat

/-- blake2s.go:251-256 `Sum256` -/
def sum256 (data : Bytes) : Bytes := checkSum (write new256 data)

end Verif.Blake2s
