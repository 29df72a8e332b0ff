import Verif.Hash.BlakeCore
import Verif.Go

/-!
# Model of /repo/blake256 (BLAKE-256, BLAKE-224) and /repo/blake512 (BLAKE-512, BLAKE-384)

The two packages have the same text except for the word size and the constants, which are the fields of `Cfg`.  The array `x`
is modelled by its first `nx` bytes: the others are never read.  `t` is a `uint64`, kept as a number below 2^64.
-/

namespace Verif.Blake

open Verif.Hash

/-- what differs between blake256.go, blake256block.go and blake512.go, blake512block.go. -/
structure Cfg (w : Nat) where
  /-- `BlockSize`: blake256.go:19, blake512.go:19 -/
  blockSize : Nat
  /-- the increment of `d.t`: blake256block.go:50, blake512block.go:50 -/
  blockBits : Nat
  /-- the last position that leaves one padding byte: blake256.go:100, blake512.go:103 -/
  thr : Nat
  /-- blake256.go:112, blake512.go:116 -/
  thrBits : Nat
  /-- blake256.go:128, blake512.go:132 -/
  lenBits : Nat
  /-- leading zeros of the length field: blake256.go:90-98, blake512.go:92-101 -/
  lenPad : Bytes
  /-- the `cst` constants -/
  cst : List (BitVec w)
  /-- the unrolled rounds -/
  prog : List Instr
  /-- what is xored into `v12 … v15`: blake256block.go:51-56, blake512block.go:51-56 -/
  ctr : Nat → List (BitVec w)
  /-- a message word: blake256block.go:59-74, blake512block.go:60-65 -/
  word : Bytes → BitVec w
  /-- an output word: blake256.go:134-137, blake512.go:138-145 -/
  outWord : BitVec w → Bytes

/-- blake256.go:23-31: the struct `digest`; `short` is `hashSize == 224` (blake512.go: `== 384`). -/
structure St (w : Nat) where
  short : Bool
  h : List (BitVec w)
  s : List (BitVec w)
  t : Nat
  nullt : Bool
  x : Bytes
  deriving DecidableEq

variable {w : Nat}

/-- `d.t -= k` on `uint64`. -/
def subT (t k : Nat) : Nat := (t + 2 ^ 64 - k % 2 ^ 64) % 2 ^ 64

/-- blake256block.go:37-1679, blake512block.go:37-1889: one pass of the loop of `block`, from the chaining value and `t`. -/
def pass (C : Cfg w) (s : List (BitVec w)) (nullt : Bool) (ht : List (BitVec w) × Nat) (p : Bytes) : List (BitVec w) × Nat :=
  let h := ht.1
  let c := fun i => C.cst.getD i 0
  let v := [h.getD 0 0, h.getD 1 0, h.getD 2 0, h.getD 3 0, h.getD 4 0, h.getD 5 0, h.getD 6 0, h.getD 7 0,
    c 0 ^^^ s.getD 0 0, c 1 ^^^ s.getD 1 0, c 2 ^^^ s.getD 2 0, c 3 ^^^ s.getD 3 0, c 4, c 5, c 6, c 7]
  let t := (ht.2 + C.blockBits) % 2 ^ 64
  let k := C.ctr t
  let v := if nullt then v else
    (((v.set 12 (v.getD 12 0 ^^^ k.getD 0 0)).set 13 (v.getD 13 0 ^^^ k.getD 1 0)).set 14 (v.getD 14 0 ^^^ k.getD 2 0)).set 15
      (v.getD 15 0 ^^^ k.getD 3 0)
  let m := fun i => C.word (p.drop (C.blockSize / 16 * i))
  let v := C.prog.foldl (exec fun i k => m i ^^^ c k) v
  ((List.range 8).map fun i => h.getD i 0 ^^^ (v.getD i 0 ^^^ v.getD (i + 8) 0 ^^^ s.getD (i % 4) 0), t)

/-- `block(d, p)`. -/
def block (C : Cfg w) (d : St w) (p : Bytes) : St w :=
  let r := fullBlocks C.blockSize (pass C d.s d.nullt) (d.h, d.t) p
  { d with h := r.1, t := r.2 }

/-- blake256.go:61-83, blake512.go:63-85 `Write`. -/
def write (C : Cfg w) (d : St w) (p : Bytes) : St w :=
  let nx := d.x.length
  let (d, p) :=
    if nx > 0 then
      let n := if p.length > C.blockSize - nx then C.blockSize - nx else p.length
      let d := { d with x := d.x ++ p.take (C.blockSize - nx) }
      let d := if d.x.length = C.blockSize then { block C d d.x with x := [] } else d
      (d, p.drop n)
    else (d, p)
  let (d, p) :=
    if p.length ≥ C.blockSize then
      let n := p.length / C.blockSize * C.blockSize
      (block C d (p.take n), p.drop n)
    else (d, p)
  if p.length > 0 then { d with x := p.take C.blockSize } else d

/-- the array `pad` (blake256.go:42, blake512.go:111): a byte 0x80 followed by zeros. -/
def padArray (n : Nat) : Bytes := 0x80 :: List.replicate (n - 1) 0

/-- blake256.go:85-128, blake512.go:87-132: `Sum` up to the last `Write`, on a copy of the digest. -/
def finish (C : Cfg w) (d : St w) : St w :=
  let nx := d.x.length
  let l := (d.t + nx * 8) % 2 ^ 64
  let len := C.lenPad ++ bytes64 l
  let d :=
    if nx = C.thr then
      let d := { d with t := subT d.t 8 }
      write C d [if d.short then 0x80 else 0x81]
    else
      let d :=
        if nx < C.thr then
          let d := if nx = 0 then { d with nullt := true } else d
          let d := { d with t := subT d.t (C.thrBits - nx * 8) }
          write C d ((padArray (2 * C.blockSize)).take (C.thr - nx))
        else
          let d := { d with t := subT d.t (C.blockBits - nx * 8) }
          let d := write C d ((padArray (2 * C.blockSize)).take (C.blockSize - nx))
          let d := { d with t := subT d.t C.thrBits }
          let d := write C d (((padArray (2 * C.blockSize)).take (C.thr + 1)).drop 1)
          { d with nullt := true }
      let d := write C d [if d.short then 0x00 else 0x01]
      { d with t := subT d.t 8 }
  let d := { d with t := subT d.t C.lenBits }
  write C d len

/-- blake256.go:85-141, blake512.go:87-149 `Sum`; `hashSize>>5` (`>>6`) words are written. -/
def sum (C : Cfg w) (d : St w) (inp : Bytes) : Bytes :=
  let d := finish C d
  inp ++ (d.h.take (if d.short then (if w = 32 then 7 else 6) else 8)).flatMap C.outWord

/-- blake256.go:45-55, blake512.go:47-57 `Reset`; `iv` is the initial value of the size. -/
def reset (iv : List (BitVec w)) (d : St w) : St w := { d with h := iv, t := 0, x := [], nullt := false }

/-- the constructors: blake256.go:153-183, blake512.go:163-194. -/
def new (short : Bool) (iv s : List (BitVec w)) : St w := { short := short, h := iv, s := s, t := 0, nullt := false, x := [] }

/-! ## blake256 -/

/-- blake256block.go:76-1667: the groups of the unrolled rounds, sixteen for each round. -/
def prog256 : List Instr :=
  [⟨0, 4, 8, 12, 0, 1, 16, 12⟩, ⟨1, 5, 9, 13, 2, 3, 16, 12⟩, ⟨2, 6, 10, 14, 4, 5, 16, 12⟩, ⟨3, 7, 11, 15, 6, 7, 16, 12⟩,
   ⟨2, 6, 10, 14, 5, 4, 8, 7⟩, ⟨3, 7, 11, 15, 7, 6, 8, 7⟩, ⟨1, 5, 9, 13, 3, 2, 8, 7⟩, ⟨0, 4, 8, 12, 1, 0, 8, 7⟩,
   ⟨0, 5, 10, 15, 8, 9, 16, 12⟩, ⟨1, 6, 11, 12, 10, 11, 16, 12⟩, ⟨2, 7, 8, 13, 12, 13, 16, 12⟩, ⟨3, 4, 9, 14, 14, 15, 16, 12⟩,
   ⟨2, 7, 8, 13, 13, 12, 8, 7⟩, ⟨3, 4, 9, 14, 15, 14, 8, 7⟩, ⟨1, 6, 11, 12, 11, 10, 8, 7⟩, ⟨0, 5, 10, 15, 9, 8, 8, 7⟩,
   ⟨0, 4, 8, 12, 14, 10, 16, 12⟩, ⟨1, 5, 9, 13, 4, 8, 16, 12⟩, ⟨2, 6, 10, 14, 9, 15, 16, 12⟩, ⟨3, 7, 11, 15, 13, 6, 16, 12⟩,
   ⟨2, 6, 10, 14, 15, 9, 8, 7⟩, ⟨3, 7, 11, 15, 6, 13, 8, 7⟩, ⟨1, 5, 9, 13, 8, 4, 8, 7⟩, ⟨0, 4, 8, 12, 10, 14, 8, 7⟩,
   ⟨0, 5, 10, 15, 1, 12, 16, 12⟩, ⟨1, 6, 11, 12, 0, 2, 16, 12⟩, ⟨2, 7, 8, 13, 11, 7, 16, 12⟩, ⟨3, 4, 9, 14, 5, 3, 16, 12⟩,
   ⟨2, 7, 8, 13, 7, 11, 8, 7⟩, ⟨3, 4, 9, 14, 3, 5, 8, 7⟩, ⟨1, 6, 11, 12, 2, 0, 8, 7⟩, ⟨0, 5, 10, 15, 12, 1, 8, 7⟩,
   ⟨0, 4, 8, 12, 11, 8, 16, 12⟩, ⟨1, 5, 9, 13, 12, 0, 16, 12⟩, ⟨2, 6, 10, 14, 5, 2, 16, 12⟩, ⟨3, 7, 11, 15, 15, 13, 16, 12⟩,
   ⟨2, 6, 10, 14, 2, 5, 8, 7⟩, ⟨3, 7, 11, 15, 13, 15, 8, 7⟩, ⟨1, 5, 9, 13, 0, 12, 8, 7⟩, ⟨0, 4, 8, 12, 8, 11, 8, 7⟩,
   ⟨0, 5, 10, 15, 10, 14, 16, 12⟩, ⟨1, 6, 11, 12, 3, 6, 16, 12⟩, ⟨2, 7, 8, 13, 7, 1, 16, 12⟩, ⟨3, 4, 9, 14, 9, 4, 16, 12⟩,
   ⟨2, 7, 8, 13, 1, 7, 8, 7⟩, ⟨3, 4, 9, 14, 4, 9, 8, 7⟩, ⟨1, 6, 11, 12, 6, 3, 8, 7⟩, ⟨0, 5, 10, 15, 14, 10, 8, 7⟩,
   ⟨0, 4, 8, 12, 7, 9, 16, 12⟩, ⟨1, 5, 9, 13, 3, 1, 16, 12⟩, ⟨2, 6, 10, 14, 13, 12, 16, 12⟩, ⟨3, 7, 11, 15, 11, 14, 16, 12⟩,
   ⟨2, 6, 10, 14, 12, 13, 8, 7⟩, ⟨3, 7, 11, 15, 14, 11, 8, 7⟩, ⟨1, 5, 9, 13, 1, 3, 8, 7⟩, ⟨0, 4, 8, 12, 9, 7, 8, 7⟩,
   ⟨0, 5, 10, 15, 2, 6, 16, 12⟩, ⟨1, 6, 11, 12, 5, 10, 16, 12⟩, ⟨2, 7, 8, 13, 4, 0, 16, 12⟩, ⟨3, 4, 9, 14, 15, 8, 16, 12⟩,
   ⟨2, 7, 8, 13, 0, 4, 8, 7⟩, ⟨3, 4, 9, 14, 8, 15, 8, 7⟩, ⟨1, 6, 11, 12, 10, 5, 8, 7⟩, ⟨0, 5, 10, 15, 6, 2, 8, 7⟩,
   ⟨0, 4, 8, 12, 9, 0, 16, 12⟩, ⟨1, 5, 9, 13, 5, 7, 16, 12⟩, ⟨2, 6, 10, 14, 2, 4, 16, 12⟩, ⟨3, 7, 11, 15, 10, 15, 16, 12⟩,
   ⟨2, 6, 10, 14, 4, 2, 8, 7⟩, ⟨3, 7, 11, 15, 15, 10, 8, 7⟩, ⟨1, 5, 9, 13, 7, 5, 8, 7⟩, ⟨0, 4, 8, 12, 0, 9, 8, 7⟩,
   ⟨0, 5, 10, 15, 14, 1, 16, 12⟩, ⟨1, 6, 11, 12, 11, 12, 16, 12⟩, ⟨2, 7, 8, 13, 6, 8, 16, 12⟩, ⟨3, 4, 9, 14, 3, 13, 16, 12⟩,
   ⟨2, 7, 8, 13, 8, 6, 8, 7⟩, ⟨3, 4, 9, 14, 13, 3, 8, 7⟩, ⟨1, 6, 11, 12, 12, 11, 8, 7⟩, ⟨0, 5, 10, 15, 1, 14, 8, 7⟩,
   ⟨0, 4, 8, 12, 2, 12, 16, 12⟩, ⟨1, 5, 9, 13, 6, 10, 16, 12⟩, ⟨2, 6, 10, 14, 0, 11, 16, 12⟩, ⟨3, 7, 11, 15, 8, 3, 16, 12⟩,
   ⟨2, 6, 10, 14, 11, 0, 8, 7⟩, ⟨3, 7, 11, 15, 3, 8, 8, 7⟩, ⟨1, 5, 9, 13, 10, 6, 8, 7⟩, ⟨0, 4, 8, 12, 12, 2, 8, 7⟩,
   ⟨0, 5, 10, 15, 4, 13, 16, 12⟩, ⟨1, 6, 11, 12, 7, 5, 16, 12⟩, ⟨2, 7, 8, 13, 15, 14, 16, 12⟩, ⟨3, 4, 9, 14, 1, 9, 16, 12⟩,
   ⟨2, 7, 8, 13, 14, 15, 8, 7⟩, ⟨3, 4, 9, 14, 9, 1, 8, 7⟩, ⟨1, 6, 11, 12, 5, 7, 8, 7⟩, ⟨0, 5, 10, 15, 13, 4, 8, 7⟩,
   ⟨0, 4, 8, 12, 12, 5, 16, 12⟩, ⟨1, 5, 9, 13, 1, 15, 16, 12⟩, ⟨2, 6, 10, 14, 14, 13, 16, 12⟩, ⟨3, 7, 11, 15, 4, 10, 16, 12⟩,
   ⟨2, 6, 10, 14, 13, 14, 8, 7⟩, ⟨3, 7, 11, 15, 10, 4, 8, 7⟩, ⟨1, 5, 9, 13, 15, 1, 8, 7⟩, ⟨0, 4, 8, 12, 5, 12, 8, 7⟩,
   ⟨0, 5, 10, 15, 0, 7, 16, 12⟩, ⟨1, 6, 11, 12, 6, 3, 16, 12⟩, ⟨2, 7, 8, 13, 9, 2, 16, 12⟩, ⟨3, 4, 9, 14, 8, 11, 16, 12⟩,
   ⟨2, 7, 8, 13, 2, 9, 8, 7⟩, ⟨3, 4, 9, 14, 11, 8, 8, 7⟩, ⟨1, 6, 11, 12, 3, 6, 8, 7⟩, ⟨0, 5, 10, 15, 7, 0, 8, 7⟩,
   ⟨0, 4, 8, 12, 13, 11, 16, 12⟩, ⟨1, 5, 9, 13, 7, 14, 16, 12⟩, ⟨2, 6, 10, 14, 12, 1, 16, 12⟩, ⟨3, 7, 11, 15, 3, 9, 16, 12⟩,
   ⟨2, 6, 10, 14, 1, 12, 8, 7⟩, ⟨3, 7, 11, 15, 9, 3, 8, 7⟩, ⟨1, 5, 9, 13, 14, 7, 8, 7⟩, ⟨0, 4, 8, 12, 11, 13, 8, 7⟩,
   ⟨0, 5, 10, 15, 5, 0, 16, 12⟩, ⟨1, 6, 11, 12, 15, 4, 16, 12⟩, ⟨2, 7, 8, 13, 8, 6, 16, 12⟩, ⟨3, 4, 9, 14, 2, 10, 16, 12⟩,
   ⟨2, 7, 8, 13, 6, 8, 8, 7⟩, ⟨3, 4, 9, 14, 10, 2, 8, 7⟩, ⟨1, 6, 11, 12, 4, 15, 8, 7⟩, ⟨0, 5, 10, 15, 0, 5, 8, 7⟩,
   ⟨0, 4, 8, 12, 6, 15, 16, 12⟩, ⟨1, 5, 9, 13, 14, 9, 16, 12⟩, ⟨2, 6, 10, 14, 11, 3, 16, 12⟩, ⟨3, 7, 11, 15, 0, 8, 16, 12⟩,
   ⟨2, 6, 10, 14, 3, 11, 8, 7⟩, ⟨3, 7, 11, 15, 8, 0, 8, 7⟩, ⟨1, 5, 9, 13, 9, 14, 8, 7⟩, ⟨0, 4, 8, 12, 15, 6, 8, 7⟩,
   ⟨0, 5, 10, 15, 12, 2, 16, 12⟩, ⟨1, 6, 11, 12, 13, 7, 16, 12⟩, ⟨2, 7, 8, 13, 1, 4, 16, 12⟩, ⟨3, 4, 9, 14, 10, 5, 16, 12⟩,
   ⟨2, 7, 8, 13, 4, 1, 8, 7⟩, ⟨3, 4, 9, 14, 5, 10, 8, 7⟩, ⟨1, 6, 11, 12, 7, 13, 8, 7⟩, ⟨0, 5, 10, 15, 2, 12, 8, 7⟩,
   ⟨0, 4, 8, 12, 10, 2, 16, 12⟩, ⟨1, 5, 9, 13, 8, 4, 16, 12⟩, ⟨2, 6, 10, 14, 7, 6, 16, 12⟩, ⟨3, 7, 11, 15, 1, 5, 16, 12⟩,
   ⟨2, 6, 10, 14, 6, 7, 8, 7⟩, ⟨3, 7, 11, 15, 5, 1, 8, 7⟩, ⟨1, 5, 9, 13, 4, 8, 8, 7⟩, ⟨0, 4, 8, 12, 2, 10, 8, 7⟩,
   ⟨0, 5, 10, 15, 15, 11, 16, 12⟩, ⟨1, 6, 11, 12, 9, 14, 16, 12⟩, ⟨2, 7, 8, 13, 3, 12, 16, 12⟩, ⟨3, 4, 9, 14, 13, 0, 16, 12⟩,
   ⟨2, 7, 8, 13, 12, 3, 8, 7⟩, ⟨3, 4, 9, 14, 0, 13, 8, 7⟩, ⟨1, 6, 11, 12, 14, 9, 8, 7⟩, ⟨0, 5, 10, 15, 11, 15, 8, 7⟩,
   ⟨0, 4, 8, 12, 0, 1, 16, 12⟩, ⟨1, 5, 9, 13, 2, 3, 16, 12⟩, ⟨2, 6, 10, 14, 4, 5, 16, 12⟩, ⟨3, 7, 11, 15, 6, 7, 16, 12⟩,
   ⟨2, 6, 10, 14, 5, 4, 8, 7⟩, ⟨3, 7, 11, 15, 7, 6, 8, 7⟩, ⟨1, 5, 9, 13, 3, 2, 8, 7⟩, ⟨0, 4, 8, 12, 1, 0, 8, 7⟩,
   ⟨0, 5, 10, 15, 8, 9, 16, 12⟩, ⟨1, 6, 11, 12, 10, 11, 16, 12⟩, ⟨2, 7, 8, 13, 12, 13, 16, 12⟩, ⟨3, 4, 9, 14, 14, 15, 16, 12⟩,
   ⟨2, 7, 8, 13, 13, 12, 8, 7⟩, ⟨3, 4, 9, 14, 15, 14, 8, 7⟩, ⟨1, 6, 11, 12, 11, 10, 8, 7⟩, ⟨0, 5, 10, 15, 9, 8, 8, 7⟩,
   ⟨0, 4, 8, 12, 14, 10, 16, 12⟩, ⟨1, 5, 9, 13, 4, 8, 16, 12⟩, ⟨2, 6, 10, 14, 9, 15, 16, 12⟩, ⟨3, 7, 11, 15, 13, 6, 16, 12⟩,
   ⟨2, 6, 10, 14, 15, 9, 8, 7⟩, ⟨3, 7, 11, 15, 6, 13, 8, 7⟩, ⟨1, 5, 9, 13, 8, 4, 8, 7⟩, ⟨0, 4, 8, 12, 10, 14, 8, 7⟩,
   ⟨0, 5, 10, 15, 1, 12, 16, 12⟩, ⟨1, 6, 11, 12, 0, 2, 16, 12⟩, ⟨2, 7, 8, 13, 11, 7, 16, 12⟩, ⟨3, 4, 9, 14, 5, 3, 16, 12⟩,
   ⟨2, 7, 8, 13, 7, 11, 8, 7⟩, ⟨3, 4, 9, 14, 3, 5, 8, 7⟩, ⟨1, 6, 11, 12, 2, 0, 8, 7⟩, ⟨0, 5, 10, 15, 12, 1, 8, 7⟩,
   ⟨0, 4, 8, 12, 11, 8, 16, 12⟩, ⟨1, 5, 9, 13, 12, 0, 16, 12⟩, ⟨2, 6, 10, 14, 5, 2, 16, 12⟩, ⟨3, 7, 11, 15, 15, 13, 16, 12⟩,
   ⟨2, 6, 10, 14, 2, 5, 8, 7⟩, ⟨3, 7, 11, 15, 13, 15, 8, 7⟩, ⟨1, 5, 9, 13, 0, 12, 8, 7⟩, ⟨0, 4, 8, 12, 8, 11, 8, 7⟩,
   ⟨0, 5, 10, 15, 10, 14, 16, 12⟩, ⟨1, 6, 11, 12, 3, 6, 16, 12⟩, ⟨2, 7, 8, 13, 7, 1, 16, 12⟩, ⟨3, 4, 9, 14, 9, 4, 16, 12⟩,
   ⟨2, 7, 8, 13, 1, 7, 8, 7⟩, ⟨3, 4, 9, 14, 4, 9, 8, 7⟩, ⟨1, 6, 11, 12, 6, 3, 8, 7⟩, ⟨0, 5, 10, 15, 14, 10, 8, 7⟩,
   ⟨0, 4, 8, 12, 7, 9, 16, 12⟩, ⟨1, 5, 9, 13, 3, 1, 16, 12⟩, ⟨2, 6, 10, 14, 13, 12, 16, 12⟩, ⟨3, 7, 11, 15, 11, 14, 16, 12⟩,
   ⟨2, 6, 10, 14, 12, 13, 8, 7⟩, ⟨3, 7, 11, 15, 14, 11, 8, 7⟩, ⟨1, 5, 9, 13, 1, 3, 8, 7⟩, ⟨0, 4, 8, 12, 9, 7, 8, 7⟩,
   ⟨0, 5, 10, 15, 2, 6, 16, 12⟩, ⟨1, 6, 11, 12, 5, 10, 16, 12⟩, ⟨2, 7, 8, 13, 4, 0, 16, 12⟩, ⟨3, 4, 9, 14, 15, 8, 16, 12⟩,
   ⟨2, 7, 8, 13, 0, 4, 8, 7⟩, ⟨3, 4, 9, 14, 8, 15, 8, 7⟩, ⟨1, 6, 11, 12, 10, 5, 8, 7⟩, ⟨0, 5, 10, 15, 6, 2, 8, 7⟩]

/-- blake256block.go:17-34 -/
def cst256 : List (BitVec 32) :=
  [0x243F6A88, 0x85A308D3, 0x13198A2E, 0x03707344, 0xA4093822, 0x299F31D0, 0x082EFA98, 0xEC4E6C89,
   0x452821E6, 0x38D01377, 0xBE5466CF, 0x34E90C6C, 0xC0AC29B7, 0xC97C50DD, 0x3F84D5B5, 0xB5470917]

/-- the constants of blake256. -/
def cfg256 : Cfg 32 where
  blockSize := 64
  blockBits := 512
  thr := 55
  thrBits := 440
  lenBits := 64
  lenPad := []
  cst := cst256
  prog := prog256
  ctr := fun t => [BitVec.ofNat 32 t, BitVec.ofNat 32 t, BitVec.ofNat 32 (t / 2 ^ 32), BitVec.ofNat 32 (t / 2 ^ 32)]
  word := word32
  outWord := bytes32

/-- blake256.go:34-36 -/
def iv256 : List (BitVec 32) :=
  [0x6A09E667, 0xBB67AE85, 0x3C6EF372, 0xA54FF53A, 0x510E527F, 0x9B05688C, 0x1F83D9AB, 0x5BE0CD19]
/-- blake256.go:38-40 -/
def iv224 : List (BitVec 32) :=
  [0xC1059ED8, 0x367CD507, 0x3070DD17, 0xF70E5939, 0xFFC00B31, 0x68581511, 0x64F98FA7, 0xBEFA4FA4]

/-- blake256.go:143-151 `setSalt`: it panics unless the salt has 16 bytes. -/
def salt256 (s : Bytes) : List (BitVec 32) := [word32 s, word32 (s.drop 4), word32 (s.drop 8), word32 (s.drop 12)]

/-! ## blake512 -/

/-- blake512block.go:67-1877: the groups of the unrolled rounds, sixteen for each round. -/
def prog512 : List Instr :=
  [⟨0, 4, 8, 12, 0, 1, 32, 25⟩, ⟨1, 5, 9, 13, 2, 3, 32, 25⟩, ⟨2, 6, 10, 14, 4, 5, 32, 25⟩, ⟨3, 7, 11, 15, 6, 7, 32, 25⟩,
   ⟨2, 6, 10, 14, 5, 4, 16, 11⟩, ⟨3, 7, 11, 15, 7, 6, 16, 11⟩, ⟨1, 5, 9, 13, 3, 2, 16, 11⟩, ⟨0, 4, 8, 12, 1, 0, 16, 11⟩,
   ⟨0, 5, 10, 15, 8, 9, 32, 25⟩, ⟨1, 6, 11, 12, 10, 11, 32, 25⟩, ⟨2, 7, 8, 13, 12, 13, 32, 25⟩, ⟨3, 4, 9, 14, 14, 15, 32, 25⟩,
   ⟨2, 7, 8, 13, 13, 12, 16, 11⟩, ⟨3, 4, 9, 14, 15, 14, 16, 11⟩, ⟨1, 6, 11, 12, 11, 10, 16, 11⟩, ⟨0, 5, 10, 15, 9, 8, 16, 11⟩,
   ⟨0, 4, 8, 12, 14, 10, 32, 25⟩, ⟨1, 5, 9, 13, 4, 8, 32, 25⟩, ⟨2, 6, 10, 14, 9, 15, 32, 25⟩, ⟨3, 7, 11, 15, 13, 6, 32, 25⟩,
   ⟨2, 6, 10, 14, 15, 9, 16, 11⟩, ⟨3, 7, 11, 15, 6, 13, 16, 11⟩, ⟨1, 5, 9, 13, 8, 4, 16, 11⟩, ⟨0, 4, 8, 12, 10, 14, 16, 11⟩,
   ⟨0, 5, 10, 15, 1, 12, 32, 25⟩, ⟨1, 6, 11, 12, 0, 2, 32, 25⟩, ⟨2, 7, 8, 13, 11, 7, 32, 25⟩, ⟨3, 4, 9, 14, 5, 3, 32, 25⟩,
   ⟨2, 7, 8, 13, 7, 11, 16, 11⟩, ⟨3, 4, 9, 14, 3, 5, 16, 11⟩, ⟨1, 6, 11, 12, 2, 0, 16, 11⟩, ⟨0, 5, 10, 15, 12, 1, 16, 11⟩,
   ⟨0, 4, 8, 12, 11, 8, 32, 25⟩, ⟨1, 5, 9, 13, 12, 0, 32, 25⟩, ⟨2, 6, 10, 14, 5, 2, 32, 25⟩, ⟨3, 7, 11, 15, 15, 13, 32, 25⟩,
   ⟨2, 6, 10, 14, 2, 5, 16, 11⟩, ⟨3, 7, 11, 15, 13, 15, 16, 11⟩, ⟨1, 5, 9, 13, 0, 12, 16, 11⟩, ⟨0, 4, 8, 12, 8, 11, 16, 11⟩,
   ⟨0, 5, 10, 15, 10, 14, 32, 25⟩, ⟨1, 6, 11, 12, 3, 6, 32, 25⟩, ⟨2, 7, 8, 13, 7, 1, 32, 25⟩, ⟨3, 4, 9, 14, 9, 4, 32, 25⟩,
   ⟨2, 7, 8, 13, 1, 7, 16, 11⟩, ⟨3, 4, 9, 14, 4, 9, 16, 11⟩, ⟨1, 6, 11, 12, 6, 3, 16, 11⟩, ⟨0, 5, 10, 15, 14, 10, 16, 11⟩,
   ⟨0, 4, 8, 12, 7, 9, 32, 25⟩, ⟨1, 5, 9, 13, 3, 1, 32, 25⟩, ⟨2, 6, 10, 14, 13, 12, 32, 25⟩, ⟨3, 7, 11, 15, 11, 14, 32, 25⟩,
   ⟨2, 6, 10, 14, 12, 13, 16, 11⟩, ⟨3, 7, 11, 15, 14, 11, 16, 11⟩, ⟨1, 5, 9, 13, 1, 3, 16, 11⟩, ⟨0, 4, 8, 12, 9, 7, 16, 11⟩,
   ⟨0, 5, 10, 15, 2, 6, 32, 25⟩, ⟨1, 6, 11, 12, 5, 10, 32, 25⟩, ⟨2, 7, 8, 13, 4, 0, 32, 25⟩, ⟨3, 4, 9, 14, 15, 8, 32, 25⟩,
   ⟨2, 7, 8, 13, 0, 4, 16, 11⟩, ⟨3, 4, 9, 14, 8, 15, 16, 11⟩, ⟨1, 6, 11, 12, 10, 5, 16, 11⟩, ⟨0, 5, 10, 15, 6, 2, 16, 11⟩,
   ⟨0, 4, 8, 12, 9, 0, 32, 25⟩, ⟨1, 5, 9, 13, 5, 7, 32, 25⟩, ⟨2, 6, 10, 14, 2, 4, 32, 25⟩, ⟨3, 7, 11, 15, 10, 15, 32, 25⟩,
   ⟨2, 6, 10, 14, 4, 2, 16, 11⟩, ⟨3, 7, 11, 15, 15, 10, 16, 11⟩, ⟨1, 5, 9, 13, 7, 5, 16, 11⟩, ⟨0, 4, 8, 12, 0, 9, 16, 11⟩,
   ⟨0, 5, 10, 15, 14, 1, 32, 25⟩, ⟨1, 6, 11, 12, 11, 12, 32, 25⟩, ⟨2, 7, 8, 13, 6, 8, 32, 25⟩, ⟨3, 4, 9, 14, 3, 13, 32, 25⟩,
   ⟨2, 7, 8, 13, 8, 6, 16, 11⟩, ⟨3, 4, 9, 14, 13, 3, 16, 11⟩, ⟨1, 6, 11, 12, 12, 11, 16, 11⟩, ⟨0, 5, 10, 15, 1, 14, 16, 11⟩,
   ⟨0, 4, 8, 12, 2, 12, 32, 25⟩, ⟨1, 5, 9, 13, 6, 10, 32, 25⟩, ⟨2, 6, 10, 14, 0, 11, 32, 25⟩, ⟨3, 7, 11, 15, 8, 3, 32, 25⟩,
   ⟨2, 6, 10, 14, 11, 0, 16, 11⟩, ⟨3, 7, 11, 15, 3, 8, 16, 11⟩, ⟨1, 5, 9, 13, 10, 6, 16, 11⟩, ⟨0, 4, 8, 12, 12, 2, 16, 11⟩,
   ⟨0, 5, 10, 15, 4, 13, 32, 25⟩, ⟨1, 6, 11, 12, 7, 5, 32, 25⟩, ⟨2, 7, 8, 13, 15, 14, 32, 25⟩, ⟨3, 4, 9, 14, 1, 9, 32, 25⟩,
   ⟨2, 7, 8, 13, 14, 15, 16, 11⟩, ⟨3, 4, 9, 14, 9, 1, 16, 11⟩, ⟨1, 6, 11, 12, 5, 7, 16, 11⟩, ⟨0, 5, 10, 15, 13, 4, 16, 11⟩,
   ⟨0, 4, 8, 12, 12, 5, 32, 25⟩, ⟨1, 5, 9, 13, 1, 15, 32, 25⟩, ⟨2, 6, 10, 14, 14, 13, 32, 25⟩, ⟨3, 7, 11, 15, 4, 10, 32, 25⟩,
   ⟨2, 6, 10, 14, 13, 14, 16, 11⟩, ⟨3, 7, 11, 15, 10, 4, 16, 11⟩, ⟨1, 5, 9, 13, 15, 1, 16, 11⟩, ⟨0, 4, 8, 12, 5, 12, 16, 11⟩,
   ⟨0, 5, 10, 15, 0, 7, 32, 25⟩, ⟨1, 6, 11, 12, 6, 3, 32, 25⟩, ⟨2, 7, 8, 13, 9, 2, 32, 25⟩, ⟨3, 4, 9, 14, 8, 11, 32, 25⟩,
   ⟨2, 7, 8, 13, 2, 9, 16, 11⟩, ⟨3, 4, 9, 14, 11, 8, 16, 11⟩, ⟨1, 6, 11, 12, 3, 6, 16, 11⟩, ⟨0, 5, 10, 15, 7, 0, 16, 11⟩,
   ⟨0, 4, 8, 12, 13, 11, 32, 25⟩, ⟨1, 5, 9, 13, 7, 14, 32, 25⟩, ⟨2, 6, 10, 14, 12, 1, 32, 25⟩, ⟨3, 7, 11, 15, 3, 9, 32, 25⟩,
   ⟨2, 6, 10, 14, 1, 12, 16, 11⟩, ⟨3, 7, 11, 15, 9, 3, 16, 11⟩, ⟨1, 5, 9, 13, 14, 7, 16, 11⟩, ⟨0, 4, 8, 12, 11, 13, 16, 11⟩,
   ⟨0, 5, 10, 15, 5, 0, 32, 25⟩, ⟨1, 6, 11, 12, 15, 4, 32, 25⟩, ⟨2, 7, 8, 13, 8, 6, 32, 25⟩, ⟨3, 4, 9, 14, 2, 10, 32, 25⟩,
   ⟨2, 7, 8, 13, 6, 8, 16, 11⟩, ⟨3, 4, 9, 14, 10, 2, 16, 11⟩, ⟨1, 6, 11, 12, 4, 15, 16, 11⟩, ⟨0, 5, 10, 15, 0, 5, 16, 11⟩,
   ⟨0, 4, 8, 12, 6, 15, 32, 25⟩, ⟨1, 5, 9, 13, 14, 9, 32, 25⟩, ⟨2, 6, 10, 14, 11, 3, 32, 25⟩, ⟨3, 7, 11, 15, 0, 8, 32, 25⟩,
   ⟨2, 6, 10, 14, 3, 11, 16, 11⟩, ⟨3, 7, 11, 15, 8, 0, 16, 11⟩, ⟨1, 5, 9, 13, 9, 14, 16, 11⟩, ⟨0, 4, 8, 12, 15, 6, 16, 11⟩,
   ⟨0, 5, 10, 15, 12, 2, 32, 25⟩, ⟨1, 6, 11, 12, 13, 7, 32, 25⟩, ⟨2, 7, 8, 13, 1, 4, 32, 25⟩, ⟨3, 4, 9, 14, 10, 5, 32, 25⟩,
   ⟨2, 7, 8, 13, 4, 1, 16, 11⟩, ⟨3, 4, 9, 14, 5, 10, 16, 11⟩, ⟨1, 6, 11, 12, 7, 13, 16, 11⟩, ⟨0, 5, 10, 15, 2, 12, 16, 11⟩,
   ⟨0, 4, 8, 12, 10, 2, 32, 25⟩, ⟨1, 5, 9, 13, 8, 4, 32, 25⟩, ⟨2, 6, 10, 14, 7, 6, 32, 25⟩, ⟨3, 7, 11, 15, 1, 5, 32, 25⟩,
   ⟨2, 6, 10, 14, 6, 7, 16, 11⟩, ⟨3, 7, 11, 15, 5, 1, 16, 11⟩, ⟨1, 5, 9, 13, 4, 8, 16, 11⟩, ⟨0, 4, 8, 12, 2, 10, 16, 11⟩,
   ⟨0, 5, 10, 15, 15, 11, 32, 25⟩, ⟨1, 6, 11, 12, 9, 14, 32, 25⟩, ⟨2, 7, 8, 13, 3, 12, 32, 25⟩, ⟨3, 4, 9, 14, 13, 0, 32, 25⟩,
   ⟨2, 7, 8, 13, 12, 3, 16, 11⟩, ⟨3, 4, 9, 14, 0, 13, 16, 11⟩, ⟨1, 6, 11, 12, 14, 9, 16, 11⟩, ⟨0, 5, 10, 15, 11, 15, 16, 11⟩,
   ⟨0, 4, 8, 12, 0, 1, 32, 25⟩, ⟨1, 5, 9, 13, 2, 3, 32, 25⟩, ⟨2, 6, 10, 14, 4, 5, 32, 25⟩, ⟨3, 7, 11, 15, 6, 7, 32, 25⟩,
   ⟨2, 6, 10, 14, 5, 4, 16, 11⟩, ⟨3, 7, 11, 15, 7, 6, 16, 11⟩, ⟨1, 5, 9, 13, 3, 2, 16, 11⟩, ⟨0, 4, 8, 12, 1, 0, 16, 11⟩,
   ⟨0, 5, 10, 15, 8, 9, 32, 25⟩, ⟨1, 6, 11, 12, 10, 11, 32, 25⟩, ⟨2, 7, 8, 13, 12, 13, 32, 25⟩, ⟨3, 4, 9, 14, 14, 15, 32, 25⟩,
   ⟨2, 7, 8, 13, 13, 12, 16, 11⟩, ⟨3, 4, 9, 14, 15, 14, 16, 11⟩, ⟨1, 6, 11, 12, 11, 10, 16, 11⟩, ⟨0, 5, 10, 15, 9, 8, 16, 11⟩,
   ⟨0, 4, 8, 12, 14, 10, 32, 25⟩, ⟨1, 5, 9, 13, 4, 8, 32, 25⟩, ⟨2, 6, 10, 14, 9, 15, 32, 25⟩, ⟨3, 7, 11, 15, 13, 6, 32, 25⟩,
   ⟨2, 6, 10, 14, 15, 9, 16, 11⟩, ⟨3, 7, 11, 15, 6, 13, 16, 11⟩, ⟨1, 5, 9, 13, 8, 4, 16, 11⟩, ⟨0, 4, 8, 12, 10, 14, 16, 11⟩,
   ⟨0, 5, 10, 15, 1, 12, 32, 25⟩, ⟨1, 6, 11, 12, 0, 2, 32, 25⟩, ⟨2, 7, 8, 13, 11, 7, 32, 25⟩, ⟨3, 4, 9, 14, 5, 3, 32, 25⟩,
   ⟨2, 7, 8, 13, 7, 11, 16, 11⟩, ⟨3, 4, 9, 14, 3, 5, 16, 11⟩, ⟨1, 6, 11, 12, 2, 0, 16, 11⟩, ⟨0, 5, 10, 15, 12, 1, 16, 11⟩,
   ⟨0, 4, 8, 12, 11, 8, 32, 25⟩, ⟨1, 5, 9, 13, 12, 0, 32, 25⟩, ⟨2, 6, 10, 14, 5, 2, 32, 25⟩, ⟨3, 7, 11, 15, 15, 13, 32, 25⟩,
   ⟨2, 6, 10, 14, 2, 5, 16, 11⟩, ⟨3, 7, 11, 15, 13, 15, 16, 11⟩, ⟨1, 5, 9, 13, 0, 12, 16, 11⟩, ⟨0, 4, 8, 12, 8, 11, 16, 11⟩,
   ⟨0, 5, 10, 15, 10, 14, 32, 25⟩, ⟨1, 6, 11, 12, 3, 6, 32, 25⟩, ⟨2, 7, 8, 13, 7, 1, 32, 25⟩, ⟨3, 4, 9, 14, 9, 4, 32, 25⟩,
   ⟨2, 7, 8, 13, 1, 7, 16, 11⟩, ⟨3, 4, 9, 14, 4, 9, 16, 11⟩, ⟨1, 6, 11, 12, 6, 3, 16, 11⟩, ⟨0, 5, 10, 15, 14, 10, 16, 11⟩,
   ⟨0, 4, 8, 12, 7, 9, 32, 25⟩, ⟨1, 5, 9, 13, 3, 1, 32, 25⟩, ⟨2, 6, 10, 14, 13, 12, 32, 25⟩, ⟨3, 7, 11, 15, 11, 14, 32, 25⟩,
   ⟨2, 6, 10, 14, 12, 13, 16, 11⟩, ⟨3, 7, 11, 15, 14, 11, 16, 11⟩, ⟨1, 5, 9, 13, 1, 3, 16, 11⟩, ⟨0, 4, 8, 12, 9, 7, 16, 11⟩,
   ⟨0, 5, 10, 15, 2, 6, 32, 25⟩, ⟨1, 6, 11, 12, 5, 10, 32, 25⟩, ⟨2, 7, 8, 13, 4, 0, 32, 25⟩, ⟨3, 4, 9, 14, 15, 8, 32, 25⟩,
   ⟨2, 7, 8, 13, 0, 4, 16, 11⟩, ⟨3, 4, 9, 14, 8, 15, 16, 11⟩, ⟨1, 6, 11, 12, 10, 5, 16, 11⟩, ⟨0, 5, 10, 15, 6, 2, 16, 11⟩,
   ⟨0, 4, 8, 12, 9, 0, 32, 25⟩, ⟨1, 5, 9, 13, 5, 7, 32, 25⟩, ⟨2, 6, 10, 14, 2, 4, 32, 25⟩, ⟨3, 7, 11, 15, 10, 15, 32, 25⟩,
   ⟨2, 6, 10, 14, 4, 2, 16, 11⟩, ⟨3, 7, 11, 15, 15, 10, 16, 11⟩, ⟨1, 5, 9, 13, 7, 5, 16, 11⟩, ⟨0, 4, 8, 12, 0, 9, 16, 11⟩,
   ⟨0, 5, 10, 15, 14, 1, 32, 25⟩, ⟨1, 6, 11, 12, 11, 12, 32, 25⟩, ⟨2, 7, 8, 13, 6, 8, 32, 25⟩, ⟨3, 4, 9, 14, 3, 13, 32, 25⟩,
   ⟨2, 7, 8, 13, 8, 6, 16, 11⟩, ⟨3, 4, 9, 14, 13, 3, 16, 11⟩, ⟨1, 6, 11, 12, 12, 11, 16, 11⟩, ⟨0, 5, 10, 15, 1, 14, 16, 11⟩,
   ⟨0, 4, 8, 12, 2, 12, 32, 25⟩, ⟨1, 5, 9, 13, 6, 10, 32, 25⟩, ⟨2, 6, 10, 14, 0, 11, 32, 25⟩, ⟨3, 7, 11, 15, 8, 3, 32, 25⟩,
   ⟨2, 6, 10, 14, 11, 0, 16, 11⟩, ⟨3, 7, 11, 15, 3, 8, 16, 11⟩, ⟨1, 5, 9, 13, 10, 6, 16, 11⟩, ⟨0, 4, 8, 12, 12, 2, 16, 11⟩,
   ⟨0, 5, 10, 15, 4, 13, 32, 25⟩, ⟨1, 6, 11, 12, 7, 5, 32, 25⟩, ⟨2, 7, 8, 13, 15, 14, 32, 25⟩, ⟨3, 4, 9, 14, 1, 9, 32, 25⟩,
   ⟨2, 7, 8, 13, 14, 15, 16, 11⟩, ⟨3, 4, 9, 14, 9, 1, 16, 11⟩, ⟨1, 6, 11, 12, 5, 7, 16, 11⟩, ⟨0, 5, 10, 15, 13, 4, 16, 11⟩]

/-- blake512block.go:17-34 -/
def cst512 : List (BitVec 64) :=
  [0x243F6A8885A308D3, 0x13198A2E03707344, 0xA4093822299F31D0, 0x082EFA98EC4E6C89,
   0x452821E638D01377, 0xBE5466CF34E90C6C, 0xC0AC29B7C97C50DD, 0x3F84D5B5B5470917,
   0x9216D5D98979FB1B, 0xD1310BA698DFB5AC, 0x2FFD72DBD01ADFB7, 0xB8E1AFED6A267E96,
   0xBA7C9045F12C7F99, 0x24A19947B3916CF7, 0x0801F2E2858EFC16, 0x636920D871574E69]

/-- the constants of blake512. -/
def cfg512 : Cfg 64 where
  blockSize := 128
  blockBits := 1024
  thr := 111
  thrBits := 888
  lenBits := 128
  lenPad := [0, 0, 0, 0, 0, 0, 0, 0]
  cst := cst512
  prog := prog512
  ctr := fun t => [BitVec.ofNat 64 t, BitVec.ofNat 64 t, 0, 0]
  word := word64
  outWord := fun x => bytes64 x.toNat

/-- blake512.go:34-38 -/
def iv512 : List (BitVec 64) :=
  [0x6A09E667F3BCC908, 0xBB67AE8584CAA73B, 0x3C6EF372FE94F82B, 0xA54FF53A5F1D36F1,
   0x510E527FADE682D1, 0x9B05688C2B3E6C1F, 0x1F83D9ABFB41BD6B, 0x5BE0CD19137E2179]
/-- blake512.go:40-44 -/
def iv384 : List (BitVec 64) :=
  [0xCBBB9D5DC1059ED8, 0x629A292A367CD507, 0x9159015A3070DD17, 0x152FECD8F70E5939,
   0x67332667FFC00B31, 0x8EB44A8768581511, 0xDB0C2E0D64F98FA7, 0x47B5481DBEFA4FA4]

/-- blake512.go:151-161 `setSalt`: it panics unless the salt has 32 bytes. -/
def salt512 (s : Bytes) : List (BitVec 64) := [word64 s, word64 (s.drop 8), word64 (s.drop 16), word64 (s.drop 24)]

/-- no salt -/
def noSalt : List (BitVec w) := [0, 0, 0, 0]

/-- blake256.go:160-167 `NewSalt`, 176-183 `New224Salt`. -/
def newSalt256 (short : Bool) (salt : Bytes) : Go (St 32) :=
  if salt.length ≠ 16 then .panic else .ret (new short (if short then iv224 else iv256) (salt256 salt))
/-- blake512.go:170-177 `NewSalt`, 186-193 `New384Salt`. -/
def newSalt512 (short : Bool) (salt : Bytes) : Go (St 64) :=
  if salt.length ≠ 32 then .panic else .ret (new short (if short then iv384 else iv512) (salt512 salt))

/-- hashset.go:174-181: `blake256.New`, one `Write`, `Sum(nil)`. -/
def blake256 (data : Bytes) : Bytes := sum cfg256 (write cfg256 (new false iv256 noSalt) data) []
/-- hashset.go:210-217: `blake512.New`, one `Write`, `Sum(nil)`. -/
def blake512 (data : Bytes) : Bytes := sum cfg512 (write cfg512 (new false iv512 noSalt) data) []

end Verif.Blake
