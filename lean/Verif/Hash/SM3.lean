import Verif.Hash.Blocks

/-!
# Model of /repo/sm3/sm3.go

`uint32` is `BitVec 32`: addition wraps, shifts by 32 or more give 0, as in Go.
-/

namespace Verif.SM3

open Verif.Hash

/-- sm3.go:23: the eight chaining words `digest[0..7]`. -/
structure V where
  a : BitVec 32
  b : BitVec 32
  c : BitVec 32
  d : BitVec 32
  e : BitVec 32
  f : BitVec 32
  g : BitVec 32
  h : BitVec 32
  deriving DecidableEq

/-- sm3.go:28 `ff0` -/
def ff0 (x y z : BitVec 32) : BitVec 32 := x ^^^ y ^^^ z
/-- sm3.go:30 `ff1` -/
def ff1 (x y z : BitVec 32) : BitVec 32 := (x &&& y) ||| (x &&& z) ||| (y &&& z)
/-- sm3.go:32 `gg0` -/
def gg0 (x y z : BitVec 32) : BitVec 32 := x ^^^ y ^^^ z
/-- sm3.go:34 `gg1` -/
def gg1 (x y z : BitVec 32) : BitVec 32 := (x &&& y) ||| (~~~x &&& z)
/-- sm3.go:40 `leftRotate` -/
def leftRotate (x : BitVec 32) (i : Nat) : BitVec 32 := (x <<< (i % 32)) ||| (x >>> (32 - i % 32))
/-- sm3.go:36 `p0` -/
def p0 (x : BitVec 32) : BitVec 32 := x ^^^ leftRotate x 9 ^^^ leftRotate x 17
/-- sm3.go:38 `p1` -/
def p1 (x : BitVec 32) : BitVec 32 := x ^^^ leftRotate x 15 ^^^ leftRotate x 23

/-- sm3.go:71-73: the first 16 entries of `w`. -/
def loadWords (msg : Bytes) : List (BitVec 32) := (List.range 16).map fun i => word32 (msg.drop (4 * i))

/-- sm3.go:74-76: `n` more entries of `w`, which has `w.length = i` entries so far. -/
def expandLoop : Nat → List (BitVec 32) → List (BitVec 32)
  | 0, w => w
  | n + 1, w =>
    let i := w.length
    let x := p1 (w.getD (i - 16) 0 ^^^ w.getD (i - 9) 0 ^^^ leftRotate (w.getD (i - 3) 0) 15) ^^^
      leftRotate (w.getD (i - 13) 0) 7 ^^^ w.getD (i - 6) 0
    expandLoop n (w ++ [x])

/-- sm3.go:77-79: `w1`. -/
def w1Of (w : List (BitVec 32)) : List (BitVec 32) := (List.range 64).map fun i => w.getD i 0 ^^^ w.getD (i + 4) 0

/-- sm3.go:81-94 and 95-108: one round, with `ff`, `gg` and the constant of the two loops. -/
def round (ff gg : BitVec 32 → BitVec 32 → BitVec 32 → BitVec 32) (t : BitVec 32) (w w1 : List (BitVec 32)) (s : V) (i : Nat) : V :=
  let SS1 := leftRotate (leftRotate s.a 12 + s.e + leftRotate t i) 7
  let SS2 := SS1 ^^^ leftRotate s.a 12
  let TT1 := ff s.a s.b s.c + s.d + SS2 + w1.getD i 0
  let TT2 := gg s.e s.f s.g + s.h + SS1 + w.getD i 0
  { d := s.c, c := leftRotate s.b 9, b := s.a, a := TT1, h := s.g, g := leftRotate s.f 19, f := s.e, e := p0 TT2 }

/-- sm3.go:70-118: the body of the loop of `update` for one block. -/
def block (s : V) (msg : Bytes) : V :=
  let w := expandLoop 52 (loadWords msg)
  let w1 := w1Of w
  let t := (List.range 16).foldl (round ff0 gg0 0x79cc4519 w w1) s
  let t := (List.range' 16 48).foldl (round ff1 gg1 0x7a879d8a w w1) t
  { a := s.a ^^^ t.a, b := s.b ^^^ t.b, c := s.c ^^^ t.c, d := s.d ^^^ t.d,
    e := s.e ^^^ t.e, f := s.f ^^^ t.f, g := s.g ^^^ t.g, h := s.h ^^^ t.h }

/-- sm3.go:65-120 `update`; its second argument is not used. -/
def update (s : V) (msg : Bytes) : V := fullBlocks 64 block s msg

/-- sm3.go:22-26: the struct `SM3`; `length` is a `uint64`. -/
structure St where
  digest : V
  length : Nat
  unhandled : Bytes
  deriving DecidableEq

/-- sm3.go:133-146 `Reset` (and 122-127 `New`). -/
def reset : St where
  digest := ⟨0x7380166f, 0x4914b2b9, 0x172442d7, 0xda8a0600, 0xa96f30bc, 0x163138aa, 0xe38dee4d, 0xb0fb0e4e⟩
  length := 0
  unhandled := []

/-- sm3.go:148-159 `Write`. -/
def write (s : St) (p : Bytes) : St :=
  let length := (s.length + p.length * 8 % 2 ^ 64) % 2 ^ 64
  let msg := s.unhandled ++ p
  let nblocks := msg.length / 64
  { digest := update s.digest msg, length := length, unhandled := msg.drop (nblocks * 64) }

/-- sm3.go:46-48: `for len(msg)%64 != 56 { append 0 }`; 64 passes are enough. -/
def padLoop : Nat → Bytes → Bytes
  | 0, msg => msg
  | n + 1, msg => if msg.length % 64 ≠ 56 then padLoop n (msg ++ [0x00]) else msg

/-- sm3.go:42-63 `pad`; the panic on a length that is not a multiple of 64 is excluded by `pad_length`. -/
def pad (s : St) : Bytes :=
  let msg := s.unhandled
  let msg := msg ++ [0x80]
  let msg := padLoop 64 msg
  msg ++ bytes64 s.length

/-- sm3.go:175-177: the output bytes. -/
def output (v : V) : Bytes :=
  bytes32 v.a ++ bytes32 v.b ++ bytes32 v.c ++ bytes32 v.d ++ bytes32 v.e ++ bytes32 v.f ++ bytes32 v.g ++ bytes32 v.h

/-- sm3.go:161-180 `Sum`: the new state and the result.  It first writes its argument, and leaves the state with the
padded blocks absorbed; the result is the 32 digest bytes only. -/
def sum (s : St) (inp : Bytes) : St × Bytes :=
  let s := write s inp
  let msg := pad s
  let s := { s with digest := update s.digest msg }
  (s, output s.digest)

/-- sm3.go:182-188 `Sm3Sum`; also `New` followed by one `Write` and `Sum(nil)`. -/
def sm3Sum (data : Bytes) : Bytes := (sum (write reset data) []).2

end Verif.SM3
