import Verif.Bytes
import Verif.BigInt

/-!
# Model of the limb arithmetic of /repo/sm2_std.go

`uint32` and `uint64` values are naturals; every addition, subtraction and left shift is reduced
explicitly (`w32`, `sub32`, `shl32`, `w64`), so wrap-around is modelled.  `x & bottom29Bits` and
`x & bottom28Bits` are written `x % 2^29` and `x % 2^28`, `x >> k` is written `x / 2^k`; on naturals these are the
same numbers.

`Gh` adds a ghost flag to a result.  The flag never influences a value.  It records that, in the run,
the reduction step of `sm2_stdReduceDegree` took `(x >> 1) - 1` from an `x` equal to 1 while the limb it is added to
was 0, so that the limb wrapped around to `2^32 - 1` (sm2_std.go:829 and 842).
-/

namespace Verif.SM2

/-- `uint32` wrap-around. -/
def w32 (x : Nat) : Nat := x % 4294967296
/-- `a - b` on `uint32` (operands below `2^32`). -/
def sub32 (a b : Nat) : Nat := (a + 4294967296 - b) % 4294967296
/-- `x << n` on `uint32`. -/
def shl32 (x n : Nat) : Nat := (x * 2 ^ n) % 4294967296
/-- `uint64` wrap-around. -/
def w64 (x : Nat) : Nat := x % 18446744073709551616
/-- `uint32(b)` of a `uint64`. -/
def lo (b : Nat) : Nat := b % 4294967296
/-- `uint32(b >> 32)` of a `uint64`. -/
def hi (b : Nat) : Nat := b / 4294967296 % 4294967296

/-- a value with the ghost flag described above. -/
structure Gh (α : Type) where
  val : α
  bad : Bool

instance : Monad Gh where
  pure a := ⟨a, false⟩
  bind m f := let r := f m.val; ⟨r.val, m.bad || r.bad⟩

/-- sm2_std.go:40 `sm2_stdFieldElement`, `[9]uint32`. -/
structure Fe where
  a0 : Nat
  a1 : Nat
  a2 : Nat
  a3 : Nat
  a4 : Nat
  a5 : Nat
  a6 : Nat
  a7 : Nat
  a8 : Nat
  deriving DecidableEq, Repr

/-- sm2_std.go:51. -/
def P : Int := 0xFFFFFFFEFFFFFFFFFFFFFFFFFFFFFFFFFFFFFFFF00000000FFFFFFFFFFFFFFFF
/-- sm2_std.go:52. -/
def N : Int := 0xFFFFFFFEFFFFFFFFFFFFFFFFFFFFFFFF7203DF6B21C6052B53BBF40939D54123
/-- sm2_std.go:50 `A`. -/
def A : Int := 0xFFFFFFFEFFFFFFFFFFFFFFFFFFFFFFFFFFFFFFFF00000000FFFFFFFFFFFFFFFC
/-- sm2_std.go:53. -/
def B : Int := 0x28E9FA9E9D9F5E344D5A9E4BCF6509A7F39789F515AB8F92DDBCBD414D940E93
/-- sm2_std.go:54. -/
def Gx : Int := 0x32C4AE2C1F1981195F9904466A39C9948FE30BBFF2660BE1715A4589334C74C7
/-- sm2_std.go:55. -/
def Gy : Int := 0xBC3736A2F4F6779C59BDCEE36B692153D0A9877CC62A474002DF32E52139F0A0
/-- sm2_std.go:56. -/
def RInverse : Int := 0x7ffffffd80000002fffffffe000000017ffffffe800000037ffffffc80000002

/-- sm2_std.go:723-725 `nonZeroToAllOnes`. -/
def nonZeroToAllOnes (x : Nat) : Nat := sub32 (sub32 x 1 / 2147483648) 1

/-- sm2_std.go:727-736 `sm2_stdCarry`: the entries 0, 2, 3 and 7 of the row (the others are zero and are not
read). -/
def carryRow : Nat → Nat × Nat × Nat × Nat
  | 1 => (0x2, 0x1FFFFF00, 0x7FF, 0x2000000)
  | 2 => (0x4, 0x1FFFFE00, 0xFFF, 0x4000000)
  | 3 => (0x6, 0x1FFFFD00, 0x17FF, 0x6000000)
  | 4 => (0x8, 0x1FFFFC00, 0x1FFF, 0x8000000)
  | 5 => (0xA, 0x1FFFFB00, 0x27FF, 0xA000000)
  | 6 => (0xC, 0x1FFFFA00, 0x2FFF, 0xC000000)
  | 7 => (0xE, 0x1FFFF900, 0x37FF, 0xE000000)
  | _ => (0, 0, 0, 0)

/-- sm2_std.go:738-743 `sm2_stdReduceCarry`.  A carry above 7 would be an index out of range in Go; the bounds
proved in `Verif/SM2/FieldLemmas.lean` exclude it for every caller. -/
def reduceCarry (a : Fe) (carry : Nat) : Fe :=
  { a with
    a0 := w32 (a.a0 + (carryRow carry).1)
    a2 := w32 (a.a2 + (carryRow carry).2.1)
    a3 := w32 (a.a3 + (carryRow carry).2.2.1)
    a7 := w32 (a.a7 + (carryRow carry).2.2.2) }

/-- sm2_std.go:542-559 `sm2_stdAdd`. -/
def add (a b : Fe) : Fe :=
  let c0 := w32 (w32 (a.a0 + b.a0))
  let carry := c0 / 536870912
  let c0 := c0 % 536870912
  let c1 := w32 (w32 (a.a1 + b.a1) + carry)
  let carry := c1 / 268435456
  let c1 := c1 % 268435456
  let c2 := w32 (w32 (a.a2 + b.a2) + carry)
  let carry := c2 / 536870912
  let c2 := c2 % 536870912
  let c3 := w32 (w32 (a.a3 + b.a3) + carry)
  let carry := c3 / 268435456
  let c3 := c3 % 268435456
  let c4 := w32 (w32 (a.a4 + b.a4) + carry)
  let carry := c4 / 536870912
  let c4 := c4 % 536870912
  let c5 := w32 (w32 (a.a5 + b.a5) + carry)
  let carry := c5 / 268435456
  let c5 := c5 % 268435456
  let c6 := w32 (w32 (a.a6 + b.a6) + carry)
  let carry := c6 / 536870912
  let c6 := c6 % 536870912
  let c7 := w32 (w32 (a.a7 + b.a7) + carry)
  let carry := c7 / 268435456
  let c7 := c7 % 268435456
  let c8 := w32 (w32 (a.a8 + b.a8) + carry)
  let carry := c8 / 536870912
  let c8 := c8 % 536870912
  reduceCarry ⟨c0, c1, c2, c3, c4, c5, c6, c7, c8⟩ carry

/-- sm2_std.go:540 `sm2_stdZero31`. -/
def zero31 : Fe := ⟨0x7FFFFFF8, 0x3FFFFFFC, 0x800003FC, 0x3FFFDFFC, 0x7FFFFFFC, 0x3FFFFFFC, 0x7FFFFFFC, 0x37FFFFFC, 0x7FFFFFFC⟩

/-- sm2_std.go:561-581 `sm2_stdSub`. -/
def sub (a b : Fe) : Fe :=
  let c0 := w32 (w32 (sub32 a.a0 b.a0 + zero31.a0))
  let carry := c0 / 536870912
  let c0 := c0 % 536870912
  let c1 := w32 (w32 (sub32 a.a1 b.a1 + zero31.a1) + carry)
  let carry := c1 / 268435456
  let c1 := c1 % 268435456
  let c2 := w32 (w32 (sub32 a.a2 b.a2 + zero31.a2) + carry)
  let carry := c2 / 536870912
  let c2 := c2 % 536870912
  let c3 := w32 (w32 (sub32 a.a3 b.a3 + zero31.a3) + carry)
  let carry := c3 / 268435456
  let c3 := c3 % 268435456
  let c4 := w32 (w32 (sub32 a.a4 b.a4 + zero31.a4) + carry)
  let carry := c4 / 536870912
  let c4 := c4 % 536870912
  let c5 := w32 (w32 (sub32 a.a5 b.a5 + zero31.a5) + carry)
  let carry := c5 / 268435456
  let c5 := c5 % 268435456
  let c6 := w32 (w32 (sub32 a.a6 b.a6 + zero31.a6) + carry)
  let carry := c6 / 536870912
  let c6 := c6 % 536870912
  let c7 := w32 (w32 (sub32 a.a7 b.a7 + zero31.a7) + carry)
  let carry := c7 / 268435456
  let c7 := c7 % 268435456
  let c8 := w32 (w32 (sub32 a.a8 b.a8 + zero31.a8) + carry)
  let carry := c8 / 536870912
  let c8 := c8 % 536870912
  reduceCarry ⟨c0, c1, c2, c3, c4, c5, c6, c7, c8⟩ carry

/-- sm2_std.go:41 `sm2_stdLargeFieldElement`, `[17]uint64`. -/
structure Large where
  b0 : Nat
  b1 : Nat
  b2 : Nat
  b3 : Nat
  b4 : Nat
  b5 : Nat
  b6 : Nat
  b7 : Nat
  b8 : Nat
  b9 : Nat
  b10 : Nat
  b11 : Nat
  b12 : Nat
  b13 : Nat
  b14 : Nat
  b15 : Nat
  b16 : Nat

/-- ten consecutive limbs of the array `tmp` of `sm2_stdReduceDegree`. -/
structure Win where
  t0 : Nat
  t1 : Nat
  t2 : Nat
  t3 : Nat
  t4 : Nat
  t5 : Nat
  t6 : Nat
  t7 : Nat
  t8 : Nat
  t9 : Nat

/-- sm2_std.go:783-849: one pass of the elimination of an even limb of `tmp`.  `t.t0 … t.t9` are `tmp[i] … tmp[i+9]`;
the result holds `tmp[i+1] … tmp[i+9]` (`tmp[i]` is 0 from here on and not read again). -/
def stepA (t : Win) : Gh Fe :=
  let t1 := w32 (t.t1 + t.t0 / 536870912)
  let x := t.t0 % 536870912
  if x = 0 then ⟨⟨t1, t.t2, t.t3, t.t4, t.t5, t.t6, t.t7, t.t8, t.t9⟩, false⟩ else
  let xMask := nonZeroToAllOnes x
  let t2 := w32 (t.t2 + shl32 x 7 % 536870912)
  let t3 := w32 (t.t3 + x / 4194304)
  let set4 := if t3 < 0x10000000 then 1 else 0
  let t3 := if t3 < 0x10000000 then sub32 (w32 (t3 + (0x10000000 &&& xMask))) (shl32 x 10 % 268435456)
    else sub32 t3 (shl32 x 10 % 268435456)
  let b4 := t.t4 < 0x20000000
  let t4 := if b4 then sub32 (sub32 (w32 (t.t4 + (0x20000000 &&& xMask))) set4) (x / 262144)
    else sub32 (sub32 t.t4 set4) (x / 262144)
  let b5 := b4 ∧ t.t5 < 0x10000000
  let t5 := if b4 then (if t.t5 < 0x10000000 then sub32 (w32 (t.t5 + (0x10000000 &&& xMask))) 1 else sub32 t.t5 1)
    else t.t5
  let set7 := if b5 ∧ t.t6 < 0x20000000 then 1 else 0
  let t6 := if b5 then (if t.t6 < 0x20000000 then sub32 (w32 (t.t6 + (0x20000000 &&& xMask))) 1 else sub32 t.t6 1)
    else t.t6
  let set8 := if t.t7 < 0x10000000 then 1 else 0
  let t7 := if t.t7 < 0x10000000 then
      sub32 (sub32 (w32 (t.t7 + (0x10000000 &&& xMask))) set7) (shl32 x 24 % 268435456)
    else sub32 (sub32 t.t7 set7) (shl32 x 24 % 268435456)
  let t8 := w32 (t.t8 + shl32 x 28 % 536870912)
  if t8 < 0x20000000 then
    ⟨⟨t1, t2, t3, t4, t5, t6, t7, sub32 (sub32 (w32 (t8 + (0x20000000 &&& xMask))) set8) (x / 16),
      w32 (t.t9 + (sub32 (x / 2) 1 &&& xMask))⟩, x / 2 == 0 && t.t9 == 0⟩
  else
    ⟨⟨t1, t2, t3, t4, t5, t6, t7, sub32 (sub32 t8 set8) (x / 16), w32 (t.t9 + (x / 2 &&& xMask))⟩, false⟩

/-- sm2_std.go:855-911: one pass of the elimination of an odd limb; `t.t0 … t.t9` are `tmp[i+1] … tmp[i+10]`. -/
def stepB (t : Win) : Gh Fe :=
  let t1 := w32 (t.t1 + t.t0 / 268435456)
  let x := t.t0 % 268435456
  if x = 0 then ⟨⟨t1, t.t2, t.t3, t.t4, t.t5, t.t6, t.t7, t.t8, t.t9⟩, false⟩ else
  let xMask := nonZeroToAllOnes x
  let t2 := w32 (t.t2 + shl32 x 7 % 268435456)
  let t3 := w32 (t.t3 + x / 2097152)
  let set5 := if t3 < 0x20000000 then 1 else 0
  let t3 := if t3 < 0x20000000 then sub32 (w32 (t3 + (0x20000000 &&& xMask))) (shl32 x 11 % 536870912)
    else sub32 t3 (shl32 x 11 % 536870912)
  let b5 := t.t4 < 0x10000000
  let t4 := if b5 then sub32 (sub32 (w32 (t.t4 + (0x10000000 &&& xMask))) set5) (x / 262144)
    else sub32 (sub32 t.t4 set5) (x / 262144)
  let b6 := b5 ∧ t.t5 < 0x20000000
  let t5 := if b5 then (if t.t5 < 0x20000000 then sub32 (w32 (t.t5 + (0x20000000 &&& xMask))) 1 else sub32 t.t5 1)
    else t.t5
  let set8 := if b6 ∧ t.t6 < 0x10000000 then 1 else 0
  let t6 := if b6 then (if t.t6 < 0x10000000 then sub32 (w32 (t.t6 + (0x10000000 &&& xMask))) 1 else sub32 t.t6 1)
    else t.t6
  let set9 := if t.t7 < 0x20000000 then 1 else 0
  let t7 := if t.t7 < 0x20000000 then
      sub32 (sub32 (w32 (t.t7 + (0x20000000 &&& xMask))) set8) (shl32 x 25 % 536870912)
    else sub32 (sub32 t.t7 set8) (shl32 x 25 % 536870912)
  if t.t8 < 0x10000000 then
    ⟨⟨t1, t2, t3, t4, t5, t6, t7, sub32 (sub32 (w32 (t.t8 + (0x10000000 &&& xMask))) set9) (x / 16),
      w32 (t.t9 + (sub32 x 1 &&& xMask))⟩, false⟩
  else
    ⟨⟨t1, t2, t3, t4, t5, t6, t7, sub32 (sub32 t.t8 set9) (x / 16), w32 (t.t9 + (x &&& xMask))⟩, false⟩

/-- the next window: the nine limbs left by a step and the next limb of `tmp`. -/
def Fe.win (f : Fe) (t : Nat) : Win := ⟨f.a0, f.a1, f.a2, f.a3, f.a4, f.a5, f.a6, f.a7, f.a8, t⟩

/-- sm2_std.go:756-760: the limb `tmp[i]` for even `i ≥ 2` before masking. -/
def limbEven (bm2 bm1 b carry : Nat) : Nat :=
  w32 (w32 (w32 (w32 (hi bm2 / 33554432 + lo bm1 / 268435456) + shl32 (hi bm1) 4 % 536870912) + lo b % 536870912) + carry)

/-- sm2_std.go:768-772: the limb `tmp[i]` for odd `i ≥ 3` before masking. -/
def limbOdd (bm2 bm1 b carry : Nat) : Nat :=
  w32 (w32 (w32 (w32 (hi bm2 / 33554432 + lo bm1 / 536870912) + shl32 (hi bm1) 3 % 268435456) + lo b % 268435456) + carry)

/-- the array `tmp [18]uint32` of `sm2_stdReduceDegree`. -/
structure Tmp where
  t0 : Nat
  t1 : Nat
  t2 : Nat
  t3 : Nat
  t4 : Nat
  t5 : Nat
  t6 : Nat
  t7 : Nat
  t8 : Nat
  t9 : Nat
  t10 : Nat
  t11 : Nat
  t12 : Nat
  t13 : Nat
  t14 : Nat
  t15 : Nat
  t16 : Nat
  t17 : Nat

/-- sm2_std.go:749-779: splitting of the 17 columns into 18 limbs of 29 and 28 bits. -/
def split (b : Large) : Tmp :=
  let t0 := lo b.b0 % 536870912
  let t1 := lo b.b0 / 536870912
  let t1 := t1 ||| (shl32 (hi b.b0) 3 % 268435456)
  let t1 := w32 (t1 + lo b.b1 % 268435456)
  let carry := t1 / 268435456
  let t1 := t1 % 268435456
  let t2 := limbEven b.b0 b.b1 b.b2 carry
  let carry := t2 / 536870912
  let t2 := t2 % 536870912
  let t3 := limbOdd b.b1 b.b2 b.b3 carry
  let carry := t3 / 268435456
  let t3 := t3 % 268435456
  let t4 := limbEven b.b2 b.b3 b.b4 carry
  let carry := t4 / 536870912
  let t4 := t4 % 536870912
  let t5 := limbOdd b.b3 b.b4 b.b5 carry
  let carry := t5 / 268435456
  let t5 := t5 % 268435456
  let t6 := limbEven b.b4 b.b5 b.b6 carry
  let carry := t6 / 536870912
  let t6 := t6 % 536870912
  let t7 := limbOdd b.b5 b.b6 b.b7 carry
  let carry := t7 / 268435456
  let t7 := t7 % 268435456
  let t8 := limbEven b.b6 b.b7 b.b8 carry
  let carry := t8 / 536870912
  let t8 := t8 % 536870912
  let t9 := limbOdd b.b7 b.b8 b.b9 carry
  let carry := t9 / 268435456
  let t9 := t9 % 268435456
  let t10 := limbEven b.b8 b.b9 b.b10 carry
  let carry := t10 / 536870912
  let t10 := t10 % 536870912
  let t11 := limbOdd b.b9 b.b10 b.b11 carry
  let carry := t11 / 268435456
  let t11 := t11 % 268435456
  let t12 := limbEven b.b10 b.b11 b.b12 carry
  let carry := t12 / 536870912
  let t12 := t12 % 536870912
  let t13 := limbOdd b.b11 b.b12 b.b13 carry
  let carry := t13 / 268435456
  let t13 := t13 % 268435456
  let t14 := limbEven b.b12 b.b13 b.b14 carry
  let carry := t14 / 536870912
  let t14 := t14 % 536870912
  let t15 := limbOdd b.b13 b.b14 b.b15 carry
  let carry := t15 / 268435456
  let t15 := t15 % 268435456
  let t16 := limbEven b.b14 b.b15 b.b16 carry
  let carry := t16 / 536870912
  let t16 := t16 % 536870912
  let t17 := hi b.b15 / 33554432
  let t17 := w32 (t17 + lo b.b16 / 536870912)
  let t17 := w32 (t17 + shl32 (hi b.b16) 3)
  let t17 := w32 (t17 + carry)
  ⟨t0, t1, t2, t3, t4, t5, t6, t7, t8, t9, t10, t11, t12, t13, t14, t15, t16, t17⟩

/-- sm2_std.go:915-933: the last part of `sm2_stdReduceDegree`; `f` holds `tmp[9] … tmp[17]`. -/
def finish (f : Fe) : Fe :=
  let c0 := w32 (f.a0 + shl32 f.a1 28 % 536870912)
  let carry := c0 / 536870912
  let c0 := c0 % 536870912
  let c1 := w32 (f.a1 / 2 + carry)
  let carry := c1 / 268435456
  let c1 := c1 % 268435456
  let c2 := w32 (w32 (f.a2 + carry) + shl32 f.a3 28 % 536870912)
  let carry := c2 / 536870912
  let c2 := c2 % 536870912
  let c3 := w32 (f.a3 / 2 + carry)
  let carry := c3 / 268435456
  let c3 := c3 % 268435456
  let c4 := w32 (w32 (f.a4 + carry) + shl32 f.a5 28 % 536870912)
  let carry := c4 / 536870912
  let c4 := c4 % 536870912
  let c5 := w32 (f.a5 / 2 + carry)
  let carry := c5 / 268435456
  let c5 := c5 % 268435456
  let c6 := w32 (w32 (f.a6 + carry) + shl32 f.a7 28 % 536870912)
  let carry := c6 / 536870912
  let c6 := c6 % 536870912
  let c7 := w32 (f.a7 / 2 + carry)
  let carry := c7 / 268435456
  let c7 := c7 % 268435456
  let c8 := w32 (f.a8 + carry)
  let carry := c8 / 536870912
  let c8 := c8 % 536870912
  reduceCarry ⟨c0, c1, c2, c3, c4, c5, c6, c7, c8⟩ carry

/-- sm2_std.go:745-934 `sm2_stdReduceDegree`. -/
def reduceDegree (b : Large) : Gh Fe := do
  let t := split b
  let f ← stepA ⟨t.t0, t.t1, t.t2, t.t3, t.t4, t.t5, t.t6, t.t7, t.t8, t.t9⟩
  let f ← stepB (f.win t.t10)
  let f ← stepA (f.win t.t11)
  let f ← stepB (f.win t.t12)
  let f ← stepA (f.win t.t13)
  let f ← stepB (f.win t.t14)
  let f ← stepA (f.win t.t15)
  let f ← stepB (f.win t.t16)
  let f ← stepA (f.win t.t17)
  return finish f

/-- sm2_std.go:583-669 `sm2_stdMul`: the columns.  One reduction modulo `2^64` per column stands for the
wrap-around of the single operations. -/
def mulCols (a b : Fe) : Large where
  b0 := w64 (a.a0 * b.a0)
  b1 := w64 (a.a0 * b.a1 + a.a1 * b.a0)
  b2 := w64 (a.a0 * b.a2 + a.a1 * (b.a1 * 2) + a.a2 * b.a0)
  b3 := w64 (a.a0 * b.a3 + a.a1 * b.a2 + a.a2 * b.a1 + a.a3 * b.a0)
  b4 := w64 (a.a0 * b.a4 + a.a1 * (b.a3 * 2) + a.a2 * b.a2 + a.a3 * (b.a1 * 2) + a.a4 * b.a0)
  b5 := w64 (a.a0 * b.a5 + a.a1 * b.a4 + a.a2 * b.a3 + a.a3 * b.a2 + a.a4 * b.a1 + a.a5 * b.a0)
  b6 := w64 (a.a0 * b.a6 + a.a1 * (b.a5 * 2) + a.a2 * b.a4 + a.a3 * (b.a3 * 2) + a.a4 * b.a2 + a.a5 * (b.a1 * 2) + a.a6 * b.a0)
  b7 := w64 (a.a0 * b.a7 + a.a1 * b.a6 + a.a2 * b.a5 + a.a3 * b.a4 + a.a4 * b.a3 + a.a5 * b.a2 + a.a6 * b.a1 + a.a7 * b.a0)
  b8 := w64 (a.a0 * b.a8 + a.a1 * (b.a7 * 2) + a.a2 * b.a6 + a.a3 * (b.a5 * 2) + a.a4 * b.a4 + a.a5 * (b.a3 * 2) + a.a6 * b.a2 + a.a7 * (b.a1 * 2) + a.a8 * b.a0)
  b9 := w64 (a.a1 * b.a8 + a.a2 * b.a7 + a.a3 * b.a6 + a.a4 * b.a5 + a.a5 * b.a4 + a.a6 * b.a3 + a.a7 * b.a2 + a.a8 * b.a1)
  b10 := w64 (a.a2 * b.a8 + a.a3 * (b.a7 * 2) + a.a4 * b.a6 + a.a5 * (b.a5 * 2) + a.a6 * b.a4 + a.a7 * (b.a3 * 2) + a.a8 * b.a2)
  b11 := w64 (a.a3 * b.a8 + a.a4 * b.a7 + a.a5 * b.a6 + a.a6 * b.a5 + a.a7 * b.a4 + a.a8 * b.a3)
  b12 := w64 (a.a4 * b.a8 + a.a5 * (b.a7 * 2) + a.a6 * b.a6 + a.a7 * (b.a5 * 2) + a.a8 * b.a4)
  b13 := w64 (a.a5 * b.a8 + a.a6 * b.a7 + a.a7 * b.a6 + a.a8 * b.a5)
  b14 := w64 (a.a6 * b.a8 + a.a7 * (b.a7 * 2) + a.a8 * b.a6)
  b15 := w64 (a.a7 * b.a8 + a.a8 * b.a7)
  b16 := w64 (a.a8 * b.a8)

/-- sm2_std.go:583-669 `sm2_stdMul`. -/
def mul (a b : Fe) : Gh Fe := reduceDegree (mulCols a b)

/-- sm2_std.go:671-721 `sm2_stdSquare`: the columns. -/
def squareCols (a : Fe) : Large where
  b0 := w64 (a.a0 * a.a0)
  b1 := w64 (a.a0 * (a.a1 * 2))
  b2 := w64 (a.a0 * (a.a2 * 2) + a.a1 * (a.a1 * 2))
  b3 := w64 (a.a0 * (a.a3 * 2) + a.a1 * (a.a2 * 2))
  b4 := w64 (a.a0 * (a.a4 * 2) + a.a1 * (a.a3 * 4) + a.a2 * a.a2)
  b5 := w64 (a.a0 * (a.a5 * 2) + a.a1 * (a.a4 * 2) + a.a2 * (a.a3 * 2))
  b6 := w64 (a.a0 * (a.a6 * 2) + a.a1 * (a.a5 * 4) + a.a2 * (a.a4 * 2) + a.a3 * (a.a3 * 2))
  b7 := w64 (a.a0 * (a.a7 * 2) + a.a1 * (a.a6 * 2) + a.a2 * (a.a5 * 2) + a.a3 * (a.a4 * 2))
  b8 := w64 (a.a0 * (a.a8 * 2) + a.a1 * (a.a7 * 4) + a.a2 * (a.a6 * 2) + a.a3 * (a.a5 * 4) + a.a4 * a.a4)
  b9 := w64 (a.a1 * (a.a8 * 2) + a.a2 * (a.a7 * 2) + a.a3 * (a.a6 * 2) + a.a4 * (a.a5 * 2))
  b10 := w64 (a.a2 * (a.a8 * 2) + a.a3 * (a.a7 * 4) + a.a4 * (a.a6 * 2) + a.a5 * (a.a5 * 2))
  b11 := w64 (a.a3 * (a.a8 * 2) + a.a4 * (a.a7 * 2) + a.a5 * (a.a6 * 2))
  b12 := w64 (a.a4 * (a.a8 * 2) + a.a5 * (a.a7 * 4) + a.a6 * a.a6)
  b13 := w64 (a.a5 * (a.a8 * 2) + a.a6 * (a.a7 * 2))
  b14 := w64 (a.a6 * (a.a8 * 2) + a.a7 * (a.a7 * 2))
  b15 := w64 (a.a7 * (a.a8 * 2))
  b16 := w64 (a.a8 * a.a8)

/-- sm2_std.go:671-721 `sm2_stdSquare`. -/
def square (a : Fe) : Gh Fe := reduceDegree (squareCols a)

/-- the limb loop of `sm2_stdFromBig` (sm2_std.go:943-960) applied to the reduced value. -/
def limbsOf (x : Nat) : Fe :=
  ⟨x / 1 % 536870912,
    x / 536870912 % 268435456,
    x / 144115188075855872 % 536870912,
    x / 77371252455336267181195264 % 268435456,
    x / 20769187434139310514121985316880384 % 536870912,
    x / 11150372599265311570767859136324180752990208 % 268435456,
    x / 2993155353253689176481146537402947624255349848014848 % 536870912,
    x / 1606938044258990275541962092341162602522202993782792835301376 % 268435456,
    x / 431359146674410236714672241392314090778194310760649159697657763987456 % 536870912⟩

/-- sm2_std.go:940-961 `sm2_stdFromBig`. -/
def fromBig (a : Int) : Fe := limbsOf ((a * 2 ^ 257) % P).toNat

/-- the integer `Σ X[i]·2^w_i` accumulated by sm2_std.go:965-975. -/
def Fe.value (f : Fe) : Nat :=
  (((((((f.a8 * 268435456 + f.a7) * 536870912 + f.a6) * 268435456 + f.a5) * 536870912 + f.a4) * 268435456 + f.a3) * 536870912 + f.a2) * 268435456 + f.a1) * 536870912 + f.a0

/-- sm2_std.go:963-978 `sm2_stdToBig`. -/
def toBig (f : Fe) : Int := (f.value : Int) * RInverse % P

end Verif.SM2
