import Verif.Bytes
import Verif.Go
import Verif.Ed25519.Field

/-!
# Model of /repo/eddsa/curve25519_sha256.go (curve type `CURVE25519_SHA256`): field elements and the Montgomery ladder

A `long10` is an array of ten `int64` limbs; it is the structure `Fe` of the Ed25519 model (ten integers), and `i64` takes the value that
an `int64` holds.  Sums and products are wrapped once at the end of an expression (reduction modulo `2^64` commutes with `+`, `-` and `*`).
`t >> k` is the floor division by `2^k` and `t & (2^k - 1)` is the remainder.  Functions that write to a pointer argument return the new
value; at every call the output is an array different from the inputs, or the limbs are read before they are overwritten.
-/

namespace Verif.C25519

open Verif.Ed25519 (Fe i64 toByte)

/-- the byte of a slice at an index in range. -/
def at' (m : Bytes) (i : Nat) : Int := (m.getD i 0).toNat

/-- curve25519_sha256.go:140-144 `clamp` (of 32 bytes): the new contents of the slice. -/
def clamp (k : Bytes) : Bytes :=
  let k := k.set 31 (k.getD 31 0 &&& 0x7F)
  let k := k.set 31 (k.getD 31 0 ||| 0x40)
  k.set 0 (k.getD 0 0 &&& 0xF8)

/-- curve25519_sha256.go:194-205 `unpack`.  The operands of `|` have no bit in common, so `|` is `+`; `(b & ^3) >> 2` is `b / 4`. -/
def unpack (m : Bytes) : Fe :=
  ⟨at' m 0 + at' m 1 * 2 ^ 8 + at' m 2 * 2 ^ 16 + at' m 3 % 4 * 2 ^ 24,
   at' m 3 / 4 + at' m 4 * 2 ^ 6 + at' m 5 * 2 ^ 14 + at' m 6 % 8 * 2 ^ 22,
   at' m 6 / 8 + at' m 7 * 2 ^ 5 + at' m 8 * 2 ^ 13 + at' m 9 % 32 * 2 ^ 21,
   at' m 9 / 32 + at' m 10 * 2 ^ 3 + at' m 11 * 2 ^ 11 + at' m 12 % 64 * 2 ^ 19,
   at' m 12 / 64 + at' m 13 * 2 ^ 2 + at' m 14 * 2 ^ 10 + at' m 15 * 2 ^ 18,
   at' m 16 + at' m 17 * 2 ^ 8 + at' m 18 * 2 ^ 16 + at' m 19 % 2 * 2 ^ 24,
   at' m 19 / 2 + at' m 20 * 2 ^ 7 + at' m 21 * 2 ^ 15 + at' m 22 % 8 * 2 ^ 23,
   at' m 22 / 8 + at' m 23 * 2 ^ 5 + at' m 24 * 2 ^ 13 + at' m 25 % 16 * 2 ^ 21,
   at' m 25 / 16 + at' m 26 * 2 ^ 4 + at' m 27 * 2 ^ 12 + at' m 28 % 64 * 2 ^ 20,
   at' m 28 / 64 + at' m 29 * 2 ^ 2 + at' m 30 * 2 ^ 10 + at' m 31 * 2 ^ 18⟩

/-- the 64 bits of an `int64`. -/
def word (x : Int) : Nat := (x % 2 ^ 64).toNat

/-- curve25519_sha256.go:110-111 -/
def p25 : Int := 33554431
def p26 : Int := 67108863

/-- curve25519_sha256.go:207-209 `isOverflow` -/
def isOverflow (x : Fe) : Bool :=
  (x.a0 > p26 - 19 && (word x.a1 &&& word x.a3 &&& word x.a5 &&& word x.a7 &&& word x.a9) == word p25
    && (word x.a2 &&& word x.a4 &&& word x.a6 &&& word x.a8) == word p26) || x.a9 > p25

/-- `m[j] = byte(t); …; m[j+3] = byte(t >> 24)`. -/
def put4 (t : Int) : Bytes := [toByte t, toByte (t / 2 ^ 8), toByte (t / 2 ^ 16), toByte (t / 2 ^ 24)]

/-- curve25519_sha256.go:211-264 `pack`: the 32 bytes written to `m`. -/
def pack (x : Fe) : Bytes :=
  let ld : Int := if isOverflow x then 1 else 0
  let ld := if x.a9 < 0 then ld - 1 else ld
  let ud := ld * -(p25 + 1)
  let ld := ld * 19
  let t0 := i64 (ld + x.a0 + x.a1 * 2 ^ 26)
  let t1 := i64 (t0 / 2 ^ 32 + x.a2 * 2 ^ 19)
  let t2 := i64 (t1 / 2 ^ 32 + x.a3 * 2 ^ 13)
  let t3 := i64 (t2 / 2 ^ 32 + x.a4 * 2 ^ 6)
  let t4 := i64 (t3 / 2 ^ 32 + x.a5 + x.a6 * 2 ^ 25)
  let t5 := i64 (t4 / 2 ^ 32 + x.a7 * 2 ^ 19)
  let t6 := i64 (t5 / 2 ^ 32 + x.a8 * 2 ^ 12)
  let t7 := i64 (t6 / 2 ^ 32 + (x.a9 + ud) * 2 ^ 6)
  put4 t0 ++ put4 t1 ++ put4 t2 ++ put4 t3 ++ put4 t4 ++ put4 t5 ++ put4 t6 ++ put4 t7

/-- curve25519_sha256.go:279-290 `set` -/
def set (n : Int) : Fe := ⟨n, 0, 0, 0, 0, 0, 0, 0, 0, 0⟩

/-- curve25519_sha256.go:292-303 `add` -/
def add (x y : Fe) : Fe :=
  ⟨i64 (x.a0 + y.a0), i64 (x.a1 + y.a1), i64 (x.a2 + y.a2), i64 (x.a3 + y.a3), i64 (x.a4 + y.a4), i64 (x.a5 + y.a5), i64 (x.a6 + y.a6), i64 (x.a7 + y.a7), i64 (x.a8 + y.a8), i64 (x.a9 + y.a9)⟩

/-- curve25519_sha256.go:305-316 `sub` -/
def sub (x y : Fe) : Fe :=
  ⟨i64 (x.a0 - y.a0), i64 (x.a1 - y.a1), i64 (x.a2 - y.a2), i64 (x.a3 - y.a3), i64 (x.a4 - y.a4), i64 (x.a5 - y.a5), i64 (x.a6 - y.a6), i64 (x.a7 - y.a7), i64 (x.a8 - y.a8), i64 (x.a9 - y.a9)⟩

/-- the carry propagation shared by `mulSmall`, `mul` and `sqr` (curve25519_sha256.go:319-341, 345-367, 371-393), on the sums of products
`r0 … r9` that the code adds to the carry for each limb.  The code starts with limb 8; the carry out of limb 9 is worth 19 units of limb 0. -/
def chain (r0 r1 r2 r3 r4 r5 r6 r7 r8 r9 : Int) : Fe :=
  let t8 := i64 r8
  let t9 := i64 (t8 / 2 ^ 26 + r9)
  let t0 := i64 (19 * (t9 / 2 ^ 25) + r0)
  let t1 := i64 (t0 / 2 ^ 26 + r1)
  let t2 := i64 (t1 / 2 ^ 25 + r2)
  let t3 := i64 (t2 / 2 ^ 26 + r3)
  let t4 := i64 (t3 / 2 ^ 25 + r4)
  let t5 := i64 (t4 / 2 ^ 26 + r5)
  let t6 := i64 (t5 / 2 ^ 25 + r6)
  let t7 := i64 (t6 / 2 ^ 26 + r7)
  let u8 := i64 (t7 / 2 ^ 25 + t8 % 2 ^ 26)
  ⟨t0 % 2 ^ 26, t1 % 2 ^ 25, t2 % 2 ^ 26, t3 % 2 ^ 25, t4 % 2 ^ 26, t5 % 2 ^ 25, t6 % 2 ^ 26, t7 % 2 ^ 25, u8 % 2 ^ 26,
   i64 (t9 % 2 ^ 25 + u8 / 2 ^ 26)⟩

/-- curve25519_sha256.go:318-342 `mulSmall` -/
def mulSmall (x : Fe) (y : Int) : Fe :=
  chain
    (x.a0 * y)
    (x.a1 * y)
    (x.a2 * y)
    (x.a3 * y)
    (x.a4 * y)
    (x.a5 * y)
    (x.a6 * y)
    (x.a7 * y)
    (x.a8 * y)
    (x.a9 * y)

/-- curve25519_sha256.go:344-368 `mul` -/
def mul (x y : Fe) : Fe :=
  chain
    (x.a0 * y.a0 + 19 * (x.a2 * y.a8 + x.a4 * y.a6 + x.a6 * y.a4 + x.a8 * y.a2) + 38 * (x.a1 * y.a9 + x.a3 * y.a7 + x.a5 * y.a5 + x.a7 * y.a3 + x.a9 * y.a1))
    (x.a0 * y.a1 + x.a1 * y.a0 + 19 * (x.a2 * y.a9 + x.a3 * y.a8 + x.a4 * y.a7 + x.a5 * y.a6 + x.a6 * y.a5 + x.a7 * y.a4 + x.a8 * y.a3 + x.a9 * y.a2))
    (x.a0 * y.a2 + x.a2 * y.a0 + 19 * (x.a4 * y.a8 + x.a6 * y.a6 + x.a8 * y.a4) + 2 * (x.a1 * y.a1) + 38 * (x.a3 * y.a9 + x.a5 * y.a7 + x.a7 * y.a5 + x.a9 * y.a3))
    (x.a0 * y.a3 + x.a1 * y.a2 + x.a2 * y.a1 + x.a3 * y.a0 + 19 * (x.a4 * y.a9 + x.a5 * y.a8 + x.a6 * y.a7 + x.a7 * y.a6 + x.a8 * y.a5 + x.a9 * y.a4))
    (x.a0 * y.a4 + x.a2 * y.a2 + x.a4 * y.a0 + 19 * (x.a6 * y.a8 + x.a8 * y.a6) + 2 * (x.a1 * y.a3 + x.a3 * y.a1) + 38 * (x.a5 * y.a9 + x.a7 * y.a7 + x.a9 * y.a5))
    (x.a0 * y.a5 + x.a1 * y.a4 + x.a2 * y.a3 + x.a3 * y.a2 + x.a4 * y.a1 + x.a5 * y.a0 + 19 * (x.a6 * y.a9 + x.a7 * y.a8 + x.a8 * y.a7 + x.a9 * y.a6))
    (x.a0 * y.a6 + x.a2 * y.a4 + x.a4 * y.a2 + x.a6 * y.a0 + 19 * (x.a8 * y.a8) + 2 * (x.a1 * y.a5 + x.a3 * y.a3 + x.a5 * y.a1) + 38 * (x.a7 * y.a9 + x.a9 * y.a7))
    (x.a0 * y.a7 + x.a1 * y.a6 + x.a2 * y.a5 + x.a3 * y.a4 + x.a4 * y.a3 + x.a5 * y.a2 + x.a6 * y.a1 + x.a7 * y.a0 + 19 * (x.a8 * y.a9 + x.a9 * y.a8))
    (x.a0 * y.a8 + x.a2 * y.a6 + x.a4 * y.a4 + x.a6 * y.a2 + x.a8 * y.a0 + 2 * (x.a1 * y.a7 + x.a3 * y.a5 + x.a5 * y.a3 + x.a7 * y.a1) + 38 * (x.a9 * y.a9))
    (x.a0 * y.a9 + x.a1 * y.a8 + x.a2 * y.a7 + x.a3 * y.a6 + x.a4 * y.a5 + x.a5 * y.a4 + x.a6 * y.a3 + x.a7 * y.a2 + x.a8 * y.a1 + x.a9 * y.a0)

/-- curve25519_sha256.go:370-394 `sqr` -/
def sqr (x : Fe) : Fe :=
  chain
    (x.a0 * x.a0 + 38 * (x.a2 * x.a8 + x.a4 * x.a6 + x.a5 * x.a5) + 76 * (x.a1 * x.a9 + x.a3 * x.a7))
    (2 * (x.a0 * x.a1) + 38 * (x.a2 * x.a9 + x.a3 * x.a8 + x.a4 * x.a7 + x.a5 * x.a6))
    (19 * (x.a6 * x.a6) + 2 * (x.a0 * x.a2 + x.a1 * x.a1) + 38 * (x.a4 * x.a8) + 76 * (x.a3 * x.a9 + x.a5 * x.a7))
    (2 * (x.a0 * x.a3 + x.a1 * x.a2) + 38 * (x.a4 * x.a9 + x.a5 * x.a8 + x.a6 * x.a7))
    (x.a2 * x.a2 + 2 * (x.a0 * x.a4) + 38 * (x.a6 * x.a8 + x.a7 * x.a7) + 4 * (x.a1 * x.a3) + 76 * (x.a5 * x.a9))
    (2 * (x.a0 * x.a5 + x.a1 * x.a4 + x.a2 * x.a3) + 38 * (x.a6 * x.a9 + x.a7 * x.a8))
    (19 * (x.a8 * x.a8) + 2 * (x.a0 * x.a6 + x.a2 * x.a4 + x.a3 * x.a3) + 4 * (x.a1 * x.a5) + 76 * (x.a7 * x.a9))
    (2 * (x.a0 * x.a7 + x.a1 * x.a6 + x.a2 * x.a5 + x.a3 * x.a4) + 38 * (x.a8 * x.a9))
    (x.a4 * x.a4 + 2 * (x.a0 * x.a8 + x.a2 * x.a6) + 38 * (x.a9 * x.a9) + 4 * (x.a1 * x.a7 + x.a3 * x.a5))
    (2 * (x.a0 * x.a9 + x.a1 * x.a8 + x.a2 * x.a7 + x.a3 * x.a6 + x.a4 * x.a5))

/-- `n` repetitions of `sqr(&a, &b); sqr(&b, &a)`, on `b`. -/
def sqr2N : Nat → Fe → Fe
  | 0, b => b
  | n + 1, b => sqr2N n (sqr (sqr b))

/-- curve25519_sha256.go:396-450: the values of `t0` (`x^11`) and `t2` (`x^(2^252 - 4)`) before the test of `sqrtassist` in `recip`. -/
def recipChain (x : Fe) : Fe × Fe :=
  let t1 := sqr x
  let t2 := sqr t1
  let t0 := sqr t2
  let t2 := mul t0 x
  let t0 := mul t2 t1
  let t1 := sqr t0
  let t3 := mul t1 t2
  let t1 := sqr t3
  let t2 := sqr t1
  let t1 := sqr t2
  let t2 := sqr t1
  let t1 := sqr t2
  let t2 := mul t1 t3
  let t1 := sqr t2
  let t3 := sqr t1
  let t3 := sqr2N 4 t3
  let t1 := mul t3 t2
  let t3 := sqr t1
  let t4 := sqr t3
  let t4 := sqr2N 9 t4
  let t3 := mul t4 t1
  let t3 := sqr2N 5 t3
  let t1 := mul t3 t2
  let t2 := sqr t1
  let t3 := sqr t2
  let t3 := sqr2N 24 t3
  let t2 := mul t3 t1
  let t3 := sqr t2
  let t4 := sqr t3
  let t4 := sqr2N 49 t4
  let t3 := mul t4 t2
  let t3 := sqr2N 25 t3
  let t2 := mul t3 t1
  let t1 := sqr t2
  let t2 := sqr t1
  (t0, t2)

/-- curve25519_sha256.go:396-461 `recip(y, x, 0)` -/
def recip (x : Fe) : Fe :=
  let (t0, t2) := recipChain x
  let t1 := sqr t2
  let t2 := sqr t1
  let t1 := sqr t2
  mul t1 t0

/-- curve25519_sha256.go:396-461 `recip(y, x, 1)` -/
def recipSqrt (x : Fe) : Fe := mul x (recipChain x).2

/-- curve25519_sha256.go:487-495 `montAdd`: the new `ax` and `az`. -/
def montAdd (t1 t2 t3 t4 dx : Fe) : Fe × Fe :=
  let ax := mul t2 t3
  let az := mul t1 t4
  let t1 := add ax az
  let t2 := sub ax az
  let ax := sqr t1
  let t1 := sqr t2
  let az := mul t1 dx
  (ax, az)

/-- curve25519_sha256.go:497-505 `montDbl`: the new `bx` and `bz`. -/
def montDbl (t3 t4 : Fe) : Fe × Fe :=
  let t1 := sqr t3
  let t2 := sqr t4
  let bx := mul t1 t2
  let t2 := sub t1 t2
  let bz := mulSmall t2 121665
  let t1 := add t1 bz
  let bz := mul t1 t2
  (bx, bz)

/-- the two projective x-coordinates of the ladder: `(x[0], z[0])` and `(x[1], z[1])`. -/
structure Lad where
  x0 : Fe
  z0 : Fe
  x1 : Fe
  z1 : Fe

/-- curve25519_sha256.go:540-553: one step of the ladder, for `bit1 = bit` and `bit0 = 1 - bit`; `montPrep` (482-485) is `add` and `sub`. -/
def step (dx : Fe) (bit : Nat) (s : Lad) : Lad :=
  let (ax, az, bx, bz) := if bit = 1 then (s.x0, s.z0, s.x1, s.z1) else (s.x1, s.z1, s.x0, s.z0)
  let t1 := add ax az
  let t2 := sub ax az
  let t3 := add bx bz
  let t4 := sub bx bz
  let (ax, az) := montAdd t1 t2 t3 t4 dx
  let (bx, bz) := montDbl t3 t4
  if bit = 1 then ⟨ax, az, bx, bz⟩ else ⟨bx, bz, ax, az⟩

/-- curve25519_sha256.go:538-539: the bits of `k` in the order of the two loops. -/
def bits (k : Bytes) : List Nat :=
  (List.range 32).reverse.flatMap fun i => (List.range 8).reverse.map fun j => (k.getD i 0).toNat / 2 ^ j % 2

/-- curve25519_sha256.go:530-555: the ladder from `(1 : 0)` and `(dx : 1)`. -/
def ladder (dx : Fe) (k : Bytes) : Lad := (bits k).foldl (fun s b => step dx b s) ⟨set 1, set 0, dx, set 1⟩

/-- curve25519_sha256.go:557-558: the affine x-coordinate of a projective one. -/
def affine (x z : Fe) : Fe := mul x (recip z)

/-- curve25519_sha256.go:515-559 `core(Px, nil, k, nil)`: the bytes written to `Px`. -/
def corePx (k : Bytes) : Bytes :=
  let l := ladder (set 9) k
  pack (affine l.x0 l.z0)

/-- curve25519_sha256.go:146-149 `Keygen(P, nil, k)`: the bytes written to `P`, and the new contents of the caller's `k`. -/
def keygen (k : Bytes) : Bytes × Bytes := (corePx (clamp k), clamp k)

/-- curve25519_sha256.go:761-775 `IsCanonicalPublicKey` -/
def isCanonicalPublicKey (pk : Bytes) : Bool := if pk.length ≠ 32 then false else pack (unpack pk) == pk

end Verif.C25519
