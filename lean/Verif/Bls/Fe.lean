import Verif.Bytes

/-!
# BLS12-381 base field: model of bls12_381/bls/arithmetic_fallback.go, field_element.go and fp.go

`fe` is `[6]uint64`, least significant word first, in Montgomery form.

The package has two builds.  `Build.generic` is arithmetic_fallback.go, modelled here word by word.
`Build.amd64` uses arithmetic_x86.s for `add`, `sub`, `mul`, … and has `square(c, a) = mul(c, a, a)`
(arithmetic_decl.go:22-24), which is not the code of arithmetic_fallback.go.  Here it takes the functions of
arithmetic_fallback.go for the assembly, so that the build only matters for `square`.  The assembly itself
is modelled in Verif/X86, instruction by instruction: C106 proves that `add`, `sub`, … compute the same words;
C107 and C108 prove that the two multiplications do, except on the operands described there, on which they are wrong.

`xAssign(a, b)` is `x(a, a, b)`; no function of the file misbehaves when the output aliases an input
(every word of an input is read before the same word of the output is written), so the model returns
the output words.
-/

namespace Verif.Bls

/-- field_element.go:11 `fe`. -/
structure Fe where
  l0 : UInt64
  l1 : UInt64
  l2 : UInt64
  l3 : UInt64
  l4 : UInt64
  l5 : UInt64
deriving DecidableEq

/-- which of the two builds of the package runs (build tags, arithmetic_decl.go:1, arithmetic_fallback.go:1). -/
inductive Build where
  | amd64
  | generic
deriving DecidableEq

/-- Go's `bits.Add64`: (sum, carryOut). -/
def add64 (x y c : UInt64) : UInt64 × UInt64 :=
  (x + y + c, if 2 ^ 64 ≤ x.toNat + y.toNat + c.toNat then 1 else 0)

/-- Go's `bits.Sub64`: (diff, borrowOut). -/
def sub64 (x y b : UInt64) : UInt64 × UInt64 :=
  (x - y - b, if x.toNat < y.toNat + b.toNat then 1 else 0)

/-- Go's `bits.Mul64`: (hi, lo). -/
def mul64 (x y : UInt64) : UInt64 × UInt64 :=
  (UInt64.ofNat (x.toNat * y.toNat / 2 ^ 64), x * y)

/-- bls12_381.go:9 `modulus`; the same numbers in decimal in arithmetic_fallback.go. -/
def modulus : Fe :=
  ⟨13402431016077863595, 2210141511517208575, 7435674573564081700, 7239337960414712511,
   5412103778470702295, 1873798617647539866⟩

/-- the constant of arithmetic_fallback.go:238 (bls12_381.go:12 `inp`). -/
def inp : UInt64 := 9940570264628428797

/-- bls12_381.go:15 `r1`. -/
def r1 : Fe :=
  ⟨0x760900000002fffd, 0xebf4000bc40c0002, 0x5f48985753c758ba, 0x77ce585370525745,
   0x5c071a97a256ec6d, 0x15f65ec3fa80e493⟩

/-- bls12_381.go:18-20 `r2`. -/
def r2 : Fe :=
  ⟨0xf4df1f341c341746, 0x0a76e6a609d104f1, 0x8de5476c4c95b6d5, 0x67eb88a9939d83c0,
   0x9a793e85b519952d, 0x11988fe592cae3aa⟩

namespace Fe

/-- fp.go:97-99 `zero`, field_element.go:87-95 `SetZero`. -/
def zero : Fe := ⟨0, 0, 0, 0, 0, 0⟩

/-- field_element.go:56-64 `SetUint`, `&fe{1}`. -/
def ofWord (a : UInt64) : Fe := ⟨a, 0, 0, 0, 0, 0⟩

/-- field_element.go:123-125 `IsZero`, fp.go:118-120 `isZero`. -/
def isZero (a : Fe) : Bool := (a.l5 ||| a.l4 ||| a.l3 ||| a.l2 ||| a.l1 ||| a.l0) == 0

/-- field_element.go:118-121 `IsEven`. -/
def isEven (a : Fe) : Bool := a.l0 &&& 1 == 0

/-- field_element.go:142-144 `Equals`, fp.go:114-116 `equal`. -/
def equal (a b : Fe) : Bool :=
  b.l0 == a.l0 && b.l1 == a.l1 && b.l2 == a.l2 && b.l3 == a.l3 && b.l4 == a.l4 && b.l5 == a.l5

/-- one word of the loop of field_element.go:131-140 `Cmp`. -/
def cmpWord (a b : UInt64) (rest : Int) : Int := if a > b then 1 else if a < b then -1 else rest

/-- field_element.go:131-140 `Cmp`: from the most significant word down. -/
def cmp (a b : Fe) : Int :=
  cmpWord a.l5 b.l5 <| cmpWord a.l4 b.l4 <| cmpWord a.l3 b.l3 <| cmpWord a.l2 b.l2 <|
    cmpWord a.l1 b.l1 <| cmpWord a.l0 b.l0 0

/-- arithmetic_fallback.go:58: the condition `z < q` of the conditional subtraction. -/
def below (z : Fe) : Bool :=
  z.l5 < 1873798617647539866 || (z.l5 == 1873798617647539866 &&
    (z.l4 < 5412103778470702295 || (z.l4 == 5412103778470702295 &&
    (z.l3 < 7239337960414712511 || (z.l3 == 7239337960414712511 &&
    (z.l2 < 7435674573564081700 || (z.l2 == 7435674573564081700 &&
    (z.l1 < 2210141511517208575 || (z.l1 == 2210141511517208575 &&
    z.l0 < 13402431016077863595)))))))))

/-- arithmetic_fallback.go:92-100 `ladd`, 102-110 `laddAssign`: six words with carries, the last
carry dropped. -/
def ladd (x y : Fe) : Fe :=
  let s0 := add64 x.l0 y.l0 0
  let s1 := add64 x.l1 y.l1 s0.2
  let s2 := add64 x.l2 y.l2 s1.2
  let s3 := add64 x.l3 y.l3 s2.2
  let s4 := add64 x.l4 y.l4 s3.2
  let s5 := add64 x.l5 y.l5 s4.2
  ⟨s0.1, s1.1, s2.1, s3.1, s4.1, s5.1⟩

/-- arithmetic_fallback.go:170-176: six words with borrows, and the last borrow. -/
def subB (x y : Fe) : Fe × UInt64 :=
  let d0 := sub64 x.l0 y.l0 0
  let d1 := sub64 x.l1 y.l1 d0.2
  let d2 := sub64 x.l2 y.l2 d1.2
  let d3 := sub64 x.l3 y.l3 d2.2
  let d4 := sub64 x.l4 y.l4 d3.2
  let d5 := sub64 x.l5 y.l5 d4.2
  (⟨d0.1, d1.1, d2.1, d3.1, d4.1, d5.1⟩, d5.2)

/-- arithmetic_fallback.go:207-215 `lsubAssign`. -/
def lsub (x y : Fe) : Fe := (subB x y).1

/-- arithmetic_fallback.go:56-66 (and 79-89, 122-132, 145-155, 337-347, 457-467, 561-571): the conditional
subtraction of the modulus. -/
def reduce (z : Fe) : Fe := if !below z then lsub z modulus else z

/-- arithmetic_fallback.go:46-67 `add`, 69-90 `addAssign`. -/
def add (x y : Fe) : Fe := reduce (ladd x y)

/-- arithmetic_fallback.go:112-133 `double`, 135-156 `doubleAssign`. -/
def double (x : Fe) : Fe := reduce (ladd x x)

/-- arithmetic_fallback.go:158-167 `ldouble`. -/
def ldouble (x : Fe) : Fe := ladd x x

/-- arithmetic_fallback.go:169-186 `sub`, 188-205 `subAssign`. -/
def sub (x y : Fe) : Fe :=
  let d := subB x y
  if d.2 ≠ 0 then ladd d.1 modulus else d.1

/-- arithmetic_fallback.go:217-229 `neg`; arithmetic_decl.go:26-32. -/
def neg (x : Fe) : Fe := if isZero x then zero else lsub modulus x

/-- arithmetic_fallback.go:601-607 `madd0`. -/
def madd0 (a b c : UInt64) : UInt64 :=
  let p := mul64 a b
  let s := add64 p.2 c 0
  (add64 p.1 0 s.2).1

/-- arithmetic_fallback.go:610-616 `madd1`: (hi, lo). -/
def madd1 (a b c : UInt64) : UInt64 × UInt64 :=
  let p := mul64 a b
  let s := add64 p.2 c 0
  ((add64 p.1 0 s.2).1, s.1)

/-- arithmetic_fallback.go:619-627 `madd2`: (hi, lo). -/
def madd2 (a b c d : UInt64) : UInt64 × UInt64 :=
  let p := mul64 a b
  let e := add64 c d 0
  let hi := (add64 p.1 0 e.2).1
  let s := add64 p.2 e.1 0
  ((add64 hi 0 s.2).1, s.1)

/-- arithmetic_fallback.go:682-690 `madd3`: (hi, lo). -/
def madd3 (a b c d e : UInt64) : UInt64 × UInt64 :=
  let p := mul64 a b
  let f := add64 c d 0
  let hi := (add64 p.1 0 f.2).1
  let s := add64 p.2 f.1 0
  ((add64 hi e s.2).1, s.1)

/-- one round of `mul`, arithmetic_fallback.go:251-267 (rounds 1 to 5 are the same code; the last
round writes to `z` instead of `t`).  Round 0 (lines 234-250) is this code with `t = 0`, `Mul64(v, y[0])` for `madd1(v, y[0], t[0])` and
`madd1(v, y[i], c[1])` for `madd2(v, y[i], c[1], t[i])`: see `mulRound0`. -/
def mulRound (v : UInt64) (y t : Fe) : Fe :=
  let a0 := madd1 v y.l0 t.l0
  let m := a0.2 * inp
  let k0 := madd0 m 13402431016077863595 a0.2
  let a1 := madd2 v y.l1 a0.1 t.l1
  let b0 := madd2 m 2210141511517208575 k0 a1.2
  let a2 := madd2 v y.l2 a1.1 t.l2
  let b1 := madd2 m 7435674573564081700 b0.1 a2.2
  let a3 := madd2 v y.l3 a2.1 t.l3
  let b2 := madd2 m 7239337960414712511 b1.1 a3.2
  let a4 := madd2 v y.l4 a3.1 t.l4
  let b3 := madd2 m 5412103778470702295 b2.1 a4.2
  let a5 := madd2 v y.l5 a4.1 t.l5
  let b4 := madd3 m 1873798617647539866 a5.2 b3.1 a5.1
  ⟨b0.2, b1.2, b2.2, b3.2, b4.2, b4.1⟩

/-- round 0 of `mul`, arithmetic_fallback.go:234-250. -/
def mulRound0 (v : UInt64) (y : Fe) : Fe :=
  let a0 := mul64 v y.l0
  let m := a0.2 * inp
  let k0 := madd0 m 13402431016077863595 a0.2
  let a1 := madd1 v y.l1 a0.1
  let b0 := madd2 m 2210141511517208575 k0 a1.2
  let a2 := madd1 v y.l2 a1.1
  let b1 := madd2 m 7435674573564081700 b0.1 a2.2
  let a3 := madd1 v y.l3 a2.1
  let b2 := madd2 m 7239337960414712511 b1.1 a3.2
  let a4 := madd1 v y.l4 a3.1
  let b3 := madd2 m 5412103778470702295 b2.1 a4.2
  let a5 := madd1 v y.l5 a4.1
  let b4 := madd3 m 1873798617647539866 a5.2 b3.1 a5.1
  ⟨b0.2, b1.2, b2.2, b3.2, b4.2, b4.1⟩

/-- arithmetic_fallback.go:231-348 `mul`; 350-468 `mulAssign` is the same code with `x` for `y` and
`z` for `x`. -/
def mul (x y : Fe) : Fe :=
  reduce <| mulRound x.l5 y <| mulRound x.l4 y <| mulRound x.l3 y <| mulRound x.l2 y <|
    mulRound x.l1 y <| mulRound0 x.l0 y

/-- arithmetic_fallback.go:630-643 `madd2s`: (superhi, hi, lo). -/
def madd2s (a b c d e : UInt64) : UInt64 × UInt64 × UInt64 :=
  let p := mul64 a b
  let l := add64 p.2 p.2 0
  let h := add64 p.1 p.1 l.2
  let s := add64 c e 0
  let hi := (add64 h.1 0 s.2).1
  let l' := add64 l.1 s.1 0
  let hi := (add64 hi 0 l'.2).1
  (h.2, (add64 hi 0 d).1, l'.1)

/-- arithmetic_fallback.go:645-655 `madd1s`. -/
def madd1s (a b d e : UInt64) : UInt64 × UInt64 × UInt64 :=
  let p := mul64 a b
  let l := add64 p.2 p.2 0
  let h := add64 p.1 p.1 l.2
  let l' := add64 l.1 e 0
  let hi := (add64 h.1 0 l'.2).1
  (h.2, (add64 hi 0 d).1, l'.1)

/-- arithmetic_fallback.go:657-669 `madd2sb`. -/
def madd2sb (a b c e : UInt64) : UInt64 × UInt64 × UInt64 :=
  let p := mul64 a b
  let l := add64 p.2 p.2 0
  let h := add64 p.1 p.1 l.2
  let s := add64 c e 0
  let hi := (add64 h.1 0 s.2).1
  let l' := add64 l.1 s.1 0
  (h.2, (add64 hi 0 l'.2).1, l'.1)

/-- arithmetic_fallback.go:671-680 `madd1sb`. -/
def madd1sb (a b e : UInt64) : UInt64 × UInt64 × UInt64 :=
  let p := mul64 a b
  let l := add64 p.2 p.2 0
  let h := add64 p.1 p.1 l.2
  let l' := add64 l.1 e 0
  (h.2, (add64 h.1 0 l'.2).1, l'.1)

/-- arithmetic_fallback.go:475-491: round 0 of `square`. -/
def sqRound0 (x : Fe) : Fe :=
  let a0 := mul64 x.l0 x.l0
  let m := a0.2 * inp
  let C := madd0 m 13402431016077863595 a0.2
  let a1 := madd1sb x.l0 x.l1 a0.1
  let b0 := madd2 m 2210141511517208575 a1.2.2 C
  let a2 := madd1s x.l0 x.l2 a1.1 a1.2.1
  let b1 := madd2 m 7435674573564081700 a2.2.2 b0.1
  let a3 := madd1s x.l0 x.l3 a2.1 a2.2.1
  let b2 := madd2 m 7239337960414712511 a3.2.2 b1.1
  let a4 := madd1s x.l0 x.l4 a3.1 a3.2.1
  let b3 := madd2 m 5412103778470702295 a4.2.2 b2.1
  let a5 := madd1s x.l0 x.l5 a4.1 a4.2.1
  let b4 := madd3 m 1873798617647539866 a5.2.2 b3.1 a5.2.1
  ⟨b0.2, b1.2, b2.2, b3.2, b4.2, b4.1⟩

/-- arithmetic_fallback.go:492-507: round 1 of `square`. -/
def sqRound1 (x p : Fe) : Fe :=
  let m := p.l0 * inp
  let C := madd0 m 13402431016077863595 p.l0
  let a1 := madd1 x.l1 x.l1 p.l1
  let b0 := madd2 m 2210141511517208575 a1.2 C
  let a2 := madd2sb x.l1 x.l2 p.l2 a1.1
  let b1 := madd2 m 7435674573564081700 a2.2.2 b0.1
  let a3 := madd2s x.l1 x.l3 p.l3 a2.1 a2.2.1
  let b2 := madd2 m 7239337960414712511 a3.2.2 b1.1
  let a4 := madd2s x.l1 x.l4 p.l4 a3.1 a3.2.1
  let b3 := madd2 m 5412103778470702295 a4.2.2 b2.1
  let a5 := madd2s x.l1 x.l5 p.l5 a4.1 a4.2.1
  let b4 := madd3 m 1873798617647539866 a5.2.2 b3.1 a5.2.1
  ⟨b0.2, b1.2, b2.2, b3.2, b4.2, b4.1⟩

/-- arithmetic_fallback.go:508-522: round 2 of `square`. -/
def sqRound2 (x p : Fe) : Fe :=
  let m := p.l0 * inp
  let C := madd0 m 13402431016077863595 p.l0
  let b0 := madd2 m 2210141511517208575 p.l1 C
  let a2 := madd1 x.l2 x.l2 p.l2
  let b1 := madd2 m 7435674573564081700 a2.2 b0.1
  let a3 := madd2sb x.l2 x.l3 p.l3 a2.1
  let b2 := madd2 m 7239337960414712511 a3.2.2 b1.1
  let a4 := madd2s x.l2 x.l4 p.l4 a3.1 a3.2.1
  let b3 := madd2 m 5412103778470702295 a4.2.2 b2.1
  let a5 := madd2s x.l2 x.l5 p.l5 a4.1 a4.2.1
  let b4 := madd3 m 1873798617647539866 a5.2.2 b3.1 a5.2.1
  ⟨b0.2, b1.2, b2.2, b3.2, b4.2, b4.1⟩

/-- arithmetic_fallback.go:523-536: round 3 of `square`. -/
def sqRound3 (x p : Fe) : Fe :=
  let m := p.l0 * inp
  let C := madd0 m 13402431016077863595 p.l0
  let b0 := madd2 m 2210141511517208575 p.l1 C
  let b1 := madd2 m 7435674573564081700 p.l2 b0.1
  let a3 := madd1 x.l3 x.l3 p.l3
  let b2 := madd2 m 7239337960414712511 a3.2 b1.1
  let a4 := madd2sb x.l3 x.l4 p.l4 a3.1
  let b3 := madd2 m 5412103778470702295 a4.2.2 b2.1
  let a5 := madd2s x.l3 x.l5 p.l5 a4.1 a4.2.1
  let b4 := madd3 m 1873798617647539866 a5.2.2 b3.1 a5.2.1
  ⟨b0.2, b1.2, b2.2, b3.2, b4.2, b4.1⟩

/-- arithmetic_fallback.go:537-548: round 4 of `square`. -/
def sqRound4 (x p : Fe) : Fe :=
  let m := p.l0 * inp
  let C := madd0 m 13402431016077863595 p.l0
  let b0 := madd2 m 2210141511517208575 p.l1 C
  let b1 := madd2 m 7435674573564081700 p.l2 b0.1
  let b2 := madd2 m 7239337960414712511 p.l3 b1.1
  let a4 := madd1 x.l4 x.l4 p.l4
  let b3 := madd2 m 5412103778470702295 a4.2 b2.1
  let a5 := madd2sb x.l4 x.l5 p.l5 a4.1
  let b4 := madd3 m 1873798617647539866 a5.2.2 b3.1 a5.2.1
  ⟨b0.2, b1.2, b2.2, b3.2, b4.2, b4.1⟩

/-- arithmetic_fallback.go:549-559: round 5 of `square`. -/
def sqRound5 (x p : Fe) : Fe :=
  let m := p.l0 * inp
  let C := madd0 m 13402431016077863595 p.l0
  let b0 := madd2 m 2210141511517208575 p.l1 C
  let b1 := madd2 m 7435674573564081700 p.l2 b0.1
  let b2 := madd2 m 7239337960414712511 p.l3 b1.1
  let b3 := madd2 m 5412103778470702295 p.l4 b2.1
  let a5 := madd1 x.l5 x.l5 p.l5
  let b4 := madd3 m 1873798617647539866 a5.2 b3.1 a5.1
  ⟨b0.2, b1.2, b2.2, b3.2, b4.2, b4.1⟩

/-- arithmetic_fallback.go:470-572 `square`. -/
def squareGeneric (x : Fe) : Fe :=
  reduce <| sqRound5 x <| sqRound4 x <| sqRound3 x <| sqRound2 x <| sqRound1 x <| sqRound0 x

/-- `square`: arithmetic_decl.go:22-24 on amd64, arithmetic_fallback.go:470-572 otherwise. -/
def square : Build → Fe → Fe
  | .amd64, x => mul x x
  | .generic, x => squareGeneric x

/-- fp.go:126-128 `toMont`. -/
def toMont (a : Fe) : Fe := mul a r2

/-- fp.go:130-132 `fromMont`. -/
def fromMont (a : Fe) : Fe := mul a (ofWord 1)

/-- fp.go:93-95 `valid`. -/
def valid (a : Fe) : Bool := cmp a modulus == -1

/-- eight bytes, most significant first (field_element.go:44-47). -/
def word8 (b : Bytes) : UInt64 := b.foldl (fun acc x => acc <<< 8 ||| x.toUInt64) 0

/-- field_element.go:33-50 `FromBytes`: at most 48 bytes are used; a shorter slice is padded with
zeros on the left. -/
def ofBytes (b : Bytes) : Fe :=
  let p := List.replicate (48 - b.length) 0 ++ b.take 48
  ⟨word8 ((p.drop 40).take 8), word8 ((p.drop 32).take 8), word8 ((p.drop 24).take 8),
   word8 ((p.drop 16).take 8), word8 ((p.drop 8).take 8), word8 (p.take 8)⟩

/-- the eight bytes of a word, most significant first (field_element.go:21-28). -/
def bytes8 (w : UInt64) : Bytes :=
  [(w >>> 56).toUInt8, (w >>> 48).toUInt8, (w >>> 40).toUInt8, (w >>> 32).toUInt8,
   (w >>> 24).toUInt8, (w >>> 16).toUInt8, (w >>> 8).toUInt8, w.toUInt8]

/-- field_element.go:16-31 `Bytes`. -/
def bytes (a : Fe) : Bytes :=
  bytes8 a.l5 ++ bytes8 a.l4 ++ bytes8 a.l3 ++ bytes8 a.l2 ++ bytes8 a.l1 ++ bytes8 a.l0

/-- fp.go:10-21 `fromBytes`; `none` is the error. -/
def fromBytes (b : Bytes) : Option Fe :=
  if b.length ≠ 48 then none
  else if !valid (ofBytes b) then none
  else some (toMont (ofBytes b))

/-- fp.go:75-79 `toBytes`. -/
def toBytes (a : Fe) : Bytes := bytes (fromMont a)

/-- fp.go:101-103 `one`. -/
def one : Fe := r1

/-- fp.go:134-143 `exp`: the bits of the exponent from position `BitLen` (always zero) down. -/
def expLoop (a : Fe) (e : Nat) : Nat → Fe → Fe
  | 0, z => let z := mul z z
            if e.testBit 0 then mul z a else z
  | i + 1, z => let z := mul z z
                expLoop a e i (if e.testBit (i + 1) then mul z a else z)

/-- Go's `(*big.Int).BitLen` of a non-negative integer. -/
def bitLen (e : Nat) : Nat := if e = 0 then 0 else e.log2 + 1

/-- fp.go:134-143 `exp`. -/
def exp (a : Fe) (e : Nat) : Fe := expLoop a e (bitLen e) r1

/-- field_element.go:159-166 `div2`. -/
def div2 (a : Fe) (e : UInt64) : Fe :=
  ⟨a.l0 >>> 1 ||| a.l1 <<< 63, a.l1 >>> 1 ||| a.l2 <<< 63, a.l2 >>> 1 ||| a.l3 <<< 63,
   a.l3 >>> 1 ||| a.l4 <<< 63, a.l4 >>> 1 ||| a.l5 <<< 63, a.l5 >>> 1 ||| e <<< 63⟩

/-- field_element.go:168-177 `mul2`: the shifted words and the bit shifted out. -/
def mul2 (a : Fe) : Fe × UInt64 :=
  (⟨a.l0 <<< 1, a.l1 <<< 1 ||| a.l0 >>> 63, a.l2 <<< 1 ||| a.l1 >>> 63, a.l3 <<< 1 ||| a.l2 >>> 63,
    a.l4 <<< 1 ||| a.l3 >>> 63, a.l5 <<< 1 ||| a.l4 >>> 63⟩, a.l5 >>> 63)

/-- the variables of the loop of fp.go:150-182. -/
structure Inv where
  u : Fe
  v : Fe
  s : Fe
  r : Fe
  k : Nat
  z : UInt64

/-- one iteration of fp.go:163-181 (after the test for `v = 0`). -/
def invStep (t : Inv) : Inv :=
  if isEven t.u then
    { t with u := div2 t.u 0, s := (mul2 t.s).1, k := t.k + 1 }
  else if isEven t.v then
    { t with v := div2 t.v 0, r := (mul2 t.r).1, z := t.z + (mul2 t.r).2, k := t.k + 1 }
  else if cmp t.u t.v = 1 then
    { t with u := div2 (lsub t.u t.v) 0, r := ladd t.r t.s, s := (mul2 t.s).1, k := t.k + 1 }
  else
    { t with v := div2 (lsub t.v t.u) 0, s := ladd t.s t.r, r := (mul2 t.r).1,
             z := t.z + (mul2 t.r).2, k := t.k + 1 }

/-- fp.go:157-182, phase 1: at most 768 iterations (`n` of them left); `none` is `!found`. -/
def invLoop : Nat → Inv → Option Inv
  | 0, _ => none
  | n + 1, t => if isZero t.v then some t else invLoop n (invStep t)

/-- fp.go:200-202, phase 2. -/
def doubleN : Nat → Fe → Fe
  | 0, u => u
  | n + 1, u => doubleN n (double u)

/-- fp.go:145-205 `inverse`. -/
def inverse (e : Fe) : Fe :=
  if isZero e then zero
  else match invLoop 768 ⟨modulus, e, ofWord 1, zero, 0, 0⟩ with
    | none => zero
    | some t =>
      if t.k < 381 ∨ t.k > 381 + 384 then zero
      else
        let r := if cmp t.r modulus ≠ -1 ∨ t.z > 0 then lsub t.r modulus else t.r
        doubleN (384 * 2 - t.k) (lsub modulus r)

/-- bls12_381.go:39-40 `pPlus1Over4`. -/
def pPlus1Over4 : Nat :=
  0x680447a8e5ff9a692c6e9ed90d2eb35d91dd2e13ce144afd9cc34a83dac3d8907aaffffac54ffffee7fbfffffffeaab

/-- fp.go:207-212 `sqrt`: the candidate root and whether it is one. -/
def sqrt (bd : Build) (a : Fe) : Fe × Bool :=
  let c := exp a pPlus1Over4
  (c, equal a (square bd c))

/-- field_element.go:146-151 `signBE`. -/
def signBE (e : Fe) : Bool :=
  let z := fromMont e
  decide (cmp (neg z) z > -1)

end Fe

end Verif.Bls
