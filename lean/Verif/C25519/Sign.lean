import Verif.C25519.Model
import Verif.Api.Model

/-!
# Model of /repo/eddsa/curve25519_sha256.go: byte-string arithmetic, signing and verification

Numbers are little-endian byte strings.  `int` values are unbounded integers: in every call they stay far below `2^63` (a carry is below
`2^40`).  SHA-256 (crypto/sha256) is a parameter; `Write` several times and `Sum` hash the concatenation.
-/

namespace Verif.C25519

open Verif.Ed25519 (Fe i64 toByte)

/-- curve25519_sha256.go:117-121 `order` -/
def order : Bytes := [237, 211, 245, 92, 26, 99, 18, 88, 214, 156, 247, 162, 222, 249, 222, 20, 0, 0, 0, 0, 0, 0, 0, 0, 0, 0, 0, 0, 0, 0, 0, 16]

/-- curve25519_sha256.go:123-126 `orderTimes8` -/
def orderTimes8 : Bytes := [104, 159, 174, 231, 210, 24, 147, 192, 178, 230, 188, 23, 245, 206, 247, 166, 0, 0, 0, 0, 0, 0, 0, 0, 0, 0, 0, 0, 0, 0, 0, 128]

/-- curve25519_sha256.go:128-130 `baseR2y` -/
def baseR2y : Fe := ⟨5744, 8160848, 4790893, 13779497, 35730846, 12541209, 49101323, 30047407, 40071253, 6226132⟩

/-- curve25519_sha256.go:132-134 `base2y` -/
def base2y : Fe := ⟨39999547, 18689728, 59995525, 1648697, 57546132, 24010086, 19059592, 5425144, 63499247, 16420658⟩

/-- the loop of `mulaSmall` from the carry `v`, over the digits of `q` and `x`: the digits written, and the final carry. -/
def mulaLoop (z : Int) : Bytes → Bytes → Int → Bytes × Int
  | q :: qs, x :: xs, v =>
    let v := v + (q.toNat + z * x.toNat)
    let r := mulaLoop z qs xs (v / 2 ^ 8)
    (toByte v :: r.1, r.2)
  | _, _, v => ([], v)

/-- curve25519_sha256.go:151-159 `mulaSmall(p, q, m, x, n, z)`: the bytes written to `p[m:m+n]`, and the result.  Each byte of `q` is read
before the byte of `p` with the same index is written, so `p` may be `q`. -/
def mulaSmall (q : Bytes) (m : Nat) (x : Bytes) (n : Nat) (z : Int) : Bytes × Int :=
  mulaLoop z ((q.drop m).take n) (x.take n) 0

/-- overwrite the bytes of `p` from index `m` on. -/
def splice (p : Bytes) (m : Nat) (b : Bytes) : Bytes := p.take m ++ b ++ p.drop (m + b.length)

/-- curve25519_sha256.go:163-169: the loop of `mula32` from index `i` and carry `w`, for the remaining digits of `y`. -/
def mula32Loop (x : Bytes) (z : Int) : Bytes → Nat → Bytes → Int → Bytes × Int
  | [], _, p, w => (p, w)
  | yi :: ys, i, p, w =>
    let zy := z * yi.toNat
    let r := mulaSmall p i x 31 zy
    let p := splice p i r.1
    let w := w + (r.2 + at' p (i + 31) + zy * at' x 31)
    let p := p.set (i + 31) (toByte w)
    mula32Loop x z ys (i + 1) p (w / 2 ^ 8)

/-- curve25519_sha256.go:161-171 `mula32(p, x, y, t, z)`: the new contents of `p`. -/
def mula32 (p x y : Bytes) (t : Nat) (z : Int) : Bytes :=
  let r := mula32Loop x z (y.take t) 0 p 0
  r.1.set (t + 31) (toByte (r.2 + at' r.1 (t + 31)))

/-- curve25519_sha256.go:180-189: one iteration of the loop of `divmod`, for the index `n` and the remainder `rn` (a byte). -/
def divStep (d : Bytes) (t : Nat) (dt : Int) (n : Nat) (q r : Bytes) (rn : Int) : Bytes × Bytes × Int :=
  let z := rn * 2 ^ 16 + at' r n * 2 ^ 8 + (if n > 0 then at' r (n - 1) else 0)
  let z := z / dt
  let a := mulaSmall r (n + 1 - t) d t (-z)
  let r := splice r (n + 1 - t) a.1
  let rn := rn + a.2
  let q := q.set (n + 1 - t) (toByte (z + rn))
  let r := splice r (n + 1 - t) (mulaSmall r (n + 1 - t) d t (-rn)).1
  (q, r.set n 0, at' r n)

/-- curve25519_sha256.go:179-190: the loop of `divmod`, for `c` more iterations; the last one has the index `t - 1`. -/
def divLoop (d : Bytes) (t : Nat) (dt : Int) : Nat → Bytes → Bytes → Int → Bytes × Bytes × Int
  | 0, q, r, rn => (q, r, rn)
  | c + 1, q, r, rn =>
    let s := divStep d t dt (t - 1 + c) q r rn
    divLoop d t dt c s.1 s.2.1 s.2.2

/-- curve25519_sha256.go:173-192 `divmod(q, r, n, d, t)`: the new contents of `q` and `r`. -/
def divmod (q r : Bytes) (n : Nat) (d : Bytes) (t : Nat) : Bytes × Bytes :=
  let dt := at' d (t - 1) * 2 ^ 8 + (if t > 1 then at' d (t - 2) else 0)
  let s := divLoop d t dt (n + 1 - t) q r 0
  (s.1, s.2.1.set (t - 1) (toByte s.2.2))

/-- curve25519_sha256.go:748-759 `IsCanonicalSignature` -/
def isCanonicalSignature (v : Bytes) : Bool :=
  let vCopy := v.take 32
  (divmod (List.replicate 32 0) vCopy 32 order 32).2 == v.take 32

/-- curve25519_sha256.go:777-784 `numsize` -/
def numsize (x : Bytes) : Nat → Nat
  | 0 => 0
  | i + 1 => if x.getD i 0 ≠ 0 then i + 1 else numsize x i

/-- curve25519_sha256.go:801-818: the loop of `egcd32`; the number of iterations is bounded by the fuel (each one shortens `a` and `b`, and
more than 512 cannot happen). -/
def egcdLoop : Nat → Bytes → Bytes → Bytes → Bytes → Nat → Nat → Bytes → Bytes
  | 0, _, y, _, _, _, _, _ => y
  | f + 1, x, y, a, b, an, bn, tmp =>
    let qn := bn + 1 - an
    let s := divmod tmp b bn a an
    let tmp := s.1
    let b := s.2
    let bn := numsize b bn
    if bn = 0 then x
    else
      let y := mula32 y x tmp qn (-1)
      let qn := an + 1 - bn
      let s := divmod tmp a an b bn
      let tmp := s.1
      let a := s.2
      let an := numsize a an
      if an = 0 then y
      else
        let x := mula32 x y tmp qn (-1)
        egcdLoop f x y a b an bn tmp

/-- curve25519_sha256.go:786-819 `egcd32(x, y, a, b)`, for zeroed `x` and `y` of 64 bytes. -/
def egcd32 (a b : Bytes) : Bytes :=
  let x := (List.replicate 64 (0 : UInt8)).set 0 1
  let y := List.replicate 64 (0 : UInt8)
  let an := numsize a 32
  if an = 0 then y else egcdLoop 512 x y a b an 32 (List.replicate 32 0)

/-- curve25519_sha256.go:463-469 `isNegative` -/
def isNegative (x : Fe) : Nat := (if isOverflow x || x.a9 < 0 then 1 else 0) ^^^ (x.a0 % 2).toNat

/-- `x[0] += n`. -/
def bump (x : Fe) (n : Int) : Fe := { x with a0 := i64 (x.a0 + n) }

/-- curve25519_sha256.go:471-480 `sqrt` -/
def sqrt (u : Fe) : Fe :=
  let t1 := add u u
  let v := recipSqrt t1
  let x := sqr v
  let t2 := mul t1 x
  let t2 := bump t2 (-1)
  let t1 := mul v t2
  mul u t1

/-- curve25519_sha256.go:507-513 `xToY2` -/
def xToY2 (x : Fe) : Fe :=
  let t := sqr x
  let y2 := mulSmall x 486662
  let t := add t y2
  let t := bump t 1
  mul t x

/-- curve25519_sha256.go:562-574: the value `-Py` computed in `core`, from `Px` and the second pair of the ladder. -/
def coreY (px x1 z1 : Fe) : Fe :=
  let t1 := xToY2 px
  let t3 := recip z1
  let t2 := mul x1 t3
  let t2 := add t2 px
  let t2 := bump t2 (9 + 486662)
  let dx := bump px (-9)
  let t3 := sqr dx
  let dx := mul t2 t3
  let dx := sub dx t1
  let dx := bump dx (-39420360)
  mul dx baseR2y

/-- curve25519_sha256.go:574-592: the value of `s` in `core`. -/
def coreS (k : Bytes) (t1 : Fe) : Bytes :=
  let s := if isNegative t1 ≠ 0 then k else (mulaSmall orderTimes8 0 k 32 (-1)).1
  let s := (egcd32 s order).take 32
  if (s.getD 31 0).toNat / 2 ^ 7 % 2 ≠ 0 then (mulaSmall s 0 order 32 1).1 else s

/-- curve25519_sha256.go:146-149 `Keygen(P, s, k)`: the bytes written to `P` and `s`, for a key `k` that is clamped first. -/
def keygenS (k : Bytes) : Bytes × Bytes :=
  let k := clamp k
  let l := ladder (set 9) k
  let dx := affine l.x0 l.z0
  (pack dx, coreS k (coreY dx l.x1 l.z1))

/-- curve25519_sha256.go:595-620 `Sign`: the bytes written to `v`. -/
def signV (h x s : Bytes) : Bytes :=
  let z := List.replicate 32 (0 : UInt8)
  let a := divmod z h 32 order 32
  let h1 := a.2
  let x1 := (divmod a.1 x 32 order 32).2
  let v := (mulaSmall x1 0 h1 32 (-1)).1
  let v := (mulaSmall v 0 order 32 1).1
  let tmp1 := mula32 (List.replicate 64 0) v s 32 1
  (divmod (List.replicate 64 0) tmp1 64 order 32).2.take 32

/-- curve25519_sha256.go:684-697: one iteration of the preparation of the chain; `nvh & m` is `m` without the bits of `vi ^ hi`, which are
the bits of `m & (0xFFFF ^ vi ^ hi)`. -/
def prepStep (s : Nat × Nat × Nat) (vb hb : UInt8) : Nat × Nat × Nat :=
  let vi := s.1 / 2 ^ 8 ^^^ vb.toNat ^^^ vb.toNat * 2
  let hi := s.2.1 / 2 ^ 8 ^^^ hb.toNat ^^^ hb.toNat * 2
  let nvh := 0xFFFF ^^^ (vi ^^^ hi)
  let di := s.2.2
  let di := nvh &&& ((di &&& 0x80) / 2 ^ 7) ^^^ vi
  let di := di ^^^ nvh &&& ((di &&& 0x01) * 2)
  let di := di ^^^ nvh &&& ((di &&& 0x02) * 2)
  let di := di ^^^ nvh &&& ((di &&& 0x04) * 2)
  let di := di ^^^ nvh &&& ((di &&& 0x08) * 2)
  let di := di ^^^ nvh &&& ((di &&& 0x10) * 2)
  let di := di ^^^ nvh &&& ((di &&& 0x20) * 2)
  let di := di ^^^ nvh &&& ((di &&& 0x40) * 2)
  (vi, hi, di)

/-- curve25519_sha256.go:684-697: the loop, over the remaining bytes of `v` and `h`: the bytes of `d`, and the last values. -/
def prepLoop : Bytes → Bytes → Nat × Nat × Nat → Bytes × (Nat × Nat × Nat)
  | vb :: v, hb :: h, s =>
    let s := prepStep s vb hb
    let r := prepLoop v h s
    (UInt8.ofNat s.2.2 :: r.1, r.2)
  | _, _, s => ([], s)

/-- curve25519_sha256.go:684-699: the bytes `d` and the value of `di` after line 699. -/
def prep (v h : Bytes) : Bytes × Nat :=
  let r := prepLoop v h (0, 0, 0)
  let vi := r.2.1
  let nvh := 0xFFFF ^^^ (vi ^^^ r.2.2.1)
  let di := r.2.2.2
  (r.1, (nvh &&& ((di &&& 0x80) * 2) ^^^ vi) / 2 ^ 8)

/-- the three projective x-coordinates of the chain in `Verify`. -/
structure Tri where
  x0 : Fe
  z0 : Fe
  x1 : Fe
  z1 : Fe
  x2 : Fe
  z2 : Fe

def Tri.get (t : Tri) (k : Nat) : Fe × Fe := if k = 0 then (t.x0, t.z0) else if k = 1 then (t.x1, t.z1) else (t.x2, t.z2)

/-- curve25519_sha256.go:722-738: one iteration of the inner loop.  `vb`, `hb` and `db` are the bits `j + 1` and `j` of `vi`, `hi` and `di`
as a number below four.  The scratch arrays that `montDbl` and `montAdd` overwrite are not read again before `montPrep` sets them. -/
def triStep (p0 p1 s0 s1 : Fe) (vb hb db : Nat) (y : Tri) : Tri :=
  let t : Tri := ⟨add y.x0 y.z0, sub y.x0 y.z0, add y.x1 y.z1, sub y.x1 y.z1, add y.x2 y.z2, sub y.x2 y.z2⟩
  let k := (vb ^^^ vb / 2) % 2 + (hb ^^^ hb / 2) % 2
  let b := montDbl (t.get k).1 (t.get k).2
  let k := (db &&& 2) ^^^ (db % 2) * 2
  let a := montAdd t.x1 t.z1 (t.get k).1 (t.get k).2 (if db % 2 = 0 then p0 else p1)
  let c := montAdd t.x2 t.z2 t.x0 t.z0 (if ((vb ^^^ hb) &&& 2) / 2 = 0 then s0 else s1)
  ⟨b.1, b.2, a.1, a.2, c.1, c.2⟩

/-- bits `j + 1` and `j` of a number. -/
def two (n j : Nat) : Nat := n / 2 ^ j % 4

/-- curve25519_sha256.go:717-740: the loop over the bits from the top, for the numbers `v`, `h` and `d` (with the value of `di` of line 699
as the bit 256 of `d`): before the bit `j` of the byte `i` is used the low bits of `vi` are the bits of `v` from `8 * i` on. -/
def triLoop (p0 p1 s0 s1 : Fe) (v h d : Nat) (y : Tri) : Tri :=
  (List.range 256).reverse.foldl (fun y t => triStep p0 p1 s0 s1 (two v t) (two h t) (two d t) y) y

/-- curve25519_sha256.go:660-681: the points `P + G` and `P - G`. -/
def sumDiff (p1 : Fe) : Fe × Fe :=
  let t20 := xToY2 p1
  let t10 := sqrt t20
  let j := isNegative t10
  let t20 := bump t20 39420360
  let t21 := mul base2y t10
  let d := sub t20 t21
  let a := add t20 t21
  let t10 := if j = 0 then d else a
  let t11 := if j = 0 then a else d
  let t20 := bump p1 (-9)
  let t21 := sqr t20
  let t20 := recip t21
  let s0 := bump (sub (mul t10 t20) p1) (-(9 + 486662))
  let s1 := bump (sub (mul t11 t20) p1) (-(9 + 486662))
  (mulSmall s0 1, mulSmall s1 1)

/-- curve25519_sha256.go:622-746 `Verify`: the bytes written to `Y`. -/
def verifyY (v h P : Bytes) : Bytes :=
  let p0 := set 9
  let p1 := unpack P
  let s := sumDiff p1
  let d := prep v h
  let y0 : Tri := ⟨set 1, set 0, if d.2 = 0 then p0 else p1, set 1, s.1, set 1⟩
  let y := triLoop p0 p1 s.1 s.2 (leNat v) (leNat h) (leNat d.1 + 2 ^ 256 * d.2) y0
  let k := leNat v % 2 + leNat h % 2
  pack (mul (y.get k).1 (recip (y.get k).2))

/-- curve25519_sha256.go:20-30 `CURVE25519_sha256_genPub`; `eddsa.ErrPrivateKeyIllegal` is not the error the dispatcher tests for. -/
def genPub (prikey : Bytes) : Except Err Bytes := if prikey.length ≠ 32 then .error .other else .ok (keygen prikey).1

/-- curve25519_sha256.go:32-67 `CURVE25519_sha256_sign` -/
def sign (sha256 : Bytes → Bytes) (prikey message : Bytes) : Except Err Bytes :=
  if prikey.length ≠ 32 then .error .other
  else
    let s := (keygenS prikey).2
    let m := sha256 message
    let x := sha256 (m ++ s)
    let Y := (keygen x).1
    let x := (keygen x).2
    let h := sha256 (m ++ Y)
    .ok (signV h x s ++ h)

/-- curve25519_sha256.go:69-104 `CURVE25519_sha256_verify` -/
def verify (sha256 : Bytes → Bytes) (pubkey message signature : Bytes) : Bool :=
  if signature.length ≠ 64 ∨ pubkey.length ≠ 32 ∨ message.length = 0 then false
  else if ¬ isCanonicalSignature signature then false
  else if ¬ isCanonicalPublicKey pubkey then false
  else
    let v := signature.take 32
    let h := signature.drop 32
    let Y := verifyY v h pubkey
    h == sha256 (sha256 message ++ Y)

/-- the functions of this file that the dispatcher calls. -/
def scheme (sha256 : Bytes → Bytes) : Api.Scheme where
  genPub k := .ret (genPub k)
  sign k m := .ret (sign sha256 k m)
  verify p m s := .ret (verify sha256 p m s)

end Verif.C25519
