import Verif.Bls.Group

/-!
# BLS12-381 tower: model of bls12_381/bls/fp6.go, fp12.go, gt.go and the rest of fp2.go

`fe6 = [3]fe2`, `c0 + c1 v + c2 v²` with `v³ = 1 + u`; `fe12 = [2]fe6`, `c0 + c1 w` with `w² = v`.

The `…Assign` functions have the bodies of the functions without the suffix and an output that aliases the first
input; they are modelled by the same definition (`mulBy01Assign` and `frobeniusMapAssign`, whose bodies differ,
are modelled separately).  Temporaries in the receivers are written before they are read and are dropped; where
callers alias an output with an input, every coordinate is read before it is overwritten.
-/

namespace Verif.Bls

/-- field_element.go:13 `fe6`. -/
structure Fe6 where
  c0 : Fe2
  c1 : Fe2
  c2 : Fe2
deriving DecidableEq

/-- field_element.go:14 `fe12`. -/
structure Fe12 where
  c0 : Fe6
  c1 : Fe6
deriving DecidableEq

namespace Fe2

/-- fp2.go:191-196 `mulByNonResidue`. -/
def mulByNonResidue (a : Fe2) : Fe2 := ⟨Fe.sub a.c0 a.c1, Fe.add a.c0 a.c1⟩

/-- fp2.go:198-206 `mulByB`. -/
def mulByB (a : Fe2) : Fe2 :=
  let t0 := Fe.double (Fe.double a.c0)
  let t1 := Fe.double (Fe.double a.c1)
  ⟨Fe.sub t0 t1, Fe.add t0 t1⟩

/-- fp2.go:219-222 `mulByFq`. -/
def mulByFq (a : Fe2) (b : Fe) : Fe2 := ⟨Fe.mul a.c0 b, Fe.mul a.c1 b⟩

/-- fp2.go:241-248 `frobeniousMap`, 250-255 `frobeniousMapAssign`. -/
def frobeniusMap (a : Fe2) (power : Nat) : Fe2 := if power % 2 = 1 then ⟨a.c0, Fe.neg a.c1⟩ else a

end Fe2

/-- bls12_381.go:32 `twoInv`. -/
def twoInv : Fe :=
  ⟨0x1804000000015554, 0x855000053ab00001, 0x633cb57c253c276f,
    0x6e22d1ec31ebb502, 0xd3916126f2d14ca2, 0x17fbb8571a006596⟩

/-- bls12_381.go:146-149 `frobeniusCoeffs61[0]`. -/
def frob61_0 : Fe2 :=
  ⟨⟨0x760900000002fffd, 0xebf4000bc40c0002, 0x5f48985753c758ba,
    0x77ce585370525745, 0x5c071a97a256ec6d, 0x15f65ec3fa80e493⟩,
   ⟨0x0000000000000000, 0x0000000000000000, 0x0000000000000000,
    0x0000000000000000, 0x0000000000000000, 0x0000000000000000⟩⟩
/-- bls12_381.go:150-153 `frobeniusCoeffs61[1]`. -/
def frob61_1 : Fe2 :=
  ⟨⟨0x0000000000000000, 0x0000000000000000, 0x0000000000000000,
    0x0000000000000000, 0x0000000000000000, 0x0000000000000000⟩,
   ⟨0xcd03c9e48671f071, 0x5dab22461fcda5d2, 0x587042afd3851b95,
    0x8eb60ebe01bacb9e, 0x03f97d6e83d050d2, 0x18f0206554638741⟩⟩
/-- bls12_381.go:154-157 `frobeniusCoeffs61[2]`. -/
def frob61_2 : Fe2 :=
  ⟨⟨0x30f1361b798a64e8, 0xf3b8ddab7ece5a2a, 0x16a8ca3ac61577f7,
    0xc26a2ff874fd029b, 0x3636b76660701c6e, 0x051ba4ab241b6160⟩,
   ⟨0x0000000000000000, 0x0000000000000000, 0x0000000000000000,
    0x0000000000000000, 0x0000000000000000, 0x0000000000000000⟩⟩
/-- bls12_381.go:158-161 `frobeniusCoeffs61[3]`. -/
def frob61_3 : Fe2 :=
  ⟨⟨0x0000000000000000, 0x0000000000000000, 0x0000000000000000,
    0x0000000000000000, 0x0000000000000000, 0x0000000000000000⟩,
   ⟨0x760900000002fffd, 0xebf4000bc40c0002, 0x5f48985753c758ba,
    0x77ce585370525745, 0x5c071a97a256ec6d, 0x15f65ec3fa80e493⟩⟩
/-- bls12_381.go:162-165 `frobeniusCoeffs61[4]`. -/
def frob61_4 : Fe2 :=
  ⟨⟨0xcd03c9e48671f071, 0x5dab22461fcda5d2, 0x587042afd3851b95,
    0x8eb60ebe01bacb9e, 0x03f97d6e83d050d2, 0x18f0206554638741⟩,
   ⟨0x0000000000000000, 0x0000000000000000, 0x0000000000000000,
    0x0000000000000000, 0x0000000000000000, 0x0000000000000000⟩⟩
/-- bls12_381.go:166-169 `frobeniusCoeffs61[5]`. -/
def frob61_5 : Fe2 :=
  ⟨⟨0x0000000000000000, 0x0000000000000000, 0x0000000000000000,
    0x0000000000000000, 0x0000000000000000, 0x0000000000000000⟩,
   ⟨0x30f1361b798a64e8, 0xf3b8ddab7ece5a2a, 0x16a8ca3ac61577f7,
    0xc26a2ff874fd029b, 0x3636b76660701c6e, 0x051ba4ab241b6160⟩⟩
/-- bls12_381.go:145-170 `frobeniusCoeffs61`. -/
def frob61 (i : Nat) : Fe2 :=
  match i with
  | 0 => frob61_0
  | 1 => frob61_1
  | 2 => frob61_2
  | 3 => frob61_3
  | 4 => frob61_4
  | _ => frob61_5

/-- bls12_381.go:173-176 `frobeniusCoeffs62[0]`. -/
def frob62_0 : Fe2 :=
  ⟨⟨0x760900000002fffd, 0xebf4000bc40c0002, 0x5f48985753c758ba,
    0x77ce585370525745, 0x5c071a97a256ec6d, 0x15f65ec3fa80e493⟩,
   ⟨0x0000000000000000, 0x0000000000000000, 0x0000000000000000,
    0x0000000000000000, 0x0000000000000000, 0x0000000000000000⟩⟩
/-- bls12_381.go:177-180 `frobeniusCoeffs62[1]`. -/
def frob62_1 : Fe2 :=
  ⟨⟨0x890dc9e4867545c3, 0x2af322533285a5d5, 0x50880866309b7e2c,
    0xa20d1b8c7e881024, 0x14e4f04fe2db9068, 0x14e56d3f1564853a⟩,
   ⟨0x0000000000000000, 0x0000000000000000, 0x0000000000000000,
    0x0000000000000000, 0x0000000000000000, 0x0000000000000000⟩⟩
/-- bls12_381.go:181-184 `frobeniusCoeffs62[2]`. -/
def frob62_2 : Fe2 :=
  ⟨⟨0xcd03c9e48671f071, 0x5dab22461fcda5d2, 0x587042afd3851b95,
    0x8eb60ebe01bacb9e, 0x03f97d6e83d050d2, 0x18f0206554638741⟩,
   ⟨0x0000000000000000, 0x0000000000000000, 0x0000000000000000,
    0x0000000000000000, 0x0000000000000000, 0x0000000000000000⟩⟩
/-- bls12_381.go:185-188 `frobeniusCoeffs62[3]`. -/
def frob62_3 : Fe2 :=
  ⟨⟨0x43f5fffffffcaaae, 0x32b7fff2ed47fffd, 0x07e83a49a2e99d69,
    0xeca8f3318332bb7a, 0xef148d1ea0f4c069, 0x040ab3263eff0206⟩,
   ⟨0x0000000000000000, 0x0000000000000000, 0x0000000000000000,
    0x0000000000000000, 0x0000000000000000, 0x0000000000000000⟩⟩
/-- bls12_381.go:189-192 `frobeniusCoeffs62[4]`. -/
def frob62_4 : Fe2 :=
  ⟨⟨0x30f1361b798a64e8, 0xf3b8ddab7ece5a2a, 0x16a8ca3ac61577f7,
    0xc26a2ff874fd029b, 0x3636b76660701c6e, 0x051ba4ab241b6160⟩,
   ⟨0x0000000000000000, 0x0000000000000000, 0x0000000000000000,
    0x0000000000000000, 0x0000000000000000, 0x0000000000000000⟩⟩
/-- bls12_381.go:193-196 `frobeniusCoeffs62[5]`. -/
def frob62_5 : Fe2 :=
  ⟨⟨0xecfb361b798dba3a, 0xc100ddb891865a2c, 0x0ec08ff1232bda8e,
    0xd5c13cc6f1ca4721, 0x47222a47bf7b5c04, 0x0110f184e51c5f59⟩,
   ⟨0x0000000000000000, 0x0000000000000000, 0x0000000000000000,
    0x0000000000000000, 0x0000000000000000, 0x0000000000000000⟩⟩
/-- bls12_381.go:172-197 `frobeniusCoeffs62`. -/
def frob62 (i : Nat) : Fe2 :=
  match i with
  | 0 => frob62_0
  | 1 => frob62_1
  | 2 => frob62_2
  | 3 => frob62_3
  | 4 => frob62_4
  | _ => frob62_5

/-- bls12_381.go:200-203 `frobeniusCoeffs12[0]`. -/
def frob12_0 : Fe2 :=
  ⟨⟨0x760900000002fffd, 0xebf4000bc40c0002, 0x5f48985753c758ba,
    0x77ce585370525745, 0x5c071a97a256ec6d, 0x15f65ec3fa80e493⟩,
   ⟨0x0000000000000000, 0x0000000000000000, 0x0000000000000000,
    0x0000000000000000, 0x0000000000000000, 0x0000000000000000⟩⟩
/-- bls12_381.go:204-207 `frobeniusCoeffs12[1]`. -/
def frob12_1 : Fe2 :=
  ⟨⟨0x07089552b319d465, 0xc6695f92b50a8313, 0x97e83cccd117228f,
    0xa35baecab2dc29ee, 0x1ce393ea5daace4d, 0x08f2220fb0fb66eb⟩,
   ⟨0xb2f66aad4ce5d646, 0x5842a06bfc497cec, 0xcf4895d42599d394,
    0xc11b9cba40a8e8d0, 0x2e3813cbe5a0de89, 0x110eefda88847faf⟩⟩
/-- bls12_381.go:208-211 `frobeniusCoeffs12[2]`. -/
def frob12_2 : Fe2 :=
  ⟨⟨0xecfb361b798dba3a, 0xc100ddb891865a2c, 0x0ec08ff1232bda8e,
    0xd5c13cc6f1ca4721, 0x47222a47bf7b5c04, 0x0110f184e51c5f59⟩,
   ⟨0x0000000000000000, 0x0000000000000000, 0x0000000000000000,
    0x0000000000000000, 0x0000000000000000, 0x0000000000000000⟩⟩
/-- bls12_381.go:212-215 `frobeniusCoeffs12[3]`. -/
def frob12_3 : Fe2 :=
  ⟨⟨0x3e2f585da55c9ad1, 0x4294213d86c18183, 0x382844c88b623732,
    0x92ad2afd19103e18, 0x1d794e4fac7cf0b9, 0x0bd592fc7d825ec8⟩,
   ⟨0x7bcfa7a25aa30fda, 0xdc17dec12a927e7c, 0x2f088dd86b4ebef1,
    0xd1ca2087da74d4a7, 0x2da2596696cebc1d, 0x0e2b7eedbbfd87d2⟩⟩
/-- bls12_381.go:216-219 `frobeniusCoeffs12[4]`. -/
def frob12_4 : Fe2 :=
  ⟨⟨0x30f1361b798a64e8, 0xf3b8ddab7ece5a2a, 0x16a8ca3ac61577f7,
    0xc26a2ff874fd029b, 0x3636b76660701c6e, 0x051ba4ab241b6160⟩,
   ⟨0x0000000000000000, 0x0000000000000000, 0x0000000000000000,
    0x0000000000000000, 0x0000000000000000, 0x0000000000000000⟩⟩
/-- bls12_381.go:220-223 `frobeniusCoeffs12[5]`. -/
def frob12_5 : Fe2 :=
  ⟨⟨0x3726c30af242c66c, 0x7c2ac1aad1b6fe70, 0xa04007fbba4b14a2,
    0xef517c3266341429, 0x0095ba654ed2226b, 0x02e370eccc86f7dd⟩,
   ⟨0x82d83cf50dbce43f, 0xa2813e53df9d018f, 0xc6f0caa53c65e181,
    0x7525cf528d50fe95, 0x4a85ed50f4798a6b, 0x171da0fd6cf8eebd⟩⟩
/-- bls12_381.go:224-227 `frobeniusCoeffs12[6]`. -/
def frob12_6 : Fe2 :=
  ⟨⟨0x43f5fffffffcaaae, 0x32b7fff2ed47fffd, 0x07e83a49a2e99d69,
    0xeca8f3318332bb7a, 0xef148d1ea0f4c069, 0x040ab3263eff0206⟩,
   ⟨0x0000000000000000, 0x0000000000000000, 0x0000000000000000,
    0x0000000000000000, 0x0000000000000000, 0x0000000000000000⟩⟩
/-- bls12_381.go:228-231 `frobeniusCoeffs12[7]`. -/
def frob12_7 : Fe2 :=
  ⟨⟨0xb2f66aad4ce5d646, 0x5842a06bfc497cec, 0xcf4895d42599d394,
    0xc11b9cba40a8e8d0, 0x2e3813cbe5a0de89, 0x110eefda88847faf⟩,
   ⟨0x07089552b319d465, 0xc6695f92b50a8313, 0x97e83cccd117228f,
    0xa35baecab2dc29ee, 0x1ce393ea5daace4d, 0x08f2220fb0fb66eb⟩⟩
/-- bls12_381.go:232-235 `frobeniusCoeffs12[8]`. -/
def frob12_8 : Fe2 :=
  ⟨⟨0xcd03c9e48671f071, 0x5dab22461fcda5d2, 0x587042afd3851b95,
    0x8eb60ebe01bacb9e, 0x03f97d6e83d050d2, 0x18f0206554638741⟩,
   ⟨0x0000000000000000, 0x0000000000000000, 0x0000000000000000,
    0x0000000000000000, 0x0000000000000000, 0x0000000000000000⟩⟩
/-- bls12_381.go:236-239 `frobeniusCoeffs12[9]`. -/
def frob12_9 : Fe2 :=
  ⟨⟨0x7bcfa7a25aa30fda, 0xdc17dec12a927e7c, 0x2f088dd86b4ebef1,
    0xd1ca2087da74d4a7, 0x2da2596696cebc1d, 0x0e2b7eedbbfd87d2⟩,
   ⟨0x3e2f585da55c9ad1, 0x4294213d86c18183, 0x382844c88b623732,
    0x92ad2afd19103e18, 0x1d794e4fac7cf0b9, 0x0bd592fc7d825ec8⟩⟩
/-- bls12_381.go:240-243 `frobeniusCoeffs12[10]`. -/
def frob12_10 : Fe2 :=
  ⟨⟨0x890dc9e4867545c3, 0x2af322533285a5d5, 0x50880866309b7e2c,
    0xa20d1b8c7e881024, 0x14e4f04fe2db9068, 0x14e56d3f1564853a⟩,
   ⟨0x0000000000000000, 0x0000000000000000, 0x0000000000000000,
    0x0000000000000000, 0x0000000000000000, 0x0000000000000000⟩⟩
/-- bls12_381.go:244-247 `frobeniusCoeffs12[11]`. -/
def frob12_11 : Fe2 :=
  ⟨⟨0x82d83cf50dbce43f, 0xa2813e53df9d018f, 0xc6f0caa53c65e181,
    0x7525cf528d50fe95, 0x4a85ed50f4798a6b, 0x171da0fd6cf8eebd⟩,
   ⟨0x3726c30af242c66c, 0x7c2ac1aad1b6fe70, 0xa04007fbba4b14a2,
    0xef517c3266341429, 0x0095ba654ed2226b, 0x02e370eccc86f7dd⟩⟩
/-- bls12_381.go:199-248 `frobeniusCoeffs12`. -/
def frob12 (i : Nat) : Fe2 :=
  match i with
  | 0 => frob12_0
  | 1 => frob12_1
  | 2 => frob12_2
  | 3 => frob12_3
  | 4 => frob12_4
  | 5 => frob12_5
  | 6 => frob12_6
  | 7 => frob12_7
  | 8 => frob12_8
  | 9 => frob12_9
  | 10 => frob12_10
  | _ => frob12_11

namespace Fe6

/-- fp6.go:67-69 `zero`. -/
def zero : Fe6 := ⟨Fe2.zero, Fe2.zero, Fe2.zero⟩

/-- fp6.go:71-74 `one`. -/
def one : Fe6 := ⟨Fe2.one, Fe2.zero, Fe2.zero⟩

/-- fp6.go:93-96 `isZero`. -/
def isZero (a : Fe6) : Bool := Fe2.isZero a.c0 && Fe2.isZero a.c1 && Fe2.isZero a.c2

/-- fp6.go:98-101 `equal`. -/
def equal (a b : Fe6) : Bool := Fe2.equal a.c0 b.c0 && Fe2.equal a.c1 b.c1 && Fe2.equal a.c2 b.c2

/-- fp6.go:110-115 `add`. -/
def add (a b : Fe6) : Fe6 := ⟨Fe2.add a.c0 b.c0, Fe2.add a.c1 b.c1, Fe2.add a.c2 b.c2⟩

/-- fp6.go:124-129 `double`. -/
def double (a : Fe6) : Fe6 := ⟨Fe2.double a.c0, Fe2.double a.c1, Fe2.double a.c2⟩

/-- fp6.go:138-143 `sub`. -/
def sub (a b : Fe6) : Fe6 := ⟨Fe2.sub a.c0 b.c0, Fe2.sub a.c1 b.c1, Fe2.sub a.c2 b.c2⟩

/-- fp6.go:152-157 `neg`. -/
def neg (a : Fe6) : Fe6 := ⟨Fe2.neg a.c0, Fe2.neg a.c1, Fe2.neg a.c2⟩

/-- fp6.go:166-192 `mul`. -/
def mul (a b : Fe6) : Fe6 :=
  let t0 := Fe2.mul a.c0 b.c0
  let t1 := Fe2.mul a.c1 b.c1
  let t2 := Fe2.mul a.c2 b.c2
  let t3 := Fe2.add a.c1 a.c2
  let t4 := Fe2.add b.c1 b.c2
  let t3 := Fe2.mul t3 t4
  let t4 := Fe2.add t1 t2
  let t3 := Fe2.sub t3 t4
  let t3 := Fe2.mulByNonResidue t3
  let t5 := Fe2.add t0 t3
  let t3 := Fe2.add a.c0 a.c1
  let t4 := Fe2.add b.c0 b.c1
  let t3 := Fe2.mul t3 t4
  let t4 := Fe2.add t0 t1
  let t3 := Fe2.sub t3 t4
  let t4 := Fe2.mulByNonResidue t2
  let o1 := Fe2.add t3 t4
  let t3 := Fe2.add a.c0 a.c2
  let t4 := Fe2.add b.c0 b.c2
  let t3 := Fe2.mul t3 t4
  let t4 := Fe2.add t0 t2
  let t3 := Fe2.sub t3 t4
  let o2 := Fe2.add t1 t3
  let o0 := t5
  ⟨o0, o1, o2⟩

/-- fp6.go:222-241 `square`. -/
def square (a : Fe6) : Fe6 :=
  let t0 := Fe2.square a.c0
  let t1 := Fe2.mul a.c0 a.c1
  let t1 := Fe2.double t1
  let t2 := Fe2.sub a.c0 a.c1
  let t2 := Fe2.add t2 a.c2
  let t2 := Fe2.square t2
  let t3 := Fe2.mul a.c1 a.c2
  let t3 := Fe2.double t3
  let t4 := Fe2.square a.c2
  let t5 := Fe2.mulByNonResidue t3
  let o0 := Fe2.add t0 t5
  let t5 := Fe2.mulByNonResidue t4
  let o1 := Fe2.add t1 t5
  let t1 := Fe2.add t1 t2
  let t1 := Fe2.add t1 t3
  let t0 := Fe2.add t0 t4
  let o2 := Fe2.sub t1 t0
  ⟨o0, o1, o2⟩

/-- fp6.go:243-261 `mulBy01Assign`. -/
def mulBy01Assign (a : Fe6) (b0 b1 : Fe2) : Fe6 :=
  let t0 := Fe2.mul a.c0 b0
  let t1 := Fe2.mul a.c1 b1
  let t5 := Fe2.add a.c1 a.c2
  let t2 := Fe2.mul b1 t5
  let t2 := Fe2.sub t2 t1
  let t2 := Fe2.mulByNonResidue t2
  let t5 := Fe2.add a.c0 a.c2
  let t3 := Fe2.mul b0 t5
  let t3 := Fe2.sub t3 t0
  let o2 := Fe2.add t3 t1
  let t4 := Fe2.add b0 b1
  let t5 := Fe2.add a.c0 a.c1
  let t4 := Fe2.mul t4 t5
  let t4 := Fe2.sub t4 t0
  let o1 := Fe2.sub t4 t1
  let o0 := Fe2.add t2 t0
  ⟨o0, o1, o2⟩

/-- fp6.go:263-281 `mulBy01`. -/
def mulBy01 (a : Fe6) (b0 b1 : Fe2) : Fe6 :=
  let t0 := Fe2.mul a.c0 b0
  let t1 := Fe2.mul a.c1 b1
  let t2 := Fe2.add a.c1 a.c2
  let t2 := Fe2.mul t2 b1
  let t2 := Fe2.sub t2 t1
  let t2 := Fe2.mulByNonResidue t2
  let t3 := Fe2.add a.c0 a.c2
  let t3 := Fe2.mul t3 b0
  let t3 := Fe2.sub t3 t0
  let o2 := Fe2.add t3 t1
  let t4 := Fe2.add b0 b1
  let t3 := Fe2.add a.c0 a.c1
  let t4 := Fe2.mul t4 t3
  let t4 := Fe2.sub t4 t0
  let o1 := Fe2.sub t4 t1
  let o0 := Fe2.add t2 t0
  ⟨o0, o1, o2⟩

/-- fp6.go:283-289 `mulBy1`. -/
def mulBy1 (a : Fe6) (b1 : Fe2) : Fe6 :=
  ⟨Fe2.mulByNonResidue (Fe2.mul a.c2 b1), Fe2.mul a.c0 b1, Fe2.mul a.c1 b1⟩

/-- fp6.go:291-297 `mulByNonResidue`. -/
def mulByNonResidue (a : Fe6) : Fe6 := ⟨Fe2.mulByNonResidue a.c2, a.c0, a.c1⟩

/-- fp6.go:299-304 `mulByBaseField`. -/
def mulByBaseField (a : Fe6) (b : Fe2) : Fe6 := ⟨Fe2.mul a.c0 b, Fe2.mul a.c1 b, Fe2.mul a.c2 b⟩

/-- fp6.go:317-340 `inverse`. -/
def inverse (bd : Build) (a : Fe6) : Fe6 :=
  let t0 := Fe2.square a.c0
  let t1 := Fe2.mul a.c1 a.c2
  let t1 := Fe2.mulByNonResidue t1
  let t0 := Fe2.sub t0 t1
  let t1 := Fe2.square a.c1
  let t2 := Fe2.mul a.c0 a.c2
  let t1 := Fe2.sub t1 t2
  let t2 := Fe2.square a.c2
  let t2 := Fe2.mulByNonResidue t2
  let t3 := Fe2.mul a.c0 a.c1
  let t2 := Fe2.sub t2 t3
  let t3 := Fe2.mul a.c2 t2
  let t4 := Fe2.mul a.c1 t1
  let t3 := Fe2.add t3 t4
  let t3 := Fe2.mulByNonResidue t3
  let t4 := Fe2.mul a.c0 t0
  let t3 := Fe2.add t3 t4
  let t3 := Fe2.inverse bd t3
  let o0 := Fe2.mul t0 t3
  let o1 := Fe2.mul t2 t3
  let o2 := Fe2.mul t1 t3
  ⟨o0, o1, o2⟩

/-- fp6.go:342-358 `frobeniusMap`: the output `c`.  In case 3 the code writes `c[0][0]` where `c[1][0]` is meant
and negates `a[2]`, not `c[2]`; the only call in the repo has `power = 6` (pairing.go:211). -/
def frobeniusMap (a : Fe6) (power : Nat) : Fe6 :=
  let o0 := Fe2.frobeniusMap a.c0 power
  let o1 := Fe2.frobeniusMap a.c1 power
  let o2 := Fe2.frobeniusMap a.c2 power
  if power % 6 = 0 then ⟨o0, o1, o2⟩
  else if power % 6 = 3 then ⟨⟨Fe.neg a.c1.c1, o0.c1⟩, ⟨o1.c0, a.c1.c0⟩, o2⟩
  else ⟨o0, Fe2.mul o1 (frob61 (power % 6)), Fe2.mul o2 (frob62 (power % 6))⟩

/-- fp6.go:360-378 `frobeniusMapAssign`. -/
def frobeniusMapAssign (a : Fe6) (power : Nat) : Fe6 :=
  let o0 := Fe2.frobeniusMap a.c0 power
  let o1 := Fe2.frobeniusMap a.c1 power
  let o2 := Fe2.frobeniusMap a.c2 power
  if power % 6 = 0 then ⟨o0, o1, o2⟩
  else if power % 6 = 3 then ⟨o0, ⟨Fe.neg o1.c1, o1.c0⟩, Fe2.neg o2⟩
  else ⟨o0, Fe2.mul o1 (frob61 (power % 6)), Fe2.mul o2 (frob62 (power % 6))⟩

/-- fp6.go:34-52 `fromBytes`. -/
def fromBytes (b : Bytes) : Option Fe6 :=
  if b.length < 288 then none
  else match Fe2.fromBytes (b.take 96) with
    | none => none
    | some u2 => match Fe2.fromBytes ((b.drop 96).take 96) with
      | none => none
      | some u1 => match Fe2.fromBytes (b.drop 192) with
        | none => none
        | some u0 => some ⟨u0, u1, u2⟩

/-- fp6.go:54-61 `toBytes`. -/
def toBytes (a : Fe6) : Bytes := Fe2.toBytes a.c2 ++ Fe2.toBytes a.c1 ++ Fe2.toBytes a.c0

end Fe6

namespace Fe12

/-- fp12.go:76-79 `one`. -/
def one : Fe12 := ⟨Fe6.one, Fe6.zero⟩

/-- fp12.go:99-102 `equal`. -/
def equal (a b : Fe12) : Bool := Fe6.equal a.c0 b.c0 && Fe6.equal a.c1 b.c1

/-- fp12.go:136-140 `conjugate`. -/
def conjugate (a : Fe12) : Fe12 := ⟨a.c0, Fe6.neg a.c1⟩

/-- fp12.go:142-153 `square`. -/
def square (a : Fe12) : Fe12 :=
  let t0 := Fe6.add a.c0 a.c1
  let t2 := Fe6.mul a.c0 a.c1
  let t1 := Fe6.mulByNonResidue a.c1
  let t1 := Fe6.add t1 a.c0
  let t3 := Fe6.mulByNonResidue t2
  let t0 := Fe6.mul t0 t1
  let t0 := Fe6.sub t0 t2
  let o0 := Fe6.sub t0 t3
  let o1 := Fe6.double t2
  ⟨o0, o1⟩

/-- fp12.go:181-193 `mul`. -/
def mul (a b : Fe12) : Fe12 :=
  let t1 := Fe6.mul a.c0 b.c0
  let t2 := Fe6.mul a.c1 b.c1
  let t0 := Fe6.add t1 t2
  let t2 := Fe6.mulByNonResidue t2
  let t3 := Fe6.add t1 t2
  let t1 := Fe6.add a.c0 a.c1
  let t2 := Fe6.add b.c0 b.c1
  let t1 := Fe6.mul t1 t2
  let o0 := t3
  let o1 := Fe6.sub t1 t0
  ⟨o0, o1⟩

/-- fp12.go:209-219 `fp4Square`. -/
def fp4Square (a0 a1 : Fe2) : Fe2 × Fe2 :=
  let t0 := Fe2.square a0
  let t1 := Fe2.square a1
  let t2 := Fe2.mulByNonResidue t1
  let c0 := Fe2.add t2 t0
  let t2 := Fe2.add a0 a1
  let t2 := Fe2.square t2
  let t2 := Fe2.sub t2 t0
  let c1 := Fe2.sub t2 t1
  (c0, c1)

/-- fp12.go:155-179 `cyclotomicSquare`. -/
def cyclotomicSquare (a : Fe12) : Fe12 :=
  let st3 := Fe12.fp4Square a.c0.c0 a.c1.c1
  let t3 := st3.1
  let t4 := st3.2
  let t2 := Fe2.sub t3 a.c0.c0
  let t2 := Fe2.double t2
  let o00 := Fe2.add t2 t3
  let t2 := Fe2.add t4 a.c1.c1
  let t2 := Fe2.double t2
  let o11 := Fe2.add t2 t4
  let st3 := Fe12.fp4Square a.c1.c0 a.c0.c2
  let t3 := st3.1
  let t4 := st3.2
  let st5 := Fe12.fp4Square a.c0.c1 a.c1.c2
  let t5 := st5.1
  let t6 := st5.2
  let t2 := Fe2.sub t3 a.c0.c1
  let t2 := Fe2.double t2
  let o01 := Fe2.add t2 t3
  let t2 := Fe2.add t4 a.c1.c2
  let t2 := Fe2.double t2
  let o12 := Fe2.add t2 t4
  let t3 := Fe2.mulByNonResidue t6
  let t2 := Fe2.add t3 a.c1.c0
  let t2 := Fe2.double t2
  let o10 := Fe2.add t2 t3
  let t2 := Fe2.sub t5 a.c0.c2
  let t2 := Fe2.double t2
  let o02 := Fe2.add t2 t5
  ⟨⟨o00, o01, o02⟩, ⟨o10, o11, o12⟩⟩

/-- fp12.go:221-231 `inverse`. -/
def inverse (bd : Build) (a : Fe12) : Fe12 :=
  let t0 := Fe6.square a.c0
  let t1 := Fe6.square a.c1
  let t1 := Fe6.mulByNonResidue t1
  let t1 := Fe6.sub t0 t1
  let t0 := Fe6.inverse bd t1
  let o0 := Fe6.mul a.c0 t0
  let t0 := Fe6.mul t0 a.c1
  let o1 := Fe6.neg t0
  ⟨o0, o1⟩

/-- fp12.go:233-244 `mulBy014Assign`. -/
def mulBy014Assign (a : Fe12) (c0 c1 c4 : Fe2) : Fe12 :=
  let t0 := Fe6.mulBy01 a.c0 c0 c1
  let t1 := Fe6.mulBy1 a.c1 c4
  let u2 := Fe2.add c1 c4
  let t2 := Fe6.add a.c1 a.c0
  let t2 := Fe6.mulBy01Assign t2 c0 u2
  let t2 := Fe6.sub t2 t0
  let o1 := Fe6.sub t2 t1
  let t1 := Fe6.mulByNonResidue t1
  let o0 := Fe6.add t1 t0
  ⟨o0, o1⟩

/-- the loop of fp12.go:248-253: `k` bits of `s` are left, the next is bit `k - 1`. -/
def expLoop (a : Fe12) (s : Nat) : Nat → Fe12 → Fe12
  | 0, z => z
  | k + 1, z =>
    let z := square z
    expLoop a s k (if s.testBit k then mul z a else z)

/-- fp12.go:246-255 `exp`. -/
def exp (a : Fe12) (s : Nat) : Fe12 := expLoop a s (Fe.bitLen s) one

/-- the loop of fp12.go:259-264. -/
def cyclotomicExpLoop (a : Fe12) (s : Nat) : Nat → Fe12 → Fe12
  | 0, z => z
  | k + 1, z =>
    let z := cyclotomicSquare z
    cyclotomicExpLoop a s k (if s.testBit k then mul z a else z)

/-- fp12.go:257-266 `cyclotomicExp`. -/
def cyclotomicExp (a : Fe12) (s : Nat) : Fe12 := cyclotomicExpLoop a s (Fe.bitLen s) one

/-- fp12.go:268-280 `frobeniusMap` (calls fp6's `frobeniusMap`). -/
def frobeniusMap (a : Fe12) (power : Nat) : Fe12 :=
  let o0 := Fe6.frobeniusMap a.c0 power
  let o1 := Fe6.frobeniusMap a.c1 power
  if power = 0 then ⟨o0, o1⟩
  else if power = 6 then ⟨o0, Fe6.neg o1⟩
  else ⟨o0, Fe6.mulByBaseField o1 (frob12 power)⟩

/-- fp12.go:282-294 `frobeniusMapAssign`. -/
def frobeniusMapAssign (a : Fe12) (power : Nat) : Fe12 :=
  let o0 := Fe6.frobeniusMapAssign a.c0 power
  let o1 := Fe6.frobeniusMapAssign a.c1 power
  if power = 0 then ⟨o0, o1⟩
  else if power = 6 then ⟨o0, Fe6.neg o1⟩
  else ⟨o0, Fe6.mulByBaseField o1 (frob12 power)⟩

/-- fp12.go:44-58 `fromBytes`. -/
def fromBytes (b : Bytes) : Option Fe12 :=
  if b.length ≠ 576 then none
  else match Fe6.fromBytes (b.take 288) with
    | none => none
    | some c1 => match Fe6.fromBytes (b.drop 288) with
      | none => none
      | some c0 => some ⟨c0, c1⟩

/-- fp12.go:60-66 `toBytes`. -/
def toBytes (a : Fe12) : Bytes := Fe6.toBytes a.c1 ++ Fe6.toBytes a.c0

/-- gt.go:67-71 `IsValid`. -/
def isValid (a : Fe12) : Bool := equal (exp a order) one

/-- gt.go:50-59 `FromBytes`, the element returned without an error. -/
def gtFromBytes (b : Bytes) : Option Fe12 :=
  match fromBytes b with
  | none => none
  | some e => if isValid e then some e else none

end Fe12

end Verif.Bls
