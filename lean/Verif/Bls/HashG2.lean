import Verif.Bls.Group
import Verif.Bls.Xmd

/-!
# BLS12-381 hashing to G2: model of hash_to_field.go `hashToFpXMDSHA256`, fp.go `from64Bytes`,
swu.go `swuMapG2`, isogeny.go `isogenyMapG2` and g2.go `HashToCurve`

`crypto/sha256` is the parameter `H`, as in `Verif.Bls.Xmd`.
-/

namespace Verif.Bls

/-- fp.go:34-41: the constant `F` of `from64Bytes`. -/
def two256 : Fe :=
  ⟨0x75b3cd7c5ce820f, 0x3ec6ba621c3edb0b, 0x168a13d82bff6bce, 0x87663c4bf8c449d2,
   0x15f34c83ddc8d830, 0xf9628b49caa2e85⟩

/-- fp.go:23-46 `from64Bytes`; `none` is the error. -/
def Fe.from64Bytes (b : Bytes) : Option Fe :=
  if b.length ≠ 64 then none
  else match Fe.fromBytes (List.replicate 16 0 ++ b.take 32) with
    | none => none
    | some e0 => match Fe.fromBytes (List.replicate 16 0 ++ b.drop 32) with
      | none => none
      | some e1 => some (Fe.add e1 (Fe.mul e0 two256))

/-- hash_to_field.go:13-19: elements `i`, …, `i + n - 1` of `hashToFpXMDSHA256`. -/
def hashElems (rand : Bytes) : Nat → Nat → Option (List Fe)
  | 0, _ => some []
  | n + 1, i => match Fe.from64Bytes ((rand.drop (i * 64)).take 64) with
    | none => none
    | some e => match hashElems rand n (i + 1) with
      | none => none
      | some es => some (e :: es)

/-- hash_to_field.go:8-21 `hashToFpXMDSHA256`. -/
def hashToFp (H : Bytes → Bytes) (msg domain : Bytes) (count : Nat) : Go (Option (List Fe)) := do
  return hashElems (← expandMsg H msg domain (count * 64)) count 0

/-- field_element.go:317-325 `fe2.sign`: true when the parity is even. -/
def Fe2.sign (a : Fe2) : Bool :=
  if !Fe.isZero a.c0 then Fe.isEven (Fe.fromMont a.c0) else Fe.isEven (Fe.fromMont a.c1)

/-- fp.go:214-218 `isQuadraticNonResidue`. -/
def Fe.isQnr (a : Fe) : Bool := !Fe.equal (Fe.exp a Fe2.pMinus1Over2) Fe.one

/-- bls12_381.go:47 `nonResidue1`. -/
def nonResidue1 : Fe :=
  ⟨0x43f5fffffffcaaae, 0x32b7fff2ed47fffd, 0x07e83a49a2e99d69, 0xeca8f3318332bb7a,
   0xef148d1ea0f4c069, 0x040ab3263eff0206⟩

/-- swu.go:88-96: the closure `isQuadraticNonResidue` of `swuMapG2`. -/
def Fe2.isQnr (bd : Build) (a : Fe2) : Bool :=
  Fe.isQnr (Fe.add (Fe.neg (Fe.mul (Fe.square bd a.c1) nonResidue1)) (Fe.square bd a.c0))

/-- swu.go:139-142 `swuParamsForG2.a`. -/
def swuA : Fe2 :=
  ⟨Fe.zero,
   ⟨16517514583386313282, 74322656156451461, 16683759486841714365, 815493829203396097, 204518332920448171, 1306242806803223655⟩⟩
/-- swu.go:143-146 `swuParamsForG2.b`. -/
def swuB : Fe2 :=
  ⟨⟨2515823342057463218, 7982686274772798116, 7934098172177393262, 8484566552980779962, 4455086327883106868, 1323173589274087377⟩,
   ⟨2515823342057463218, 7982686274772798116, 7934098172177393262, 8484566552980779962, 4455086327883106868, 1323173589274087377⟩⟩
/-- swu.go:147-150 `swuParamsForG2.z`. -/
def swuZ : Fe2 :=
  ⟨⟨9794203289623549276, 7309342082925068282, 1139538881605221074, 15659550692327388916, 16008355200866287827, 582484205531694093⟩,
   ⟨4897101644811774638, 3654671041462534141, 569769440802610537, 17053147383018470266, 17227549637287919721, 291242102765847046⟩⟩
/-- swu.go:151-154 `swuParamsForG2.zInv`. -/
def swuZInv : Fe2 :=
  ⟨⟨949978046398372251, 9282594348372276018, 12783089135259591524, 8269126545290330608, 594742981125487701, 491256564635846792⟩,
   ⟨15449598521694521480, 14910517655282017894, 6549664756007020895, 17931849781271742567, 2408680398672607296, 691271026505846537⟩⟩
/-- swu.go:155-158 `swuParamsForG2.minusBOverA`. -/
def swuMinusBOverA : Fe2 :=
  ⟨⟨10393275865055580083, 6888480573845999877, 11497223857339693790, 14306043441748627554, 5078453791572287059, 1040691004897901061⟩,
   ⟨3009155151022283512, 13768405011380760314, 14385194789933939525, 11380038592375636572, 333649986898415235, 833107612749638805⟩⟩

/-- swu.go:67-76: `x1` from `tv0 = z u²`. -/
def swuX1 (bd : Build) (tv0 : Fe2) : Fe2 :=
  let x1 := Fe2.inverse bd (Fe2.add tv0 (Fe2.square tv0))
  let e1 := Fe2.isZero x1
  let x1 := Fe2.add x1 Fe2.one
  Fe2.mul (if e1 then swuZInv else x1) swuMinusBOverA

/-- swu.go:77-81: `gx1`. -/
def swuG (x : Fe2) : Fe2 := Fe2.add (Fe2.mul (Fe2.add (Fe2.square x) swuA) x) swuB

/-- swu.go:56-116 `swuMapG2`. -/
def swuG2 (bd : Build) (u : Fe2) : Fe2 × Fe2 :=
  let tv0 := Fe2.mul (Fe2.square u) swuZ
  let tv1 := Fe2.square tv0
  let x1 := swuX1 bd tv0
  let gx1 := swuG x1
  let x2 := Fe2.mul tv0 x1
  let gx2 := Fe2.mul gx1 (Fe2.mul tv0 tv1)
  let e2 := !Fe2.isQnr bd gx1
  let x := if e2 then x1 else x2
  let y := (Fe2.sqrt (if e2 then gx1 else gx2)).1
  (x, if Fe2.sign y != Fe2.sign u then Fe2.neg y else y)

/-- isogeny.go:153-156 `isogenyConstantsG2[0][3]`. -/
def isoxNum3 : Fe2 :=
  ⟨⟨4659755689450087917, 1804066951354704782, 15570919779568036803, 15592734958806855601, 7597208057374167129, 1841438384006890194⟩,
   Fe.zero⟩
/-- isogeny.go:149-152 `isogenyConstantsG2[0][2]`. -/
def isoxNum2 : Fe2 :=
  ⟨⟨724047465092313539, 15783990863276714670, 12824896677063784855, 15246381572572671516, 13186611051602728692, 1485475813959743803⟩,
   ⟨12678383550985550056, 4872894721950045521, 13057521970209848460, 10439700461551592610, 10672236800577525218, 388322803687796062⟩⟩
/-- isogeny.go:145-148 `isogenyConstantsG2[0][1]`. -/
def isoxNum1 : Fe2 :=
  ⟨Fe.zero,
   ⟨6910023028261548496, 9745789443900091043, 7668299866710145304, 2432656849393633605, 2897729527445498821, 776645607375592125⟩⟩
/-- isogeny.go:141-144 `isogenyConstantsG2[0][0]`. -/
def isoxNum0 : Fe2 :=
  ⟨⟨5185457120960601698, 494647221959407934, 8971396042087821730, 324544954362548322, 14214792730224113654, 1405280679127738945⟩,
   ⟨5185457120960601698, 494647221959407934, 8971396042087821730, 324544954362548322, 14214792730224113654, 1405280679127738945⟩⟩
/-- isogeny.go:139-212 `isogenyConstantsG2[0]`, highest index first. -/
def isoxNum : List Fe2 := [isoxNum3, isoxNum2, isoxNum1, isoxNum0]

/-- isogeny.go:171-174 `isogenyConstantsG2[1][3]`. -/
def isoxDen3 : Fe2 :=
  ⟨Fe.zero,
   Fe.zero⟩
/-- isogeny.go:167-170 `isogenyConstantsG2[1][2]`. -/
def isoxDen2 : Fe2 :=
  ⟨⟨8505329371266088957, 17002214543764226050, 6865905132761471162, 8632934651105793861, 6631298214892334189, 1582556514881692819⟩,
   Fe.zero⟩
/-- isogeny.go:163-166 `isogenyConstantsG2[1][1]`. -/
def isoxDen1 : Fe2 :=
  ⟨⟨4933130441833534766, 15904462746612662304, 8034115857496836953, 12755092135412849606, 7007796720291435703, 252692002104915169⟩,
   ⟨8469300574244328829, 4752422838614097887, 17848302789776796362, 12930989898711414520, 16851051131888818207, 1621106615542624696⟩⟩
/-- isogeny.go:159-162 `isogenyConstantsG2[1][0]`. -/
def isoxDen0 : Fe2 :=
  ⟨Fe.zero,
   ⟨2250392438786206615, 17463829474098544446, 14571211649711714824, 4495761442775821336, 258811604141191305, 357646605018048850⟩⟩
/-- isogeny.go:139-212 `isogenyConstantsG2[1]`, highest index first. -/
def isoxDen : List Fe2 := [isoxDen3, isoxDen2, isoxDen1, isoxDen0]

/-- isogeny.go:189-192 `isogenyConstantsG2[2][3]`. -/
def isoyNum3 : Fe2 :=
  ⟨⟨11849179119594500956, 13906615243538674725, 14543197362847770509, 2041759640812427310, 2879701092679313252, 1259985822978576468⟩,
   Fe.zero⟩
/-- isogeny.go:185-188 `isogenyConstantsG2[2][2]`. -/
def isoyNum2 : Fe2 :=
  ⟨⟨15562563812347550836, 2436447360975022760, 6528760985104924230, 5219850230775796305, 5336118400288762609, 194161401843898031⟩,
   ⟨16286611277439864375, 18220438224251737430, 906913588459157469, 2019487729638916206, 75985378181939686, 1679637215803641835⟩⟩
/-- isogeny.go:181-184 `isogenyConstantsG2[2][1]`. -/
def isoyNum1 : Fe2 :=
  ⟨Fe.zero,
   ⟨13765940311003083782, 5579209876153186557, 11349908400803699438, 11707848830955952341, 199199289641242246, 899896674917908607⟩⟩
/-- isogeny.go:177-180 `isogenyConstantsG2[2][0]`. -/
def isoyNum0 : Fe2 :=
  ⟨⟨10869708750642247614, 13056187057366814946, 1750362034917495549, 6326189602300757217, 1140223926335695785, 632761649765668291⟩,
   ⟨10869708750642247614, 13056187057366814946, 1750362034917495549, 6326189602300757217, 1140223926335695785, 632761649765668291⟩⟩
/-- isogeny.go:139-212 `isogenyConstantsG2[2]`, highest index first. -/
def isoyNum : List Fe2 := [isoyNum3, isoyNum2, isoyNum1, isoyNum0]

/-- isogeny.go:207-210 `isogenyConstantsG2[3][3]`. -/
def isoyDen3 : Fe2 :=
  ⟨⟨8505329371266088957, 17002214543764226050, 6865905132761471162, 8632934651105793861, 6631298214892334189, 1582556514881692819⟩,
   Fe.zero⟩
/-- isogeny.go:203-206 `isogenyConstantsG2[3][2]`. -/
def isoyDen2 : Fe2 :=
  ⟨⟨7399695662750302149, 14633322083064217648, 12051173786245255430, 9909266166264498601, 1288323043582377747, 379038003157372754⟩,
   ⟨6002735353327561446, 6023563502162542543, 13831244861028377885, 15776815867859765525, 4123780734888324547, 1494760614490167112⟩⟩
/-- isogeny.go:199-202 `isogenyConstantsG2[3][1]`. -/
def isoyDen1 : Fe2 :=
  ⟨Fe.zero,
   ⟨6751177316358619845, 15498000274876530106, 6820146801716041242, 13487284328327464010, 776434812423573915, 1072939815054146550⟩⟩
/-- isogeny.go:195-198 `isogenyConstantsG2[3][0]`. -/
def isoyDen0 : Fe2 :=
  ⟨⟨99923616639376095, 10339114964526300021, 6204619029868000785, 1288486622530663893, 14587509920085997152, 272081012460753233⟩,
   ⟨99923616639376095, 10339114964526300021, 6204619029868000785, 1288486622530663893, 14587509920085997152, 272081012460753233⟩⟩
/-- isogeny.go:139-212 `isogenyConstantsG2[3]`, highest index first. -/
def isoyDen : List Fe2 := [isoyDen3, isoyDen2, isoyDen1, isoyDen0]

/-- isogeny.go:44-53: one of the four Horner evaluations of `isogenyMapG2`, from the coefficient list. -/
def horner (x : Fe2) : List Fe2 → Fe2
  | [] => Fe2.zero
  | c :: cs => cs.foldl (fun acc k => Fe2.add (Fe2.mul acc x) k) c

/-- isogeny.go:33-62 `isogenyMapG2`. -/
def isogenyG2 (bd : Build) (x y : Fe2) : Fe2 × Fe2 :=
  let xd := Fe2.inverse bd (horner x isoxDen)
  let yd := Fe2.inverse bd (horner x isoyDen)
  (Fe2.mul (horner x isoxNum) xd, Fe2.mul (Fe2.mul (horner x isoyNum) yd) y)

/-- bls12_381.go:261-263 `cofactorEFFG2`. -/
def cofactorG2 : Nat :=
  0x0bc69f08f2ee75b3584c6a0ea91b352888e2a8e9145ad7689986ff031508ffe1329c2f178731db956d82bf015d1212b02ec0ec69d7477c1ae954cbc06689f6a359894c0adebbf6b4e8020005aaa95551

/-- g2.go:540-550: `HashToCurve` after `hashToFpXMDSHA256`. -/
def mapToG2 (bd : Build) (u0 u1 : Fe2) : P3 Fe2 :=
  let g := g2 bd
  let q0 := swuG2 bd u0
  let q1 := swuG2 bd u1
  let p := g.affine (g.addPt ⟨q0.1, q0.2, Fe2.one⟩ ⟨q1.1, q1.2, Fe2.one⟩)
  let i := isogenyG2 bd p.x p.y
  g.affine (g.mulScalar ⟨i.1, i.2, p.z⟩ cofactorG2)

/-- g2.go:535-551 `HashToCurve`; `none` is the error return. -/
def hashToG2 (bd : Build) (H : Bytes → Bytes) (msg domain : Bytes) : Go (Option (P3 Fe2)) := do
  match ← hashToFp H msg domain 4 with
  | some [a, b, c, d] => return some (mapToG2 bd ⟨a, b⟩ ⟨c, d⟩)
  | _ => return none

end Verif.Bls
