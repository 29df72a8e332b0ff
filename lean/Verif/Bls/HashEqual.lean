import Verif.Bls.HashExists
import Verif.Bls.HashSample
import Verif.Bls.VerifyLemmas

/-!
# Hashing to G2 when the two field elements are equal

The code adds the two images of the simplified SWU map, points of `E' : y² = x³ + 240 I x + 1012 (1 + I)`, with the functions of G2.
For equal points these double with the formula for `y² = x³ + b`, so that the sum is not on `E'` and the result is not on `E2`.  Shown here
for a toy hash with constant value.
-/

namespace Verif.Bls

open Verif.EC WeierstrassCurve

/-! ## the functions of G2 on the curve `y² = x³ + b` for another `b` -/

/-- the operations with another constant in the equation of the curve; only `isOnCurve` reads it. -/
def Ops.withB {α : Type} (g : Ops α) (w : α) : Ops α := { g with b := w }

section
variable {α : Type} (g : Ops α) (w : α)

theorem withB_addPt (p q : P3 α) : (g.withB w).addPt p q = g.addPt p q := rfl
theorem withB_dbl (p : P3 α) : (g.withB w).dbl p = g.dbl p := rfl
theorem withB_affine (p : P3 α) : (g.withB w).affine p = g.affine p := rfl

theorem withB_mulLoop (e k : ℕ) : ∀ (i : ℕ) (q n : P3 α), (g.withB w).mulLoop e k i q n = g.mulLoop e k i q n := by
  induction k with
  | zero => intro i q n; rfl
  | succ k ih => intro i q n; rw [Ops.mulLoop, Ops.mulLoop, ih, withB_addPt, withB_dbl]

theorem withB_mulScalar (p : P3 α) (e : ℕ) : (g.withB w).mulScalar p e = g.mulScalar p e := withB_mulLoop g w e _ _ _ _

variable {g} {w}
variable {F : Type} [Field F]

def Sem.withB (S : Sem g F) (hw : S.Red w) (h0 : S.den w ≠ 0) : Sem (g.withB w) F where
  den := S.den
  Red := S.Red
  bF := S.den w
  zero := S.zero
  one := S.one
  b := ⟨hw, rfl⟩
  isZero := S.isZero
  equal := S.equal
  add := S.add
  sub := S.sub
  mul := S.mul
  double := S.double
  neg := S.neg
  square := S.square
  inverse := S.inverse
  sqrt := S.sqrt
  larger := S.larger
  decL := S.decL
  signBE := S.signBE
  larger_neg := S.larger_neg
  bytes := S.bytes
  bytes_length := S.bytes_length
  bytes_head := S.bytes_head
  toBytes := S.toBytes
  fromBytes_bytes := S.fromBytes_bytes
  fromBytes_some := S.fromBytes_some
  two_ne := S.two_ne
  three_ne := S.three_ne
  b_ne := h0
  size_pos := S.size_pos

/-- coordinates of a point of another curve are not on the curve. -/
theorem off_curve [DecidableEq F] (S : Sem g F) {hw : S.Red w} {h0 : S.den w ≠ 0} (hb : S.den w ≠ S.bF) {p : P3 α} {P : (S.withB hw h0).W.Point}
    (h : (S.withB hw h0).Rep p P) (hP : P ≠ 0) : g.isOnCurve p = false := by
  rw [Bool.eq_false_iff]
  intro hc
  obtain ⟨P', -, -, -, hj'⟩ := (Sem.isOnCurve_iff (S := S) h.1 h.2.1 h.2.2.1).mp hc
  obtain ⟨-, -, -, hj⟩ := h
  have hz : S.den p.z ≠ 0 := fun hz => hP (hj.zero_iff.mp hz)
  cases P with
  | zero => exact hP rfl
  | some x y hn =>
    cases P' with
    | zero => exact hz hj'
    | some x' y' hn' =>
      have e1 := (sw_equation _ _ _ _).mp hn.1
      have e2 := (sw_equation _ _ _ _).mp hn'.1
      obtain ⟨z1, a1, a2⟩ := hj
      obtain ⟨z2, c1, c2⟩ := hj'
      have hx : x = x' := mul_right_cancel₀ (pow_ne_zero 2 hz) (a1.symm.trans c1)
      have hy : y = y' := mul_right_cancel₀ (pow_ne_zero 3 hz) (a2.symm.trans c2)
      rw [hx, hy, e2] at e1
      exact hb (add_left_cancel e1).symm

/-- the affine coordinates of a multiple, computed on another curve. -/
theorem mul_off [DecidableEq F] (S : Sem g F) (hw : S.Red w) (h0 : S.den w ≠ 0) (hb : S.den w ≠ S.bF) {x y : α} (hx : S.Red x) (hy : S.Red y)
    (hc : S.den y ^ 2 = S.den x ^ 3 + S.den w) {c : Calc β F} {t : β × β × β} (hj : c.JI t ((S.withB hw h0).pt hc)) (k : ℕ)
    (hk : c.isZ (c.smul k t).2.2 = false) : g.isOnCurve (g.affine (g.mulScalar ⟨x, y, g.one⟩ k)) = false := by
  have hT : (S.withB hw h0).Rep ⟨x, y, g.one⟩ ((S.withB hw h0).pt hc) := Sem.rep_affine (S := S.withB hw h0) hx hy hc
  have hm := Sem.rep_affine_of (Sem.rep_mul hT k)
  rw [withB_affine, withB_mulScalar] at hm
  refine off_curve S hb hm fun hz => ?_
  rw [(Calc.smul_ok k hj).z_iff.mpr hz] at hk
  exact absurd hk (by decide)

end

/-! ## the field element, in Montgomery form -/


def equU : Fe2 := ⟨⟨9712709341246893762, 1737673529642300955, 2108725987979795658, 3853553187149782192, 5601772919608323981, 1663775620994586876⟩,
  ⟨9712709341246893762, 1737673529642300955, 2108725987979795658, 3853553187149782192, 5601772919608323981, 1663775620994586876⟩⟩
def equX : Fe2 := ⟨⟨7892988434526157217, 10930022713598993312, 8413712828249673841, 10473017216273397519, 4422209681107961700, 308280589962989639⟩,
  ⟨3638018881284578664, 5197397858325580221, 16129303708241948602, 3921238730799600536, 14855759126718252499, 1257497069715943729⟩⟩
def equY : Fe2 := ⟨⟨12670345144177780997, 3157689992923835871, 8976396931989751798, 2176669092714315814, 2359320482378641405, 1220945875334984018⟩,
  ⟨12628891385161380237, 3134219828262416963, 2351687267569580328, 9775636574300601591, 12439425234858992873, 133367302612345281⟩⟩
def equZi : Fe2 := ⟨⟨10873976990756121632, 13317429510414402976, 8609635224001767448, 5962272906686040879, 12088284521106063035, 1281379699005425628⟩,
  ⟨8031695009814957011, 5714954451520877702, 5932058704351852682, 6393604601342415473, 10234080003473867755, 1276042240737599736⟩⟩
def equXd : Fe2 := ⟨⟨968758327767379979, 12408113023885769695, 13516071665109734092, 2431237399448924630, 3586442604265117565, 1122800944285651491⟩,
  ⟨12530540409235100757, 18246784526119764999, 16715859833391761132, 6656837706336937897, 3552225501021347332, 1322152703986617799⟩⟩
def equYd : Fe2 := ⟨⟨14494720516330520956, 13116791550165360136, 7324910998695736650, 5633225622862021036, 11796551916188797533, 1484546788532776633⟩,
  ⟨16006680473373744028, 12405655797731921824, 3718952784197425056, 3518238567957764181, 4151977708187835199, 1545970208137262591⟩⟩
def equTx : Fe2 := ⟨⟨861339210329064286, 12610909746400952016, 6493711730957242422, 1870075841265915521, 1694427177503021797, 1400227811192024409⟩,
  ⟨7231644340207373492, 4496115073165111009, 5895645714583286560, 804427987854627778, 12123270536992290899, 1853126867365322934⟩⟩
def equTy : Fe2 := ⟨⟨3784978194110411885, 10381371595476979928, 1581244444528578958, 7424942293805511872, 13201257040385654796, 681909980387909451⟩,
  ⟨12371672384822697659, 1578598347051902135, 8958557368802371317, 11856701922308053401, 165399039846292093, 1382613649930058702⟩⟩
def equB : Fe2 := ⟨⟨16560396927632377108, 8178918725897259634, 1598226702481663084, 17445532903916937068, 6247051591998561715, 279659612757750387⟩,
  ⟨2164268891998053932, 1961978161103970851, 5259783250763177899, 15437863773398878531, 16391209560530422508, 1415255983734015537⟩⟩
def equP : ℕ × ℕ := (0xed31ba2ff1a483675a3d674c48715c3f3fa3b679987bb57b51770674b9a27fc35a8bb644f484c6dbe2d4a1140a83bbe, 0x17024c80081c7e79e2d40507a96c11e057905ad6c79ca1ef4603a3b2ed3fad4ea60a95af020a142f3b939cba34ccdf7f)
def equQ : ℕ × ℕ := (0x19c9b4bee1af0ff1cad58935e6548f394da672db89d07a9cd034fe163b2a6266d87058328057485af7bb7c6c71b3827f, 0xd382ce9d04092cfee437674f0eb5565bc2e36adaf63b249d8f526229672868031c5bf27af2b5b4a302de95b2fa5f966)
def equBn : ℕ × ℕ := (0x115c6b63615c6faed4233d1d8156a59608de796852ee6e37227f1e027fa499f54a9876ea685d761529b1707ce480ac4e, 0xda22129d3d90743580344d1de8e2ab9dea6d7117860a3d4747d2303ea1de772b3b2027b5c91670185d0f9eeb2ecb16d)

theorem equ_red : Fe2.Red equU ∧ Fe2.Red equX ∧ Fe2.Red equY ∧ Fe2.Red equZi ∧ Fe2.Red equXd ∧ Fe2.Red equYd ∧ Fe2.Red equTx ∧ Fe2.Red equTy ∧
    Fe2.Red equB := by
  refine ⟨⟨?_, ?_⟩, ⟨?_, ?_⟩, ⟨?_, ?_⟩, ⟨?_, ?_⟩, ⟨?_, ?_⟩, ⟨?_, ?_⟩, ⟨?_, ?_⟩, ⟨?_, ?_⟩, ⟨?_, ?_⟩⟩ <;> decide +kernel

theorem ne_zero_of {a : Fe2} (h : Fe2.Red a) (h0 : Fe2.isZero a = false) : Fe2.den a ≠ 0 := fun e => by
  rw [(Fe2.isZero_den h).mpr e] at h0; exact absurd h0 (by decide)

theorem inverse_of {a b : Fe2} (ha : Fe2.Red a) (hb : Fe2.Red b) (h : Fe2.mul a b = Fe2.one) : Fe2.inverse .amd64 a = b := by
  obtain ⟨h1, e1⟩ := Fe2.den_inverse ha
  refine Fe2.den_inj h1 hb ?_
  rw [e1]
  have := congrArg Fe2.den h
  rw [(Fe2.den_mul ha hb).2, Fe2.den_one] at this
  exact inv_eq_of_mul_eq_one_right this

theorem equ_swu : swuG2 .amd64 equU = (equX, equY) := by
  obtain ⟨hu, hx, hy, -⟩ := equ_red
  have hu0 := ne_zero_of hu (by decide +kernel)
  have e2 : Fe2.square equY = swuG equX := by decide +kernel
  have hX : Spec.sswuX (Fe2.den equU) = Fe2.den equX :=
    sswuX_of_words hu hx hy hu0 (by decide +kernel) e2 (by decide +kernel)
  have hs : Spec.Sswu (Fe2.den equU) (Fe2.den equX) (Fe2.den equY) := by
    refine ⟨hX.symm, ?_, .inr ?_⟩
    · rw [← (swuG_spec hx).2, ← e2, (Fe2.den_square hy).2, pow_two]
    · rw [(Fe2.sign_spec hy).mp (by decide +kernel), (Fe2.sign_spec hu).mp (by decide +kernel)]
  obtain ⟨r1, r2, -, hc⟩ := swuG2_spec hu
  obtain ⟨a, b⟩ := Sswu_unique (hc hu0) hs
  exact Prod.ext (Fe2.den_inj r1 hx a) (Fe2.den_inj r2 hy b)

/-- the wrong sum, as the code leaves it. -/
def equSum : P3 Fe2 := (g2 .amd64).addPt ⟨equX, equY, Fe2.one⟩ ⟨equX, equY, Fe2.one⟩
/-- its affine coordinates. -/
def equAff : P3 Fe2 := ⟨Fe2.mul equSum.x (Fe2.square equZi), Fe2.mul equSum.y (Fe2.mul equZi (Fe2.square equZi)), Fe2.one⟩

theorem equ_affine : (g2 .amd64).affine equSum = equAff := by
  have hz : Fe2.Red equSum.z := ⟨by decide +kernel, by decide +kernel⟩
  have h1 : (g2 .amd64).isInf equSum = false := by decide +kernel
  have h2 : (g2 .amd64).isAffine equSum = false := by decide +kernel
  have h3 : Fe2.inverse .amd64 equSum.z = equZi := inverse_of hz equ_red.2.2.2.1 (by decide +kernel)
  rw [Ops.affine, h1, h2, Bool.not_false, if_neg Bool.false_ne_true, if_pos rfl, g2_inverse, h3, g2_mul, g2_square, g2_one]
  rfl

theorem equ_iso : isogenyG2 .amd64 equAff.x equAff.y = (equTx, equTy) := by
  have h1 : Fe2.inverse .amd64 (horner equAff.x isoxDen) = equXd :=
    inverse_of ⟨by decide +kernel, by decide +kernel⟩ equ_red.2.2.2.2.1 (by decide +kernel)
  have h2 : Fe2.inverse .amd64 (horner equAff.x isoyDen) = equYd :=
    inverse_of ⟨by decide +kernel, by decide +kernel⟩ equ_red.2.2.2.2.2.1 (by decide +kernel)
  rw [isogenyG2, h1, h2]
  exact Prod.ext (by decide +kernel) (by decide +kernel)

theorem equ_map : mapToG2 .amd64 equU equU = (g2 .amd64).affine ((g2 .amd64).mulScalar ⟨equTx, equTy, Fe2.one⟩ cofactorG2) := by
  rw [mapToG2, equ_swu]
  simp only
  rw [show (g2 .amd64).addPt ⟨equX, equY, Fe2.one⟩ ⟨equX, equY, Fe2.one⟩ = equSum from rfl, equ_affine, equ_iso]
  rfl

theorem equ_den : Fe2.den equTx = ofPair Q equP ∧ Fe2.den equTy = ofPair Q equQ ∧ Fe2.den equB = ofPair Q equBn :=
  ⟨QuadraticAlgebra.ext (den_of (by decide +kernel)).2 (den_of (by decide +kernel)).2,
    QuadraticAlgebra.ext (den_of (by decide +kernel)).2 (den_of (by decide +kernel)).2,
    QuadraticAlgebra.ext (den_of (by decide +kernel)).2 (den_of (by decide +kernel)).2⟩

theorem equ_eq : ofPair Q equQ ^ 2 = ofPair Q equP ^ 3 + ofPair Q equBn := by
  have h : calc2.onCurve equBn equP equQ = true := by decide +kernel
  have := Calc.onCurve_ok h
  simpa only [calc2] using this

/-- hashing with equal field elements leaves the curve. -/
theorem equ_off : (g2 .amd64).isOnCurve (mapToG2 .amd64 equU equU) = false := by
  obtain ⟨d1, d2, d3⟩ := equ_den
  have hw : Fe2.Red equB := equ_red.2.2.2.2.2.2.2.2
  have h0 : Fe2.den equB ≠ 0 := ne_zero_of hw (by decide +kernel)
  have hb : Fe2.den equB ≠ Spec.b2 := by
    intro h
    have hq : ofPair Q equBn = ofPair Q (4, 4) := by
      rw [← d3, h, ← calc2_b]; rfl
    have e := congrArg QuadraticAlgebra.re hq
    have e' : ((equBn.1 : ℕ) : Fq) = ((4 : ℕ) : Fq) := e
    rw [ZMod.natCast_eq_natCast_iff'] at e'
    exact absurd e' (by decide +kernel)
  have hc : Fe2.den equTy ^ 2 = Fe2.den equTx ^ 3 + Fe2.den equB := by rw [d1, d2, d3, equ_eq]
  have hj : calc2.JI (equP, equQ, (1, 0)) ((sem2.withB hw h0).pt hc) := by
    refine ⟨calc2.one_ok.1, ?_⟩
    have h1 : calc2.val (1, 0) = 1 := calc2.one_ok.2
    refine ⟨by rw [h1]; exact one_ne_zero, ?_, ?_⟩
    · rw [h1, one_pow, mul_one]; exact d1.symm
    · rw [h1, one_pow, mul_one]; exact d2.symm
  rw [equ_map]
  exact mul_off sem2 hw h0 hb equ_red.2.2.2.2.2.2.1 equ_red.2.2.2.2.2.2.2.1 hc hj cofactorG2 (by decide +kernel)

/-! ## the hash -/

/-- a toy hash with constant value. -/
def constH (_ : Bytes) : Bytes := List.replicate 31 0 ++ [2]

theorem constH_length (m : Bytes) : (constH m).length = 32 := rfl

theorem const_hashToField (msg dst : Bytes) (hd : dst.length ≤ 255) :
    Spec.hashToField constH msg dst = some (Fe2.den equU, Fe2.den equU) := by
  rw [Spec.hashToField, Spec.expand]
  simp only []
  rw [if_neg (by omega)]
  have hr : List.range ((256 + 31) / 32) = [0, 1, 2, 3, 4, 5, 6, 7] := by decide
  have B : ∀ b0 d i, Spec.block constH b0 d i = List.replicate 31 0 ++ [2] := by
    intro b0 d i
    cases i <;> rfl
  rw [hr]
  simp only [List.flatMap_cons, List.flatMap_nil, B]
  have e : Fe2.den equU = ⟨((2 ^ 257 + 2 : ℕ) : Fq), ((2 ^ 257 + 2 : ℕ) : Fq)⟩ :=
    QuadraticAlgebra.ext (den_of (by decide +kernel)).2 (den_of (by decide +kernel)).2
  rw [Option.map_some, e]
  unfold Spec.fieldElem
  refine pairs_eq ?_ ?_ ?_ ?_ <;> decide +kernel

theorem const_off (msg dst : Bytes) (hd : dst.length ≤ 255) :
    ∃ p, hashToG2 .amd64 constH msg dst = .ret (some p) ∧ (g2 .amd64).isOnCurve p = false := by
  obtain ⟨a0, a1, h, r0, r1, e0, e1⟩ := hashToG2_fields constH_length msg dst .amd64 (const_hashToField msg dst hd)
  rw [Fe2.den_inj r0 equ_red.1 e0, Fe2.den_inj r1 equ_red.1 e1] at h
  exact ⟨_, h, equ_off⟩

end Verif.Bls
