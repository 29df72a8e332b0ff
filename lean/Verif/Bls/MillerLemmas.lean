import Verif.Bls.FinalExp

/-!
# One step of the Miller loop
-/

namespace Verif.Bls

open Verif.EC WeierstrassCurve
open Spec (xi w emb2 emb1)

/-! ## generic lemmas -/

section
variable {F : Type} [Field F] [DecidableEq F] {b : F}

theorem dbl_affine (h2 : (2 : F) ≠ 0) {x y : F} {h : (sw 0 b).Nonsingular x y} (hy : y ≠ 0) :
    ∃ x' y' h', (Affine.Point.some x y h + Affine.Point.some x y h : (sw 0 b).Point) = .some x' y' h' ∧
      4 * y ^ 2 * x' = x * (y ^ 2 - 9 * b) ∧ 8 * y ^ 3 * y' = (y ^ 2 + 9 * b) ^ 2 - 108 * b ^ 2 := by
  have hc := (sw_equation _ _ _ _).mp h.1
  have hj : JRep (sw 0 b) x y 1 (.some x y h) := ⟨one_ne_zero, by ring, by ring⟩
  have hd := jdbl h2 hj rfl rfl rfl rfl rfl
  generalize (Affine.Point.some x y h + Affine.Point.some x y h : (sw 0 b).Point) = P at *
  cases P with
  | zero =>
    have : 2 * y * 1 = 0 := hd
    simp [h2, hy] at this
  | some x' y' h' =>
    obtain ⟨_, e1, e2⟩ := hd
    refine ⟨x', y', h', rfl, ?_, ?_⟩
    · linear_combination -e1 - 9 * x * hc
    · linear_combination -e2 + (27 * x ^ 3 - 27 * b - 9 * y ^ 2) * hc

theorem add_affine {x y x1 y1 : F} {h : (sw 0 b).Nonsingular x y} {h1 : (sw 0 b).Nonsingular x1 y1} (hx : x1 ≠ x) :
    ∃ x' y' h', (Affine.Point.some x y h + Affine.Point.some x1 y1 h1 : (sw 0 b).Point) = .some x' y' h' ∧
      x' * (x1 - x) ^ 2 = (y1 - y) ^ 2 - (x1 - x) ^ 3 - 2 * x * (x1 - x) ^ 2 ∧
      y' * (x1 - x) ^ 3 = (y1 - y) * (x * (x1 - x) ^ 2 - ((y1 - y) ^ 2 - (x1 - x) ^ 3 - 2 * x * (x1 - x) ^ 2)) - y * (x1 - x) ^ 3 := by
  have hj : JRep (sw 0 b) x y 1 (.some x y h) := ⟨one_ne_zero, by ring, by ring⟩
  have hj1 : JRep (sw 0 b) x1 y1 1 (.some x1 y1 h1) := ⟨one_ne_zero, by ring, by ring⟩
  have hd := jadd hj hj1 one_ne_zero one_ne_zero (U1 := x) (U2 := x1) (S1 := y) (S2 := y1) (by ring) (by ring) (by ring) (by ring)
    rfl rfl (fun h => hx (sub_eq_zero.mp h.1)) rfl rfl rfl
  generalize (Affine.Point.some x y h + Affine.Point.some x1 y1 h1 : (sw 0 b).Point) = P at *
  cases P with
  | zero =>
    have : (x1 - x) * 1 * 1 = 0 := hd
    simp [sub_eq_zero, hx] at this
  | some x' y' h' =>
    obtain ⟨_, e1, e2⟩ := hd
    refine ⟨x', y', h', rfl, ?_, ?_⟩
    · linear_combination -e1
    · linear_combination -e2

/-- `(X, Y, Z)` are homogeneous coordinates of the affine point `P`. -/
def HRep (b X Y Z : F) (P : (sw 0 b).Point) : Prop := Z ≠ 0 ∧ ∃ x y h, P = .some x y h ∧ X = x * Z ∧ Y = y * Z

variable {K : Type*} [Field K] (e : F →+* K) {w : K}

theorem line_dbl_aux (hw : w ≠ 0) (h2 : (2 : F) ≠ 0) {x y Z xP yP : F} (hy : y ≠ 0) (hc : y ^ 2 = x ^ 3 + b) :
    e (b * (3 * Z ^ 2) - (y * Z) ^ 2) + e (3 * (x * Z) ^ 2 * xP) * w ^ 2 + e (-(2 * (y * Z) * Z) * yP) * w ^ 3 =
      e (-2 * y * Z ^ 2) * w ^ 3 * ((e yP - e y / w ^ 3) - 3 * (e x / w ^ 2) ^ 2 / (2 * (e y / w ^ 3)) * (e xP - e x / w ^ 2)) := by
  have hy' : e y ≠ 0 := by rw [Ne, map_eq_zero]; exact hy
  have h2' : (2 : K) ≠ 0 := by
    have : e 2 ≠ 0 := by rw [Ne, map_eq_zero]; exact h2
    rwa [map_ofNat] at this
  have hb : b = y ^ 2 - x ^ 3 := by rw [hc]; ring
  subst hb
  simp only [map_add, map_sub, map_mul, map_neg, map_pow, map_ofNat]
  field_simp
  ring

theorem line_add_aux (hw : w ≠ 0) {x y Z x1 y1 xP yP : F} (hx : x ≠ x1) :
    e ((y * Z - y1 * Z) * x1 - (x * Z - x1 * Z) * y1) + e (-(y * Z - y1 * Z) * xP) * w ^ 2 + e ((x * Z - x1 * Z) * yP) * w ^ 3 =
      e ((x - x1) * Z) * w ^ 3 * ((e yP - e y / w ^ 3) - (e y1 / w ^ 3 - e y / w ^ 3) / (e x1 / w ^ 2 - e x / w ^ 2) * (e xP - e x / w ^ 2)) := by
  have hd : e x1 - e x ≠ 0 := by rw [← map_sub, Ne, map_eq_zero]; exact sub_ne_zero.mpr hx.symm
  have hd' : e x1 / w ^ 2 - e x / w ^ 2 ≠ 0 := by rw [← sub_div]; exact div_ne_zero hd (pow_ne_zero _ hw)
  have hq : (e y1 / w ^ 3 - e y / w ^ 3) / (e x1 / w ^ 2 - e x / w ^ 2) = (e y1 - e y) / (e x1 - e x) / w := by
    rw [← sub_div, ← sub_div]
    field_simp
  rw [hq]
  simp only [map_sub, map_mul, map_neg]
  field_simp
  ring

end

/-! ## the steps -/

/-- the reduced triple `r` holds homogeneous coordinates of `P`. -/
def RepH (r : P3 Fe2) (P : Spec.E2.Point) : Prop :=
  ∃ X Y Z, Fe2.Is r.x X ∧ Fe2.Is r.y Y ∧ Fe2.Is r.z Z ∧ HRep Spec.b2 X Y Z P

/-- the affine coordinates of `q` are those of `P`. -/
def RepA (q : P3 Fe2) (P : Spec.E2.Point) : Prop :=
  ∃ x y h, Fe2.Is q.x x ∧ Fe2.Is q.y y ∧ P = .some x y h

theorem two_inv_check : Fe.Red twoInv ∧ Fe.add twoInv twoInv = Fe.one := by decide +kernel

/-- one half. -/
def half : Fq2 := algebraMap Fq Fq2 (Fe.den twoInv)

theorem half_spec : half + half = 1 := by
  have h := (Fe.den_add two_inv_check.1 two_inv_check.1).2
  rw [two_inv_check.2, Fe.den_one] at h
  rw [half, ← map_add, ← h, map_one]

/-- the coefficients are those of the line of `P`s with the value `v`, up to a factor from `Fq2` and `w³`. -/
def LineOf (c : Coeff) (A B : Spec.E2.Point) : Prop :=
  ∃ k0 k1 k2, Fe2.Is c.c0 k0 ∧ Fe2.Is c.c1 k1 ∧ Fe2.Is c.c2 k2 ∧ ∃ d : Fq2, d ≠ 0 ∧ ∀ xP yP : Fq,
    emb2 k0 + emb2 (k1 * algebraMap Fq Fq2 xP) * w ^ 2 + emb2 (k2 * algebraMap Fq Fq2 yP) * w ^ 3 =
      emb2 d * w ^ 3 * Spec.line (Spec.untwist A) (Spec.untwist B) (emb1 xP, emb1 yP)

theorem emb1_eq (x : Fq) : emb1 x = emb2 (algebraMap Fq Fq2 x) := by rw [emb1]; rfl

theorem untwist_some {x y : Fq2} (h : Spec.E2.Nonsingular x y) : Spec.untwist (.some x y h) = (emb2 x / w ^ 2, emb2 y / w ^ 3) := by
  rw [Spec.untwist]

theorem Fq2_two_ne : (2 : Fq2) ≠ 0 := sem2.two_ne

theorem add_self_of_y {x : Fq2} {h : Spec.E2.Nonsingular x 0} :
    (Affine.Point.some x 0 h + Affine.Point.some x 0 h : Spec.E2.Point) = 0 := by
  apply Affine.Point.add_self_of_Y_eq
  simp [Affine.negY, sw]

theorem dbl_eqs {F : Type} [Field F] {b x y Z hf xr yr : F} (hZ : Z ≠ 0) (hy : y ≠ 0) (h2 : (2 : F) ≠ 0) (hh : hf + hf = 1)
    (e1 : 4 * y ^ 2 * xr = x * (y ^ 2 - 9 * b)) (e2 : 8 * y ^ 3 * yr = (y ^ 2 + 9 * b) ^ 2 - 108 * b ^ 2) {T0 T4 T5 T3 RZ : F}
    (h0 : T0 = x * Z * (y * Z) * hf) (h4 : T4 = (y * Z) * (y * Z) - 9 * b * Z ^ 2) (h5 : T5 = ((y * Z) * (y * Z) + 9 * b * Z ^ 2) * hf)
    (h3 : T3 = 3 * b * Z ^ 2) (hr : RZ = (y * Z) * (y * Z) * (2 * (y * Z) * Z)) :
    RZ ≠ 0 ∧ T4 * T0 = xr * RZ ∧ T5 * T5 - 3 * T3 ^ 2 = yr * RZ := by
  have hhf : hf = 1 / 2 := by field_simp; linear_combination hh
  subst hhf
  have h4' : (4 : F) ≠ 0 := by
    have : (4 : F) = 2 * 2 := by norm_num
    rw [this]; exact mul_ne_zero h2 h2
  refine ⟨?_, ?_, ?_⟩
  · rw [hr]; exact mul_ne_zero (mul_ne_zero (mul_ne_zero hy hZ) (mul_ne_zero hy hZ)) (mul_ne_zero (mul_ne_zero h2 (mul_ne_zero hy hZ)) hZ)
  · rw [h4, h0, hr]
    field_simp
    linear_combination (-1 : F) * e1
  · rw [h5, h3, hr]
    field_simp
    linear_combination (-1 : F) * e2

theorem RepH.mk {x y z : Fe2} {X Y Z : Fq2} {P : Spec.E2.Point} (hx : Fe2.Is x X) (hy : Fe2.Is y Y) (hz : Fe2.Is z Z)
    (h : HRep Spec.b2 X Y Z P) : RepH ⟨x, y, z⟩ P := ⟨X, Y, Z, hx, hy, hz, h⟩

theorem LineOf.mk {c0 c1 c2 : Fe2} {k0 k1 k2 : Fq2} {A B : Spec.E2.Point} (h0 : Fe2.Is c0 k0) (h1 : Fe2.Is c1 k1)
    (h2 : Fe2.Is c2 k2) (h : ∃ d : Fq2, d ≠ 0 ∧ ∀ xP yP : Fq,
      emb2 k0 + emb2 (k1 * algebraMap Fq Fq2 xP) * w ^ 2 + emb2 (k2 * algebraMap Fq Fq2 yP) * w ^ 3 =
        emb2 d * w ^ 3 * Spec.line (Spec.untwist A) (Spec.untwist B) (emb1 xP, emb1 yP)) : LineOf ⟨c0, c1, c2⟩ A B :=
  ⟨k0, k1, k2, h0, h1, h2, h⟩

theorem Fe2.Is.mulHalf {a : Fe2} {x : Fq2} (ha : Fe2.Is a x) : Fe2.Is (Fe2.mulByFq a twoInv) (x * half) := by
  rw [half]; exact ha.mulByFq two_inv_check.1

/-- solves `Is (expression) ?x`, with halves. -/
macro "fe2h" : tactic => `(tactic| repeat' (with_reducible first
  | assumption | apply Fe2.Is.mul | apply Fe2.Is.add | apply Fe2.Is.sub | apply Fe2.Is.double | apply Fe2.Is.square
  | apply Fe2.Is.mulByB | apply Fe2.Is.mulHalf))

theorem dbl_vals {F : Type} [Field F] {b x y Z hf : F} :
    (y * Z * (y * Z) - (b * (Z * Z + Z * Z + Z * Z) + b * (Z * Z + Z * Z + Z * Z) + b * (Z * Z + Z * Z + Z * Z))) * (x * Z * (y * Z) * hf) =
        (y * Z * (y * Z) - 9 * b * Z ^ 2) * (x * Z * (y * Z) * hf) ∧
    (y * Z * (y * Z) + (b * (Z * Z + Z * Z + Z * Z) + b * (Z * Z + Z * Z + Z * Z) + b * (Z * Z + Z * Z + Z * Z))) * hf *
          ((y * Z * (y * Z) + (b * (Z * Z + Z * Z + Z * Z) + b * (Z * Z + Z * Z + Z * Z) + b * (Z * Z + Z * Z + Z * Z))) * hf) -
        (b * (Z * Z + Z * Z + Z * Z) * (b * (Z * Z + Z * Z + Z * Z)) + b * (Z * Z + Z * Z + Z * Z) * (b * (Z * Z + Z * Z + Z * Z)) +
          b * (Z * Z + Z * Z + Z * Z) * (b * (Z * Z + Z * Z + Z * Z))) =
      ((y * Z) * (y * Z) + 9 * b * Z ^ 2) * hf * (((y * Z) * (y * Z) + 9 * b * Z ^ 2) * hf) - 3 * (3 * b * Z ^ 2) ^ 2 ∧
    y * Z * (y * Z) * ((y * Z + Z) * (y * Z + Z) - (Z * Z + y * Z * (y * Z))) = (y * Z) * (y * Z) * (2 * (y * Z) * Z) ∧
    b * (Z * Z + Z * Z + Z * Z) - y * Z * (y * Z) = b * (3 * Z ^ 2) - (y * Z) ^ 2 ∧
    x * Z * (x * Z) + x * Z * (x * Z) + x * Z * (x * Z) = 3 * (x * Z) ^ 2 ∧
    -((y * Z + Z) * (y * Z + Z) - (Z * Z + y * Z * (y * Z))) = -(2 * (y * Z) * Z) := by
  refine ⟨?_, ?_, ?_, ?_, ?_, ?_⟩ <;> ring

theorem doubling_is {r : P3 Fe2} {P : Spec.E2.Point} (hr : RepH r P) (hP : P + P ≠ 0) :
    RepH (doublingStep r).2 (P + P) ∧ LineOf (doublingStep r).1 P P := by
  obtain ⟨X, Y, Z, hX, hY, hZ, hz, x, y, h, rfl, rfl, rfl⟩ := hr
  have hc := (sw_equation _ _ _ _).mp h.1
  rw [zero_mul, add_zero] at hc
  have hy : y ≠ 0 := by
    rintro rfl
    exact hP add_self_of_y
  obtain ⟨xr, yr, h', hsum, e1, e2⟩ := dbl_affine Fq2_two_ne (h := h) hy
  obtain ⟨d1, d2, d3⟩ := dbl_eqs hz hy Fq2_two_ne half_spec e1 e2 rfl rfl rfl rfl rfl
  obtain ⟨v1, v2, v3, v4, v5, v6⟩ := dbl_vals (b := Spec.b2) (x := x) (y := y) (Z := Z) (hf := half)
  simp only [doublingStep]
  constructor
  · apply RepH.mk
    · fe2h
    · fe2h
    · fe2
    · refine ⟨?_, xr, yr, h', hsum, ?_, ?_⟩
      · rw [v3]; exact d1
      · rw [v1, v3]; exact d2
      · rw [v2, v3]; exact d3
  · apply LineOf.mk
    · fe2
    · fe2
    · fe2
    · refine ⟨-2 * y * Z ^ 2, mul_ne_zero (mul_ne_zero (neg_ne_zero.mpr Fq2_two_ne) hy) (pow_ne_zero _ hz), fun xP yP => ?_⟩
      rw [v4, v5, v6, line_dbl_aux emb2 w_ne Fq2_two_ne hy hc, Spec.line, Spec.slope, if_pos rfl, untwist_some, emb1_eq, emb1_eq]

theorem add_vals {F : Type} [Field F] {x y Z x1 y1 xr yr : F} (hZ : Z ≠ 0) (hx : x1 ≠ x)
    (e1 : xr * (x1 - x) ^ 2 = (y1 - y) ^ 2 - (x1 - x) ^ 3 - 2 * x * (x1 - x) ^ 2)
    (e2 : yr * (x1 - x) ^ 3 = (y1 - y) * (x * (x1 - x) ^ 2 - ((y1 - y) ^ 2 - (x1 - x) ^ 3 - 2 * x * (x1 - x) ^ 2)) - y * (x1 - x) ^ 3)
    {T0 T1 T5 : F} (h0 : T0 = -(y1 * Z) + y * Z) (h1 : T1 = -(x1 * Z) + x * Z)
    (h5 : T5 = T1 * (T1 * T1) - (x * Z * (T1 * T1) + x * Z * (T1 * T1)) + Z * (T0 * T0)) :
    Z * (T1 * (T1 * T1)) ≠ 0 ∧ T1 * T5 = xr * (Z * (T1 * (T1 * T1))) ∧
      (x * Z * (T1 * T1) - T5) * T0 - y * Z * (T1 * (T1 * T1)) = yr * (Z * (T1 * (T1 * T1))) ∧ T1 ≠ 0 := by
  have ht : T1 ≠ 0 := by
    rw [h1, show -(x1 * Z) + x * Z = (x - x1) * Z by ring]
    exact mul_ne_zero (sub_ne_zero.mpr hx.symm) hZ
  refine ⟨mul_ne_zero hZ (mul_ne_zero ht (mul_ne_zero ht ht)), ?_, ?_, ht⟩
  · rw [h5, h0, h1]
    linear_combination (x1 - x) * Z ^ 4 * e1
  · rw [h5, h0, h1]
    linear_combination Z ^ 4 * e2

theorem addition_is {r q : P3 Fe2} {P T : Spec.E2.Point} (hr : RepH r P) (hq : RepA q T) (h1 : P ≠ T) (h2 : P ≠ -T) :
    RepH (additionStep r q).2 (P + T) ∧ LineOf (additionStep r q).1 P T := by
  obtain ⟨X, Y, Z, hX, hY, hZ, hz, x, y, h, rfl, rfl, rfl⟩ := hr
  obtain ⟨x1, y1, k, hx1, hy1, rfl⟩ := hq
  have hc := (sw_equation _ _ _ _).mp h.1
  have hk := (sw_equation _ _ _ _).mp k.1
  have hx : x1 ≠ x := by
    rintro rfl
    have hyy : (y - y1) * (y + y1) = 0 := by linear_combination hc - hk
    rcases mul_eq_zero.mp hyy with e | e
    · have : y = y1 := sub_eq_zero.mp e
      subst this; exact h1 rfl
    · have : y = -y1 := by linear_combination e
      subst this
      apply h2
      rw [Affine.Point.neg_some]
      congr 1
      simp [Affine.negY, sw]
  obtain ⟨xr, yr, h', hsum, e1, e2⟩ := add_affine (h := h) (h1 := k) hx
  obtain ⟨d1, d2, d3, d4⟩ := add_vals hz hx e1 e2 rfl rfl rfl
  simp only [additionStep]
  constructor
  · apply RepH.mk
    · fe2
    · fe2
    · fe2
    · exact ⟨d1, xr, yr, h', hsum, d2, d3⟩
  · apply LineOf.mk
    · fe2
    · fe2
    · fe2
    · refine ⟨(x - x1) * Z, mul_ne_zero (sub_ne_zero.mpr hx.symm) hz, fun xP yP => ?_⟩
      have hne : Spec.untwist (.some x y h) ≠ Spec.untwist (.some x1 y1 k) := by
        rw [untwist_some, untwist_some]
        intro heq
        have := congrArg Prod.fst heq
        dsimp only at this
        rw [div_left_inj' (pow_ne_zero _ w_ne)] at this
        exact hx (emb2_inj this).symm
      rw [Spec.line, Spec.slope, if_neg hne, untwist_some, untwist_some, emb1_eq, emb1_eq, ← line_add_aux emb2 w_ne hx.symm]
      rw [neg_add_eq_sub, neg_add_eq_sub]

end Verif.Bls
