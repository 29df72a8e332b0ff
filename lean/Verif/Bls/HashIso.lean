import Verif.Bls.HashSwu

/-!
# Hashing to G2: what `isogenyMapG2` and `HashToCurve` compute
-/

namespace Verif.Bls

open Verif.EC WeierstrassCurve

theorem isoxNum3_spec : Fe2.Red isoxNum3 ∧ Fe2.den isoxNum3 =
    ((1 : ℕ) - (0 : ℕ)) / (9 : ℕ) + ((0 : ℕ) - (0 : ℕ)) / (9 : ℕ) * Spec.I :=
  Fe2.const (a := isoxNum3.c0) (b := isoxNum3.c1) 9 1 0 0 0 (by decide +kernel) (by decide +kernel)
    (by decide +kernel) (by decide +kernel) (by decide +kernel)

theorem isoxNum2_spec : Fe2.Red isoxNum2 ∧ Fe2.den isoxNum2 =
    ((4 : ℕ) - (0 : ℕ)) / (3 : ℕ) + ((0 : ℕ) - (4 : ℕ)) / (3 : ℕ) * Spec.I :=
  Fe2.const (a := isoxNum2.c0) (b := isoxNum2.c1) 3 4 0 0 4 (by decide +kernel) (by decide +kernel)
    (by decide +kernel) (by decide +kernel) (by decide +kernel)

theorem isoxNum1_spec : Fe2.Red isoxNum1 ∧ Fe2.den isoxNum1 =
    ((0 : ℕ) - (0 : ℕ)) / (3 : ℕ) + ((0 : ℕ) - (8 : ℕ)) / (3 : ℕ) * Spec.I :=
  Fe2.const (a := isoxNum1.c0) (b := isoxNum1.c1) 3 0 0 0 8 (by decide +kernel) (by decide +kernel)
    (by decide +kernel) (by decide +kernel) (by decide +kernel)

theorem isoxNum0_spec : Fe2.Red isoxNum0 ∧ Fe2.den isoxNum0 =
    ((304 : ℕ) - (0 : ℕ)) / (9 : ℕ) + ((304 : ℕ) - (0 : ℕ)) / (9 : ℕ) * Spec.I :=
  Fe2.const (a := isoxNum0.c0) (b := isoxNum0.c1) 9 304 0 304 0 (by decide +kernel) (by decide +kernel)
    (by decide +kernel) (by decide +kernel) (by decide +kernel)

theorem isoxDen3_spec : Fe2.Red isoxDen3 ∧ Fe2.den isoxDen3 =
    ((0 : ℕ) - (0 : ℕ)) / (1 : ℕ) + ((0 : ℕ) - (0 : ℕ)) / (1 : ℕ) * Spec.I :=
  Fe2.const (a := isoxDen3.c0) (b := isoxDen3.c1) 1 0 0 0 0 (by decide +kernel) (by decide +kernel)
    (by decide +kernel) (by decide +kernel) (by decide +kernel)

theorem isoxDen2_spec : Fe2.Red isoxDen2 ∧ Fe2.den isoxDen2 =
    ((1 : ℕ) - (0 : ℕ)) / (1 : ℕ) + ((0 : ℕ) - (0 : ℕ)) / (1 : ℕ) * Spec.I :=
  Fe2.const (a := isoxDen2.c0) (b := isoxDen2.c1) 1 1 0 0 0 (by decide +kernel) (by decide +kernel)
    (by decide +kernel) (by decide +kernel) (by decide +kernel)

theorem isoxDen1_spec : Fe2.Red isoxDen1 ∧ Fe2.den isoxDen1 =
    ((12 : ℕ) - (0 : ℕ)) / (1 : ℕ) + ((0 : ℕ) - (12 : ℕ)) / (1 : ℕ) * Spec.I :=
  Fe2.const (a := isoxDen1.c0) (b := isoxDen1.c1) 1 12 0 0 12 (by decide +kernel) (by decide +kernel)
    (by decide +kernel) (by decide +kernel) (by decide +kernel)

theorem isoxDen0_spec : Fe2.Red isoxDen0 ∧ Fe2.den isoxDen0 =
    ((0 : ℕ) - (0 : ℕ)) / (1 : ℕ) + ((0 : ℕ) - (72 : ℕ)) / (1 : ℕ) * Spec.I :=
  Fe2.const (a := isoxDen0.c0) (b := isoxDen0.c1) 1 0 0 0 72 (by decide +kernel) (by decide +kernel)
    (by decide +kernel) (by decide +kernel) (by decide +kernel)

theorem isoyNum3_spec : Fe2.Red isoyNum3 ∧ Fe2.den isoyNum3 =
    ((0 : ℕ) - (1 : ℕ)) / (27 : ℕ) + ((0 : ℕ) - (0 : ℕ)) / (27 : ℕ) * Spec.I :=
  Fe2.const (a := isoyNum3.c0) (b := isoyNum3.c1) 27 0 1 0 0 (by decide +kernel) (by decide +kernel)
    (by decide +kernel) (by decide +kernel) (by decide +kernel)

theorem isoyNum2_spec : Fe2.Red isoyNum2 ∧ Fe2.den isoyNum2 =
    ((0 : ℕ) - (2 : ℕ)) / (3 : ℕ) + ((2 : ℕ) - (0 : ℕ)) / (3 : ℕ) * Spec.I :=
  Fe2.const (a := isoyNum2.c0) (b := isoyNum2.c1) 3 0 2 2 0 (by decide +kernel) (by decide +kernel)
    (by decide +kernel) (by decide +kernel) (by decide +kernel)

theorem isoyNum1_spec : Fe2.Red isoyNum1 ∧ Fe2.den isoyNum1 =
    ((0 : ℕ) - (0 : ℕ)) / (9 : ℕ) + ((88 : ℕ) - (0 : ℕ)) / (9 : ℕ) * Spec.I :=
  Fe2.const (a := isoyNum1.c0) (b := isoyNum1.c1) 9 0 0 88 0 (by decide +kernel) (by decide +kernel)
    (by decide +kernel) (by decide +kernel) (by decide +kernel)

theorem isoyNum0_spec : Fe2.Red isoyNum0 ∧ Fe2.den isoyNum0 =
    ((752 : ℕ) - (0 : ℕ)) / (27 : ℕ) + ((752 : ℕ) - (0 : ℕ)) / (27 : ℕ) * Spec.I :=
  Fe2.const (a := isoyNum0.c0) (b := isoyNum0.c1) 27 752 0 752 0 (by decide +kernel) (by decide +kernel)
    (by decide +kernel) (by decide +kernel) (by decide +kernel)

theorem isoyDen3_spec : Fe2.Red isoyDen3 ∧ Fe2.den isoyDen3 =
    ((1 : ℕ) - (0 : ℕ)) / (1 : ℕ) + ((0 : ℕ) - (0 : ℕ)) / (1 : ℕ) * Spec.I :=
  Fe2.const (a := isoyDen3.c0) (b := isoyDen3.c1) 1 1 0 0 0 (by decide +kernel) (by decide +kernel)
    (by decide +kernel) (by decide +kernel) (by decide +kernel)

theorem isoyDen2_spec : Fe2.Red isoyDen2 ∧ Fe2.den isoyDen2 =
    ((18 : ℕ) - (0 : ℕ)) / (1 : ℕ) + ((0 : ℕ) - (18 : ℕ)) / (1 : ℕ) * Spec.I :=
  Fe2.const (a := isoyDen2.c0) (b := isoyDen2.c1) 1 18 0 0 18 (by decide +kernel) (by decide +kernel)
    (by decide +kernel) (by decide +kernel) (by decide +kernel)

theorem isoyDen1_spec : Fe2.Red isoyDen1 ∧ Fe2.den isoyDen1 =
    ((0 : ℕ) - (0 : ℕ)) / (1 : ℕ) + ((0 : ℕ) - (216 : ℕ)) / (1 : ℕ) * Spec.I :=
  Fe2.const (a := isoyDen1.c0) (b := isoyDen1.c1) 1 0 0 0 216 (by decide +kernel) (by decide +kernel)
    (by decide +kernel) (by decide +kernel) (by decide +kernel)

theorem isoyDen0_spec : Fe2.Red isoyDen0 ∧ Fe2.den isoyDen0 =
    ((0 : ℕ) - (432 : ℕ)) / (1 : ℕ) + ((0 : ℕ) - (432 : ℕ)) / (1 : ℕ) * Spec.I :=
  Fe2.const (a := isoyDen0.c0) (b := isoyDen0.c1) 1 0 432 0 432 (by decide +kernel) (by decide +kernel)
    (by decide +kernel) (by decide +kernel) (by decide +kernel)

theorem horner_spec {x a b c d : Fe2} (hx : Fe2.Red x) (ha : Fe2.Red a) (hb : Fe2.Red b) (hc : Fe2.Red c)
    (hd : Fe2.Red d) : Fe2.Red (horner x [a, b, c, d]) ∧ Fe2.den (horner x [a, b, c, d]) =
      ((Fe2.den a * Fe2.den x + Fe2.den b) * Fe2.den x + Fe2.den c) * Fe2.den x + Fe2.den d := by
  obtain ⟨h1, e1⟩ := Fe2.den_mul ha hx
  obtain ⟨h2, e2⟩ := Fe2.den_add h1 hb
  obtain ⟨h3, e3⟩ := Fe2.den_mul h2 hx
  obtain ⟨h4, e4⟩ := Fe2.den_add h3 hc
  obtain ⟨h5, e5⟩ := Fe2.den_mul h4 hx
  obtain ⟨h6, e6⟩ := Fe2.den_add h5 hd
  simp only [horner, List.foldl_cons, List.foldl_nil]
  exact ⟨h6, by rw [e6, e5, e4, e3, e2, e1]⟩

theorem xNum_spec {x : Fe2} (hx : Fe2.Red x) : Fe2.Red (horner x isoxNum) ∧ Fe2.den (horner x isoxNum) =
    1 / 9 * Fe2.den x ^ 3 + 4 / 3 * (1 - Spec.I) * Fe2.den x ^ 2 - 8 / 3 * Spec.I * Fe2.den x +
      304 / 9 * (1 + Spec.I) := by
  obtain ⟨h, e⟩ := horner_spec hx isoxNum3_spec.1 isoxNum2_spec.1 isoxNum1_spec.1 isoxNum0_spec.1
  rw [isoxNum]
  refine ⟨h, e.trans ?_⟩
  rw [isoxNum3_spec.2, isoxNum2_spec.2, isoxNum1_spec.2, isoxNum0_spec.2]
  push_cast; ring

theorem xDen_spec {x : Fe2} (hx : Fe2.Red x) : Fe2.Red (horner x isoxDen) ∧ Fe2.den (horner x isoxDen) =
    Fe2.den x ^ 2 + 12 * (1 - Spec.I) * Fe2.den x - 72 * Spec.I := by
  obtain ⟨h, e⟩ := horner_spec hx isoxDen3_spec.1 isoxDen2_spec.1 isoxDen1_spec.1 isoxDen0_spec.1
  rw [isoxDen]
  refine ⟨h, e.trans ?_⟩
  rw [isoxDen3_spec.2, isoxDen2_spec.2, isoxDen1_spec.2, isoxDen0_spec.2]
  push_cast; ring

theorem yNum_spec {x : Fe2} (hx : Fe2.Red x) : Fe2.Red (horner x isoyNum) ∧ Fe2.den (horner x isoyNum) =
    -1 / 27 * Fe2.den x ^ 3 - 2 / 3 * (1 - Spec.I) * Fe2.den x ^ 2 + 88 / 9 * Spec.I * Fe2.den x +
      752 / 27 * (1 + Spec.I) := by
  obtain ⟨h, e⟩ := horner_spec hx isoyNum3_spec.1 isoyNum2_spec.1 isoyNum1_spec.1 isoyNum0_spec.1
  rw [isoyNum]
  refine ⟨h, e.trans ?_⟩
  rw [isoyNum3_spec.2, isoyNum2_spec.2, isoyNum1_spec.2, isoyNum0_spec.2]
  push_cast; ring

theorem yDen_spec {x : Fe2} (hx : Fe2.Red x) : Fe2.Red (horner x isoyDen) ∧ Fe2.den (horner x isoyDen) =
    Fe2.den x ^ 3 + 18 * (1 - Spec.I) * Fe2.den x ^ 2 - 216 * Spec.I * Fe2.den x - 432 * (1 + Spec.I) := by
  obtain ⟨h, e⟩ := horner_spec hx isoyDen3_spec.1 isoyDen2_spec.1 isoyDen1_spec.1 isoyDen0_spec.1
  rw [isoyDen]
  refine ⟨h, e.trans ?_⟩
  rw [isoyDen3_spec.2, isoyDen2_spec.2, isoyDen1_spec.2, isoyDen0_spec.2]
  push_cast; ring

theorem isogenyG2_spec {x y : Fe2} (hx : Fe2.Red x) (hy : Fe2.Red y) :
    Fe2.Red (isogenyG2 .amd64 x y).1 ∧ Fe2.Red (isogenyG2 .amd64 x y).2 ∧
      Fe2.den (isogenyG2 .amd64 x y).1 = Spec.isoX (Fe2.den x) ∧
      Fe2.den (isogenyG2 .amd64 x y).2 = Spec.isoY (Fe2.den x) (Fe2.den y) := by
  obtain ⟨h1, e1⟩ := xNum_spec hx
  obtain ⟨h2, e2⟩ := xDen_spec hx
  obtain ⟨h3, e3⟩ := yNum_spec hx
  obtain ⟨h4, e4⟩ := yDen_spec hx
  obtain ⟨h5, e5⟩ := Fe2.den_inverse h2
  obtain ⟨h6, e6⟩ := Fe2.den_inverse h4
  obtain ⟨h7, e7⟩ := Fe2.den_mul h1 h5
  obtain ⟨h8, e8⟩ := Fe2.den_mul h3 h6
  obtain ⟨h9, e9⟩ := Fe2.den_mul h8 hy
  simp only [isogenyG2]
  refine ⟨h7, h9, ?_, ?_⟩
  · rw [e7, e5, e1, e2, Spec.isoX]; exact (div_eq_mul_inv _ _).symm
  · rw [e9, e8, e6, e3, e4, Spec.isoY, div_eq_mul_inv]; ring

/-- no point of `E'` is in the kernel of the isogeny. -/
theorem kernel_off {x y : Fq2} (h : y ^ 2 = Spec.g' x) : x + 6 * (1 - Spec.I) ≠ 0 := by
  intro h0
  apply b2_nonsquare
  refine ⟨y, ?_⟩
  have hx : x = -(6 * (1 - Spec.I)) := eq_neg_of_add_eq_zero_left h0
  rw [← pow_two, h, Spec.g', hx, isoA_eq, isoB_eq, b2_eq]
  linear_combination (-(216 * Spec.I - 648) - 1440) * I_sq

theorem iso_on_curve {x y : Fq2} (h : y ^ 2 = Spec.g' x) :
    Spec.isoY x y ^ 2 = Spec.isoX x ^ 3 + Spec.b2 := by
  have hk := kernel_off h
  rw [Spec.g', isoA_eq, isoB_eq] at h
  rw [Spec.isoX, Spec.isoY, b2_eq]
  exact iso_identity three_ne2 I_sq hk h

end Verif.Bls
