import Mathlib.AlgebraicGeometry.EllipticCurve.Affine.Point
import Mathlib.Tactic.FieldSimp
import Mathlib.Tactic.LinearCombination

/-!
# Jacobian coordinates on short Weierstrass curves

Lemmas only (no code of the repo is modelled here): the textbook Jacobian addition and doubling
formulas compute Mathlib's group law on `y² = x³ + a x + b`.
-/

namespace Verif.EC

open WeierstrassCurve

set_option linter.unusedSectionVars false

variable {F : Type*} [Field F] [DecidableEq F]

/-- the short Weierstrass curve `y² = x³ + a x + b`. -/
def sw (a b : F) : WeierstrassCurve.Affine F := ⟨0, 0, 0, a, b⟩

theorem sw_equation (a b x y : F) : (sw a b).Equation x y ↔ y ^ 2 = x ^ 3 + a * x + b := by
  rw [Affine.equation_iff]; simp [sw]

/-- `(X, Y, Z)` are Jacobian coordinates of the point: `Z = 0` for infinity, otherwise
`x = X/Z²`, `y = Y/Z³`. -/
def JRep (W : WeierstrassCurve.Affine F) (X Y Z : F) : W.Point → Prop
  | .zero => Z = 0
  | .some x y _ => Z ≠ 0 ∧ X = x * Z ^ 2 ∧ Y = y * Z ^ 3

theorem JRep.zero_iff {W : WeierstrassCurve.Affine F} {X Y Z : F} {P : W.Point}
    (h : JRep W X Y Z P) : Z = 0 ↔ P = 0 := by
  cases P with
  | zero => exact ⟨fun _ => rfl, fun _ => h⟩
  | some x y hn =>
    constructor
    · intro hz; exact absurd hz h.1
    · intro h0; exact absurd h0 (Affine.Point.some_ne_zero hn)

theorem JRep.of_zero {W : WeierstrassCurve.Affine F} {X Y : F} : JRep W X Y 0 0 := rfl

theorem JRep.congr {W : WeierstrassCurve.Affine F} {X Y Z X' Y' Z' : F} {P : W.Point}
    (hX : X' = X) (hY : Y' = Y) (hZ : Z' = Z) (h : JRep W X Y Z P) : JRep W X' Y' Z' P := by
  subst hX hY hZ; exact h

theorem JRep.scale {W : WeierstrassCurve.Affine F} {X Y Z : F} {P : W.Point}
    (h : JRep W X Y Z P) {l : F} (hl : l ≠ 0) :
    JRep W (l ^ 2 * X) (l ^ 3 * Y) (l * Z) P := by
  cases P with
  | zero => have : Z = 0 := h
            show l * Z = 0; rw [this, mul_zero]
  | some x y hn =>
    obtain ⟨hz, hx, hy⟩ := h
    refine ⟨mul_ne_zero hl hz, ?_, ?_⟩
    · rw [hx]; ring
    · rw [hy]; ring

variable {a b : F}

/-- standard Jacobian addition (not both `H` and `R` zero). -/
theorem jadd {X1 Y1 Z1 X2 Y2 Z2 : F} {P Q : (sw a b).Point}
    (hP : JRep (sw a b) X1 Y1 Z1 P) (hQ : JRep (sw a b) X2 Y2 Z2 Q)
    (hZ1 : Z1 ≠ 0) (hZ2 : Z2 ≠ 0)
    {U1 U2 S1 S2 H R X3 Y3 Z3 : F}
    (hU1 : U1 = X1 * Z2 ^ 2) (hU2 : U2 = X2 * Z1 ^ 2)
    (hS1 : S1 = Y1 * Z2 ^ 3) (hS2 : S2 = Y2 * Z1 ^ 3)
    (hH : H = U2 - U1) (hR : R = S2 - S1)
    (hne : ¬ (H = 0 ∧ R = 0))
    (hX3 : X3 = R ^ 2 - H ^ 3 - 2 * U1 * H ^ 2)
    (hY3 : Y3 = R * (U1 * H ^ 2 - X3) - S1 * H ^ 3)
    (hZ3 : Z3 = H * Z1 * Z2) :
    JRep (sw a b) X3 Y3 Z3 (P + Q) := by
  cases P with
  | zero => exact absurd hP hZ1
  | some x1 y1 h1 => cases Q with
    | zero => exact absurd hQ hZ2
    | some x2 y2 h2 =>
      obtain ⟨-, hx1, hy1⟩ := hP
      obtain ⟨-, hx2, hy2⟩ := hQ
      have eH : H = (x2 - x1) * (Z1 ^ 2 * Z2 ^ 2) := by rw [hH, hU2, hU1, hx1, hx2]; ring
      have eR : R = (y2 - y1) * (Z1 ^ 3 * Z2 ^ 3) := by rw [hR, hS2, hS1, hy1, hy2]; ring
      have hZZ : Z1 ^ 2 * Z2 ^ 2 ≠ 0 := mul_ne_zero (pow_ne_zero _ hZ1) (pow_ne_zero _ hZ2)
      by_cases hx : x1 = x2
      · have hH0 : H = 0 := by rw [eH, hx]; ring
        have hR0 : R ≠ 0 := fun h => hne ⟨hH0, h⟩
        have hy : y1 ≠ y2 := by rintro rfl; apply hR0; rw [eR]; ring
        have e1 := (sw_equation a b x1 y1).mp h1.1
        have e2 := (sw_equation a b x2 y2).mp h2.1
        have hy' : y1 = (sw a b).negY x2 y2 := by
          have : (y1 - y2) * (y1 + y2) = 0 := by rw [hx] at e1; linear_combination e1 - e2
          rcases mul_eq_zero.mp this with h | h
          · exact absurd (sub_eq_zero.mp h) hy
          · simp [Affine.negY, sw]; linear_combination h
        rw [Affine.Point.add_of_Y_eq hx hy']
        show Z3 = 0
        rw [hZ3, hH0]; ring
      · have hd : x1 - x2 ≠ 0 := sub_ne_zero.mpr hx
        rw [Affine.Point.add_of_X_ne hx]
        have hsl : (sw a b).slope x1 x2 y1 y2 * (x1 - x2) = y1 - y2 := by
          rw [Affine.slope_of_X_ne hx]; field_simp
        show Z3 ≠ 0 ∧ X3 = (sw a b).addX x1 x2 ((sw a b).slope x1 x2 y1 y2) * Z3 ^ 2 ∧
          Y3 = (sw a b).addY x1 x2 y1 ((sw a b).slope x1 x2 y1 y2) * Z3 ^ 3
        generalize hl : (sw a b).slope x1 x2 y1 y2 = l at hsl
        have eZ : Z3 = (x2 - x1) * (Z1 ^ 3 * Z2 ^ 3) := by rw [hZ3, eH]; ring
        have eX : X3 = (sw a b).addX x1 x2 l * Z3 ^ 2 := by
          rw [hX3, eZ, eH, eR, hU1, hx1]
          simp only [Affine.addX, sw]
          have hy2' : y2 = y1 - l * (x1 - x2) := by rw [hsl]; ring
          rw [hy2']; ring
        refine ⟨?_, ?_, ?_⟩
        · rw [eZ]
          exact mul_ne_zero (by intro h; apply hd; linear_combination -h)
            (mul_ne_zero (pow_ne_zero _ hZ1) (pow_ne_zero _ hZ2))
        · exact eX
        · rw [hY3, eX, eZ, eH, eR, hU1, hS1, hx1, hy1]
          simp only [Affine.addX, Affine.addY, Affine.negAddY, Affine.negY, sw]
          have hy2' : y2 = y1 - l * (x1 - x2) := by rw [hsl]; ring
          rw [hy2']; ring

/-- standard Jacobian doubling. -/
theorem jdbl (h2 : (2 : F) ≠ 0) {X Y Z : F} {P : (sw a b).Point} (hP : JRep (sw a b) X Y Z P)
    {M S X3 Y3 Z3 : F}
    (hM : M = 3 * X ^ 2 + a * Z ^ 4) (hS : S = 4 * X * Y ^ 2)
    (hX3 : X3 = M ^ 2 - 2 * S) (hY3 : Y3 = M * (S - X3) - 8 * Y ^ 4) (hZ3 : Z3 = 2 * Y * Z) :
    JRep (sw a b) X3 Y3 Z3 (P + P) := by
  cases P with
  | zero =>
    have : Z = 0 := hP
    show Z3 = 0
    rw [hZ3, this]; ring
  | some x y h =>
    obtain ⟨hZ, hx, hy⟩ := hP
    by_cases hy0 : y = 0
    · have hy' : y = (sw a b).negY x y := by simp [Affine.negY, sw, hy0]
      rw [Affine.Point.add_self_of_Y_eq hy']
      show Z3 = 0
      rw [hZ3, hy, hy0]; ring
    · have hy' : y ≠ (sw a b).negY x y := by
        simp only [Affine.negY, sw]
        intro h
        have : 2 * y = 0 := by linear_combination h
        rcases mul_eq_zero.mp this with h | h
        · exact h2 h
        · exact hy0 h
      rw [Affine.Point.add_self_of_Y_ne hy']
      have h2y : 2 * y ≠ 0 := mul_ne_zero h2 hy0
      have hsl : (sw a b).slope x x y y * (2 * y) = 3 * x ^ 2 + a := by
        rw [Affine.slope_of_Y_ne rfl hy']
        simp only [Affine.negY, sw]
        have : y - (-y - 0 * x - 0) = 2 * y := by ring
        rw [this, div_mul_cancel₀ _ h2y]; ring
      show Z3 ≠ 0 ∧ X3 = (sw a b).addX x x ((sw a b).slope x x y y) * Z3 ^ 2 ∧
          Y3 = (sw a b).addY x x y ((sw a b).slope x x y y) * Z3 ^ 3
      generalize hl : (sw a b).slope x x y y = l at hsl
      have eM : M = l * (2 * y) * Z ^ 4 := by rw [hM, hx, hsl]; ring
      have eZ : Z3 = 2 * y * Z ^ 4 := by rw [hZ3, hy]; ring
      have eX : X3 = (sw a b).addX x x l * Z3 ^ 2 := by
        rw [hX3, eM, eZ, hS, hx, hy]
        simp only [Affine.addX, sw]; ring
      refine ⟨?_, eX, ?_⟩
      · rw [eZ]; exact mul_ne_zero h2y (pow_ne_zero _ hZ)
      · rw [hY3, eX, eM, eZ, hS, hx, hy]
        simp only [Affine.addX, Affine.addY, Affine.negAddY, Affine.negY, sw]; ring

omit [DecidableEq F] in
/-- two non-infinite Jacobian triples with `H = R = 0` are the same point. -/
theorem jrep_eq {X1 Y1 Z1 X2 Y2 Z2 : F} {P Q : (sw a b).Point}
    (hP : JRep (sw a b) X1 Y1 Z1 P) (hQ : JRep (sw a b) X2 Y2 Z2 Q)
    (hZ1 : Z1 ≠ 0) (hZ2 : Z2 ≠ 0)
    (hU : X1 * Z2 ^ 2 = X2 * Z1 ^ 2) (hS : Y1 * Z2 ^ 3 = Y2 * Z1 ^ 3) : P = Q := by
  cases P with
  | zero => exact absurd hP hZ1
  | some x1 y1 h1 => cases Q with
    | zero => exact absurd hQ hZ2
    | some x2 y2 h2 =>
      obtain ⟨-, hx1, hy1⟩ := hP
      obtain ⟨-, hx2, hy2⟩ := hQ
      have e1 : x1 = x2 := by
        have hz : Z1 ^ 2 * Z2 ^ 2 ≠ 0 := mul_ne_zero (pow_ne_zero _ hZ1) (pow_ne_zero _ hZ2)
        apply mul_right_cancel₀ hz
        rw [hx1, hx2] at hU; linear_combination hU
      have e2 : y1 = y2 := by
        have hz : Z1 ^ 3 * Z2 ^ 3 ≠ 0 := mul_ne_zero (pow_ne_zero _ hZ1) (pow_ne_zero _ hZ2)
        apply mul_right_cancel₀ hz
        rw [hy1, hy2] at hS; linear_combination hS
      subst e1 e2; rfl

omit [DecidableEq F] in
theorem JRep.same {X1 Y1 Z1 X2 Y2 Z2 : F} {P : (sw a b).Point}
    (hP : JRep (sw a b) X1 Y1 Z1 P) (hQ : JRep (sw a b) X2 Y2 Z2 P) :
    X1 * Z2 ^ 2 = X2 * Z1 ^ 2 ∧ Y1 * Z2 ^ 3 = Y2 * Z1 ^ 3 ∨ P = 0 := by
  cases P with
  | zero => right; rfl
  | some x y h =>
    left
    obtain ⟨-, hx1, hy1⟩ := hP
    obtain ⟨-, hx2, hy2⟩ := hQ
    constructor
    · rw [hx1, hx2]; ring
    · rw [hy1, hy2]; ring

end Verif.EC
