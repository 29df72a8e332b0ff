import Mathlib.AlgebraicGeometry.EllipticCurve.Affine.Point
import Mathlib.Tactic.FieldSimp
import Mathlib.Tactic.LinearCombination

/-!
# Montgomery curves `y² = x³ + A·x² + x`: arithmetic on x-coordinates alone

The group is the one Mathlib defines for a Weierstrass curve.  A pair `(X, Z)` stands for a point when it is `(x·Z, Z)` with `Z ≠ 0`, or
`(X, 0)` with `X ≠ 0` for the point at infinity.
-/

set_option maxHeartbeats 1000000

namespace Verif.C25519

open WeierstrassCurve WeierstrassCurve.Affine

variable {K : Type*} [Field K] [DecidableEq K]

/-- the curve `y² = x³ + A·x² + x`. -/
def mont (A : K) : Affine K := ⟨0, A, 0, 1, 0⟩

theorem mont_eq {A x y : K} : (mont A).Equation x y ↔ y ^ 2 = x ^ 3 + A * x ^ 2 + x := by
  rw [Affine.equation_iff]
  simp only [mont]
  constructor <;> intro h <;> linear_combination h

theorem mont_negY {A x y : K} : (mont A).negY x y = -y := by
  simp [Affine.negY, mont]

theorem mont_neg {A x y : K} (h : (mont A).Nonsingular x y) :
    ∃ h' : (mont A).Nonsingular x (-y), -Affine.Point.some x y h = Affine.Point.some x (-y) h' := by
  have h' : (mont A).Nonsingular x (-y) := by
    have := (Affine.nonsingular_neg x y).2 h
    rwa [mont_negY] at this
  refine ⟨h', ?_⟩
  rw [Point.neg_some]
  simp only [mont_negY]

/-- the sum of two points with different x-coordinates: the x-coordinate. -/
theorem mont_add {A x1 y1 x2 y2 : K} (h1 : (mont A).Nonsingular x1 y1) (h2 : (mont A).Nonsingular x2 y2) (hx : x1 ≠ x2) :
    ∃ (x3 y3 : K) (h3 : (mont A).Nonsingular x3 y3), Affine.Point.some x1 y1 h1 + Affine.Point.some x2 y2 h2 = Affine.Point.some x3 y3 h3 ∧
      (x1 - x2) ^ 2 * (x3 + A + x1 + x2) = (y1 - y2) ^ 2 := by
  rw [Point.add_of_X_ne hx]
  refine ⟨_, _, _, rfl, ?_⟩
  rw [Affine.slope_of_X_ne hx]
  have h0 : x1 - x2 ≠ 0 := sub_ne_zero.2 hx
  simp only [Affine.addX, mont]
  field_simp
  ring

/-- the double of a point that is not of order two. -/
theorem mont_dbl {A x y : K} (two : (2 : K) ≠ 0) (h : (mont A).Nonsingular x y) (hy : y ≠ 0) :
    ∃ (x3 y3 : K) (h3 : (mont A).Nonsingular x3 y3), Affine.Point.some x y h + Affine.Point.some x y h = Affine.Point.some x3 y3 h3 ∧
      4 * y ^ 2 * x3 = (x ^ 2 - 1) ^ 2 := by
  have hy' : y ≠ (mont A).negY x y := by
    rw [mont_negY]
    intro e
    have : 2 * y = 0 := by linear_combination e
    rcases mul_eq_zero.1 this with h | h
    · exact two h
    · exact hy h
  have he := mont_eq.1 h.1
  rw [Point.add_self_of_Y_ne hy']
  refine ⟨_, _, _, rfl, ?_⟩
  rw [Affine.slope_of_Y_ne rfl hy', mont_negY]
  simp only [Affine.addX, mont]
  have : y - -y ≠ 0 := by
    intro e; apply two; have : 2 * y = 0 := by linear_combination e
    exact (mul_eq_zero.1 this).resolve_right hy
  have e2 : y - -y = 2 * y := by ring
  rw [e2] at this ⊢
  field_simp
  linear_combination (-(16 * A + 32 * x)) * he

/-- the point of the curve with a given projective x-coordinate. -/
def XRep {A : K} (X Z : K) : (mont A).Point → Prop
  | .zero => X ≠ 0 ∧ Z = 0
  | .some x _ _ => Z ≠ 0 ∧ X = x * Z

theorem xRep_zero {A X Z : K} : XRep X Z (0 : (mont A).Point) ↔ X ≠ 0 ∧ Z = 0 := Iff.rfl

theorem xRep_neg {A X Z : K} (Q : (mont A).Point) : XRep X Z (-Q) ↔ XRep X Z Q := by
  cases Q with
  | zero => exact Iff.rfl
  | some x y h =>
    obtain ⟨h', e⟩ := mont_neg h
    rw [e]; exact Iff.rfl

theorem xRep_smul {A X Z a : K} (ha : a ≠ 0) {Q : (mont A).Point} (h : XRep X Z Q) : XRep (a * X) (a * Z) Q := by
  cases Q with
  | zero => exact ⟨mul_ne_zero ha h.1, by rw [h.2, mul_zero]⟩
  | some x y hh => exact ⟨mul_ne_zero ha h.1, by rw [h.2]; ring⟩

/-- differential addition. -/
theorem xRep_add {A : K} (two : (2 : K) ≠ 0) {X1 Z1 X2 Z2 dx dy : K} {Q1 Q2 : (mont A).Point} (hd : (mont A).Nonsingular dx dy)
    (hD : Q1 - Q2 = Affine.Point.some dx dy hd ∨ Q2 - Q1 = Affine.Point.some dx dy hd) (h0 : dx ≠ 0) (h1 : XRep X1 Z1 Q1) (h2 : XRep X2 Z2 Q2) :
    XRep (4 * (X1 * X2 - Z1 * Z2) ^ 2) (4 * dx * (X1 * Z2 - Z1 * X2) ^ 2) (Q1 + Q2) := by
  have four : (4 : K) ≠ 0 := by
    have : (4 : K) = 2 * 2 := by norm_num
    rw [this]; exact mul_ne_zero two two
  obtain ⟨dy', hd', hD'⟩ : ∃ (dy' : K) (hd' : (mont A).Nonsingular dx dy'), Q1 - Q2 = Affine.Point.some dx dy' hd' := by
    rcases hD with h | h
    · exact ⟨_, _, h⟩
    · obtain ⟨h', e⟩ := mont_neg hd
      refine ⟨_, h', ?_⟩
      rw [← e, ← h, neg_sub]
  clear hD
  cases Q1 with
  | zero =>
    have e0 : (Affine.Point.zero : (mont A).Point) = 0 := rfl
    rw [e0] at h1 hD' ⊢
    rw [zero_sub] at hD'
    rw [zero_add]
    have h2' : XRep X2 Z2 (-Q2) := (xRep_neg Q2).2 h2
    rw [hD'] at h2'
    obtain ⟨hz, hx⟩ := h2'
    obtain ⟨a, b⟩ := xRep_zero.1 h1
    rw [← xRep_neg, hD']
    refine ⟨?_, ?_⟩
    · rw [b, zero_mul, sub_zero]
      exact mul_ne_zero (mul_ne_zero four h0) (pow_ne_zero _ (mul_ne_zero a hz))
    · rw [b, hx]; ring
  | some x1 y1 n1 =>
    cases Q2 with
    | zero =>
      have e0 : (Affine.Point.zero : (mont A).Point) = 0 := rfl
      rw [e0] at h2 hD' ⊢
      rw [sub_zero] at hD'
      rw [add_zero, hD']
      rw [hD'] at h1
      obtain ⟨hz, hx⟩ := h1
      obtain ⟨a, b⟩ := xRep_zero.1 h2
      refine ⟨?_, ?_⟩
      · rw [b, mul_zero, zero_sub]
        exact mul_ne_zero (mul_ne_zero four h0) (pow_ne_zero _ (neg_ne_zero.2 (mul_ne_zero hz a)))
      · rw [b, hx]; ring
    | some x2 y2 n2 =>
      obtain ⟨z1, e1⟩ := h1
      obtain ⟨z2, e2⟩ := h2
      obtain ⟨n2', en2⟩ := mont_neg n2
      have c1 := mont_eq.1 n1.1
      have c2 := mont_eq.1 n2.1
      by_cases hx : x1 = x2
      · subst hx
        have hyy : y1 = y2 ∨ y1 = -y2 := by
          have : (y1 - y2) * (y1 + y2) = 0 := by linear_combination c1 - c2
          rcases mul_eq_zero.1 this with h | h
          · exact Or.inl (sub_eq_zero.1 h)
          · exact Or.inr (by linear_combination h)
        rcases hyy with rfl | rfl
        · exfalso
          rw [sub_self] at hD'
          cases hD'
        · have hsum : (Affine.Point.some x1 (-y2) n1 : (mont A).Point) + Affine.Point.some x1 y2 n2 = 0 := by
            rw [add_eq_zero_iff_eq_neg, en2]
          rw [hsum, xRep_zero]
          rw [sub_eq_add_neg, en2] at hD'
          have hy0 : -y2 ≠ 0 := by
            intro hy
            have : (Affine.Point.some x1 (-y2) n1 : (mont A).Point) + Affine.Point.some x1 (-y2) n2' = 0 := by
              apply Point.add_self_of_Y_eq
              rw [mont_negY]; rw [hy]; simp
            rw [this] at hD'
            cases hD'
          obtain ⟨x3, y3, h3, es, ev⟩ := mont_dbl two n1 hy0
          have hD2 : Affine.Point.some x3 y3 h3 = Affine.Point.some dx dy' hd' := es.symm.trans hD'
          have hx3 : x3 = dx := by injection hD2
          subst hx3
          refine ⟨?_, ?_⟩
          · have hne : (x1 ^ 2 - 1) ^ 2 ≠ 0 := by
              rw [← ev]
              exact mul_ne_zero (mul_ne_zero four (pow_ne_zero _ hy0)) h0
            have : 4 * (X1 * X2 - Z1 * Z2) ^ 2 = 4 * (Z1 * Z2) ^ 2 * (x1 ^ 2 - 1) ^ 2 := by rw [e1, e2]; ring
            rw [this]
            exact mul_ne_zero (mul_ne_zero four (pow_ne_zero _ (mul_ne_zero z1 z2))) hne
          · rw [e1, e2]; ring
      · obtain ⟨x3, y3, h3, es, ev⟩ := mont_add n1 n2 hx
        obtain ⟨x4, y4, h4, es', ev'⟩ := mont_add n1 n2' hx
        rw [sub_eq_add_neg, en2, es'] at hD'
        have hx4 : x4 = dx := by injection hD'
        subst hx4
        rw [es]
        have hne : x1 - x2 ≠ 0 := sub_ne_zero.2 hx
        refine ⟨?_, ?_⟩
        · rw [e1, e2]
          have : x1 * Z1 * Z2 - Z1 * (x2 * Z2) = (x1 - x2) * (Z1 * Z2) := by ring
          rw [this]
          exact mul_ne_zero (mul_ne_zero four h0) (pow_ne_zero _ (mul_ne_zero hne (mul_ne_zero z1 z2)))
        · rw [e1, e2]
          have key : x3 * x4 * (x1 - x2) ^ 2 = (x1 * x2 - 1) ^ 2 := by
            have h2 : (x1 - x2) ^ 2 ≠ 0 := pow_ne_zero _ hne
            apply mul_left_cancel₀ h2
            have a1 : (x1 - x2) ^ 2 * x3 = (y1 - y2) ^ 2 - (x1 - x2) ^ 2 * (A + x1 + x2) := by linear_combination ev
            have a2 : (x1 - x2) ^ 2 * x4 = (y1 + y2) ^ 2 - (x1 - x2) ^ 2 * (A + x1 + x2) := by linear_combination ev'
            have a3 : (x1 - x2) ^ 2 * (x3 * x4 * (x1 - x2) ^ 2) = ((x1 - x2) ^ 2 * x3) * ((x1 - x2) ^ 2 * x4) := by ring
            rw [a3, a1, a2]
            have b1 : ((y1 - y2) ^ 2 - (x1 - x2) ^ 2 * (A + x1 + x2)) * ((y1 + y2) ^ 2 - (x1 - x2) ^ 2 * (A + x1 + x2)) =
              (y1 ^ 2 - y2 ^ 2) ^ 2 - 2 * (x1 - x2) ^ 2 * (A + x1 + x2) * (y1 ^ 2 + y2 ^ 2) + ((x1 - x2) ^ 2 * (A + x1 + x2)) ^ 2 := by ring
            rw [b1, c1, c2]
            ring
          linear_combination (-4 * (Z1 * Z2) ^ 2) * key

/-- doubling. -/
theorem xRep_dbl {A : K} (two : (2 : K) ≠ 0) (hp : A + 2 ≠ 0) (hm : A - 2 ≠ 0) {X Z : K} {Q : (mont A).Point} (h : XRep X Z Q) :
    XRep ((X ^ 2 - Z ^ 2) ^ 2) (4 * X * Z * (X ^ 2 + A * X * Z + Z ^ 2)) (Q + Q) := by
  have four : (4 : K) ≠ 0 := by
    have : (4 : K) = 2 * 2 := by norm_num
    rw [this]; exact mul_ne_zero two two
  cases Q with
  | zero =>
    have e0 : (Affine.Point.zero : (mont A).Point) = 0 := rfl
    rw [e0, add_zero, xRep_zero]
    obtain ⟨a, b⟩ := h
    rw [b]
    refine ⟨?_, by ring⟩
    have : (X ^ 2 - 0 ^ 2) ^ 2 = X ^ 4 := by ring
    rw [this]; exact pow_ne_zero _ a
  | some x y n =>
    obtain ⟨hz, rfl⟩ := h
    have c := mont_eq.1 n.1
    by_cases hy : y = 0
    · have : (Affine.Point.some x y n : (mont A).Point) + Affine.Point.some x y n = 0 := by
        apply Point.add_self_of_Y_eq
        rw [mont_negY, hy]; simp
      rw [this, xRep_zero]
      rw [hy] at c
      have c' : x * (x ^ 2 + A * x + 1) = 0 := by linear_combination -c
      refine ⟨?_, ?_⟩
      · have e : ((x * Z) ^ 2 - Z ^ 2) ^ 2 = Z ^ 4 * (x ^ 2 - 1) ^ 2 := by ring
        rw [e]
        refine mul_ne_zero (pow_ne_zero _ hz) (pow_ne_zero _ ?_)
        intro h1
        rcases mul_eq_zero.1 c' with h | h
        · rw [h] at h1
          have : (1 : K) = 0 := by linear_combination -h1
          exact one_ne_zero this
        · have h3 : (x - 1) * (x + 1) = 0 := by linear_combination h1
          rcases mul_eq_zero.1 h3 with h4 | h4
          · have : x = 1 := by linear_combination h4
            rw [this] at h
            exact hp (by linear_combination h)
          · have : x = -1 := by linear_combination h4
            rw [this] at h
            exact hm (by linear_combination -h)
      · linear_combination 4 * Z ^ 4 * c'
    · obtain ⟨x3, y3, h3, es, ev⟩ := mont_dbl two n hy
      rw [es]
      have e : 4 * (x * Z) * Z * ((x * Z) ^ 2 + A * (x * Z) * Z + Z ^ 2) = Z ^ 4 * (4 * y ^ 2) := by rw [c]; ring
      refine ⟨?_, ?_⟩
      · rw [e]; exact mul_ne_zero (pow_ne_zero _ hz) (mul_ne_zero four (pow_ne_zero _ hy))
      · rw [e]; linear_combination (-Z ^ 4) * ev

end Verif.C25519
