import Mathlib.Algebra.Field.Basic
import Mathlib.Algebra.Group.Defs
import Mathlib.Tactic.Ring
import Mathlib.Tactic.LinearCombination
import Mathlib.Tactic.FieldSimp

/-!
# The group of a complete twisted Edwards curve `-x² + y² = 1 + d x² y²`

Specification used for Ed25519 (RFC 8032, section 5.1): points, the addition law, and the proof that it is a commutative group.
-/

namespace Verif.Edwards

/-- what makes the addition law complete: `-1` is a square, `d` is not. -/
class Complete {F : Type} [Field F] (d : F) : Prop where
  sqrtNegOne : ∃ i : F, i * i = -1
  nonsquare : ∀ z : F, z * z ≠ d
  two : (2 : F) ≠ 0

/-- a point of the curve. -/
@[ext] structure Point {F : Type} [Field F] (d : F) where
  x : F
  y : F
  on : y ^ 2 - x ^ 2 = 1 + d * x ^ 2 * y ^ 2

variable {F : Type} [Field F] {d : F}

/-- Bernstein and Lange: the denominators of the addition law are never zero. -/
theorem eps_ne [C : Complete d] {x1 y1 x2 y2 e : F} (h1 : y1 ^ 2 - x1 ^ 2 = 1 + d * x1 ^ 2 * y1 ^ 2)
    (h2 : y2 ^ 2 - x2 ^ 2 = 1 + d * x2 ^ 2 * y2 ^ 2) (he : e * e = 1) : d * x1 * x2 * y1 * y2 ≠ e := by
  intro h
  obtain ⟨i, hi⟩ := C.sqrtNegOne
  have e0 : e ≠ 0 := by rintro rfl; simp at he
  have hx1 : x1 ≠ 0 := by rintro rfl; apply e0; rw [← h]; ring
  have hy1 : y1 ≠ 0 := by rintro rfl; apply e0; rw [← h]; ring
  have hy2 : y2 ≠ 0 := by rintro rfl; apply e0; rw [← h]; ring
  have hsq : d * x1 ^ 2 * y1 ^ 2 * (d * x2 ^ 2 * y2 ^ 2) = 1 := by
    have : (d * x1 * x2 * y1 * y2) * (d * x1 * x2 * y1 * y2) = 1 := by rw [h, he]
    linear_combination this
  have key : ∀ s : F, s * s = 1 → d * (x1 * y1 * (i * x2 + s * y2)) ^ 2 = (i * x1 + s * e * y1) ^ 2 := by
    intro s hs
    linear_combination (d * x1 ^ 2 * y1 ^ 2 * x2 ^ 2 - x1 ^ 2) * hi + (d * x1 ^ 2 * y1 ^ 2) * h2 - h1 + hsq +
      (2 * i * s * x1 * y1) * h + (d * x1 ^ 2 * y1 ^ 2 * y2 ^ 2 - y1 ^ 2 * (e * e)) * hs - y1 ^ 2 * he
  have zero : ∀ s : F, s * s = 1 → i * x2 + s * y2 = 0 := by
    intro s hs
    by_contra hne
    have hq : x1 * y1 * (i * x2 + s * y2) ≠ 0 := mul_ne_zero (mul_ne_zero hx1 hy1) hne
    refine C.nonsquare ((i * x1 + s * e * y1) / (x1 * y1 * (i * x2 + s * y2))) ?_
    rw [div_mul_div_comm, ← pow_two, ← pow_two, ← key s hs]
    exact mul_div_cancel_right₀ d (pow_ne_zero 2 hq)
  have a := zero 1 (by ring)
  have b := zero (-1) (by ring)
  have : 2 * y2 = 0 := by linear_combination a - b
  rcases mul_eq_zero.mp this with h | h
  · exact C.two h
  · exact hy2 h

theorem den_plus [Complete d] (P Q : Point d) : 1 + d * P.x * Q.x * P.y * Q.y ≠ 0 := by
  intro h
  exact eps_ne P.on Q.on (e := -1) (by ring) (by linear_combination h)

theorem den_minus [Complete d] (P Q : Point d) : 1 - d * P.x * Q.x * P.y * Q.y ≠ 0 := by
  intro h
  exact eps_ne P.on Q.on (e := 1) (by ring) (by linear_combination -h)

theorem add_on [Complete d] (P Q : Point d) :
    ((P.y * Q.y + P.x * Q.x) / (1 - d * P.x * Q.x * P.y * Q.y)) ^ 2 - ((P.x * Q.y + P.y * Q.x) / (1 + d * P.x * Q.x * P.y * Q.y)) ^ 2 =
      1 + d * ((P.x * Q.y + P.y * Q.x) / (1 + d * P.x * Q.x * P.y * Q.y)) ^ 2 *
        ((P.y * Q.y + P.x * Q.x) / (1 - d * P.x * Q.x * P.y * Q.y)) ^ 2 := by
  have hp := den_plus P Q
  have hm := den_minus P Q
  obtain ⟨x1, y1, h1⟩ := P
  obtain ⟨x2, y2, h2⟩ := Q
  simp only at hp hm ⊢
  have key : (y1 * y2 + x1 * x2) ^ 2 * (1 + d * x1 * x2 * y1 * y2) ^ 2 - (x1 * y2 + y1 * x2) ^ 2 * (1 - d * x1 * x2 * y1 * y2) ^ 2 =
      (1 + d * x1 * x2 * y1 * y2) ^ 2 * (1 - d * x1 * x2 * y1 * y2) ^ 2 + d * (x1 * y2 + y1 * x2) ^ 2 * (y1 * y2 + x1 * x2) ^ 2 := by
    linear_combination (-((-1)*y2^4 + 4*x2^2*y2^2 + 2*x2^2*y2^2*d + (-2)*x2^2*y2^4 + (-1)*x2^4 + 2*x2^4*y2^2 + 2*x2^4*y2^4*d + 1*x2^4*y2^4*d^2 + 1*y1^2*x2^2*y2^4*d + (-1)*y1^2*x2^4*y2^2*d + (-1)*y1^2*x2^4*y2^4*d^2 + (-1)*x1^2*x2^2*y2^4*d + 1*x1^2*x2^4*y2^2*d + 1*x1^2*x2^4*y2^4*d^2 + (-1)*x1^2*y1^2*x2^4*y2^4*d^3)) * h1 +
      (-((-1) + (-1)*y2^2 + 1*x2^2 + (-2)*x2^2*y2^2 + (-1)*x2^2*y2^2*d + 1*y1^2*y2^2 + (-1)*y1^2*x2^2 + 2*y1^2*x2^2*y2^2 + 2*y1^2*x2^2*y2^2*d + (-1)*y1^4*x2^2*y2^2*d + (-1)*x1^2*y2^2 + 1*x1^2*x2^2 + (-2)*x1^2*x2^2*y2^2 + (-2)*x1^2*x2^2*y2^2*d + (-1)*x1^4*x2^2*y2^2*d)) * h2
  generalize y1 * y2 + x1 * x2 = Y at *
  generalize x1 * y2 + y1 * x2 = X at *
  generalize 1 + d * x1 * x2 * y1 * y2 = p at *
  generalize 1 - d * x1 * x2 * y1 * y2 = m at *
  field_simp
  linear_combination key

/-- the sum of two points. -/
def add [Complete d] (P Q : Point d) : Point d where
  x := (P.x * Q.y + P.y * Q.x) / (1 + d * P.x * Q.x * P.y * Q.y)
  y := (P.y * Q.y + P.x * Q.x) / (1 - d * P.x * Q.x * P.y * Q.y)
  on := add_on P Q

/-- the neutral point `(0, 1)`. -/
def zero : Point d := ⟨0, 1, by ring⟩

/-- `-(x, y) = (-x, y)`. -/
def neg (P : Point d) : Point d := ⟨-P.x, P.y, by rw [neg_sq]; exact P.on⟩

theorem add_comm' [Complete d] (P Q : Point d) : add P Q = add Q P := by
  ext
  · simp only [add]
    congr 1 <;> ring
  · simp only [add]
    congr 1 <;> ring

theorem add_zero' [Complete d] (P : Point d) : add P zero = P := by
  ext <;> simp [add, zero]

theorem add_neg' [Complete d] (P : Point d) : add P (neg P) = zero := by
  have hm := den_minus P (neg P)
  ext
  · simp only [add, zero, neg]
    rw [show P.x * P.y + P.y * -P.x = 0 by ring, zero_div]
  · simp only [add, zero, neg] at hm ⊢
    rw [div_eq_one_iff_eq hm]
    linear_combination P.on

theorem add_assoc' [Complete d] (P Q R : Point d) : add (add P Q) R = add P (add Q R) := by
  rw [Point.ext_iff]
  have hp := den_plus P Q
  have hm := den_minus P Q
  have hq := den_plus Q R
  have hn := den_minus Q R
  have hp1 := den_plus (add P Q) R
  have hm1 := den_minus (add P Q) R
  have hp2 := den_plus P (add Q R)
  have hm2 := den_minus P (add Q R)
  obtain ⟨x1, y1, h1⟩ := P
  obtain ⟨x2, y2, h2⟩ := Q
  obtain ⟨x3, y3, h3⟩ := R
  simp only [add] at *
  have kx : ((x1 * y2 + y1 * x2) * (1 - d * x1 * x2 * y1 * y2) * y3 + (y1 * y2 + x1 * x2) * (1 + d * x1 * x2 * y1 * y2) * x3) *
      ((1 + d * x2 * x3 * y2 * y3) * (1 - d * x2 * x3 * y2 * y3) + d * x1 * (x2 * y3 + y2 * x3) * y1 * (y2 * y3 + x2 * x3)) =
      (x1 * (y2 * y3 + x2 * x3) * (1 + d * x2 * x3 * y2 * y3) + y1 * (x2 * y3 + y2 * x3) * (1 - d * x2 * x3 * y2 * y3)) *
      ((1 + d * x1 * x2 * y1 * y2) * (1 - d * x1 * x2 * y1 * y2) + d * (x1 * y2 + y1 * x2) * x3 * (y1 * y2 + x1 * x2) * y3) := by
    linear_combination (-(1*y1*x2*y2^4*x3^2*y3*d + 1*y1*x2^2*y2^3*x3*d + 1*y1*x2^2*y2^3*x3^3*d + 1*y1*x2^3*y2^2*y3*d + (-1)*y1*x2^3*y2^2*y3^3*d + (-1)*y1*x2^3*y2^4*x3^2*y3*d^2 + (-1)*y1*x2^4*y2*x3*y3^2*d + (-1)*y1*x2^4*y2^3*x3*y3^2*d^2 + (-1)*x1*x2*y2^4*x3*y3^2*d + 1*x1*x2^2*y2^3*y3*d + (-1)*x1*x2^2*y2^3*y3^3*d + 1*x1*x2^3*y2^2*x3*d + 1*x1*x2^3*y2^2*x3^3*d + 1*x1*x2^3*y2^4*x3*y3^2*d^2 + 1*x1*x2^4*y2*x3^2*y3*d + 1*x1*x2^4*y2^3*x3^2*y3*d^2)) * h1 +
      (-((-1)*y1*y2*x3 + 1*y1*y2*x3*y3^2 + (-1)*y1*y2*x3^3 + (-1)*y1*y2*x3^3*y3^2*d + (-1)*y1*x2*y3 + 1*y1*x2*y3^3 + (-1)*y1*x2*x3^2*y3 + (-1)*y1*x2*x3^2*y3^3*d + 1*y1*x2*y2^2*x3^2*y3*d + 1*y1*x2^2*y2*x3*y3^2*d + 1*y1^3*y2*x3 + (-1)*y1^3*y2*x3*y3^2 + 1*y1^3*y2*x3^3 + 1*y1^3*y2*x3^3*y3^2*d + 1*y1^3*x2*y3 + (-1)*y1^3*x2*y3^3 + 1*y1^3*x2*x3^2*y3 + 1*y1^3*x2*x3^2*y3^3*d + (-1)*y1^3*x2*y2^2*x3^2*y3*d + (-1)*y1^3*x2^2*y2*x3*y3^2*d + (-1)*x1*y2*y3 + 1*x1*y2*y3^3 + (-1)*x1*y2*x3^2*y3 + (-1)*x1*y2*x3^2*y3^3*d + (-1)*x1*x2*x3 + 1*x1*x2*x3*y3^2 + (-1)*x1*x2*x3^3 + (-1)*x1*x2*x3^3*y3^2*d + (-1)*x1*x2*y2^2*x3*y3^2*d + (-1)*x1*x2^2*y2*x3^2*y3*d + 1*x1*y1^2*y2*y3 + (-1)*x1*y1^2*y2*y3^3 + 1*x1*y1^2*y2*x3^2*y3 + 1*x1*y1^2*y2*x3^2*y3^3*d + 1*x1*y1^2*x2*x3 + (-1)*x1*y1^2*x2*x3*y3^2 + 1*x1*y1^2*x2*x3^3 + 1*x1*y1^2*x2*x3^3*y3^2*d + 1*x1*y1^2*x2*y2^2*x3*y3^2*d + (-1)*x1*y1^2*x2*y2^2*x3^3*y3^2*d^2 + 1*x1*y1^2*x2^2*y2*x3^2*y3*d + 1*x1*y1^2*x2^2*y2*x3^2*y3^3*d^2 + (-1)*x1^2*y1*y2*x3 + 1*x1^2*y1*y2*x3*y3^2 + (-1)*x1^2*y1*y2*x3^3 + (-1)*x1^2*y1*y2*x3^3*y3^2*d + (-1)*x1^2*y1*x2*y3 + 1*x1^2*y1*x2*y3^3 + (-1)*x1^2*y1*x2*x3^2*y3 + (-1)*x1^2*y1*x2*x3^2*y3^3*d + 1*x1^2*y1*x2*y2^2*x3^2*y3*d + 1*x1^2*y1*x2*y2^2*x3^2*y3^3*d^2 + 1*x1^2*y1*x2^2*y2*x3*y3^2*d + (-1)*x1^2*y1*x2^2*y2*x3^3*y3^2*d^2 + (-1)*x1^3*y2*y3 + 1*x1^3*y2*y3^3 + (-1)*x1^3*y2*x3^2*y3 + (-1)*x1^3*y2*x3^2*y3^3*d + (-1)*x1^3*x2*x3 + 1*x1^3*x2*x3*y3^2 + (-1)*x1^3*x2*x3^3 + (-1)*x1^3*x2*x3^3*y3^2*d + (-1)*x1^3*x2*y2^2*x3*y3^2*d + (-1)*x1^3*x2^2*y2*x3^2*y3*d)) * h2 +
      (-(1*y1*y2*x3 + (-1)*y1*y2^3*x3 + 1*y1*x2*y3 + (-1)*y1*x2*y2^2*y3 + 1*y1*x2^2*y2*x3 + 1*y1*x2^3*y3 + (-1)*y1^3*y2*x3 + 1*y1^3*y2^3*x3 + (-1)*y1^3*x2*y3 + 1*y1^3*x2*y2^2*y3 + (-1)*y1^3*x2^2*y2*x3 + (-1)*y1^3*x2^3*y3 + 1*x1*y2*y3 + (-1)*x1*y2^3*y3 + 1*x1*x2*x3 + (-1)*x1*x2*y2^2*x3 + 1*x1*x2^2*y2*y3 + 1*x1*x2^3*x3 + (-1)*x1*y1^2*y2*y3 + 1*x1*y1^2*y2^3*y3 + (-1)*x1*y1^2*x2*x3 + 1*x1*y1^2*x2*y2^2*x3 + 1*x1*y1^2*x2*y2^2*x3*d + (-1)*x1*y1^2*x2^2*y2*y3 + (-1)*x1*y1^2*x2^2*y2*y3*d + (-1)*x1*y1^2*x2^3*x3 + 1*x1^2*y1*y2*x3 + (-1)*x1^2*y1*y2^3*x3 + 1*x1^2*y1*x2*y3 + (-1)*x1^2*y1*x2*y2^2*y3 + (-1)*x1^2*y1*x2*y2^2*y3*d + 1*x1^2*y1*x2^2*y2*x3 + 1*x1^2*y1*x2^2*y2*x3*d + 1*x1^2*y1*x2^3*y3 + 1*x1^3*y2*y3 + (-1)*x1^3*y2^3*y3 + 1*x1^3*x2*x3 + (-1)*x1^3*x2*y2^2*x3 + 1*x1^3*x2^2*y2*y3 + 1*x1^3*x2^3*x3)) * h3
  have ky : ((y1 * y2 + x1 * x2) * (1 + d * x1 * x2 * y1 * y2) * y3 + (x1 * y2 + y1 * x2) * (1 - d * x1 * x2 * y1 * y2) * x3) *
      ((1 + d * x2 * x3 * y2 * y3) * (1 - d * x2 * x3 * y2 * y3) - d * x1 * (x2 * y3 + y2 * x3) * y1 * (y2 * y3 + x2 * x3)) =
      (y1 * (y2 * y3 + x2 * x3) * (1 + d * x2 * x3 * y2 * y3) + x1 * (x2 * y3 + y2 * x3) * (1 - d * x2 * x3 * y2 * y3)) *
      ((1 + d * x1 * x2 * y1 * y2) * (1 - d * x1 * x2 * y1 * y2) - d * (x1 * y2 + y1 * x2) * x3 * (y1 * y2 + x1 * x2) * y3) := by
    linear_combination (-((-1)*y1*x2*y2^4*x3*y3^2*d + 1*y1*x2^2*y2^3*y3*d + (-1)*y1*x2^2*y2^3*y3^3*d + 1*y1*x2^3*y2^2*x3*d + 1*y1*x2^3*y2^2*x3^3*d + 1*y1*x2^3*y2^4*x3*y3^2*d^2 + 1*y1*x2^4*y2*x3^2*y3*d + 1*y1*x2^4*y2^3*x3^2*y3*d^2 + 1*x1*x2*y2^4*x3^2*y3*d + 1*x1*x2^2*y2^3*x3*d + 1*x1*x2^2*y2^3*x3^3*d + 1*x1*x2^3*y2^2*y3*d + (-1)*x1*x2^3*y2^2*y3^3*d + (-1)*x1*x2^3*y2^4*x3^2*y3*d^2 + (-1)*x1*x2^4*y2*x3*y3^2*d + (-1)*x1*x2^4*y2^3*x3*y3^2*d^2)) * h1 +
      (-((-1)*y1*y2*y3 + 1*y1*y2*y3^3 + (-1)*y1*y2*x3^2*y3 + (-1)*y1*y2*x3^2*y3^3*d + (-1)*y1*x2*x3 + 1*y1*x2*x3*y3^2 + (-1)*y1*x2*x3^3 + (-1)*y1*x2*x3^3*y3^2*d + (-1)*y1*x2*y2^2*x3*y3^2*d + (-1)*y1*x2^2*y2*x3^2*y3*d + 1*y1^3*y2*y3 + (-1)*y1^3*y2*y3^3 + 1*y1^3*y2*x3^2*y3 + 1*y1^3*y2*x3^2*y3^3*d + 1*y1^3*x2*x3 + (-1)*y1^3*x2*x3*y3^2 + 1*y1^3*x2*x3^3 + 1*y1^3*x2*x3^3*y3^2*d + 1*y1^3*x2*y2^2*x3*y3^2*d + 1*y1^3*x2^2*y2*x3^2*y3*d + (-1)*x1*y2*x3 + 1*x1*y2*x3*y3^2 + (-1)*x1*y2*x3^3 + (-1)*x1*y2*x3^3*y3^2*d + (-1)*x1*x2*y3 + 1*x1*x2*y3^3 + (-1)*x1*x2*x3^2*y3 + (-1)*x1*x2*x3^2*y3^3*d + 1*x1*x2*y2^2*x3^2*y3*d + 1*x1*x2^2*y2*x3*y3^2*d + 1*x1*y1^2*y2*x3 + (-1)*x1*y1^2*y2*x3*y3^2 + 1*x1*y1^2*y2*x3^3 + 1*x1*y1^2*y2*x3^3*y3^2*d + 1*x1*y1^2*x2*y3 + (-1)*x1*y1^2*x2*y3^3 + 1*x1*y1^2*x2*x3^2*y3 + 1*x1*y1^2*x2*x3^2*y3^3*d + (-1)*x1*y1^2*x2*y2^2*x3^2*y3*d + (-1)*x1*y1^2*x2*y2^2*x3^2*y3^3*d^2 + (-1)*x1*y1^2*x2^2*y2*x3*y3^2*d + 1*x1*y1^2*x2^2*y2*x3^3*y3^2*d^2 + (-1)*x1^2*y1*y2*y3 + 1*x1^2*y1*y2*y3^3 + (-1)*x1^2*y1*y2*x3^2*y3 + (-1)*x1^2*y1*y2*x3^2*y3^3*d + (-1)*x1^2*y1*x2*x3 + 1*x1^2*y1*x2*x3*y3^2 + (-1)*x1^2*y1*x2*x3^3 + (-1)*x1^2*y1*x2*x3^3*y3^2*d + (-1)*x1^2*y1*x2*y2^2*x3*y3^2*d + 1*x1^2*y1*x2*y2^2*x3^3*y3^2*d^2 + (-1)*x1^2*y1*x2^2*y2*x3^2*y3*d + (-1)*x1^2*y1*x2^2*y2*x3^2*y3^3*d^2 + (-1)*x1^3*y2*x3 + 1*x1^3*y2*x3*y3^2 + (-1)*x1^3*y2*x3^3 + (-1)*x1^3*y2*x3^3*y3^2*d + (-1)*x1^3*x2*y3 + 1*x1^3*x2*y3^3 + (-1)*x1^3*x2*x3^2*y3 + (-1)*x1^3*x2*x3^2*y3^3*d + 1*x1^3*x2*y2^2*x3^2*y3*d + 1*x1^3*x2^2*y2*x3*y3^2*d)) * h2 +
      (-(1*y1*y2*y3 + (-1)*y1*y2^3*y3 + 1*y1*x2*x3 + (-1)*y1*x2*y2^2*x3 + 1*y1*x2^2*y2*y3 + 1*y1*x2^3*x3 + (-1)*y1^3*y2*y3 + 1*y1^3*y2^3*y3 + (-1)*y1^3*x2*x3 + 1*y1^3*x2*y2^2*x3 + (-1)*y1^3*x2^2*y2*y3 + (-1)*y1^3*x2^3*x3 + 1*x1*y2*x3 + (-1)*x1*y2^3*x3 + 1*x1*x2*y3 + (-1)*x1*x2*y2^2*y3 + 1*x1*x2^2*y2*x3 + 1*x1*x2^3*y3 + (-1)*x1*y1^2*y2*x3 + 1*x1*y1^2*y2^3*x3 + (-1)*x1*y1^2*x2*y3 + 1*x1*y1^2*x2*y2^2*y3 + 1*x1*y1^2*x2*y2^2*y3*d + (-1)*x1*y1^2*x2^2*y2*x3 + (-1)*x1*y1^2*x2^2*y2*x3*d + (-1)*x1*y1^2*x2^3*y3 + 1*x1^2*y1*y2*y3 + (-1)*x1^2*y1*y2^3*y3 + 1*x1^2*y1*x2*x3 + (-1)*x1^2*y1*x2*y2^2*x3 + (-1)*x1^2*y1*x2*y2^2*x3*d + 1*x1^2*y1*x2^2*y2*y3 + 1*x1^2*y1*x2^2*y2*y3*d + 1*x1^2*y1*x2^3*x3 + 1*x1^3*y2*x3 + (-1)*x1^3*y2^3*x3 + 1*x1^3*x2*y3 + (-1)*x1^3*x2*y2^2*y3 + 1*x1^3*x2^2*y2*x3 + 1*x1^3*x2^3*y3)) * h3
  generalize y1 * y2 + x1 * x2 = Y at *
  generalize x1 * y2 + y1 * x2 = X at *
  generalize 1 + d * x1 * x2 * y1 * y2 = p at *
  generalize 1 - d * x1 * x2 * y1 * y2 = m at *
  generalize y2 * y3 + x2 * x3 = W at *
  generalize x2 * y3 + y2 * x3 = Z at *
  generalize 1 + d * x2 * x3 * y2 * y3 = q at *
  generalize 1 - d * x2 * x3 * y2 * y3 = n at *
  have e1 : p * m + d * X * x3 * Y * y3 = p * m * (1 + d * (X / p) * x3 * (Y / m) * y3) := by field_simp
  have e2 : p * m - d * X * x3 * Y * y3 = p * m * (1 - d * (X / p) * x3 * (Y / m) * y3) := by field_simp
  have e3 : q * n + d * x1 * Z * y1 * W = q * n * (1 + d * x1 * (Z / q) * y1 * (W / n)) := by field_simp
  have e4 : q * n - d * x1 * Z * y1 * W = q * n * (1 - d * x1 * (Z / q) * y1 * (W / n)) := by field_simp
  constructor
  · rw [div_eq_div_iff hp1 hp2]
    rw [e3, e1] at kx
    have hne : p * m * (q * n) ≠ 0 := mul_ne_zero (mul_ne_zero hp hm) (mul_ne_zero hq hn)
    refine mul_left_cancel₀ hne ?_
    have a1 : p * m * (X / p * y3 + Y / m * x3) = X * m * y3 + Y * p * x3 := by field_simp
    have a2 : q * n * (x1 * (W / n) + y1 * (Z / q)) = x1 * W * q + y1 * Z * n := by field_simp
    calc _ = (p * m * (X / p * y3 + Y / m * x3)) * (q * n * (1 + d * x1 * (Z / q) * y1 * (W / n))) := by ring
      _ = (q * n * (x1 * (W / n) + y1 * (Z / q))) * (p * m * (1 + d * (X / p) * x3 * (Y / m) * y3)) := by rw [a1, a2, kx]
      _ = _ := by ring
  · rw [div_eq_div_iff hm1 hm2]
    rw [e4, e2] at ky
    have hne : p * m * (q * n) ≠ 0 := mul_ne_zero (mul_ne_zero hp hm) (mul_ne_zero hq hn)
    refine mul_left_cancel₀ hne ?_
    have a1 : p * m * (Y / m * y3 + X / p * x3) = Y * p * y3 + X * m * x3 := by field_simp
    have a2 : q * n * (y1 * (W / n) + x1 * (Z / q)) = y1 * W * q + x1 * Z * n := by field_simp
    calc _ = (p * m * (Y / m * y3 + X / p * x3)) * (q * n * (1 - d * x1 * (Z / q) * y1 * (W / n))) := by ring
      _ = (q * n * (y1 * (W / n) + x1 * (Z / q))) * (p * m * (1 - d * (X / p) * x3 * (Y / m) * y3)) := by rw [a1, a2, ky]
      _ = _ := by ring

instance : Zero (Point d) := ⟨zero⟩
instance : Neg (Point d) := ⟨neg⟩
instance [Complete d] : Add (Point d) := ⟨add⟩

/-- the group of the curve. -/
instance [Complete d] : AddCommGroup (Point d) where
  add_assoc := add_assoc'
  zero_add P := (add_comm' zero P).trans (add_zero' P)
  add_zero := add_zero'
  neg_add_cancel P := (add_comm' (neg P) P).trans (add_neg' P)
  add_comm := add_comm'
  nsmul := nsmulRec
  zsmul := zsmulRec

theorem add_x [Complete d] (P Q : Point d) : (P + Q).x = (P.x * Q.y + P.y * Q.x) / (1 + d * P.x * Q.x * P.y * Q.y) := rfl
theorem add_y [Complete d] (P Q : Point d) : (P + Q).y = (P.y * Q.y + P.x * Q.x) / (1 - d * P.x * Q.x * P.y * Q.y) := rfl
theorem zero_x [Complete d] : (0 : Point d).x = 0 := rfl
theorem zero_y [Complete d] : (0 : Point d).y = 1 := rfl
theorem neg_x [Complete d] (P : Point d) : (-P).x = -P.x := rfl
theorem neg_y [Complete d] (P : Point d) : (-P).y = P.y := rfl

end Verif.Edwards
