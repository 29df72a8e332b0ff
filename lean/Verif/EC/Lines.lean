import Verif.EC.Cocycle
import Verif.EC.Jacobian

/-!
# Lines on `y² = x³ + b`: Vieta's formulas, reciprocity of two lines, and maps `(x, y) ↦ (σ x / c², σ y / c³)`
-/

namespace Verif.EC

open WeierstrassCurve WeierstrassCurve.Affine

section
variable {F : Type} [Field F] {b : F}

theorem sw_negY (x y : F) : (sw 0 b).negY x y = -y := by simp [Affine.negY, sw]

theorem sw_a1 : (sw 0 b).a₁ = 0 := rfl
theorem sw_a2 : (sw 0 b).a₂ = 0 := rfl
theorem sw_a3 : (sw 0 b).a₃ = 0 := rfl
theorem sw_a4 : (sw 0 b).a₄ = 0 := rfl
theorem sw_a6 : (sw 0 b).a₆ = b := rfl

/-- `a₁`, `a₂`, `a₃` are the abscissas of the points of `y² = x³ + b` on the line `y = l x + m`. -/
structure Vieta (b l m a₁ a₂ a₃ : F) : Prop where
  e1 : a₁ + a₂ + a₃ = l ^ 2
  e2 : a₁ * a₂ + a₁ * a₃ + a₂ * a₃ = -2 * l * m
  e3 : a₁ * a₂ * a₃ = m ^ 2 - b

/-- two lines: the product of the first over the points of the second, and of the second over the points of the first. -/
theorem reciprocity {l m a₁ a₂ a₃ l' m' p₁ p₂ p₃ : F} (h : Vieta b l m a₁ a₂ a₃) (h' : Vieta b l' m' p₁ p₂ p₃) :
    ((l' * p₁ + m') - (l * p₁ + m)) * ((l' * p₂ + m') - (l * p₂ + m)) * ((l' * p₃ + m') - (l * p₃ + m)) =
      -(((l * a₁ + m) - (l' * a₁ + m')) * ((l * a₂ + m) - (l' * a₂ + m')) * ((l * a₃ + m) - (l' * a₃ + m'))) := by
  obtain ⟨h1, h2, h3⟩ := h
  obtain ⟨k1, k2, k3⟩ := h'
  have e : ∀ x y z d e : F, (d * x + e) * (d * y + e) * (d * z + e) =
      d ^ 3 * (x * y * z) + d ^ 2 * e * (x * y + x * z + y * z) + d * e ^ 2 * (x + y + z) + e ^ 3 := by intros; ring
  have e1 : ∀ x : F, (l' * x + m') - (l * x + m) = (l' - l) * x + (m' - m) := by intro; ring
  have e2 : ∀ x : F, (l * x + m) - (l' * x + m') = (l - l') * x + (m - m') := by intro; ring
  rw [e1, e1, e1, e2, e2, e2, e, e, h1, h2, h3, k1, k2, k3]
  ring

variable [DecidableEq F]

theorem vieta {x₁ y₁ x₂ y₂ : F} {h₁ : (sw 0 b).Nonsingular x₁ y₁} {h₂ : (sw 0 b).Nonsingular x₂ y₂} {x₃ y₃ : F}
    {h₃ : (sw 0 b).Nonsingular x₃ y₃} (h : (Point.some x₁ y₁ h₁ + Point.some x₂ y₂ h₂ : (sw 0 b).Point) = .some x₃ y₃ h₃) :
    Vieta b ((sw 0 b).slope x₁ x₂ y₁ y₂) (y₁ - (sw 0 b).slope x₁ x₂ y₁ y₂ * x₁) x₁ x₂ x₃ ∧
      y₂ - y₁ = (sw 0 b).slope x₁ x₂ y₁ y₂ * (x₂ - x₁) ∧ -y₃ - y₁ = (sw 0 b).slope x₁ x₂ y₁ y₂ * (x₃ - x₁) := by
  have hn := not_neg (by rw [h]; exact Point.some_ne_zero h₃)
  have hp := addPolynomial_slope h₁.1 h₂.1 hn
  rw [addPolynomial_eq, neg_inj, Cubic.prod_X_sub_C_eq, Cubic.toPoly_injective, Cubic.ext_iff] at hp
  rw [Point.add_some hn, Point.some.injEq] at h
  obtain ⟨hx, hy⟩ := h
  rw [hx] at hp
  rw [addY, sw_negY, negAddY, hx] at hy
  obtain ⟨-, p1, p2, p3⟩ := hp
  simp only [sw_a1, sw_a2, sw_a3, sw_a4, sw_a6] at p1 p2 p3
  refine ⟨⟨?_, ?_, ?_⟩, ?_, ?_⟩
  · linear_combination p1
  · linear_combination (-1 : F) * p2
  · linear_combination p3
  · by_cases hxx : x₁ = x₂
    · have hy' : y₁ ≠ (sw 0 b).negY x₂ y₂ := fun h => hn ⟨hxx, h⟩
      rw [Y_eq_of_Y_ne h₁.1 h₂.1 hxx hy', hxx]; ring
    · rw [slope_of_X_ne hxx]
      have := sub_ne_zero.mpr hxx
      field_simp
      ring
  · linear_combination hy
end

theorem Vieta.map {F K : Type} [Field F] [Field K] {b : F} {b' : K} (e : F →+* K) {c : K} (hc : c ≠ 0) (he : e b = c ^ 6 * b')
    {l m a₁ a₂ a₃ : F} (h : Vieta b l m a₁ a₂ a₃) :
    Vieta b' (e l / c) (e m / c ^ 3) (e a₁ / c ^ 2) (e a₂ / c ^ 2) (e a₃ / c ^ 2) := by
  have h1 := congrArg e h.e1
  have h2 := congrArg e h.e2
  have h3 := congrArg e h.e3
  simp only [map_add, map_mul, map_pow, map_sub, map_neg, map_ofNat, he] at h1 h2 h3
  refine ⟨?_, ?_, ?_⟩
  · field_simp; linear_combination h1
  · field_simp; linear_combination h2
  · field_simp; linear_combination h3

/-! ## maps between curves -/

section
variable {F K : Type} [Field F] [DecidableEq F] [Field K] [DecidableEq K] {b : F} {b' : K} (e : F →+* K) {c : K}

theorem slope_map (hc : c ≠ 0) (x₁ x₂ y₁ y₂ : F) :
    (sw 0 b').slope (e x₁ / c ^ 2) (e x₂ / c ^ 2) (e y₁ / c ^ 3) (e y₂ / c ^ 3) = e ((sw 0 b).slope x₁ x₂ y₁ y₂) / c := by
  have hx : e x₁ / c ^ 2 = e x₂ / c ^ 2 ↔ x₁ = x₂ := by
    rw [div_left_inj' (pow_ne_zero _ hc)]; exact e.injective.eq_iff
  have hy : e y₁ / c ^ 3 = -(e y₂ / c ^ 3) ↔ y₁ = -y₂ := by
    rw [← neg_div, div_left_inj' (pow_ne_zero _ hc), ← map_neg]; exact e.injective.eq_iff
  rw [Affine.slope, Affine.slope, sw_negY, sw_negY, sw_negY, sw_negY]
  simp only [hx, hy]
  split_ifs with h1 h2
  · rw [map_zero, zero_div]
  · simp only [sw_a1, sw_a2, sw_a4, mul_zero, zero_mul, add_zero, sub_zero, map_div₀, map_mul, map_pow, map_ofNat, map_sub, map_neg, sub_neg_eq_add]
    rw [← add_div, map_add]
    by_cases h0 : e y₁ + e y₁ = 0
    · rw [h0]; simp
    · field_simp
  · rw [map_div₀, map_sub, map_sub]
    have h0 : e x₁ - e x₂ ≠ 0 := by rw [← map_sub, Ne, map_eq_zero]; exact sub_ne_zero.mpr h1
    have h0' : e x₁ / c ^ 2 - e x₂ / c ^ 2 ≠ 0 := by rw [← sub_div]; exact div_ne_zero h0 (pow_ne_zero _ hc)
    rw [div_div, div_eq_div_iff h0' (mul_ne_zero h0 hc)]
    field_simp

theorem sw_nonsingular_iff {x y : F} (h2 : (2 : F) ≠ 0) (h3 : (3 : F) ≠ 0) (hb : b ≠ 0) :
    (sw 0 b).Nonsingular x y ↔ y ^ 2 = x ^ 3 + b := by
  rw [nonsingular_iff, sw_equation]
  simp only [sw]
  constructor
  · rintro ⟨h, -⟩; linear_combination h
  · intro h
    refine ⟨by linear_combination h, ?_⟩
    by_contra hn
    simp only [not_or, not_not] at hn
    obtain ⟨n1, n2⟩ := hn
    have hx : x = 0 := by
      have : (3 : F) * x ^ 2 = 0 := by linear_combination (-1 : F) * n1
      rcases mul_eq_zero.mp this with h | h
      · exact absurd h h3
      · exact pow_eq_zero_iff (by norm_num) |>.mp h
    have hy : y = 0 := by
      have : (2 : F) * y = 0 := by linear_combination n2
      rcases mul_eq_zero.mp this with h | h
      · exact absurd h h2
      · exact h
    rw [hx, hy] at h
    exact hb (by linear_combination (-1 : F) * h)

theorem map_nonsing (h2 : (2 : K) ≠ 0) (h3 : (3 : K) ≠ 0) (hb : b' ≠ 0) (hc : c ≠ 0) (he : e b = c ^ 6 * b') {x y : F}
    (h : (sw 0 b).Nonsingular x y) : (sw 0 b').Nonsingular (e x / c ^ 2) (e y / c ^ 3) := by
  rw [sw_nonsingular_iff h2 h3 hb]
  have h1 := (sw_equation _ _ _ _).mp h.1
  rw [zero_mul, add_zero] at h1
  have h2 := congrArg e h1
  rw [map_add, map_pow, map_pow, he] at h2
  field_simp
  linear_combination h2

/-- `(x, y) ↦ (σ x / c², σ y / c³)`. -/
noncomputable def mapPt (h2 : (2 : K) ≠ 0) (h3 : (3 : K) ≠ 0) (hb : b' ≠ 0) (hc : c ≠ 0) (he : e b = c ^ 6 * b') :
    (sw 0 b).Point → (sw 0 b').Point
  | .zero => .zero
  | .some x y h => .some (e x / c ^ 2) (e y / c ^ 3) (map_nonsing e h2 h3 hb hc he h)

variable (h2 : (2 : K) ≠ 0) (h3 : (3 : K) ≠ 0) (hb : b' ≠ 0) (hc : c ≠ 0) (he : e b = c ^ 6 * b')

theorem mapPt_zero : mapPt e h2 h3 hb hc he .zero = .zero := rfl

theorem mapPt_some {x y : F} (h : (sw 0 b).Nonsingular x y) :
    mapPt e h2 h3 hb hc he (.some x y h) = .some (e x / c ^ 2) (e y / c ^ 3) (map_nonsing e h2 h3 hb hc he h) := rfl

theorem mapPt_add (A B : (sw 0 b).Point) : mapPt e h2 h3 hb hc he (A + B) = mapPt e h2 h3 hb hc he A + mapPt e h2 h3 hb hc he B := by
  cases A with
  | zero =>
    rw [← Point.zero_def, zero_add]
    exact (zero_add _).symm
  | some x₁ y₁ h₁ =>
    cases B with
    | zero =>
      rw [← Point.zero_def, add_zero]
      exact (add_zero _).symm
    | some x₂ y₂ h₂ =>
      by_cases hxy : x₁ = x₂ ∧ y₁ = (sw 0 b).negY x₂ y₂
      · rw [Point.add_of_Y_eq hxy.1 hxy.2]
        simp only [mapPt]
        rw [Point.add_of_Y_eq (by rw [hxy.1]) (by rw [hxy.2, sw_negY, sw_negY, map_neg, neg_div])]
        rfl
      · have hxy' : ¬(e x₁ / c ^ 2 = e x₂ / c ^ 2 ∧ e y₁ / c ^ 3 = (sw 0 b').negY (e x₂ / c ^ 2) (e y₂ / c ^ 3)) := by
          rw [sw_negY, ← neg_div, div_left_inj' (pow_ne_zero _ hc), div_left_inj' (pow_ne_zero _ hc), ← map_neg, e.injective.eq_iff,
            e.injective.eq_iff]
          rwa [sw_negY] at hxy
        rw [Point.add_some hxy]
        simp only [mapPt]
        rw [Point.add_some hxy', Point.some.injEq, slope_map (b := b) e hc]
        simp only [addY, negAddY, sw_negY, addX]
        simp only [sw_a1, sw_a2, zero_mul, add_zero, sub_zero, map_sub, map_add, map_mul, map_pow, map_neg]
        constructor
        · field_simp
        · field_simp

theorem mapPt_smul (n : ℕ) (A : (sw 0 b).Point) : mapPt e h2 h3 hb hc he (n • A) = n • mapPt e h2 h3 hb hc he A := by
  induction n with
  | zero => rw [zero_smul, zero_smul]; rfl
  | succ n ih => rw [succ_nsmul, mapPt_add, ih, succ_nsmul]
end

end Verif.EC
