import Mathlib.AlgebraicGeometry.EllipticCurve.Affine.Point

/-!
# Lines through points of an elliptic curve as functions

For points with the sums below not infinity, the functions `ℓ_{A,B} ℓ_{C,D} ℓ_{A+B,C+D} v_{A+C} v_{B+D}` and
`ℓ_{A,C} ℓ_{B,D} ℓ_{A+C,B+D} v_{A+B} v_{C+D}` agree up to a constant, `ℓ` being lines through two points and `v` vertical lines.
-/

namespace Verif.EC

open WeierstrassCurve WeierstrassCurve.Affine WeierstrassCurve.Affine.CoordinateRing Polynomial

variable {F : Type} [Field F] [DecidableEq F] {W : Affine F}

/-- the ideal of the functions that vanish at a point. -/
noncomputable def ptIdeal : W.Point → Ideal W.CoordinateRing
  | .zero => ⊤
  | .some x y _ => XYIdeal W x (C y)

/-- the line through two affine points. -/
noncomputable def lineFn : W.Point → W.Point → W.CoordinateRing
  | .some x₁ y₁ _, .some x₂ y₂ _ => YClass W (linePolynomial x₁ y₁ (W.slope x₁ x₂ y₁ y₂))
  | _, _ => 1

/-- the vertical line through an affine point. -/
noncomputable def vertFn : W.Point → W.CoordinateRing
  | .zero => 1
  | .some x _ _ => XClass W x

theorem vertFn_ne (A : W.Point) : vertFn A ≠ 0 := by
  cases A with
  | zero => exact one_ne_zero
  | some x y h => exact XClass_ne_zero x

theorem not_neg {x₁ y₁ x₂ y₂ : F} {h₁ : W.Nonsingular x₁ y₁} {h₂ : W.Nonsingular x₂ y₂}
    (h : (Point.some x₁ y₁ h₁ + Point.some x₂ y₂ h₂ : W.Point) ≠ 0) : ¬(x₁ = x₂ ∧ y₁ = W.negY x₂ y₂) := by
  rintro ⟨hx, hy⟩
  exact h (Point.add_of_Y_eq hx hy)

theorem ptIdeal_add {A B : W.Point} (hA : A ≠ 0) (hB : B ≠ 0) (h : A + B ≠ 0) :
    Ideal.span {vertFn (A + B)} * (ptIdeal A * ptIdeal B) = Ideal.span {lineFn A B} * ptIdeal (A + B) := by
  cases A with
  | zero => exact absurd rfl hA
  | some x₁ y₁ h₁ =>
    cases B with
    | zero => exact absurd rfl hB
    | some x₂ y₂ h₂ =>
      have hn := not_neg h
      rw [Point.add_some hn]
      exact XYIdeal_mul_XYIdeal h₁.1 h₂.1 hn

theorem ptIdeal_neg (A : W.Point) : ∃ J, J * ptIdeal A = Ideal.span {vertFn A} := by
  cases A with
  | zero => exact ⟨⊤, by simp [ptIdeal, vertFn]⟩
  | some x y h => exact ⟨_, XYIdeal_neg_mul h⟩

theorem ptIdeal_cancel {A : W.Point} {f g : W.CoordinateRing} (h : Ideal.span {f} * ptIdeal A = Ideal.span {g} * ptIdeal A) :
    Ideal.span {f} = Ideal.span {g} := by
  obtain ⟨J, hJ⟩ := ptIdeal_neg A
  have : Ideal.span {vertFn A} * Ideal.span {f} = Ideal.span {vertFn A} * Ideal.span {g} := by
    rw [← hJ, mul_assoc, mul_assoc, mul_comm (ptIdeal A), mul_comm (ptIdeal A), h]
  exact (Ideal.span_singleton_mul_right_inj (vertFn_ne A)).mp this

theorem four_aux {M : Type*} [CommSemiring M] {vAB vCD vS vAC vBD lAB lCD lS lAC lBD lS' IA IB IC ID IAB ICD IAC IBD IS : M}
    (h1 : vAB * (IA * IB) = lAB * IAB) (h2 : vCD * (IC * ID) = lCD * ICD) (h3 : vS * (IAB * ICD) = lS * IS)
    (h4 : vAC * (IA * IC) = lAC * IAC) (h5 : vBD * (IB * ID) = lBD * IBD) (h6 : vS * (IAC * IBD) = lS' * IS) :
    (lAB * lCD * lS * (vAC * vBD)) * IS = (lAC * lBD * lS' * (vAB * vCD)) * IS := by
  have e1 : vAB * vCD * vS * (IA * IB * IC * ID) = lAB * lCD * lS * IS := by
    calc _ = (vAB * (IA * IB)) * (vCD * (IC * ID)) * vS := by ring
      _ = lAB * lCD * (vS * (IAB * ICD)) := by rw [h1, h2]; ring
      _ = _ := by rw [h3]; ring
  have e2 : vAC * vBD * vS * (IA * IB * IC * ID) = lAC * lBD * lS' * IS := by
    calc _ = (vAC * (IA * IC)) * (vBD * (IB * ID)) * vS := by ring
      _ = lAC * lBD * (vS * (IAC * IBD)) := by rw [h4, h5]; ring
      _ = _ := by rw [h6]; ring
  calc _ = vAC * vBD * (lAB * lCD * lS * IS) := by ring
    _ = vAB * vCD * (vAC * vBD * vS * (IA * IB * IC * ID)) := by rw [← e1]; ring
    _ = _ := by rw [e2]; ring

theorem four_span {A B C D : W.Point} (hA : A ≠ 0) (hB : B ≠ 0) (hC : C ≠ 0) (hD : D ≠ 0) (hAB : A + B ≠ 0) (hCD : C + D ≠ 0)
    (hAC : A + C ≠ 0) (hBD : B + D ≠ 0) (hS : A + B + (C + D) ≠ 0) :
    Ideal.span {lineFn A B * lineFn C D * lineFn (A + B) (C + D) * (vertFn (A + C) * vertFn (B + D))} =
      Ideal.span {lineFn A C * lineFn B D * lineFn (A + C) (B + D) * (vertFn (A + B) * vertFn (C + D))} := by
  have e : A + C + (B + D) = A + B + (C + D) := by abel
  have h6 := ptIdeal_add hAC hBD (e ▸ hS)
  rw [e] at h6
  have := four_aux (ptIdeal_add hA hB hAB) (ptIdeal_add hC hD hCD) (ptIdeal_add hAB hCD hS) (ptIdeal_add hA hC hAC)
    (ptIdeal_add hB hD hBD) h6
  simp only [Ideal.span_singleton_mul_span_singleton] at this
  exact ptIdeal_cancel this

/-- the units of the coordinate ring are the constants. -/
theorem unit_const {u : W.CoordinateRing} (hu : IsUnit u) : ∃ c : F, c ≠ 0 ∧ u = mk W (C (C c)) := by
  have hn : IsUnit (Algebra.norm F[X] u) := hu.map (Algebra.norm F[X])
  obtain ⟨p, q, rfl⟩ := exists_smul_basis_eq u
  have hd := degree_eq_zero_of_isUnit hn
  rw [degree_norm_smul_basis] at hd
  have hq : q = 0 := by
    by_contra hq
    have h1 : 2 • q.degree + 3 ≤ 0 := hd ▸ le_max_right _ _
    rw [degree_eq_natDegree hq] at h1
    have h2 : (2 • (q.natDegree : WithBot ℕ) + 3) = ((2 * q.natDegree + 3 : ℕ) : WithBot ℕ) := by
      push_cast; rw [two_nsmul, two_mul]
    rw [h2] at h1
    have : 2 * q.natDegree + 3 ≤ 0 := by exact_mod_cast h1
    omega
  subst hq
  have h1 : 2 • p.degree ≤ 0 := hd ▸ le_max_left _ _
  have hp : p.degree ≤ 0 := by
    by_cases h : p = 0
    · rw [h, degree_zero]; exact bot_le
    rw [degree_eq_natDegree h] at h1 ⊢
    have h2 : (2 • (p.natDegree : WithBot ℕ)) = ((2 * p.natDegree : ℕ) : WithBot ℕ) := by
      push_cast; rw [two_nsmul, two_mul]
    rw [h2] at h1
    have : 2 * p.natDegree ≤ 0 := by exact_mod_cast h1
    exact_mod_cast (by omega : p.natDegree ≤ 0)
  rw [eq_C_of_degree_le_zero hp] at hu ⊢
  refine ⟨p.coeff 0, ?_, ?_⟩
  · intro h0
    rw [h0] at hu
    simp at hu
  · rw [zero_smul, add_zero, CoordinateRing.smul, mul_one]

theorem four_fn {A B C D : W.Point} (hA : A ≠ 0) (hB : B ≠ 0) (hC : C ≠ 0) (hD : D ≠ 0) (hAB : A + B ≠ 0) (hCD : C + D ≠ 0)
    (hAC : A + C ≠ 0) (hBD : B + D ≠ 0) (hS : A + B + (C + D) ≠ 0) : ∃ c : F, c ≠ 0 ∧
    lineFn A B * lineFn C D * lineFn (A + B) (C + D) * (vertFn (A + C) * vertFn (B + D)) * mk W (Polynomial.C (Polynomial.C c)) =
      lineFn A C * lineFn B D * lineFn (A + C) (B + D) * (vertFn (A + B) * vertFn (C + D)) := by
  obtain ⟨u, hu⟩ := Ideal.span_singleton_eq_span_singleton.mp (four_span hA hB hC hD hAB hCD hAC hBD hS)
  obtain ⟨c, hc, e⟩ := unit_const u.isUnit
  exact ⟨c, hc, by rw [← e, hu]⟩

/-! ## evaluation -/

variable {K : Type} [Field K] (e : F →+* K) {x₀ y₀ : K}

/-- evaluation of a function at a point over an extension. -/
noncomputable def evalFn (h : W.polynomial.eval₂ (eval₂RingHom e x₀) y₀ = 0) : W.CoordinateRing →+* K :=
  AdjoinRoot.lift (eval₂RingHom e x₀) y₀ h

variable (h : W.polynomial.eval₂ (eval₂RingHom e x₀) y₀ = 0)

theorem evalFn_const (c : F) : evalFn e h (mk W (C (C c))) = e c := by
  rw [evalFn, CoordinateRing.mk, AdjoinRoot.lift_mk]; simp

theorem evalFn_vert {x y : F} (hn : W.Nonsingular x y) : evalFn e h (vertFn (.some x y hn)) = x₀ - e x := by
  rw [evalFn, vertFn, XClass, CoordinateRing.mk, AdjoinRoot.lift_mk]; simp

theorem evalFn_line {x₁ y₁ x₂ y₂ : F} (h₁ : W.Nonsingular x₁ y₁) (h₂ : W.Nonsingular x₂ y₂) :
    evalFn e h (lineFn (.some x₁ y₁ h₁) (.some x₂ y₂ h₂)) = y₀ - e y₁ - e (W.slope x₁ x₂ y₁ y₂) * (x₀ - e x₁) := by
  rw [evalFn, lineFn, YClass, CoordinateRing.mk, AdjoinRoot.lift_mk, linePolynomial]
  simp
  ring

end Verif.EC
