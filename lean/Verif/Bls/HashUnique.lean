import Verif.Bls.HashMap

/-! The specification of hashing determines the point. -/

namespace Verif.Bls

open Verif.EC WeierstrassCurve.Affine

theorem Sswu_unique {u x y x' y' : Fq2} (h : Spec.Sswu u x y) (h' : Spec.Sswu u x' y') : x = x' ∧ y = y' := by
  have hx : x = x' := h.x_eq.trans h'.x_eq.symm
  refine ⟨hx, ?_⟩
  have hy : y ^ 2 = y' ^ 2 := by rw [h.y_sq, h'.y_sq, hx]
  rcases sq_eq_sq_iff_eq_or_eq_neg.mp hy with e | e
  · exact e
  by_cases hz : y' = 0
  · rw [e, hz, neg_zero]
  · have hz' : y ≠ 0 := by rw [e]; exact neg_ne_zero.mpr hz
    exact absurd ((h.y_sgn.resolve_left hz').trans (h'.y_sgn.resolve_left hz).symm) (by rw [e]; exact sgn0_neg hz)

theorem Iso2_unique {R : Spec.E'.Point} {T T' : Spec.E2.Point} (h : Spec.Iso2 R T) (h' : Spec.Iso2 R T') : T = T' := by
  cases R with
  | zero => exact Eq.trans h (Eq.symm h')
  | some x y hn =>
    obtain ⟨_, e⟩ := h
    obtain ⟨_, e'⟩ := h'
    rw [e, e']

theorem Iso2_exists (R : Spec.E'.Point) : ∃ T, Spec.Iso2 R T := by
  cases R with
  | zero => exact ⟨0, rfl⟩
  | some x y hn => exact ⟨_, E2_nonsing (iso_on_curve ((sw_equation _ _ _ _).mp hn.1)), rfl⟩

theorem HashesTo_unique {u0 u1 : Fq2} {P P' : Spec.E2.Point} (h : Spec.HashesTo u0 u1 P) (h' : Spec.HashesTo u0 u1 P') : P = P' := by
  obtain ⟨a0, b0, a1, b1, n0, n1, T, s0, s1, e, hP⟩ := h
  obtain ⟨a0', b0', a1', b1', n0', n1', T', s0', s1', e', hP'⟩ := h'
  obtain ⟨rfl, rfl⟩ := Sswu_unique s0 s0'
  obtain ⟨rfl, rfl⟩ := Sswu_unique s1 s1'
  rw [hP, hP', Iso2_unique e e']

theorem den_Z_ne : Spec.sswuZ ≠ 0 := fun h => sswuZ_nonsquare (h ▸ IsSquare.zero)

theorem zero_aux {K : Type*} [Field K] {x A B Z : K} (h2 : (2 : K) ≠ 0) (hA : A ≠ 0) (hB : B ≠ 0) (hZ : Z ≠ 0) (hx : x = Z⁻¹ * (-B / A)) :
    x ≠ B / (Z * A) ∧ x ≠ 0 := by
  constructor
  · rw [hx]
    intro h
    field_simp at h
    apply h2
    linear_combination -h
  · rw [hx]
    exact mul_ne_zero (inv_ne_zero hZ) (div_ne_zero (neg_ne_zero.mpr hB) hA)

/-- at `u = 0` the map returns a point with another x-coordinate than RFC 9380 says. -/
theorem swuG2_zero {u : Fe2} (hu : Fe2.Red u) (h0 : Fe2.den u = 0) : Fe2.den (swuG2 .amd64 u).1 ≠ Spec.sswuX 0 := by
  obtain ⟨t, x1, gx1, ht, hx1, hgx1, rt, rx, rg, et, eg, hq, -⟩ := swu_choice hu
  have t0 : Fe2.den t = 0 := by rw [et, h0]; ring
  have hc := (swuX1_spec rt).2.2 (by rw [t0]; ring)
  rw [← hx1] at hc
  have ex : Fe2.den x1 = Spec.sswuZ⁻¹ * (-Spec.isoB / Spec.isoA) := by
    rw [hc, (Fe2.den_mul swuZInv_spec.1 swuMinusBOverA_spec.1).2, swuZInv_spec.2, swuMinusBOverA_spec.2]
  have hqn : Fe2.isQnr .amd64 gx1 = false := by
    rw [Fe2.isQnr_spec rg, hgx1, hc]
    obtain ⟨r1, r2, r3⟩ := swuRoot_spec
    obtain ⟨k1, k2⟩ := Fe2.den_square r1
    rw [r2] at k1 k2
    refine ⟨⟨_, k2⟩, fun hz => ?_⟩
    rw [(Fe2.isZero_den k1).mpr hz] at r3
    exact absurd r3 (by decide)
  have e1 : (swuG2 .amd64 u).1 = x1 := by
    simp only [swuG2]
    rw [← ht, ← hx1, ← hgx1, hqn]
    rfl
  have hB : Spec.isoB ≠ 0 := by
    rw [Spec.isoB]
    have := nat_ne2 (n := 1012) (by decide +kernel)
    intro h
    have h' := congrArg QuadraticAlgebra.re h
    apply this
    rw [show ((1012 : ℕ) : Fq2) = ⟨((1012 : ℕ) : Fq), 0⟩ from rfl]
    have h'' : ((1012 : ℕ) : Fq) = 0 := by rw [Nat.cast_ofNat]; exact h'
    rw [h'']
    rfl
  have h2 : (2 : Fq2) ≠ 0 := by
    have := nat_ne2 (n := 2) (by decide +kernel)
    rwa [Nat.cast_ofNat] at this
  obtain ⟨k1, k2⟩ := zero_aux h2 isoA_ne hB den_Z_ne ex
  rw [e1, Spec.sswuX]
  have hx0 : Spec.x1 0 = Spec.isoB / (Spec.sswuZ * Spec.isoA) := by
    rw [Spec.x1, if_pos (by ring)]
  rw [hx0]
  split_ifs
  · exact k1
  · rw [show Spec.sswuZ * 0 ^ 2 * (Spec.isoB / (Spec.sswuZ * Spec.isoA)) = 0 from by ring]
    exact k2

end Verif.Bls
