import Verif.Bls.HashConsts

/-!
# Hashing to G2: what `swuMapG2` and `isogenyMapG2` compute
-/

namespace Verif.Bls

open Verif.EC

theorem exc_aux {K : Type*} [Field K] {Z u i : K} (hi : i * i = -1) (hZ : ¬ IsSquare Z) (hu : u ≠ 0) :
    Z ^ 2 * u ^ 4 + Z * u ^ 2 ≠ 0 := by
  intro h
  have hZ0 : Z ≠ 0 := by rintro rfl; exact hZ IsSquare.zero
  have h1 : Z * u ^ 2 * (Z * u ^ 2 + 1) = 0 := by linear_combination h
  rcases mul_eq_zero.mp h1 with h2 | h2
  · exact (mul_ne_zero hZ0 (pow_ne_zero 2 hu)) h2
  · apply hZ
    refine ⟨i * u⁻¹, ?_⟩
    have : u * u⁻¹ = 1 := mul_inv_cancel₀ hu
    have e : Z = -(u⁻¹ * u⁻¹) := by
      linear_combination (u⁻¹ * u⁻¹) * h2 - (Z * (u * u⁻¹) + Z) * this
    rw [e]
    linear_combination (-(u⁻¹ * u⁻¹)) * hi

theorem swuX1_spec {t : Fe2} (ht : Fe2.Red t) :
    Fe2.Red (swuX1 .amd64 t) ∧
    (Fe2.den t + Fe2.den t ^ 2 ≠ 0 → Fe2.den (swuX1 .amd64 t) =
      (-Spec.isoB / Spec.isoA) * (1 + (Fe2.den t + Fe2.den t ^ 2)⁻¹)) ∧
    (Fe2.den t + Fe2.den t ^ 2 = 0 → swuX1 .amd64 t = Fe2.mul swuZInv swuMinusBOverA) := by
  obtain ⟨h1, e1⟩ := Fe2.den_square ht
  obtain ⟨h2, e2⟩ := Fe2.den_add ht h1
  obtain ⟨h3, e3⟩ := Fe2.den_inverse h2
  obtain ⟨h4, e4⟩ := Fe2.den_add h3 Fe2.red_one
  have hs : Fe2.den t + Fe2.den t ^ 2 = Fe2.den (Fe2.add t (Fe2.square t)) := by rw [e2, e1, pow_two]
  have hz := Fe2.isZero_den h3
  rw [e3, ← hs, inv_eq_zero] at hz
  simp only [swuX1]
  by_cases h0 : Fe2.den t + Fe2.den t ^ 2 = 0
  · rw [if_pos (hz.mpr h0)]
    exact ⟨(Fe2.den_mul swuZInv_spec.1 swuMinusBOverA_spec.1).1, fun h => absurd h0 h, fun _ => rfl⟩
  · rw [if_neg (fun h => h0 (hz.mp h))]
    obtain ⟨h5, e5⟩ := Fe2.den_mul h4 swuMinusBOverA_spec.1
    refine ⟨h5, fun _ => ?_, fun h => absurd h h0⟩
    rw [e5, swuMinusBOverA_spec.2, e4, e3, Fe2.den_one, ← hs, mul_comm, add_comm (_⁻¹)]

theorem swuG_spec {x : Fe2} (hx : Fe2.Red x) : Fe2.Red (swuG x) ∧ Fe2.den (swuG x) = Spec.g' (Fe2.den x) := by
  obtain ⟨h1, e1⟩ := Fe2.den_square hx
  obtain ⟨h2, e2⟩ := Fe2.den_add h1 swuA_spec.1
  obtain ⟨h3, e3⟩ := Fe2.den_mul h2 hx
  obtain ⟨h4, e4⟩ := Fe2.den_add h3 swuB_spec.1
  rw [swuG]
  refine ⟨h4, ?_⟩
  rw [e4, e3, e2, e1, swuA_spec.2, swuB_spec.2, Spec.g']
  ring

/-- `y`, made to have the sign of `u`. -/
theorem withSign {y u : Fe2} (hy : Fe2.Red y) (hu : Fe2.Red u) :
    ∃ y', (if Fe2.sign y != Fe2.sign u then Fe2.neg y else y) = y' ∧ Fe2.Red y' ∧
      Fe2.den y' ^ 2 = Fe2.den y ^ 2 ∧ (Fe2.den y' = 0 ∨ Spec.sgn0 (Fe2.den y') = Spec.sgn0 (Fe2.den u)) := by
  have sy := Fe2.sign_spec hy
  have su := Fe2.sign_spec hu
  have ly := sgn0_le (Fe2.den y)
  have lu := sgn0_le (Fe2.den u)
  obtain ⟨hn, en⟩ := Fe2.den_neg hy
  by_cases h : Fe2.sign y = Fe2.sign u
  · refine ⟨y, by rw [h]; simp, hy, rfl, Or.inr ?_⟩
    rw [h] at sy
    by_cases hs : Fe2.sign u = true
    · rw [sy.mp hs, su.mp hs]
    · have a : Spec.sgn0 (Fe2.den y) ≠ 0 := fun k => hs (sy.mpr k)
      have b : Spec.sgn0 (Fe2.den u) ≠ 0 := fun k => hs (su.mpr k)
      omega
  · refine ⟨Fe2.neg y, by rw [if_pos (by simpa using h)], hn, by rw [en]; ring, ?_⟩
    by_cases h0 : Fe2.den y = 0
    · left; rw [en, h0, neg_zero]
    · right
      have hne := sgn0_neg h0
      have ln := sgn0_le (-Fe2.den y)
      rw [en]
      by_cases hs : Fe2.sign u = true
      · have a : Spec.sgn0 (Fe2.den y) ≠ 0 := fun k => h (by rw [sy.mpr k, hs])
        have b := su.mp hs
        omega
      · have b : Spec.sgn0 (Fe2.den u) ≠ 0 := fun k => hs (su.mpr k)
        have a : Spec.sgn0 (Fe2.den y) = 0 := by
          by_contra k
          apply h
          rw [Bool.eq_false_iff.mpr hs, Bool.eq_false_iff.mpr (fun k' => k (sy.mp k'))]
        omega

theorem isSquare_def {a : Fq2} : IsSquare a ↔ ∃ y, y * y = a :=
  ⟨fun ⟨y, h⟩ => ⟨y, h.symm⟩, fun ⟨y, h⟩ => ⟨y, h.symm⟩⟩

/-- the two squares the map chooses from. -/
theorem swu_choice {u : Fe2} (hu : Fe2.Red u) :
    ∃ t x1 gx1, t = Fe2.mul (Fe2.square u) swuZ ∧ x1 = swuX1 .amd64 t ∧ gx1 = swuG x1 ∧
      Fe2.Red t ∧ Fe2.Red x1 ∧ Fe2.Red gx1 ∧ Fe2.den t = Spec.sswuZ * Fe2.den u ^ 2 ∧
      Fe2.den gx1 = Spec.g' (Fe2.den x1) ∧
      (Fe2.isQnr .amd64 gx1 = true →
        IsSquare (Fe2.den gx1 * Fe2.den t ^ 3) ∧
        Spec.g' (Fe2.den t * Fe2.den x1) = Fe2.den gx1 * Fe2.den t ^ 3) ∧
      (Fe2.den u ≠ 0 → Fe2.den x1 = Spec.x1 (Fe2.den u)) := by
  obtain ⟨h1, e1⟩ := Fe2.den_square hu
  obtain ⟨h2, e2⟩ := Fe2.den_mul h1 swuZ_spec.1
  obtain ⟨h3, e3, e3'⟩ := swuX1_spec h2
  obtain ⟨h4, e4⟩ := swuG_spec h3
  have et : Fe2.den (Fe2.mul (Fe2.square u) swuZ) = Spec.sswuZ * Fe2.den u ^ 2 := by
    rw [e2, e1, swuZ_spec.2]; ring
  refine ⟨_, _, _, rfl, rfl, rfl, h2, h3, h4, et, e4, ?_, ?_⟩
  · intro hq
    have hns : ¬ (IsSquare (Fe2.den (swuG (swuX1 .amd64 (Fe2.mul (Fe2.square u) swuZ)))) ∧
        Fe2.den (swuG (swuX1 .amd64 (Fe2.mul (Fe2.square u) swuZ))) ≠ 0) := by
      rw [← Fe2.isQnr_spec h4, hq]; decide
    by_cases h0 : Fe2.den (Fe2.mul (Fe2.square u) swuZ) + Fe2.den (Fe2.mul (Fe2.square u) swuZ) ^ 2 = 0
    · exfalso
      apply hns
      rw [e3' h0]
      obtain ⟨r1, r2, r3⟩ := swuRoot_spec
      obtain ⟨k1, k2⟩ := Fe2.den_square r1
      rw [r2] at k1 k2
      refine ⟨⟨_, k2⟩, fun hz => ?_⟩
      rw [(Fe2.isZero_den k1).mpr hz] at r3
      exact absurd r3 (by decide)
    · have hx := e3 h0
      generalize Fe2.mul (Fe2.square u) swuZ = t at *
      generalize swuX1 .amd64 t = x1 at *
      have hsec := sswu_second isoA_ne h0 hx
      rw [e4] at hns ⊢
      refine ⟨?_, by rw [Spec.g', Spec.g']; exact hsec⟩
      by_cases hg : IsSquare (Spec.g' (Fe2.den x1))
      · have hg0 : Spec.g' (Fe2.den x1) = 0 := by
          by_contra hne; exact hns ⟨hg, hne⟩
        rw [hg0, zero_mul]; exact IsSquare.zero
      · exact sswu_square ringChar_ne sswuZ_nonsquare (u := Fe2.den u) (by rw [et]; ring) hg
  · intro hu0
    have hex := exc_aux I_sq sswuZ_nonsquare hu0
    have heq : Fe2.den (Fe2.mul (Fe2.square u) swuZ) + Fe2.den (Fe2.mul (Fe2.square u) swuZ) ^ 2 =
        Spec.sswuZ ^ 2 * Fe2.den u ^ 4 + Spec.sswuZ * Fe2.den u ^ 2 := by rw [et]; ring
    rw [e3 (by rw [heq]; exact hex), Spec.x1, if_neg hex, heq]

theorem swuG2_spec {u : Fe2} (hu : Fe2.Red u) :
    Fe2.Red (swuG2 .amd64 u).1 ∧ Fe2.Red (swuG2 .amd64 u).2 ∧
      Fe2.den (swuG2 .amd64 u).2 ^ 2 = Spec.g' (Fe2.den (swuG2 .amd64 u).1) ∧
      (Fe2.den u ≠ 0 → Spec.Sswu (Fe2.den u) (Fe2.den (swuG2 .amd64 u).1) (Fe2.den (swuG2 .amd64 u).2)) := by
  obtain ⟨t, x1, gx1, ht, hx1, hgx1, rt, rx, rg, et, eg, hq, hspec⟩ := swu_choice hu
  obtain ⟨rt2, et2⟩ := Fe2.den_square rt
  obtain ⟨rt3, et3⟩ := Fe2.den_mul rt rt2
  obtain ⟨rx2, ex2⟩ := Fe2.den_mul rt rx
  obtain ⟨rg2, eg2⟩ := Fe2.den_mul rg rt3
  have hqs := Fe2.isQnr_spec rg
  simp only [swuG2]
  rw [← ht, ← hx1, ← hgx1]
  by_cases hb : Fe2.isQnr .amd64 gx1 = true
  · simp only [hb, Bool.not_true, Bool.false_eq_true, if_false]
    obtain ⟨s1, s2, s3⟩ := Fe2.sqrt_spec rg2
    obtain ⟨hsq, hg2⟩ := hq hb
    have ev : Fe2.den (Fe2.mul gx1 (Fe2.mul t (Fe2.square t))) = Fe2.den gx1 * Fe2.den t ^ 3 := by
      rw [eg2, et3, et2]; ring
    have s4 := s3 (s2.mpr (by rw [ev]; exact isSquare_def.mp hsq))
    obtain ⟨y', hy', ry, esq, esg⟩ := withSign s1 hu
    rw [hy']
    have hcurve : Fe2.den y' ^ 2 = Spec.g' (Fe2.den (Fe2.mul t x1)) := by
      rw [esq, pow_two, s4, ev, ex2, hg2]
    refine ⟨rx2, ry, hcurve, fun hu0 => ⟨?_, hcurve, esg⟩⟩
    rw [Spec.sswuX, ← hspec hu0, if_neg, ex2, et]
    rw [← eg, ← hqs, hb]; decide
  · have hb' : Fe2.isQnr .amd64 gx1 = false := Bool.eq_false_iff.mpr hb
    rw [hb', Bool.not_false, if_pos rfl, if_pos rfl]
    obtain ⟨s1, s2, s3⟩ := Fe2.sqrt_spec rg
    have hsq := hqs.mp hb'
    have s4 := s3 (s2.mpr (isSquare_def.mp hsq.1))
    obtain ⟨y', hy', ry, esq, esg⟩ := withSign s1 hu
    rw [hy']
    have hcurve : Fe2.den y' ^ 2 = Spec.g' (Fe2.den x1) := by
      rw [esq, pow_two, s4, eg]
    refine ⟨rx, ry, hcurve, fun hu0 => ⟨?_, hcurve, esg⟩⟩
    rw [Spec.sswuX, ← hspec hu0, if_pos]
    rw [← eg]; exact hsq

end Verif.Bls
