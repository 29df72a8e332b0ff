import Verif.Bls.HashUnique
import Verif.Bls.Bilinear

/-! The specification of hashing to G2 gives a point for every pair of field elements. -/

namespace Verif.Bls

open Verif.EC

/-- the simplified SWU image of 0 in Montgomery form, for the proof only. -/
def zeroX : Fe2 := ⟨⟨17498811412141654820, 2703781021679525120, 6760849515606387778, 18272857908824283987, 573604210654968465, 1332417371568104132⟩,
  ⟨6157602885518177941, 16965825543222601980, 2024475173873081765, 3792928302190388804, 14515498703447201488, 1624143738238307202⟩⟩
def zeroY : Fe2 := ⟨⟨227290463491931221, 17797370167418153314, 6953848173171925915, 13482956966395418505, 2023891361618250295, 615206374317579326⟩,
  ⟨12742927345308025868, 6969701391327977662, 17225929557167010135, 14505486017630720958, 2613458912326931590, 1645512906962015478⟩⟩

theorem zero_square : IsSquare (Spec.g' (Spec.x1 0)) ∧ Spec.g' (Spec.x1 0) ≠ 0 := by
  have hx : Fe2.Red zeroX := ⟨by decide +kernel, by decide +kernel⟩
  have hy : Fe2.Red zeroY := ⟨by decide +kernel, by decide +kernel⟩
  have e1 : Fe2.mul (Fe2.mul swuZ swuA) zeroX = swuB := by decide +kernel
  have e2 : Fe2.square zeroY = swuG zeroX := by decide +kernel
  have e3 : Fe2.isZero zeroY = false := by decide +kernel
  obtain ⟨a1, b1⟩ := Fe2.den_mul swuZ_spec.1 swuA_spec.1
  obtain ⟨a2, b2⟩ := Fe2.den_mul a1 hx
  obtain ⟨c1, d1⟩ := Fe2.den_square hy
  obtain ⟨c2, d2⟩ := swuG_spec hx
  have hy0 : Fe2.den zeroY ≠ 0 := fun h => by rw [(Fe2.isZero_den hy).mpr h] at e3; exact absurd e3 (by decide)
  have hg : Spec.g' (Fe2.den zeroX) = Fe2.den zeroY * Fe2.den zeroY := by rw [← d2, ← e2, d1]
  have h := congrArg Fe2.den e1
  rw [b2, b1, swuZ_spec.2, swuA_spec.2, swuB_spec.2] at h
  have hne : Spec.sswuZ * Spec.isoA ≠ 0 := mul_ne_zero den_Z_ne isoA_ne
  have hx0 : Spec.x1 0 = Fe2.den zeroX := by
    rw [Spec.x1, if_pos (by ring), div_eq_iff hne, ← h, mul_comm]
  rw [hx0, hg]
  exact ⟨⟨_, rfl⟩, mul_ne_zero hy0 hy0⟩

theorem Sswu_exists (u : Fq2) : ∃ x y, Spec.Sswu u x y := by
  by_cases h0 : u = 0
  · subst h0
    obtain ⟨⟨y, hy⟩, hne⟩ := zero_square
    have hx : Spec.sswuX 0 = Spec.x1 0 := by rw [Spec.sswuX, if_pos ⟨⟨y, hy⟩, hne⟩]
    have hy0 : y ≠ 0 := by rintro rfl; rw [mul_zero] at hy; exact hne hy
    by_cases hs : Spec.sgn0 y = Spec.sgn0 0
    · exact ⟨_, y, rfl, by rw [hx, hy, pow_two], .inr hs⟩
    · refine ⟨_, -y, rfl, by rw [hx, hy, neg_sq, pow_two], .inr ?_⟩
      have h1 := sgn0_neg hy0
      have h2 := sgn0_le y
      have h3 := sgn0_le (-y)
      have h4 := sgn0_le 0
      omega
  · obtain ⟨a, -, ha, rfl⟩ := Fe2.fromBytes_enc u
    obtain ⟨-, -, -, h⟩ := swuG2_spec ha
    exact ⟨_, _, h h0⟩

theorem HashesTo_exists (u0 u1 : Fq2) : ∃ P, Spec.HashesTo u0 u1 P := by
  obtain ⟨x0, y0, s0⟩ := Sswu_exists u0
  obtain ⟨x1, y1, s1⟩ := Sswu_exists u1
  obtain ⟨T, hT⟩ := Iso2_exists (.some _ _ (E'_nonsing s0.y_sq) + .some _ _ (E'_nonsing s1.y_sq))
  exact ⟨_, _, _, _, _, _, _, T, s0, s1, hT, rfl⟩

/-- the images of `u` and `-u` are different points. -/
theorem Sswu_neg {u x y : Fq2} (hu : u ≠ 0) (h : Spec.Sswu u x y) (h' : Spec.Sswu (-u) x y) : False := by
  have hy : y ≠ 0 := by
    rintro rfl
    have hn := E2_nonsing (iso_on_curve h.y_sq)
    exact E2_y_ne hn (by rw [Spec.isoY, zero_mul, zero_div])
  exact sgn0_neg hu ((h'.y_sgn.resolve_left hy).symm.trans (h.y_sgn.resolve_left hy))

end Verif.Bls
