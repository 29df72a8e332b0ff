import Verif.Bls.GroupOrder
import Verif.Bls.PairingLemmas
import Verif.EC.Lines

/-!
# The Frobenius map on the points of order `r` of the twist
-/

namespace Verif.Bls

open Verif.EC WeierstrassCurve Sem
open Spec (xi w emb2 emb1)

/-- `(1 + u)^((q⁷ - 1)/6)`. -/
noncomputable def c7 : Fq2 := xi ^ ((Q ^ 7 - 1) / 6)

theorem c7_ne : c7 ≠ 0 := by rw [c7]; exact pow_ne_zero _ xi_ne

theorem phi7_w : phi 7 w = emb2 c7 * w := by rw [phi_w, c7]

theorem phi7_emb2 (x : Fq2) : phi 7 (emb2 x) = emb2 (starRingEnd Fq2 x) := by
  rw [phi_emb2, Fq2_pow, if_pos (by norm_num), frob, starRingEnd_apply]

theorem phi7_emb1 (x : Fq) : phi 7 (emb1 x) = emb1 x := by
  rw [emb1_eq, phi7_emb2]
  congr 1
  rw [starRingEnd_apply, ← frob, ← map_pow, ZMod.pow_card]

theorem six_mul7 : 6 * ((Q ^ 7 - 1) / 6) + 1 = Q ^ 7 := by decide +kernel

theorem b2_xi : Spec.b2 = 4 * xi := by
  have h : xi = 1 + Spec.I := by
    rw [xi, Spec.I]
    apply QuadraticAlgebra.ext <;> simp [QuadraticAlgebra.re_one, QuadraticAlgebra.im_one]
  rw [b2_eq, h]

theorem c7_b2 : starRingEnd Fq2 Spec.b2 = c7 ^ 6 * Spec.b2 := by
  have h1 : c7 ^ 6 * xi = starRingEnd Fq2 xi := by
    rw [c7, ← pow_mul, mul_comm _ 6, ← pow_succ, six_mul7, Fq2_pow, if_pos (by norm_num), frob, starRingEnd_apply]
  rw [b2_xi, map_mul, ← h1, map_ofNat]
  ring

/-- the Frobenius map composed with the twist, and with the negation. -/
noncomputable def frobTw : Spec.E2.Point → Spec.E2.Point :=
  mapPt (starRingEnd Fq2) sem2.two_ne sem2.three_ne sem2.b_ne c7_ne c7_b2

theorem frobTw_smul (n : ℕ) (T : Spec.E2.Point) : frobTw (n • T) = n • frobTw T := by rw [frobTw]; exact mapPt_smul _ _ _ _ _ _ _ _

theorem frobTw_zero : frobTw .zero = .zero := by rw [frobTw]; exact mapPt_zero _ _ _ _ _ _

theorem frobTw_some {x y : Fq2} (h : Spec.E2.Nonsingular x y) :
    ∃ h', frobTw (.some x y h) = .some (starRingEnd Fq2 x / c7 ^ 2) (starRingEnd Fq2 y / c7 ^ 3) h' := by
  rw [frobTw]; exact ⟨_, mapPt_some _ _ _ _ _ _ h⟩

/-- `φ⁷` on both coordinates. -/
noncomputable def phiPt (k : ℕ) (A : Fq12 × Fq12) : Fq12 × Fq12 := (phi k A.1, phi k A.2)

theorem untwist_frobTw (T : Spec.E2.Point) : Spec.untwist (frobTw T) = phiPt 7 (Spec.untwist T) := by
  cases T with
  | zero =>
    rw [frobTw_zero, phiPt, Spec.untwist]
    simp only [map_zero]
  | some x y h =>
    obtain ⟨h', e⟩ := frobTw_some h
    rw [e, untwist_some, untwist_some, phiPt]
    simp only [map_div₀, map_pow, phi7_emb2, phi7_w, mul_pow, div_div]

/-- the coordinates of the image of the generator. -/
def frobGen : (ℕ × ℕ) × (ℕ × ℕ) × (ℕ × ℕ) :=
  ((Spec.g2x.1, Q - Spec.g2x.2), (Spec.g2y.1, Q - Spec.g2y.2), powPair Q (1, 1) ((Q ^ 7 - 1) / 6))

theorem star_pair {m a b : ℕ} (h : b ≤ m) : ofPair m (a, m - b) = star (ofPair m (a, b)) := by
  apply QuadraticAlgebra.ext
  · simp [ofPair]
  · simp [ofPair, Nat.cast_sub h]

theorem frobGen_ok : calc2.Ok frobGen.2.2 := by
  simp only [calc2]
  decide +kernel

theorem g2x_le : Spec.g2x.2 ≤ Q := by decide +kernel
theorem g2y_le : Spec.g2y.2 ≤ Q := by decide +kernel

theorem frobGen_ji : calc2.JI frobGen (frobTw Spec.gen2) := by
  refine ⟨frobGen_ok, ?_⟩
  rw [Spec.gen2]
  obtain ⟨h', e⟩ := frobTw_some (sem2.nonsing gen2_eq)
  rw [e]
  have hz : calc2.val frobGen.2.2 = c7 := by
    simp only [calc2, frobGen]
    rw [powPair_spec Q prime_Q.pos, c7]
    have h1 : ofPair Q (1, 1) = xi := by
      rw [xi]
      apply QuadraticAlgebra.ext <;> simp [ofPair, QuadraticAlgebra.re_one, QuadraticAlgebra.im_one]
    rw [h1]
  have hx : calc2.val frobGen.1 = starRingEnd Fq2 (ofPair Q Spec.g2x) := by
    simp only [calc2, frobGen]
    rw [star_pair g2x_le, starRingEnd_apply]
  have hy : calc2.val frobGen.2.1 = starRingEnd Fq2 (ofPair Q Spec.g2y) := by
    simp only [calc2, frobGen]
    rw [star_pair g2y_le, starRingEnd_apply]
  rw [hx, hy, hz]
  refine ⟨c7_ne, ?_, ?_⟩
  · rw [div_mul_cancel₀ _ (pow_ne_zero _ c7_ne)]
  · rw [div_mul_cancel₀ _ (pow_ne_zero _ c7_ne)]

theorem frobGen_eq : blsX • Spec.gen2 = frobTw Spec.gen2 :=
  Calc.same_ok (Calc.smul_ok blsX gen2_ji) frobGen_ji (by decide +kernel)

/-- on the points of order `r` the map is the multiplication by `X`. -/
theorem frobTw_eq {T : Spec.E2.Point} (hT : Spec.r • T = 0) : frobTw T = blsX • T := by
  obtain ⟨k, rfl⟩ := mem_gen2 hT
  rw [frobTw_smul, ← frobGen_eq, smul_comm]

theorem untwist_X {T : Spec.E2.Point} (hT : Spec.r • T = 0) : Spec.untwist (blsX • T) = phiPt 7 (Spec.untwist T) := by
  rw [← frobTw_eq hT, untwist_frobTw]

end Verif.Bls
