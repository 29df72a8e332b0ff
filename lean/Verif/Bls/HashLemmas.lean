import Verif.Bls.HashG2
import Verif.Bls.HashSpec
import Verif.Bls.Groups
import Verif.Bls.XmdLemmas
import Verif.Primes.Pratt
import Mathlib.FieldTheory.Finite.Basic

/-!
# Hashing to G2: lemmas
-/

namespace Verif.Bls

open Verif.EC

/-! ## squares in the quadratic extension -/

theorem isSquare_norm_aux {K : Type*} [Field K] [Fintype K] [Fact (∀ r : K, r ^ 2 ≠ (-1) + 0 * r)] (q k : ℕ)
    (hq : Fintype.card K = q) (hk : q = 2 * k + 1) (h2 : ringChar (QuadraticAlgebra K (-1) 0) ≠ 2)
    (hf : ∀ z : QuadraticAlgebra K (-1) 0, z ^ q = star z)
    (z : QuadraticAlgebra K (-1) 0) (hz : z ≠ 0) : IsSquare z ↔ (QuadraticAlgebra.norm z) ^ k = 1 := by
  haveI : Fintype (QuadraticAlgebra K (-1 : K) 0) := Fintype.ofEquiv _ (QuadraticAlgebra.equivProd (-1 : K) 0).symm
  have hc : Fintype.card (QuadraticAlgebra K (-1 : K) 0) = q * q := by
    rw [Fintype.card_congr (QuadraticAlgebra.equivProd (-1 : K) 0), Fintype.card_prod, hq]
  rw [FiniteField.isSquare_iff h2 hz, hc]
  have he : q * q / 2 = (q + 1) * k := by
    have : q * q = 2 * ((q + 1) * k) + 1 := by rw [hk]; ring
    omega
  have hn : z ^ (q + 1) = algebraMap K _ (QuadraticAlgebra.norm z) := by
    rw [pow_succ, hf, QuadraticAlgebra.algebraMap_norm_eq_mul_star, mul_comm]
  rw [he, pow_mul, hn, ← map_pow, ← map_one (algebraMap K (QuadraticAlgebra K (-1 : K) 0))]
  exact (algebraMap K _).injective.eq_iff

theorem mul_nonsquares {K : Type*} [Field K] [Finite K] (h2 : ringChar K ≠ 2) {a b : K} (ha : ¬ IsSquare a)
    (hb : ¬ IsSquare b) : IsSquare (a * b) := by
  haveI := Fintype.ofFinite K
  have ha0 : a ≠ 0 := by rintro rfl; exact ha IsSquare.zero
  have hb0 : b ≠ 0 := by rintro rfl; exact hb IsSquare.zero
  rw [FiniteField.isSquare_iff h2 (mul_ne_zero ha0 hb0), mul_pow]
  rw [FiniteField.isSquare_iff h2 ha0] at ha
  rw [FiniteField.isSquare_iff h2 hb0] at hb
  rw [(FiniteField.pow_dichotomy h2 ha0).resolve_left ha, (FiniteField.pow_dichotomy h2 hb0).resolve_left hb]
  ring

theorem finite_aux {K : Type*} [Field K] [Finite K] : Finite (QuadraticAlgebra K (-1 : K) 0) :=
  Finite.of_equiv _ (QuadraticAlgebra.equivProd (-1 : K) 0).symm

instance : Finite Fq2 := finite_aux

theorem ringChar_ne : ringChar Fq2 ≠ 2 := by
  rw [ringChar.eq Fq2 Q]
  exact (by decide +kernel : Q ≠ 2)

theorem halfQ : Q = 2 * Fe2.pMinus1Over2 + 1 := by decide +kernel

theorem isSquare_norm (z : Fq2) (hz : z ≠ 0) :
    IsSquare z ↔ (QuadraticAlgebra.norm z) ^ Fe2.pMinus1Over2 = 1 :=
  isSquare_norm_aux Q _ (ZMod.card Q) halfQ ringChar_ne frob z hz

/-! ## the identities behind the map -/

theorem sswu_second {K : Type*} [Field K] {A B t x : K} (hA : A ≠ 0) (ht : t + t ^ 2 ≠ 0)
    (hx : x = (-B / A) * (1 + (t + t ^ 2)⁻¹)) :
    (t * x) ^ 3 + A * (t * x) + B = (x ^ 3 + A * x + B) * t ^ 3 := by
  have h : A * x * (t + t ^ 2) = -B * (t ^ 2 + t + 1) := by
    have hw : (t + t ^ 2) * (t + t ^ 2)⁻¹ = 1 := mul_inv_cancel₀ ht
    have hd : A * (-B / A) = -B := mul_div_cancel₀ _ hA
    rw [hx]
    linear_combination (1 + (t + t ^ 2)⁻¹) * (t + t ^ 2) * hd - B * hw
  have : (A * (t * x) + B) - (A * x + B) * t ^ 3 = 0 := by
    linear_combination (1 - t) * h
  linear_combination this

theorem sswu_square {K : Type*} [Field K] [Finite K] (h2 : ringChar K ≠ 2) {Z u t gx : K} (hZ : ¬ IsSquare Z)
    (ht : t = u * u * Z) (hg : ¬ IsSquare gx) : IsSquare (gx * t ^ 3) := by
  have h1 : IsSquare (gx * Z) := mul_nonsquares h2 hg hZ
  have : gx * t ^ 3 = (gx * Z) * ((u ^ 3 * Z) * (u ^ 3 * Z)) := by rw [ht]; ring
  rw [this]
  exact h1.mul ⟨_, rfl⟩

/-- the isogeny maps `E'` to `E2` away from its kernel. -/
theorem iso_identity {K : Type*} [Field K] {i x y : K} (h3 : (3 : K) ≠ 0) (hi : i * i = -1)
    (hd : x + 6 * (1 - i) ≠ 0) (hy : y ^ 2 = x ^ 3 + 240 * i * x + 1012 * (1 + i)) :
    (y * (-1 / 27 * x ^ 3 - 2 / 3 * (1 - i) * x ^ 2 + 88 / 9 * i * x + 752 / 27 * (1 + i)) /
      (x ^ 3 + 18 * (1 - i) * x ^ 2 - 216 * i * x - 432 * (1 + i))) ^ 2 =
    ((1 / 9 * x ^ 3 + 4 / 3 * (1 - i) * x ^ 2 - 8 / 3 * i * x + 304 / 9 * (1 + i)) /
      (x ^ 2 + 12 * (1 - i) * x - 72 * i)) ^ 3 + 4 * (1 + i) := by
  have e1 : x ^ 2 + 12 * (1 - i) * x - 72 * i = (x + 6 * (1 - i)) ^ 2 := by linear_combination (-36) * hi
  have e2 : x ^ 3 + 18 * (1 - i) * x ^ 2 - 216 * i * x - 432 * (1 + i) = (x + 6 * (1 - i)) ^ 3 := by
    linear_combination (-108 * x - 648 + 216 * i) * hi
  have h9 : (9 : K) ≠ 0 := by have : (9 : K) = 3 * 3 := by norm_num
                              rw [this]; exact mul_ne_zero h3 h3
  have h27 : (27 : K) ≠ 0 := by have : (27 : K) = 3 * 9 := by norm_num
                                rw [this]; exact mul_ne_zero h3 h9
  have n1 : 1 / 9 * x ^ 3 + 4 / 3 * (1 - i) * x ^ 2 - 8 / 3 * i * x + 304 / 9 * (1 + i) =
      (x ^ 3 + 12 * (1 - i) * x ^ 2 - 24 * i * x + 304 * (1 + i)) / 9 := by
    field_simp; ring
  have n2 : -1 / 27 * x ^ 3 - 2 / 3 * (1 - i) * x ^ 2 + 88 / 9 * i * x + 752 / 27 * (1 + i) =
      (-x ^ 3 - 18 * (1 - i) * x ^ 2 + 264 * i * x + 752 * (1 + i)) / 27 := by
    field_simp; ring
  have hP : (x ^ 3 + 240 * i * x + 1012 * (1 + i)) *
      (-x ^ 3 - 18 * (1 - i) * x ^ 2 + 264 * i * x + 752 * (1 + i)) ^ 2 =
      (x ^ 3 + 12 * (1 - i) * x ^ 2 - 24 * i * x + 304 * (1 + i)) ^ 3 +
        729 * (4 * (1 + i)) * (x + 6 * (1 - i)) ^ 6 := by
    linear_combination ((408146688) * x ^ 0 * i ^ 0 + (2312831232) * x ^ 0 * i ^ 1 + (-1088391168) * x ^ 0 * i ^ 3 + (680244480)
      * x ^ 0 * i ^ 4 + (-136048896) * x ^ 0 * i ^ 5 + (-136048896) * x ^ 1 * i ^ 0 + (1088391168) * x ^ 1 * i
      ^ 1 + (544195584) * x ^ 1 * i ^ 2 + (-544195584) * x ^ 1 * i ^ 3 + (136048896) * x ^ 1 * i ^ 4 +
      (-87410880) * x ^ 2 * i ^ 0 + (139337280) * x ^ 2 * i ^ 1 + (170061120) * x ^ 2 * i ^ 2 + (-56687040) * x
      ^ 2 * i ^ 3 + (-13830912) * x ^ 3 * i ^ 0 + (7136640) * x ^ 3 * i ^ 1 + (12597120) * x ^ 3 * i ^ 2 +
      (-1378080) * x ^ 4 * i ^ 0 + (923616) * x ^ 4 * i ^ 1 + (-117504) * x ^ 5 * i ^ 0 + (88128) * x ^ 5 * i ^
      1 + (-6048) * x ^ 6 * i ^ 0 + (1728) * x ^ 6 * i ^ 1 + (-108) * x ^ 7 * i ^ 0) * hi
  rw [e1, e2, n1, n2, div_pow, mul_pow, hy]
  generalize x + 6 * (1 - i) = D at *
  generalize x ^ 3 + 240 * i * x + 1012 * (1 + i) = f at *
  generalize -x ^ 3 - 18 * (1 - i) * x ^ 2 + 264 * i * x + 752 * (1 + i) = ny at *
  generalize x ^ 3 + 12 * (1 - i) * x ^ 2 - 24 * i * x + 304 * (1 + i) = nx at *
  have h729 : (729 : K) ≠ 0 := by have : (729 : K) = 27 * 27 := by norm_num
                                  rw [this]; exact mul_ne_zero h27 h27
  have : f * (ny / 27) ^ 2 / (D ^ 3) ^ 2 = (f * ny ^ 2) / (729 * D ^ 6) := by
    rw [div_pow, ← mul_div_assoc, div_div]; congr 1; ring
  rw [this, hP]
  field_simp
  ring

end Verif.Bls
