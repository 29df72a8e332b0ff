import Mathlib.FieldTheory.KummerPolynomial
import Mathlib.FieldTheory.Finite.Basic
import Mathlib.RingTheory.AdjoinRoot
import Mathlib.FieldTheory.Minpoly.Field
import Mathlib.FieldTheory.IntermediateField.Adjoin.Basic

/-!
# Sixth roots

Lemmas over any field: `X⁶ - a` is irreducible when `a` is neither a square nor a cube; coordinates in the extension it
defines.
-/

namespace Verif.Bls

open Polynomial Module

theorem sextic_irreducible {K : Type*} [Field K] {a : K} (h2 : ∀ b : K, b ^ 2 ≠ a) (h3 : ∀ b : K, b ^ 3 ≠ a) :
    Irreducible (X ^ 6 - C a : K[X]) := by
  have hne : (X ^ 6 - C a : K[X]) ≠ 0 := X_pow_sub_C_ne_zero (by norm_num) a
  have hdeg : (X ^ 6 - C a : K[X]).natDegree = 6 := natDegree_X_pow_sub_C
  have hu : ¬ IsUnit (X ^ 6 - C a : K[X]) := by
    rw [Polynomial.isUnit_iff_degree_eq_zero, degree_X_pow_sub_C (by norm_num)]; norm_num
  obtain ⟨g, hg, hg'⟩ := WfDvdMonoid.exists_irreducible_factor hu hne
  have : Fact (Irreducible g) := ⟨hg⟩
  have hfin : finrank K (AdjoinRoot g) = g.natDegree := by
    rw [(AdjoinRoot.powerBasis hg.ne_zero).finrank, AdjoinRoot.powerBasis_dim]
  have : FiniteDimensional K (AdjoinRoot g) := (AdjoinRoot.powerBasis hg.ne_zero).finite
  have key : AdjoinRoot.root g ^ 6 = AdjoinRoot.of g a := by
    have := eval₂_eq_zero_of_dvd_of_eval₂_eq_zero _ _ hg' (AdjoinRoot.eval₂_root g)
    rwa [eval₂_sub, eval₂_pow, eval₂_C, eval₂_X, sub_eq_zero] at this
  have dvd (p m : ℕ) (hp : p.Prime) (hm : m * p = 6) (h : ∀ b : K, b ^ p ≠ a) : p ∣ g.natDegree := by
    have hi := X_pow_sub_C_irreducible_of_prime hp h
    have hmin : (X ^ p - C a : K[X]) = minpoly K (AdjoinRoot.root g ^ m) := by
      refine minpoly.eq_of_irreducible_of_monic hi ?_ (monic_X_pow_sub_C a hp.ne_zero)
      rw [map_sub, map_pow, aeval_X, aeval_C, ← pow_mul, hm, key, AdjoinRoot.algebraMap_eq, sub_self]
    have hd := minpoly.degree_dvd (Algebra.IsIntegral.isIntegral (R := K) (AdjoinRoot.root g ^ m))
    rw [← hmin, natDegree_X_pow_sub_C, hfin] at hd
    exact hd
  have d2 := dvd 2 3 Nat.prime_two rfl h2
  have d3 := dvd 3 2 Nat.prime_three rfl h3
  have h6 : 6 ∣ g.natDegree := by omega
  have hle := natDegree_le_of_dvd hg' hne
  have hpos : 0 < g.natDegree := natDegree_pos_iff_degree_pos.mpr (Polynomial.degree_pos_of_irreducible hg)
  have hd6 := Nat.le_of_dvd hpos h6
  exact (associated_of_dvd_of_natDegree_le hg' hne (by omega)).irreducible hg

section

variable {K : Type*} [Field K] {a : K}

theorem root_pow_six : AdjoinRoot.root (X ^ 6 - C a : K[X]) ^ 6 = AdjoinRoot.of (X ^ 6 - C a : K[X]) a := by
  have := AdjoinRoot.eval₂_root (X ^ 6 - C a : K[X])
  rwa [eval₂_sub, eval₂_pow, eval₂_C, eval₂_X, sub_eq_zero] at this

theorem coords_zero {c0 c1 c2 c3 c4 c5 : K}
    (h : AdjoinRoot.of (X ^ 6 - C a : K[X]) c0 + AdjoinRoot.of (X ^ 6 - C a : K[X]) c1 * AdjoinRoot.root (X ^ 6 - C a : K[X]) +
      AdjoinRoot.of (X ^ 6 - C a : K[X]) c2 * AdjoinRoot.root (X ^ 6 - C a : K[X]) ^ 2 +
      AdjoinRoot.of (X ^ 6 - C a : K[X]) c3 * AdjoinRoot.root (X ^ 6 - C a : K[X]) ^ 3 +
      AdjoinRoot.of (X ^ 6 - C a : K[X]) c4 * AdjoinRoot.root (X ^ 6 - C a : K[X]) ^ 4 +
      AdjoinRoot.of (X ^ 6 - C a : K[X]) c5 * AdjoinRoot.root (X ^ 6 - C a : K[X]) ^ 5 = 0) :
    c0 = 0 ∧ c1 = 0 ∧ c2 = 0 ∧ c3 = 0 ∧ c4 = 0 ∧ c5 = 0 := by
  have hm : AdjoinRoot.mk (X ^ 6 - C a : K[X])
      (C c0 + C c1 * X + C c2 * X ^ 2 + C c3 * X ^ 3 + C c4 * X ^ 4 + C c5 * X ^ 5) = 0 := by
    simpa only [map_add, map_mul, map_pow, AdjoinRoot.mk_C, AdjoinRoot.mk_X] using h
  rw [AdjoinRoot.mk_eq_zero] at hm
  have hz := Polynomial.eq_zero_of_dvd_of_natDegree_lt hm (by
    rw [natDegree_X_pow_sub_C]
    refine lt_of_le_of_lt (b := 5) ?_ (by norm_num)
    compute_degree)
  have hc (i : ℕ) := congrArg (fun p : K[X] => p.coeff i) hz
  refine ⟨?_, ?_, ?_, ?_, ?_, ?_⟩
  · simpa [coeff_X, coeff_C] using hc 0
  · simpa [coeff_X, coeff_C] using hc 1
  · simpa [coeff_X, coeff_C] using hc 2
  · simpa [coeff_X, coeff_C] using hc 3
  · simpa [coeff_X, coeff_C] using hc 4
  · simpa [coeff_X, coeff_C] using hc 5

theorem coords_exist (z : AdjoinRoot (X ^ 6 - C a : K[X])) : ∃ c0 c1 c2 c3 c4 c5 : K,
    z = AdjoinRoot.of (X ^ 6 - C a : K[X]) c0 + AdjoinRoot.of (X ^ 6 - C a : K[X]) c1 * AdjoinRoot.root (X ^ 6 - C a : K[X]) +
      AdjoinRoot.of (X ^ 6 - C a : K[X]) c2 * AdjoinRoot.root (X ^ 6 - C a : K[X]) ^ 2 +
      AdjoinRoot.of (X ^ 6 - C a : K[X]) c3 * AdjoinRoot.root (X ^ 6 - C a : K[X]) ^ 3 +
      AdjoinRoot.of (X ^ 6 - C a : K[X]) c4 * AdjoinRoot.root (X ^ 6 - C a : K[X]) ^ 4 +
      AdjoinRoot.of (X ^ 6 - C a : K[X]) c5 * AdjoinRoot.root (X ^ 6 - C a : K[X]) ^ 5 := by
  have hmon : (X ^ 6 - C a : K[X]).Monic := monic_X_pow_sub_C a (by norm_num)
  obtain ⟨p, rfl⟩ := AdjoinRoot.mk_surjective z
  set r := p %ₘ (X ^ 6 - C a) with hr
  have hdeg : r.natDegree < 6 := by
    have := natDegree_modByMonic_lt p hmon (fun h => by
      have := congrArg natDegree h
      rw [natDegree_X_pow_sub_C] at this; simp at this)
    rwa [natDegree_X_pow_sub_C] at this
  have e : AdjoinRoot.mk (X ^ 6 - C a : K[X]) p = AdjoinRoot.mk (X ^ 6 - C a : K[X]) r := by
    rw [AdjoinRoot.mk_eq_mk, hr]
    exact ⟨p /ₘ (X ^ 6 - C a), by
      have := modByMonic_add_div p (X ^ 6 - C a : K[X]); linear_combination -this⟩
  refine ⟨r.coeff 0, r.coeff 1, r.coeff 2, r.coeff 3, r.coeff 4, r.coeff 5, ?_⟩
  rw [e]
  conv_lhs => rw [r.as_sum_range' 6 hdeg]
  simp only [Finset.sum_range_succ, Finset.sum_range_zero, zero_add, ← C_mul_X_pow_eq_monomial, map_add, map_mul, map_pow,
    AdjoinRoot.mk_C, AdjoinRoot.mk_X, pow_zero, pow_one, mul_one]

theorem card_sextic [Finite K] [Fact (Irreducible (X ^ 6 - C a : K[X]))] :
    Nat.card (AdjoinRoot (X ^ 6 - C a : K[X])) = Nat.card K ^ 6 := by
  have hne : (X ^ 6 - C a : K[X]) ≠ 0 := X_pow_sub_C_ne_zero (by norm_num) a
  have := (AdjoinRoot.powerBasis hne).finite
  rw [Module.natCard_eq_pow_finrank (K := K), (AdjoinRoot.powerBasis hne).finrank, AdjoinRoot.powerBasis_dim,
    natDegree_X_pow_sub_C]

end

end Verif.Bls
