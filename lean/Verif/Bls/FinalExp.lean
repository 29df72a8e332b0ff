import Verif.Bls.FrobLemmas
import Verif.Bls.Pairing

/-!
# Exponentiation and the final exponentiation
-/

namespace Verif.Bls

open Spec (xi w emb2)

namespace Fe12

variable {a z : Fe12} {x y : Fq12}

theorem pow_step {K : Type*} [Field K] (x y : K) (s k : ℕ) :
    (if s.testBit k then y * y * x else y * y) ^ 2 ^ k * x ^ (s % 2 ^ k) = y ^ 2 ^ (k + 1) * x ^ (s % 2 ^ (k + 1)) := by
  have hm : s % 2 ^ (k + 1) = s % 2 ^ k + 2 ^ k * (s / 2 ^ k % 2) := by
    rw [pow_succ, Nat.mod_mul]
  rw [hm, Nat.testBit_eq_decide_div_mod_eq]
  rcases Nat.mod_two_eq_zero_or_one (s / 2 ^ k) with h | h
  · rw [h]; simp only [zero_ne_one, decide_false, Bool.false_eq_true, if_false, mul_zero, add_zero]
    rw [← pow_two, ← pow_mul, pow_succ']
  · rw [h]; simp only [decide_true, if_true, mul_one]
    rw [mul_pow, ← pow_two, ← pow_mul, pow_succ', pow_add]
    ring

theorem Is.expLoop (ha : Is a x) (s k : ℕ) (hz : Is z y) : Is (expLoop a s k z) (y ^ 2 ^ k * x ^ (s % 2 ^ k)) := by
  induction k generalizing z y with
  | zero => rw [Fe12.expLoop]; refine hz.cast ?_; simp [Nat.mod_one]
  | succ k ih =>
    rw [Fe12.expLoop]
    rw [← pow_step]
    apply ih
    split
    · exact hz.square.mul ha
    · exact hz.square

theorem lt_bitLen (s : ℕ) : s < 2 ^ Fe.bitLen s := by
  unfold Fe.bitLen
  split
  · rename_i h; subst h; simp
  · exact Nat.lt_log2_self (n := s)

theorem Is.exp (ha : Is a x) (s : ℕ) : Is (exp a s) (x ^ s) := by
  rw [Fe12.exp]
  refine (ha.expLoop s _ is_one).cast ?_
  rw [one_pow, one_mul, Nat.mod_eq_of_lt (lt_bitLen s)]

end Fe12

/-- satisfies the equation of the cyclotomic subgroup. -/
def Cy (x : Fq12) : Prop := phi 4 x * x = phi 2 x

theorem Cy.mul {x y : Fq12} (hx : Cy x) (hy : Cy y) : Cy (x * y) := by
  unfold Cy at *
  rw [map_mul, map_mul, ← hx, ← hy]; ring

theorem Cy.one : Cy 1 := by unfold Cy; rw [map_one, map_one, mul_one]

theorem Cy.pow {x : Fq12} (hx : Cy x) (n : ℕ) : Cy (x ^ n) := by
  unfold Cy at *
  rw [map_pow, map_pow, ← mul_pow, hx]

theorem Cy.phi {x : Fq12} (hx : Cy x) (n : ℕ) : Cy (phi n x) := by
  unfold Cy at *
  rw [phi_phi, phi_phi, add_comm 4, add_comm 2, ← phi_phi, ← phi_phi, ← map_mul, hx]

theorem Cy.inv {x : Fq12} (hx : Cy x) (h0 : x ≠ 0) : Bls.phi 6 x = x⁻¹ := by
  have h2 : Bls.phi 2 x ≠ 0 := by rw [Ne, map_eq_zero]; exact h0
  have h := congrArg (Bls.phi 2) hx
  rw [map_mul, phi_phi, phi_phi] at h
  norm_num at h
  apply eq_inv_of_mul_eq_one_left
  have h3 : Bls.phi 6 x * x * Bls.phi 2 x = Bls.phi 2 x := by
    rw [← hx]
    rw [← hx] at h
    linear_combination x * h
  exact mul_right_cancel₀ h2 (by rw [h3, one_mul])

namespace Fe12

variable {a z : Fe12} {x y : Fq12}

theorem Is.cyclotomicExpLoop (ha : Is a x) (hx : Cy x) (s k : ℕ) (hz : Is z y) (hy : Cy y) :
    Is (cyclotomicExpLoop a s k z) (y ^ 2 ^ k * x ^ (s % 2 ^ k)) := by
  induction k generalizing z y with
  | zero => rw [Fe12.cyclotomicExpLoop]; refine hz.cast ?_; simp [Nat.mod_one]
  | succ k ih =>
    rw [Fe12.cyclotomicExpLoop, ← pow_step]
    apply ih
    · split
      · exact (hz.cyclotomicSquare hy).mul ha
      · exact hz.cyclotomicSquare hy
    · split
      · exact (hy.mul hy).mul hx
      · exact hy.mul hy

theorem Is.cyclotomicExp (ha : Is a x) (hx : Cy x) (s : ℕ) : Is (cyclotomicExp a s) (x ^ s) := by
  rw [Fe12.cyclotomicExp]
  refine (ha.cyclotomicExpLoop hx s _ is_one Cy.one).cast ?_
  rw [one_pow, one_mul, Nat.mod_eq_of_lt (lt_bitLen s)]

/-- value of `expX`. -/
noncomputable def ex (x : Fq12) : Fq12 := phi 6 (x ^ blsX)

theorem Cy.ex (hx : Cy x) : Cy (ex x) := (hx.pow _).phi 6

theorem Is.expX (ha : Is a x) (hx : Cy x) : Is (expX a) (ex x) := by
  rw [Bls.expX]
  exact (ha.cyclotomicExp hx blsX).conj

/-- the easy part. -/
noncomputable def easy (x : Fq12) : Fq12 := phi 2 (phi 6 x * x⁻¹) * (phi 6 x * x⁻¹)

theorem easy_cy (x : Fq12) : Cy (easy x) := by
  unfold Cy easy
  by_cases h0 : x = 0
  · subst h0; simp
  have h6 : phi 6 x ≠ 0 := by rw [Ne, map_eq_zero]; exact h0
  have hg : phi 6 (phi 6 x * x⁻¹) * (phi 6 x * x⁻¹) = 1 := by
    rw [map_mul, phi_phi, map_inv₀, show 6 + 6 = 12 by norm_num, phi_twelve]
    field_simp
  generalize phi 6 x * x⁻¹ = g at *
  rw [map_mul, map_mul, phi_phi, phi_phi]
  norm_num
  linear_combination (phi 4 g * phi 2 g) * hg

/-- the hard part as it is computed. -/
noncomputable def hard (y : Fq12) : Fq12 :=
  let t5 := phi 6 (y * y) * ex y
  let t1 := ex t5
  let t0 := ex t1
  let t6 := ex t0 * (ex y * ex y)
  phi 2 (ex y * t0) * phi 3 (t1 * y) * phi 1 (t6 * phi 6 y) * (ex t6 * phi 6 t5 * y)

theorem Is.finalExp_raw (ha : Is a x) : Is (Bls.finalExp .amd64 a) (hard (easy x)) := by
  have hy := easy_cy x
  have hq : Is (Fe12.mul (Fe12.frobeniusMapAssign (Fe12.mul (Fe12.frobeniusMap a 6) (Fe12.inverse .amd64 a)) 2) (Fe12.mul (Fe12.frobeniusMap a 6) (Fe12.inverse .amd64 a))) (easy x) := by
    have h1 := (ha.frobeniusMap (k := 6) (by norm_num) (by norm_num)).mul ha.inverse
    exact (h1.frobeniusMapAssign (k := 2) (by norm_num)).mul h1
  simp only [Bls.finalExp]
  generalize Fe12.mul (Fe12.frobeniusMapAssign (Fe12.mul (Fe12.frobeniusMap a 6) (Fe12.inverse .amd64 a)) 2) (Fe12.mul (Fe12.frobeniusMap a 6) (Fe12.inverse .amd64 a)) = b at *
  generalize easy x = y at *
  have s3 := hq.expX hy
  have c3 := Cy.ex hy
  have s5 := (hq.cyclotomicSquare hy).conj.mul s3
  have c5 := ((hy.mul hy).phi 6).mul c3
  have s1 := s5.expX c5
  have c1 := Cy.ex c5
  have s0 := s1.expX c1
  have c0 := Cy.ex c1
  have s6 := (s0.expX c0).mul (s3.cyclotomicSquare c3)
  have c6 := (Cy.ex c0).mul (c3.mul c3)
  have s4 := ((s6.expX c6).mul s5.conj).mul hq
  have u1 := (s1.mul hq).frobeniusMapAssign (k := 3) (by norm_num)
  have u6 := (s6.mul hq.conj).frobeniusMapAssign (k := 1) (by norm_num)
  have u3 := (s3.mul s0).frobeniusMapAssign (k := 2) (by norm_num)
  exact (((u3.mul u1).mul u6).mul s4).cast (by rw [hard])

theorem phi_zpow (y : Fq12) (k : ℕ) (n : ℤ) : phi k (y ^ n) = y ^ (((Q ^ k : ℕ) : ℤ) * n) := by
  rw [map_zpow₀, phi_def, zpow_mul, zpow_natCast]

theorem cj_zpow (y : Fq12) (h : phi 6 y = y⁻¹) (n : ℤ) : phi 6 (y ^ n) = y ^ (-n) := by
  rw [map_zpow₀, h, inv_zpow, zpow_neg]

theorem ex_zpow (y : Fq12) (h : phi 6 y = y⁻¹) (n : ℤ) : ex (y ^ n) = y ^ (-(n * (blsX : ℤ))) := by
  rw [ex, ← zpow_natCast, ← zpow_mul, cj_zpow y h]

/-- the exponent of the hard part, as computed. -/
def hardExp : ℤ :=
  let t3 : ℤ := -(1 * (blsX : ℤ))
  let t5 := -2 + t3
  let t1 := -(t5 * blsX)
  let t0 := -(t1 * blsX)
  let t6 := -(t0 * blsX) + (t3 + t3)
  ((Q ^ 2 : ℕ) : ℤ) * (t3 + t0) + ((Q ^ 3 : ℕ) : ℤ) * (t1 + 1) + ((Q ^ 1 : ℕ) : ℤ) * (t6 + -1) + (-(t6 * blsX) + -t5 + 1)

theorem hardExp_eq : hardExp = ((3 * ((Q ^ 4 - Q ^ 2 + 1) / Spec.r) : ℕ) : ℤ) := by decide +kernel

theorem hard_zpow (y : Fq12) (h0 : y ≠ 0) (h : phi 6 y = y⁻¹) : hard y = y ^ hardExp := by
  have hcj := cj_zpow y h
  have hex := ex_zpow y h
  have hadd := fun m n => (zpow_add₀ h0 m n).symm
  have e1 : y = y ^ (1 : ℤ) := (zpow_one y).symm
  have e2 : phi 6 (y * y) = y ^ (-2 : ℤ) := by
    rw [show y * y = y ^ (2 : ℤ) from by rw [zpow_two], hcj]
  have e3 : ex y = y ^ (-(1 * (blsX : ℤ))) := by conv_lhs => rw [e1, hex]
  have e4 : phi 6 y = y ^ (-1 : ℤ) := by rw [h, zpow_neg_one]
  have a1 : ∀ m : ℤ, y ^ m * y = y ^ (m + 1) := fun m => by rw [zpow_add₀ h0, zpow_one]
  simp only [hard, hardExp]
  rw [e2, e3, e4]
  generalize (blsX : ℤ) = X at *
  simp only [hadd, hex, hcj, a1, phi_zpow]

theorem easy_pow (x : Fq12) (h0 : x ≠ 0) : easy x = x ^ ((Q ^ 6 - 1) * (Q ^ 2 + 1)) := by
  have h : phi 6 x * x⁻¹ = x ^ (Q ^ 6 - 1) := by
    rw [phi_def]
    have : Q ^ 6 = (Q ^ 6 - 1) + 1 := by
      have : 0 < Q ^ 6 := Nat.pow_pos prime_Q.pos
      omega
    conv_lhs => rw [this, pow_succ]
    rw [mul_assoc, mul_inv_cancel₀ h0, mul_one]
  rw [easy, h, phi_def, ← pow_mul, ← pow_add]
  congr 1

theorem total_exp : (Q ^ 6 - 1) * (Q ^ 2 + 1) * (3 * ((Q ^ 4 - Q ^ 2 + 1) / Spec.r)) = (Q ^ 12 - 1) / Spec.r * 3 := by decide +kernel

theorem final_pos : (Q ^ 12 - 1) / Spec.r ≠ 0 := by decide +kernel

theorem ex_zero : ex 0 = 0 := by rw [ex, zero_pow (by decide), map_zero]

/-- the final exponentiation is the cube of the `(q¹² - 1)/r`-th power. -/
theorem Is.finalExp (ha : Is a x) : Is (Bls.finalExp .amd64 a) ((x ^ ((Q ^ 12 - 1) / Spec.r)) ^ 3) := by
  refine ha.finalExp_raw.cast ?_
  by_cases h0 : x = 0
  · subst h0
    rw [zero_pow final_pos, zero_pow (by norm_num)]
    have : easy 0 = 0 := by rw [easy]; simp
    rw [this, hard]
    simp only [ex_zero, mul_zero, map_zero]
  · have hy0 : easy x ≠ 0 := by rw [easy_pow x h0]; exact pow_ne_zero _ h0
    rw [hard_zpow _ hy0 ((easy_cy x).inv hy0), hardExp_eq, zpow_natCast, easy_pow x h0, ← pow_mul, ← pow_mul, total_exp]

end Fe12

end Verif.Bls
