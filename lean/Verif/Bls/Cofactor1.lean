import Verif.EC.Omega
import Verif.Bls.VerifyLemmas
import Mathlib.Tactic.NormNum.Prime

/-!
# The effective cofactor of G1

`1 - x` times any point of the G1 curve is in the subgroup of order `r`, although `1 - x` is not a multiple of the cofactor
`(1 - x)²/3`: the torsion of the curve for each of the primes 11, 10177, 859267 and 52437899 is not cyclic.
-/

namespace Verif.Bls

open Verif.EC WeierstrassCurve

/-- a primitive cube root of unity. -/
def betaN : ℕ := 0x1a0111ea397fe699ec02408663d4de85aa0d857d89759ad4897d29650fb85f9b409427eb4f49fffd8bfd00000000aaac

theorem beta_sum : (betaN : Fq) ^ 2 + betaN + 1 = 0 := by
  have : ((betaN ^ 2 + betaN + 1 : ℕ) : Fq) = 0 := (ZMod.natCast_eq_zero_iff _ _).mpr (Nat.dvd_of_mod_eq_zero (by decide +kernel))
  rw [← this]; push_cast; ring

theorem cube_aux {K : Type*} [Field K] {β : K} (h : β ^ 2 + β + 1 = 0) : β ^ 3 = 1 := by linear_combination (β - 1) * h

theorem beta_cube : (betaN : Fq) ^ 3 = 1 := cube_aux beta_sum

theorem beta_ne : (betaN : Fq) ≠ 1 := by
  intro h
  have h' : (betaN : Fq) = ((1 : ℕ) : Fq) := by rw [h, Nat.cast_one]
  exact absurd ((ZMod.natCast_eq_natCast_iff' _ _ _).mp h') (by decide +kernel)

/-- the automorphism of the curve of G1. -/
def omg : Spec.E1.Point → Spec.E1.Point := omega beta_cube

theorem omg_add (P R : Spec.E1.Point) : omg (P + R) = omg P + omg R := omega_add beta_cube P R
theorem omg_zero : omg 0 = 0 := omega_zero beta_cube
theorem omg_sum (P : Spec.E1.Point) : P + omg P + omg (omg P) = 0 := omega_sum beta_sum sem1.two_ne beta_cube beta_ne P

/-- no primitive cube root of unity modulo a prime that is 2 modulo 3. -/
theorem no_root {l : ℕ} [Fact l.Prime] (h3 : l % 3 = 2) (k : ZMod l) : k ^ 2 + k + 1 ≠ 0 := by
  intro h
  have hc := cube_aux h
  have h0 : k ≠ 0 := by rintro rfl; simp at hc
  have hf := ZMod.pow_card_sub_one_eq_one h0
  have e : l - 1 = 3 * (l / 3) + 1 := by omega
  rw [e, pow_succ, pow_mul, hc, one_pow, one_mul] at hf
  rw [hf] at h
  have h3' : ((3 : ℕ) : ZMod l) = 0 := by rw [← h]; push_cast; ring
  rw [ZMod.natCast_eq_zero_iff] at h3'
  have := (Nat.prime_dvd_prime_iff_eq Fact.out Nat.prime_three).mp h3'
  omega

theorem roots_of {l a b : ℕ} [Fact l.Prime] (hs : (a + b + 1) % l = 0) (hp : a * b % l = 1 % l) (k : ZMod l) (h : k ^ 2 + k + 1 = 0) :
    k = a ∨ k = b := by
  have hs' : (a : ZMod l) + b + 1 = 0 := by
    have : ((a + b + 1 : ℕ) : ZMod l) = 0 := (ZMod.natCast_eq_zero_iff _ _).mpr (Nat.dvd_of_mod_eq_zero hs)
    rw [← this]; push_cast; ring
  have hp' : (a : ZMod l) * b = 1 := by
    have : ((a * b : ℕ) : ZMod l) = ((1 : ℕ) : ZMod l) := (ZMod.natCast_eq_natCast_iff' _ _ _).mpr hp
    rw [Nat.cast_mul, Nat.cast_one] at this
    exact this
  have : (k - a) * (k - b) = 0 := by linear_combination h - k * hs' + hp'
  rcases mul_eq_zero.mp this with h | h
  · exact .inl (sub_eq_zero.mp h)
  · exact .inr (sub_eq_zero.mp h)

/-- coordinates of the same point agree. -/
theorem cross_aux {F : Type} [Field F] {W : Affine F} {X Y Z X' Y' Z' : F} {P : W.Point} (h : JRep W X Y Z P) (h' : JRep W X' Y' Z' P)
    (hP : P ≠ 0) : X * Z' ^ 2 = X' * Z ^ 2 := by
  cases P with
  | zero => exact absurd rfl hP
  | some x y hn =>
    obtain ⟨-, e, -⟩ := h
    obtain ⟨-, e', -⟩ := h'
    rw [e, e']; ring

/-- the torCheck that makes `(x, y)` a point whose torsion is not cyclic. -/
def torCheck (l x y : ℕ) (ks : List ℕ) : Bool :=
  calc1.onCurve 4 x y && (calc1.smul l (x, y, 1)).2.2 == 0 &&
    ks.all fun k =>
      let t := calc1.smul k (x, y, 1)
      !((betaN * x * (t.2.2 * t.2.2)) % Q == t.1 % Q)

theorem torsion {l m x y : ℕ} (hl : l.Prime) (hc : h1 * Spec.r = l ^ 2 * m) (ks : List ℕ) (hk : torCheck l x y ks = true)
    (hroots : ∀ k : ZMod l, k ^ 2 + k + 1 = 0 → ∃ n ∈ ks, k = n) (T : Spec.E1.Point) : (l * m) • T = 0 := by
  rw [torCheck, Bool.and_eq_true, Bool.and_eq_true, beq_iff_eq, List.all_eq_true] at hk
  obtain ⟨⟨ho, hz⟩, hks⟩ := hk
  have he : (y : Fq) ^ 2 = (x : Fq) ^ 3 + 4 := by
    have := Calc.onCurve_ok ho
    rw [calc1_b] at this
    exact this
  obtain ⟨P, hP⟩ : ∃ P : Spec.E1.Point, P = .some (x : Fq) (y : Fq) (sem1.nonsing he) := ⟨_, rfl⟩
  have h0 : P ≠ 0 := by rw [hP]; exact Affine.Point.some_ne_zero _
  have hji : calc1.JI (x, y, 1) P := by rw [hP]; exact Calc.affine_ok
  have hlP : l • P = 0 := (Calc.smul_ok l hji).z_iff.mp (by rw [hz]; rfl)
  refine two_independent hl (card_E1.trans hc) omg omg_zero omg_add h0 hlP (omg_sum P) ?_ T
  intro k hroot heq
  obtain ⟨n, hn, hkn⟩ := hroots _ hroot
  have hkP : k • P = n • P := by rw [← zhom_apply hlP, ← zhom_apply hlP, hkn]
  rw [hkP] at heq
  have hj := Calc.smul_ok n hji
  rw [← heq] at hj
  have homg : omg P ≠ 0 := by rw [hP]; exact Affine.Point.some_ne_zero _
  have hr : JRep Spec.E1 ((betaN : Fq) * x) y 1 (omg P) := by
    rw [hP]; exact jrep_one
  have := cross_aux hr hj.2 homg
  have hc := hks n hn
  simp only [Bool.not_eq_true', beq_eq_false_iff_ne, ne_eq] at hc
  apply hc
  rw [one_pow, mul_one] at this
  apply (ZMod.natCast_eq_natCast_iff' _ _ _).mp
  rw [Nat.cast_mul, Nat.cast_mul, Nat.cast_mul, ← pow_two]
  exact this

theorem tors11 (T : Spec.E1.Point) : (h1 * Spec.r / 11) • T = 0 := by
  haveI : Fact (Nat.Prime 11) := ⟨by norm_num⟩
  have := torsion (l := 11) (m := h1 * Spec.r / 11 ^ 2)
    (x := 0x19b3e2c8c6bbf59d3c326b531fc1e639d29200c28624ac604f251a12908c9b7f735318617f625954cc71cdf03229b1ef)
    (y := 0x15d1455562b9a28d0f11a69ecd34f5a8ade01df410168a09cf16ccfbcbfc69403c7c5771a05d217a122b795529939e03)
    Fact.out (by decide +kernel) [] (by decide +kernel) (fun k h => absurd h (no_root (by norm_num) k)) T
  rwa [show 11 * (h1 * Spec.r / 11 ^ 2) = h1 * Spec.r / 11 from by decide +kernel] at this

theorem tors10177 (T : Spec.E1.Point) : (h1 * Spec.r / 10177) • T = 0 := by
  haveI : Fact (Nat.Prime 10177) := ⟨by norm_num⟩
  have := torsion (l := 10177) (m := h1 * Spec.r / 10177 ^ 2)
    (x := 0x193b2cc2a8a222518a034a317b5739ccd4a649411687902474b6c8856f35d618539e97dafa1784403ae4bcd37562c234)
    (y := 0x10e65a0c79bf17f8e54b43641b540c359525582f787dde24bcaa974ffd96252dfbc15b5c35b6662339ba7b300e597853)
    Fact.out (by decide +kernel) [4773, 5403] (by decide +kernel) (fun k h => by
      rcases roots_of (a := 4773) (b := 5403) (by norm_num) (by norm_num) k h with h | h
      · exact ⟨4773, by simp, h⟩
      · exact ⟨5403, by simp, h⟩) T
  rwa [show 10177 * (h1 * Spec.r / 10177 ^ 2) = h1 * Spec.r / 10177 from by decide +kernel] at this

theorem tors859267 (T : Spec.E1.Point) : (h1 * Spec.r / 859267) • T = 0 := by
  haveI : Fact (Nat.Prime 859267) := ⟨by norm_num⟩
  have := torsion (l := 859267) (m := h1 * Spec.r / 859267 ^ 2)
    (x := 0x1310f8ec33fd928f6e1574118fda4984a98fc50e5a9d7f131f342d969864bf3812fc1fa57714de7d4c72990b03b5cac7)
    (y := 0xb71f75142efeb6f73b4e070b254981942311d4464cea42763ea870c91cc82f96d425da39dad33bb87fe9cf643733ec4)
    Fact.out (by decide +kernel) [119571, 739695] (by decide +kernel) (fun k h => by
      rcases roots_of (a := 119571) (b := 739695) (by norm_num) (by norm_num) k h with h | h
      · exact ⟨119571, by simp, h⟩
      · exact ⟨739695, by simp, h⟩) T
  rwa [show 859267 * (h1 * Spec.r / 859267 ^ 2) = h1 * Spec.r / 859267 from by decide +kernel] at this

theorem tors52437899 (T : Spec.E1.Point) : (h1 * Spec.r / 52437899) • T = 0 := by
  haveI : Fact (Nat.Prime 52437899) := ⟨by norm_num⟩
  have := torsion (l := 52437899) (m := h1 * Spec.r / 52437899 ^ 2)
    (x := 0x136e825e6cd75a2167f0c44cfadea0ecc43c0be6a51219b5d2c4ae3bd6c77607ea2e1cc2b828fe316f8237382eab63a6)
    (y := 0x92cc98c21bebc35377c61ebc25f470249cb52810f866f196c07e08efed10dc1509a6c101865e4dbb0bc6cf14b22ac7e)
    Fact.out (by decide +kernel) [] (by decide +kernel) (fun k h => absurd h (no_root (by norm_num) k)) T
  rwa [show 52437899 * (h1 * Spec.r / 52437899 ^ 2) = h1 * Spec.r / 52437899 from by decide +kernel] at this

theorem kill_gcd {A : Type*} [AddCommGroup A] {T : A} {a b : ℕ} (ha : a • T = 0) (hb : b • T = 0) : Nat.gcd a b • T = 0 :=
  addOrderOf_dvd_iff_nsmul_eq_zero.mp (Nat.dvd_gcd (addOrderOf_dvd_of_nsmul_eq_zero ha) (addOrderOf_dvd_of_nsmul_eq_zero hb))

theorem gcd_eq : Nat.gcd (Nat.gcd (h1 * Spec.r / 11) (h1 * Spec.r / 10177)) (Nat.gcd (h1 * Spec.r / 859267) (h1 * Spec.r / 52437899)) =
    0xd201000000010001 * Spec.r := by decide +kernel

/-- `(1 - x) r` kills the curve. -/
theorem eff_kill (T : Spec.E1.Point) : (0xd201000000010001 * Spec.r) • T = 0 := by
  rw [← gcd_eq]
  exact kill_gcd (kill_gcd (tors11 T) (tors10177 T)) (kill_gcd (tors859267 T) (tors52437899 T))

end Verif.Bls
