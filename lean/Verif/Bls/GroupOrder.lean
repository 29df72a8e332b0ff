import Verif.Bls.Calc
import Verif.Bls.Miller
import Verif.EC.CardJ0
import Mathlib.LinearAlgebra.Dimension.Finite
import Mathlib.FieldTheory.Finiteness

/-!
# The generators and the number of points of `E2`
-/

namespace Verif.Bls

open Verif.EC WeierstrassCurve

namespace Spec

/-- the standard generator of G1. -/
def g1x : ℕ := 0x17f1d3a73197d7942695638c4fa9ac0fc3688c4f9774b905a14e3a3f171bac586c55e83ff97a1aeffb3af00adb22c6bb
def g1y : ℕ := 0x08b3f481e3aaa0f1a09e30ed741d8ae4fcf5e095d5d00af600db18cb2c04b3edd03cc744a2888ae40caa232946c5e7e1

/-- the standard generator of G2. -/
def g2x : ℕ × ℕ := (0x024aa2b2f08f0a91260805272dc51051c6e47ad4fa403b02b4510b647ae3d1770bac0326a805bbefd48056c8c121bdb8,
  0x13e02b6052719f607dacd3a088274f65596bd0d09920b61ab5da61bbdc7f5049334cf11213945d57e5ac7d055d042b7e)
def g2y : ℕ × ℕ := (0x0ce5d527727d6e118cc9cdc6da2e351aadfd9baa8cbdd3a76d429a695160d12c923ac9cc3baca289e193548608b82801,
  0x0606c4a02ea734cc32acd2b02bc28b99cb3e287e85a763af267492ab572e99ab3f370d275cec1da1aaa9075ff05f79be)

end Spec

/-! ## the generators -/

/-- is `(x, y)` on the curve? -/
def Calc.onCurve {α F : Type} [Field F] (c : Calc α F) (b x y : α) : Bool :=
  c.isZ (c.sub (c.mul y y) (c.add (c.mul x (c.mul x x)) b))

theorem Calc.onCurve_ok {α F : Type} [Field F] {c : Calc α F} {b x y : α} (h : c.onCurve b x y = true) :
    c.val y ^ 2 = c.val x ^ 3 + c.val b := by
  rw [Calc.onCurve, c.isZ_iff (c.sub_ok _ _).1] at h
  simp only [(c.sub_ok _ _).2, (c.mul_ok _ _).2, (c.add_ok _ _).2] at h
  linear_combination h

theorem calc1_b : calc1.val 4 = 4 := by simp only [calc1, Nat.cast_ofNat]
theorem calc2_b : calc2.val (4, 4) = Spec.b2 := by
  rw [Spec.b2]; simp only [calc2, ofPair, Nat.cast_ofNat]

theorem gen1_eq : (Spec.g1y : Fq) ^ 2 = (Spec.g1x : Fq) ^ 3 + 4 := by
  have h : calc1.onCurve 4 Spec.g1x Spec.g1y = true := by decide +kernel
  have := Calc.onCurve_ok h
  rw [calc1_b] at this
  simpa only [calc1] using this

theorem gen2_eq : ofPair Q Spec.g2y ^ 2 = ofPair Q Spec.g2x ^ 3 + Spec.b2 := by
  have h : calc2.onCurve (4, 4) Spec.g2x Spec.g2y = true := by decide +kernel
  have := Calc.onCurve_ok h
  rw [calc2_b] at this
  simpa only [calc2] using this

namespace Spec

/-- the standard generator of G1. -/
def gen1 : E1.Point := .some (g1x : Fq) (g1y : Fq) (sem1.nonsing gen1_eq)

/-- the standard generator of G2. -/
def gen2 : E2.Point := .some (ofPair Q g2x) (ofPair Q g2y) (sem2.nonsing gen2_eq)

end Spec

theorem gen1_ne : Spec.gen1 ≠ 0 := by rw [Spec.gen1]; exact Affine.Point.some_ne_zero _
theorem gen2_ne : Spec.gen2 ≠ 0 := by rw [Spec.gen2]; exact Affine.Point.some_ne_zero _

theorem gen1_ji : calc1.JI (Spec.g1x, Spec.g1y, 1) Spec.gen1 := by
  rw [Spec.gen1]; exact Calc.affine_ok (c := calc1)

theorem gen2_ji : calc2.JI (Spec.g2x, Spec.g2y, (1, 0)) Spec.gen2 := by
  rw [Spec.gen2]; exact Calc.affine_ok (c := calc2)

theorem gen1_order : Spec.r • Spec.gen1 = 0 := by
  have h := Calc.smul_ok Spec.r gen1_ji
  exact h.z_iff.mp (by decide +kernel)

theorem gen2_order : Spec.r • Spec.gen2 = 0 := by
  have h := Calc.smul_ok Spec.r gen2_ji
  exact h.z_iff.mp (by decide +kernel)

/-! ## a point of order 13 -/

def t13x : ℕ × ℕ := (0x157573f4c77585787c2c988585c1f6afe39f5b91aacb37509b42ec71fceb51a1576fda15dac1031f8d26785d6b139784,
  0xe074268358ced055a27ab8de3bbdeb6d0c2949685103095e491dc537fc8ee474a73ce0b2826fae8eabfb3078a910b64)
def t13y : ℕ × ℕ := (0x1409bd0f66a342adbd89fd4c49a9a06580309dbfaeac7449cd8a58ba5d71f8cbe0299d203f9ff6a6ad6e05649125132e,
  0x1020564df685fc6f4568cc6f629ad422e43d4dd78d42c2771f48cd192290803a19fecc8a030e65cf4efb07d4158771c7)

theorem t13_eq : ofPair Q t13y ^ 2 = ofPair Q t13x ^ 3 + Spec.b2 := by
  have h : calc2.onCurve (4, 4) t13x t13y = true := by decide +kernel
  have := Calc.onCurve_ok h
  rw [calc2_b] at this
  simpa only [calc2] using this

theorem exists_order_13 : ∃ T : Spec.E2.Point, T ≠ 0 ∧ 13 • T = 0 := by
  have hj : calc2.JI (t13x, t13y, (1, 0)) (.some (ofPair Q t13x) (ofPair Q t13y) (sem2.nonsing t13_eq) : Spec.E2.Point) :=
    Calc.affine_ok (c := calc2)
  exact ⟨_, Affine.Point.some_ne_zero _, (Calc.smul_ok 13 hj).z_iff.mp (by decide +kernel)⟩

/-! ## the number of points -/

noncomputable instance : Fintype Fq2 := Fintype.ofEquiv (Fq × Fq) (QuadraticAlgebra.equivProd _ _).symm

theorem card_Fq2 : Fintype.card Fq2 = Q * Q := by
  rw [Fintype.card_congr (QuadraticAlgebra.equivProd (-1 : Fq) 0), Fintype.card_prod, ZMod.card]

/-- the cofactor of G2. -/
def h2 : ℕ := 0x5d543a95414e7f1091d50792876a202cd91de4547085abaa68a205b2e5a7ddfa628f1cb4d9e82ef21537e293a6691ae1616ec6e786f0c70cf1c38e31c7238e5

def uu : ℤ := -15132376222941642751
def vv : ℤ := 2310096550715768212670172227226928237551693238409523516757
def tt : ℤ := 4002409555221667393417789825735904156609318695114134075811505876632217616328299428133062617373569601537095401253547

theorem uu_vv : uu ^ 2 + 3 * vv ^ 2 = 4 * (Q : ℤ) := by decide +kernel
theorem cands_check : ∀ t ∈ cands uu vv, ((Q : ℤ) * Q + 1 + t) % Spec.r = 0 → ((Q : ℤ) * Q + 1 + t) % 13 = 0 → t = tt := by decide +kernel
theorem tt_eq : (Q : ℤ) * Q + 1 + tt = ((h2 * Spec.r : ℕ) : ℤ) := by decide +kernel
theorem h2_mod : h2 % Spec.r ≠ 0 := by decide +kernel
theorem three_dvd : (Q * Q - 1) % 3 = 0 := by decide +kernel
theorem Q_big : (2 : ℤ) < (Q : ℤ) := by decide +kernel

theorem dvd_card {A : Type*} [AddCommGroup A] {p : ℕ} (hp : p.Prime) {T : A} (h0 : T ≠ 0) (h : p • T = 0) : p ∣ Nat.card A := by
  haveI := Fact.mk hp
  rw [← addOrderOf_eq_prime h h0]
  exact addOrderOf_dvd_natCard T

theorem card_E2_aux : Finite Spec.E2.Point ∧ ∃ t s : ℤ, (Nat.card Spec.E2.Point : ℤ) = Fintype.card Fq2 + 1 + t ∧
    t ^ 2 + 3 * s ^ 2 = 4 * Fintype.card Fq2 := by
  refine natCard_point sem2.two_ne sem2.three_ne ?_ sem2.b_ne
  rw [card_Fq2]
  exact Nat.dvd_of_mod_eq_zero three_dvd

instance : Finite Spec.E2.Point := card_E2_aux.1

/-- the number of points of `E2` over `Fq2`. -/
theorem card_E2 : Nat.card Spec.E2.Point = h2 * Spec.r := by
  obtain ⟨-, t, s, h1, h4⟩ := card_E2_aux
  rw [card_Fq2] at h1 h4
  push_cast at h1 h4
  have hp : Prime (Q : ℤ) := Nat.prime_iff_prime_int.mp prime_Q
  have hc := rep_square hp Q_big uu_vv h4
  have hr : Spec.r ∣ Nat.card Spec.E2.Point := dvd_card prime_r gen2_ne gen2_order
  have h13 : 13 ∣ Nat.card Spec.E2.Point := by
    obtain ⟨T, hT, h⟩ := exists_order_13
    exact dvd_card (by decide) hT h
  have ht : t = tt := by
    apply cands_check t hc
    · rw [← h1]; exact Int.emod_eq_zero_of_dvd (by exact_mod_cast hr)
    · rw [← h1]; exact Int.emod_eq_zero_of_dvd (by exact_mod_cast h13)
  rw [ht, tt_eq] at h1
  exact_mod_cast h1

theorem card_smul (P : Spec.E2.Point) : (h2 * Spec.r) • P = 0 := by
  rw [← card_E2]; exact card_nsmul_eq_zero'

/-- a multiple of the cofactor clears it. -/
theorem clear {k : ℕ} (hk : h2 ∣ k) (P : Spec.E2.Point) : Spec.r • (k • P) = 0 := by
  obtain ⟨m, rfl⟩ := hk
  have : Spec.r • ((h2 * m) • P) = m • ((h2 * Spec.r) • P) := by
    rw [← mul_nsmul', ← mul_nsmul']; congr 1; ring
  rw [this, card_smul, nsmul_zero]

theorem card_pow {V : Type*} [AddCommGroup V] [Finite V] {r : ℕ} (hr : r.Prime) (hV : ∀ x : V, r • x = 0) :
    ∃ n, Nat.card V = r ^ n := by
  haveI := Fact.mk hr
  letI : Module (ZMod r) V := AddCommGroup.zmodModule hV
  haveI : Fintype V := Fintype.ofFinite V
  refine ⟨Module.finrank (ZMod r) V, ?_⟩
  have := Module.card_eq_pow_finrank (K := ZMod r) (V := V)
  rwa [ZMod.card, ← Nat.card_eq_fintype_card] at this

/-- in a finite group whose order is divisible by `r` only once, the points of order `r` are the multiples of one of them. -/
theorem cyclic_of {A : Type*} [AddCommGroup A] [Finite A] {r h : ℕ} (hr : r.Prime) (hc : Nat.card A = h * r) (hh : ¬ r ∣ h)
    {G T : A} (hG : G ≠ 0) (hG0 : r • G = 0) (hT : r • T = 0) : ∃ k : ℕ, T = k • G := by
  haveI := Fact.mk hr
  let V : AddSubgroup A := (nsmulAddMonoidHom (α := A) r).ker
  have hV : ∀ x : V, r • x = 0 := fun x => Subtype.ext x.2
  obtain ⟨n, hcard⟩ := card_pow hr hV
  have hd : Nat.card V ∣ h * r := by rw [← hc]; exact AddSubgroup.card_addSubgroup_dvd_card V
  have hG' : (⟨G, hG0⟩ : V) ≠ 0 := fun h => hG (congrArg Subtype.val h)
  have h1 : Nat.card V = r := by
    rw [hcard] at hd ⊢
    have hne : n ≠ 0 := by
      intro h0
      rw [h0, pow_zero] at hcard
      have := Finite.card_le_one_iff_subsingleton.mp hcard.le
      exact hG' (Subsingleton.elim _ _)
    have hle : n ≤ 1 := by
      by_contra hgt
      have h2 : r * r ∣ h * r := by
        refine dvd_trans ?_ hd
        rw [← pow_two]
        exact pow_dvd_pow r (by omega)
      exact hh (Nat.dvd_of_mul_dvd_mul_right hr.pos h2)
    rw [show n = 1 by omega, pow_one]
  have hm := mem_multiples_of_prime_card h1 (g := ⟨G, hG0⟩) (g' := ⟨T, hT⟩) hG'
  obtain ⟨k, hk⟩ := AddSubmonoid.mem_multiples_iff _ _ |>.mp hm
  exact ⟨k, (congrArg Subtype.val hk).symm⟩

/-- the points of order `r` of `E2` are the multiples of the generator. -/
theorem mem_gen2 {T : Spec.E2.Point} (hT : Spec.r • T = 0) : ∃ k : ℕ, T = k • Spec.gen2 :=
  cyclic_of prime_r card_E2 (fun h => h2_mod (Nat.mod_eq_zero_of_dvd h)) gen2_ne gen2_order hT

end Verif.Bls
