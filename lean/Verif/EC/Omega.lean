import Verif.EC.Jacobian
import Mathlib.GroupTheory.OrderOfElement
import Mathlib.GroupTheory.Index
import Mathlib.Data.ZMod.Basic
import Mathlib.Algebra.Field.ZMod

/-!
# The automorphism `(x, y) ↦ (β x, y)` of `y² = x³ + b` for a primitive cube root of unity `β`

Lemmas only.  Used to find the structure of the torsion of the G1 curve.
-/

namespace Verif.EC

open WeierstrassCurve WeierstrassCurve.Affine

section
variable {F : Type*} [Field F] [DecidableEq F] {b β : F}

theorem omega_nonsing (hβ : β ^ 3 = 1) {x y : F} (h : (sw 0 b).Nonsingular x y) : (sw 0 b).Nonsingular (β * x) y := by
  have hβ0 : β ≠ 0 := by rintro rfl; simp at hβ
  rw [Affine.nonsingular_iff] at h ⊢
  simp only [sw] at h ⊢
  obtain ⟨h1, h2⟩ := h
  refine ⟨?_, ?_⟩
  · rw [Affine.equation_iff] at h1 ⊢
    linear_combination h1 - x ^ 3 * hβ
  · rcases h2 with h2 | h2
    · left
      intro h
      apply h2
      have : β ^ 2 * (3 * x ^ 2) = 0 := by linear_combination -h
      have h3 := (mul_eq_zero.mp this).resolve_left (pow_ne_zero 2 hβ0)
      linear_combination -h3
    · right; simpa using h2

/-- the automorphism, on points. -/
def omega (hβ : β ^ 3 = 1) : (sw 0 b).Point → (sw 0 b).Point
  | .zero => 0
  | .some x y h => .some (β * x) y (omega_nonsing hβ h)

theorem omega_zero (hβ : β ^ 3 = 1) : omega (b := b) hβ 0 = 0 := rfl

theorem omega_add (hβ : β ^ 3 = 1) (P R : (sw 0 b).Point) : omega hβ (P + R) = omega hβ P + omega hβ R := by
  have hβ0 : β ≠ 0 := by rintro rfl; simp at hβ
  match P, R with
  | .zero, R => exact (congrArg _ (zero_add R)).trans (zero_add _).symm
  | P, .zero => exact (congrArg _ (add_zero P)).trans (add_zero _).symm
  | .some x1 y1 h1, .some x2 y2 h2 =>
    by_cases hxy : x1 = x2 ∧ y1 = (sw 0 b).negY x2 y2
    · rw [Point.add_of_Y_eq hxy.1 hxy.2, omega_zero, omega, omega, Point.add_of_Y_eq (by rw [hxy.1])]
      rw [hxy.2]; simp [negY, sw]
    · have hxy' : ¬ (β * x1 = β * x2 ∧ y1 = (sw 0 b).negY (β * x2) y2) := by
        rintro ⟨ha, hb⟩
        exact hxy ⟨mul_left_cancel₀ hβ0 ha, by rw [hb]; simp [negY, sw]⟩
      rw [Point.add_some hxy, omega, omega, omega, Point.add_some hxy', Point.some.injEq]
      have hL : (sw 0 b).slope (β * x1) (β * x2) y1 y2 = β ^ 2 * (sw 0 b).slope x1 x2 y1 y2 := by
        by_cases hx : x1 = x2
        · have hy : y1 ≠ (sw 0 b).negY x2 y2 := fun h => hxy ⟨hx, h⟩
          have hy' : y1 ≠ (sw 0 b).negY (β * x2) y2 := fun h => hxy' ⟨by rw [hx], h⟩
          rw [slope_of_Y_ne hx hy, slope_of_Y_ne (by rw [hx]) hy']
          simp only [sw, negY]
          ring
        · have hx' : β * x1 ≠ β * x2 := fun h => hx (mul_left_cancel₀ hβ0 h)
          rw [slope_of_X_ne hx, slope_of_X_ne hx']
          have hd : x1 - x2 ≠ 0 := sub_ne_zero.mpr hx
          rw [← mul_sub, div_eq_iff (mul_ne_zero hβ0 hd), mul_assoc, div_mul_eq_mul_div, ← mul_div_assoc, eq_div_iff hd]
          linear_combination (-(y1 - y2) * (x1 - x2)) * hβ
      rw [hL]
      generalize (sw 0 b).slope x1 x2 y1 y2 = L
      simp only [addX, addY, negAddY, negY, sw]
      constructor
      · linear_combination (-β * L ^ 2) * hβ
      · linear_combination (L ^ 3 * (β ^ 3 + 1) - L * (2 * x1 + x2)) * hβ

/-- the three points on a horizontal line. -/
theorem omega_sum (hβ : β ^ 2 + β + 1 = 0) (h2 : (2 : F) ≠ 0) (hβ3 : β ^ 3 = 1) (h1 : β ≠ 1) (P : (sw 0 b).Point) :
    P + omega hβ3 P + omega hβ3 (omega hβ3 P) = 0 := by
  match P with
  | .zero => exact (zero_add _).trans rfl
  | .some x y h =>
    have hxy : ¬ (x = β * x ∧ y = (sw 0 b).negY (β * x) y) := by
      rintro ⟨ha, hb⟩
      have hx : x = 0 := by
        have : (β - 1) * x = 0 := by linear_combination -ha
        exact (mul_eq_zero.mp this).resolve_left (sub_ne_zero.mpr h1)
      have hy : y = 0 := by
        simp only [negY, sw] at hb
        have : 2 * y = 0 := by linear_combination hb
        exact (mul_eq_zero.mp this).resolve_left h2
      rw [hx, hy, Affine.nonsingular_iff] at h
      simp [sw] at h
    have hL : (sw 0 b).slope x (β * x) y y = 0 := by
      by_cases hx : x = β * x
      · rw [slope_of_Y_ne hx (fun h => hxy ⟨hx, h⟩)]
        have hx0 : x = 0 := by
          have : (β - 1) * x = 0 := by linear_combination -hx
          exact (mul_eq_zero.mp this).resolve_left (sub_ne_zero.mpr h1)
        rw [hx0]; simp [sw]
      · rw [slope_of_X_ne hx, sub_self, zero_div]
    simp only [omega]
    rw [Point.add_some hxy]
    apply Point.add_of_Y_eq
    · rw [hL]; simp only [addX, sw]; linear_combination (-x) * hβ
    · rw [hL]; simp only [addY, negAddY, negY, addX, sw]; ring

end

/-! ## two independent points of order `l` -/

section
variable {A : Type*} [AddCommGroup A]

/-- the homomorphism `n ↦ n • P` on `ZMod l`. -/
noncomputable def zhom {l : ℕ} {P : A} (h : l • P = 0) : ZMod l →+ A :=
  ZMod.lift l ⟨zmultiplesHom A P, by rw [zmultiplesHom_apply, natCast_zsmul, h]⟩

theorem zhom_apply {l : ℕ} {P : A} (h : l • P = 0) (n : ℕ) : zhom h (n : ZMod l) = n • P := by
  have := ZMod.lift_coe l ⟨zmultiplesHom A P, by rw [zmultiplesHom_apply, natCast_zsmul, h]⟩ (n : ℤ)
  rw [Int.cast_natCast] at this
  exact this.trans (natCast_zsmul P n)

theorem smul_eq_zero_iff {l : ℕ} (hl : l.Prime) {P : A} (h : l • P = 0) (h0 : P ≠ 0) (n : ℕ) : n • P = 0 ↔ (n : ZMod l) = 0 := by
  rw [ZMod.natCast_eq_zero_iff, ← addOrderOf_dvd_iff_nsmul_eq_zero, addOrderOf_eq_prime (hp := ⟨hl⟩) h h0]

/-- if the group has `l² m` elements and two independent elements of order `l`, then `l m` kills it. -/
theorem two_independent [Finite A] {l m : ℕ} (hl : l.Prime) (hc : Nat.card A = l ^ 2 * m) (φ : A → A)
    (hφ0 : φ 0 = 0) (hφ : ∀ P R, φ (P + R) = φ P + φ R) {P : A} (h0 : P ≠ 0) (h : l • P = 0) (hs : P + φ P + φ (φ P) = 0)
    (hn : ∀ k : ℕ, ((k : ZMod l) ^ 2 + k + 1 = 0) → φ P ≠ k • P) (T : A) : (l * m) • T = 0 := by
  haveI : Fact l.Prime := ⟨hl⟩
  have hφn : ∀ (n : ℕ) (R : A), φ (n • R) = n • φ R := by
    intro n R
    induction n with
    | zero => rw [zero_nsmul, zero_nsmul, hφ0]
    | succ n ih => rw [succ_nsmul, succ_nsmul, hφ, ih]
  have hR : l • φ P = 0 := by rw [← hφn, h, hφ0]
  let f : ZMod l × ZMod l →+ A := (zhom h).coprod (zhom hR)
  have hfa : ∀ a b : ZMod l, f (a, b) = a.val • P + b.val • φ P := by
    intro a b
    show zhom h a + zhom hR b = _
    conv_lhs => rw [← ZMod.natCast_zmod_val a, ← ZMod.natCast_zmod_val b]
    rw [zhom_apply, zhom_apply]
  have hinj : Function.Injective f := by
    rw [injective_iff_map_eq_zero]
    rintro ⟨a, b⟩ hab
    rw [hfa] at hab
    by_cases hb : b = 0
    · subst hb
      rw [ZMod.val_zero, zero_nsmul, add_zero, smul_eq_zero_iff hl h h0, ZMod.natCast_zmod_val] at hab
      rw [hab]; rfl
    · exfalso
      -- φ P = k P
      have hk : φ P = (-a * b⁻¹).val • P := by
        have e1 : b⁻¹.val • (a.val • P + b.val • φ P) = 0 := by rw [hab, nsmul_zero]
        have e2 : b⁻¹.val • (b.val • φ P) = φ P := by
          rw [← zhom_apply hR b.val, ← map_nsmul, nsmul_eq_mul, ZMod.natCast_zmod_val, ZMod.natCast_zmod_val, inv_mul_cancel₀ hb]
          have := zhom_apply hR 1
          rw [Nat.cast_one, one_nsmul] at this
          exact this
        have e3 : b⁻¹.val • (a.val • P) + (-a * b⁻¹).val • P = 0 := by
          rw [← zhom_apply h a.val, ← map_nsmul, ← zhom_apply h, ← map_add, nsmul_eq_mul, ZMod.natCast_zmod_val, ZMod.natCast_zmod_val,
            ZMod.natCast_zmod_val]
          rw [show b⁻¹ * a + -a * b⁻¹ = 0 by ring, map_zero]
        rw [nsmul_add, e2] at e1
        have := e1.trans e3.symm
        exact add_left_cancel this
      generalize (-a * b⁻¹).val = k at hk
      refine hn k ?_ hk
      have e : (k ^ 2 + k + 1) • P = 0 := by
        have h2 : φ (φ P) = (k * k) • P := by rw [hk, hφn, hk, ← mul_nsmul']
        rw [h2, hk] at hs
        rw [add_nsmul, add_nsmul, one_nsmul, pow_two, ← hs]; abel
      rw [smul_eq_zero_iff hl h h0] at e
      rw [← e]; push_cast; ring
  have hcard : Nat.card f.range = l ^ 2 := by
    rw [Nat.card_congr (AddMonoidHom.ofInjective hinj).toEquiv.symm, Nat.card_prod, Nat.card_zmod, pow_two]
  have hidx : f.range.index = m := by
    have := f.range.card_mul_index
    rw [hcard, hc] at this
    exact Nat.eq_of_mul_eq_mul_left (pow_pos hl.pos 2) this
  have hmem := f.range.nsmul_index_mem T
  rw [hidx] at hmem
  obtain ⟨⟨a, b⟩, hab⟩ := hmem
  rw [mul_comm, mul_nsmul, ← hab, ← map_nsmul]
  have : l • ((a, b) : ZMod l × ZMod l) = 0 := by
    ext <;> simp
  rw [this, map_zero]

end

end Verif.EC
