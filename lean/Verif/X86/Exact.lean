import Verif.X86.MulMath
import Mathlib.Tactic.IntervalCases

/-!
# What a Montgomery reduction that loses a part of its sum computes
-/

set_option exponentiation.threshold 1000
set_option linter.unusedVariables false

namespace Verif.X86

open Verif.Bls

/-- a reduction that loses `E` computes the product exactly if `E` is a multiple of the modulus. -/
theorem mont_final_iff {x y r : Fe} (hx : x.Lz) (hy : y.Lz) {M R E : ℤ} (hM : 0 ≤ M) (hM' : M < 2 ^ 384) (hE : 0 ≤ E)
    (e : ((x.val * y.val : ℕ) : ℤ) + M * Q = 2 ^ 384 * R + E) (hr : (R < Q ∧ (r.val : ℤ) = R) ∨ (r.val : ℤ) + Q = R) :
    r = Fe.mul x y ↔ (Q : ℤ) ∣ E := by
  have hQ : Q < 2 ^ 381 := by decide +kernel
  have hQ0 : 0 < Q := by decide +kernel
  unfold Fe.Lz at hx hy
  have hxy : x.val * y.val ≤ 2 ^ 384 * Q := by
    calc x.val * y.val ≤ (2 * Q) * (2 * Q) := Nat.mul_le_mul hx.le hy.le
      _ = (4 * Q) * Q := by ring
      _ ≤ 2 ^ 384 * Q := Nat.mul_le_mul_right _ (by omega)
  obtain ⟨m1, m2⟩ := Fe.mul_spec x y (by omega) hxy
  lift M to ℕ using hM
  lift E to ℕ using hE
  have hR0 : 0 ≤ R := by
    have b1 := Int.natCast_nonneg r.val
    have b2 := Int.natCast_nonneg Q
    exact hr.elim (fun g => g.2 ▸ b1) (fun g => g ▸ Int.add_nonneg b1 b2)
  lift R to ℕ using hR0
  have e' : x.val * y.val + M * Q = 2 ^ 384 * R + E := by exact_mod_cast e
  have hMQ : M * Q < 2 ^ 384 * Q := Nat.mul_lt_mul_of_pos_right (by exact_mod_cast hM') hQ0
  have hR2 : R < 2 * Q := by
    have : 2 ^ 384 * R < 2 ^ 384 * (2 * Q) := by
      have : 2 ^ 384 * R ≤ x.val * y.val + M * Q := by omega
      refine lt_of_le_of_lt this ?_
      calc x.val * y.val + M * Q < 2 ^ 384 * Q + 2 ^ 384 * Q := by omega
        _ = 2 ^ 384 * (2 * Q) := by ring
    exact Nat.lt_of_mul_lt_mul_left this
  have hr' : r.val < Q ∧ ∃ c, R = r.val + c * Q := by
    rcases hr with ⟨g1, g2⟩ | g
    · have g1' : R < Q := by exact_mod_cast g1
      have g2' : r.val = R := by exact_mod_cast g2
      exact ⟨by omega, 0, by omega⟩
    · have g' : r.val + Q = R := by exact_mod_cast g
      exact ⟨by omega, 1, by omega⟩
  obtain ⟨r1, c, hc⟩ := hr'
  have a : 2 ^ 384 * (Fe.mul x y).val ≡ x.val * y.val [MOD Q] := m2
  have b : 2 ^ 384 * r.val + E ≡ x.val * y.val [MOD Q] := by
    have b1 : x.val * y.val + M * Q ≡ x.val * y.val [MOD Q] :=
      (Nat.modEq_zero_iff_dvd.mpr (Dvd.intro_left M rfl)).add_left (x.val * y.val)
    have b2 : 2 ^ 384 * R + E ≡ 2 ^ 384 * r.val + E [MOD Q] := by
      rw [hc]
      refine Nat.ModEq.add_right _ (Nat.ModEq.mul_left _ ?_)
      exact (Nat.modEq_zero_iff_dvd.mpr (Dvd.intro_left c rfl)).add_left r.val
    rw [e'] at b1
    exact b2.symm.trans b1
  have ab := b.trans a.symm
  have hgcd : Nat.gcd Q (2 ^ 384) = 1 := by decide +kernel
  rw [Int.natCast_dvd_natCast]
  constructor
  · intro h
    rw [h] at ab
    rw [← Nat.add_zero (2 ^ 384 * (Fe.mul x y).val), Nat.add_assoc, Nat.zero_add] at ab
    exact (Nat.modEq_zero_iff_dvd).mp (Nat.ModEq.add_left_cancel' _ ab)
  · intro h
    have h0 : 2 ^ 384 * r.val + E ≡ 2 ^ 384 * r.val [MOD Q] := by
      have := ((Nat.modEq_zero_iff_dvd).mpr h).add_left (2 ^ 384 * r.val)
      rwa [Nat.add_zero] at this
    have := Nat.ModEq.cancel_left_of_coprime hgcd (h0.symm.trans ab)
    refine Fe.val_inj ?_
    have h := this
    unfold Nat.ModEq at h
    rwa [Nat.mod_eq_of_lt r1, Nat.mod_eq_of_lt m1] at h

theorem zb_eq (b : Bool) : zb b = if b then 1 else 0 := by cases b <;> rfl

/-- nothing that `mulNoADX` can lose is a multiple of the modulus. -/
theorem noadx_loss : ∀ u0 u1 u2 u3 u4 u5 : Bool, (Q : ℤ) ∣ 2 ^ 64 * zb u0 + 2 ^ 128 * zb u1 + 2 ^ 192 * zb u2 + 2 ^ 256 * zb u3 +
    2 ^ 320 * zb u4 + 2 ^ 384 * zb u5 ↔
    u0 = false ∧ u1 = false ∧ u2 = false ∧ u3 = false ∧ u4 = false ∧ u5 = false := by
  simp only [zb_eq]
  decide +kernel

/-- nothing that `mulADX` can lose is a multiple of the modulus. -/
theorem adx_loss : ∀ u0 u1 u2 u3 u4 : Bool, (Q : ℤ) ∣ 2 ^ 448 * zb u0 + 2 ^ 512 * zb u1 + 2 ^ 576 * zb u2 + 2 ^ 640 * zb u3 +
    2 ^ 704 * zb u4 ↔
    u0 = false ∧ u1 = false ∧ u2 = false ∧ u3 = false ∧ u4 = false := by
  simp only [zb_eq]
  decide +kernel

theorem quot_digitZ {t i : ℕ} {q : UInt64} {M V : ℤ} (hi : i < 6) (hM : 0 ≤ M) (hM' : M < 2 ^ (64 * i))
    (h : (t : ℤ) + (M + 2 ^ (64 * i) * z q) * Q = 2 ^ (64 * (i + 1)) * V) : (q == 1) = false ↔ wordAt (quot t 6) i ≠ 1 := by
  lift M to ℕ using hM
  have hd : 2 ^ (64 * (i + 1)) ∣ t + (M + 2 ^ (64 * i) * q.toNat) * Q := by
    have : (2 ^ (64 * (i + 1)) : ℤ) ∣ (t : ℤ) + (M + 2 ^ (64 * i) * (q.toNat : ℤ)) * Q := ⟨V, h⟩
    exact_mod_cast this
  have := quot_digit hi (by exact_mod_cast hM') q.toNat_lt hd
  rw [← this, beq_eq_false_iff_ne, ne_eq, ne_eq, ← UInt64.toNat_inj]
  rfl

theorem noadx_units {t : ℕ} {q0 q1 q2 q3 q4 q5 : UInt64} {V1 V2 V3 V4 V5 V6 : ℤ}
    (e1 : (t : ℤ) + (z q0) * Q = 2 ^ 64 * V1 + 2 ^ 64 * zb (q0 == 1))
    (e2 : (t : ℤ) + (z q0 + 2 ^ 64 * z q1) * Q = 2 ^ 128 * V2 + 2 ^ 64 * zb (q0 == 1) + 2 ^ 128 * zb (q1 == 1))
    (e3 : (t : ℤ) + (z q0 + 2 ^ 64 * z q1 + 2 ^ 128 * z q2) * Q = 2 ^ 192 * V3 + 2 ^ 64 * zb (q0 == 1) + 2 ^ 128 * zb (q1 == 1) + 2 ^ 192 * zb (q2 == 1))
    (e4 : (t : ℤ) + (z q0 + 2 ^ 64 * z q1 + 2 ^ 128 * z q2 + 2 ^ 192 * z q3) * Q = 2 ^ 256 * V4 + 2 ^ 64 * zb (q0 == 1) + 2 ^ 128 * zb (q1 == 1) + 2 ^ 192 * zb (q2 == 1) + 2 ^ 256 * zb (q3 == 1))
    (e5 : (t : ℤ) + (z q0 + 2 ^ 64 * z q1 + 2 ^ 128 * z q2 + 2 ^ 192 * z q3 + 2 ^ 256 * z q4) * Q = 2 ^ 320 * V5 + 2 ^ 64 * zb (q0 == 1) + 2 ^ 128 * zb (q1 == 1) + 2 ^ 192 * zb (q2 == 1) + 2 ^ 256 * zb (q3 == 1) + 2 ^ 320 * zb (q4 == 1))
    (e6 : (t : ℤ) + (z q0 + 2 ^ 64 * z q1 + 2 ^ 128 * z q2 + 2 ^ 192 * z q3 + 2 ^ 256 * z q4 + 2 ^ 320 * z q5) * Q = 2 ^ 384 * V6 + 2 ^ 64 * zb (q0 == 1) + 2 ^ 128 * zb (q1 == 1) + 2 ^ 192 * zb (q2 == 1) + 2 ^ 256 * zb (q3 == 1) + 2 ^ 320 * zb (q4 == 1) + 2 ^ 384 * zb (q5 == 1)) :
    NoUnitQuotient t ↔ (q0 == 1) = false ∧ (q1 == 1) = false ∧ (q2 == 1) = false ∧ (q3 == 1) = false ∧ (q4 == 1) = false ∧
      (q5 == 1) = false := by
  have b0 := z_bnd q0
  have b1 := z_bnd q1
  have b2 := z_bnd q2
  have b3 := z_bnd q3
  have b4 := z_bnd q4
  have b5 := z_bnd q5
  have zf : zb false = 0 := rfl
  have d0 : ((q0 == 1) = false ↔ wordAt (quot t 6) 0 ≠ 1) := by
    refine quot_digitZ (M := 0) (V := V1 + zb (q0 == 1)) (by norm_num) (by clear * - b0 b1 b2 b3 b4 b5; omega) (by clear * - b0 b1 b2 b3 b4 b5; first | (norm_num; done) | (norm_num; omega)) ?_
    norm_num at e1 ⊢
    linear_combination e1
  have d1 : (q0 == 1) = false → ((q1 == 1) = false ↔ wordAt (quot t 6) 1 ≠ 1) := by
    intro g0
    rw [g0, zf] at e2
    refine quot_digitZ (M := z q0) (V := V2 + zb (q1 == 1)) (by norm_num) (by clear * - b0 b1 b2 b3 b4 b5; omega) (by clear * - b0 b1 b2 b3 b4 b5; first | (norm_num; done) | (norm_num; omega)) ?_
    norm_num at e2 ⊢
    linear_combination e2
  have d2 : (q0 == 1) = false → (q1 == 1) = false → ((q2 == 1) = false ↔ wordAt (quot t 6) 2 ≠ 1) := by
    intro g0 g1
    rw [g0, g1, zf] at e3
    refine quot_digitZ (M := z q0 + 2 ^ 64 * z q1) (V := V3 + zb (q2 == 1)) (by norm_num) (by clear * - b0 b1 b2 b3 b4 b5; omega) (by clear * - b0 b1 b2 b3 b4 b5; first | (norm_num; done) | (norm_num; omega)) ?_
    norm_num at e3 ⊢
    linear_combination e3
  have d3 : (q0 == 1) = false → (q1 == 1) = false → (q2 == 1) = false → ((q3 == 1) = false ↔ wordAt (quot t 6) 3 ≠ 1) := by
    intro g0 g1 g2
    rw [g0, g1, g2, zf] at e4
    refine quot_digitZ (M := z q0 + 2 ^ 64 * z q1 + 2 ^ 128 * z q2) (V := V4 + zb (q3 == 1)) (by norm_num) (by clear * - b0 b1 b2 b3 b4 b5; omega) (by clear * - b0 b1 b2 b3 b4 b5; first | (norm_num; done) | (norm_num; omega)) ?_
    norm_num at e4 ⊢
    linear_combination e4
  have d4 : (q0 == 1) = false → (q1 == 1) = false → (q2 == 1) = false → (q3 == 1) = false → ((q4 == 1) = false ↔ wordAt (quot t 6) 4 ≠ 1) := by
    intro g0 g1 g2 g3
    rw [g0, g1, g2, g3, zf] at e5
    refine quot_digitZ (M := z q0 + 2 ^ 64 * z q1 + 2 ^ 128 * z q2 + 2 ^ 192 * z q3) (V := V5 + zb (q4 == 1)) (by norm_num) (by clear * - b0 b1 b2 b3 b4 b5; omega) (by clear * - b0 b1 b2 b3 b4 b5; first | (norm_num; done) | (norm_num; omega)) ?_
    norm_num at e5 ⊢
    linear_combination e5
  have d5 : (q0 == 1) = false → (q1 == 1) = false → (q2 == 1) = false → (q3 == 1) = false → (q4 == 1) = false → ((q5 == 1) = false ↔ wordAt (quot t 6) 5 ≠ 1) := by
    intro g0 g1 g2 g3 g4
    rw [g0, g1, g2, g3, g4, zf] at e6
    refine quot_digitZ (M := z q0 + 2 ^ 64 * z q1 + 2 ^ 128 * z q2 + 2 ^ 192 * z q3 + 2 ^ 256 * z q4) (V := V6 + zb (q5 == 1)) (by norm_num) (by clear * - b0 b1 b2 b3 b4 b5; omega) (by clear * - b0 b1 b2 b3 b4 b5; first | (norm_num; done) | (norm_num; omega)) ?_
    norm_num at e6 ⊢
    linear_combination e6
  constructor
  · intro h
    have h0 := (d0).mpr (h 0 (by norm_num))
    have h1 := (d1 h0).mpr (h 1 (by norm_num))
    have h2 := (d2 h0 h1).mpr (h 2 (by norm_num))
    have h3 := (d3 h0 h1 h2).mpr (h 3 (by norm_num))
    have h4 := (d4 h0 h1 h2 h3).mpr (h 4 (by norm_num))
    have h5 := (d5 h0 h1 h2 h3 h4).mpr (h 5 (by norm_num))
    exact ⟨h0, h1, h2, h3, h4, h5⟩
  · rintro ⟨h0, h1, h2, h3, h4, h5⟩ i hi
    interval_cases i
    · exact (d0).mp h0
    · exact (d1 h0).mp h1
    · exact (d2 h0 h1).mp h2
    · exact (d3 h0 h1 h2).mp h3
    · exact (d4 h0 h1 h2 h3).mp h4
    · exact (d5 h0 h1 h2 h3 h4).mp h5

end Verif.X86
