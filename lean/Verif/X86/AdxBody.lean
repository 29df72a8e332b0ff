import Verif.X86.Adx
import Verif.X86.MulMath

/-!
# The body of `mulADX`

Generated: the segments of Verif/X86/Adx.lean one after the other.
-/

set_option exponentiation.threshold 1000
set_option maxHeartbeats 1000000
set_option linter.unusedVariables false
set_option linter.unusedSimpArgs false

namespace Verif.X86

/-- the common body of `mulADX` and `mulAssignADX` when no carry is lost. -/
theorem adxBody_spec {ax bx cx dx si di r8 r9 r10 r11 r12 r13 r14 r15 s0 s1 s2 f0 f1 f2 : UInt64} {cf of : Bool} {mem : UInt64 → UInt64}
    {a0 a1 a2 a3 a4 a5 b0 b1 b2 b3 b4 b5 : UInt64}
    (hdi_0 : mem (di + 0) = a0)
    (hdi_8 : mem (di + 8) = a1)
    (hdi_16 : mem (di + 16) = a2)
    (hdi_24 : mem (di + 24) = a3)
    (hdi_32 : mem (di + 32) = a4)
    (hdi_40 : mem (di + 40) = a5)
    (hsi_0 : mem (si + 0) = b0)
    (hsi_8 : mem (si + 8) = b1)
    (hsi_16 : mem (si + 16) = b2)
    (hsi_24 : mem (si + 24) = b3)
    (hsi_32 : mem (si + 32) = b4)
    (hsi_40 : mem (si + 40) = b5)
    {A B : ℤ} {t : ℕ} (hAd : A = z a0 + 2 ^ 64 * z a1 + 2 ^ 128 * z a2 + 2 ^ 192 * z a3 + 2 ^ 256 * z a4 + 2 ^ 320 * z a5)
    (hBd : B = z b0 + 2 ^ 64 * z b1 + 2 ^ 128 * z b2 + 2 ^ 192 * z b3 + 2 ^ 256 * z b4 + 2 ^ 320 * z b5)
    (hA : A < 2 ^ 382) (hB : B < 2 ^ 382) (hA0 : 0 ≤ A) (hB0 : 0 ≤ B) (ht : (t : ℤ) = A * B) (h : NoLostCarry t) :
    ∃ ax' bx' cx' dx' si' di' r8' r9' r10' r11' r12' r13' r14' r15' s0' s1' : UInt64, ∃ cf' of' : Bool,
      run adxBody ⟨ax, bx, cx, dx, si, di, r8, r9, r10, r11, r12, r13, r14, r15, s0, s1, s2, f0, f1, f2, cf, of, mem⟩ =
      ⟨ax', bx', cx', dx', si', di', r8', r9', r10', r11', r12', r13', r14', r15', s0', s1', s2, f0, f1, f2, cf', of', mem⟩ ∧
      ∃ M R : ℤ, 0 ≤ M ∧ M < 2 ^ 384 ∧ A * B + M * 0x1a0111ea397fe69a4b1ba7b6434bacd764774b84f38512bf6730d2a0f6b0f6241eabfffeb153ffffb9feffffffffaaab = 2 ^ 384 * R ∧
        ((R < 0x1a0111ea397fe69a4b1ba7b6434bacd764774b84f38512bf6730d2a0f6b0f6241eabfffeb153ffffb9feffffffffaaab ∧ z r13' + 2 ^ 64 * z r14' + 2 ^ 128 * z r15' + 2 ^ 192 * z r8' + 2 ^ 256 * z r9' + 2 ^ 320 * z r10' = R) ∨
         z r13' + 2 ^ 64 * z r14' + 2 ^ 128 * z r15' + 2 ^ 192 * z r8' + 2 ^ 256 * z r9' + 2 ^ 320 * z r10' + 0x1a0111ea397fe69a4b1ba7b6434bacd764774b84f38512bf6730d2a0f6b0f6241eabfffeb153ffffb9feffffffffaaab = R) := by
  have hQ : (Bls.Q : ℤ) = 0x1a0111ea397fe69a4b1ba7b6434bacd764774b84f38512bf6730d2a0f6b0f6241eabfffeb153ffffb9feffffffffaaab := by rw [Bls.Q_eq]; rfl
  obtain ⟨ax_1, cx_1, r8_1, r9_1, r10_1, r11_1, r12_1, r13_1, cf_1, of_1, h_1, k0⟩ := adxRow0_spec (ax := ax) (bx := bx) (cx := cx) (dx := dx) (si := si) (di := di) (r8 := r8) (r9 := r9) (r10 := r10) (r11 := r11) (r12 := r12) (r13 := r13) (r14 := r14) (r15 := r15) (s0 := s0) (s1 := s1) (s2 := s2) (f0 := f0) (f1 := f1) (f2 := f2) (cf := cf) (of := of) (mem := mem) hdi_0 hdi_8 hdi_16 hdi_24 hdi_32 hdi_40 hsi_0
  rw [← hAd] at k0
  obtain ⟨ax_2, bx_2, r8_2, r9_2, r10_2, r11_2, r12_2, r13_2, r14_2, cf_2, of_2, h_2, k1⟩ := adxRow1_spec (ax := ax_1) (bx := bx) (cx := cx_1) (dx := b0) (si := si) (di := di) (r8 := r8_1) (r9 := r9_1) (r10 := r10_1) (r11 := r11_1) (r12 := r12_1) (r13 := r13_1) (r14 := r14) (r15 := r15) (s0 := s0) (s1 := s1) (s2 := s2) (f0 := f0) (f1 := f1) (f2 := f2) (cf := cf_1) (of := of_1) (mem := mem) hdi_0 hdi_8 hdi_16 hdi_24 hdi_32 hdi_40 hsi_8
  rw [← hAd] at k1
  obtain ⟨ax_3, bx_3, r9_3, r10_3, r11_3, r12_3, r13_3, r14_3, r15_3, cf_3, of_3, h_3, k2⟩ := adxRow2_spec (ax := ax_2) (bx := bx_2) (cx := cx_1) (dx := b1) (si := si) (di := di) (r8 := r8_2) (r9 := r9_2) (r10 := r10_2) (r11 := r11_2) (r12 := r12_2) (r13 := r13_2) (r14 := r14_2) (r15 := r15) (s0 := r8_2) (s1 := s1) (s2 := s2) (f0 := f0) (f1 := f1) (f2 := f2) (cf := cf_2) (of := of_2) (mem := mem) hdi_0 hdi_8 hdi_16 hdi_24 hdi_32 hdi_40 hsi_16
  rw [← hAd] at k2
  obtain ⟨ax_4, bx_4, r8_4, r10_4, r11_4, r12_4, r13_4, r14_4, r15_4, cf_4, of_4, h_4, k3⟩ := adxRow3_spec (ax := ax_3) (bx := bx_3) (cx := cx_1) (dx := b2) (si := si) (di := di) (r8 := r8_2) (r9 := r9_3) (r10 := r10_3) (r11 := r11_3) (r12 := r12_3) (r13 := r13_3) (r14 := r14_3) (r15 := r15_3) (s0 := r8_2) (s1 := r9_3) (s2 := s2) (f0 := f0) (f1 := f1) (f2 := f2) (cf := cf_3) (of := of_3) (mem := mem) hdi_0 hdi_8 hdi_16 hdi_24 hdi_32 hdi_40 hsi_24
  rw [← hAd] at k3
  obtain ⟨ax_5, bx_5, r8_5, r9_5, r11_5, r12_5, r13_5, r14_5, r15_5, cf_5, of_5, h_5, k4⟩ := adxRow4_spec (ax := ax_4) (bx := bx_4) (cx := cx_1) (dx := b3) (si := si) (di := di) (r8 := r8_4) (r9 := r9_3) (r10 := r10_4) (r11 := r11_4) (r12 := r12_4) (r13 := r13_4) (r14 := r14_4) (r15 := r15_4) (s0 := r8_2) (s1 := r9_3) (s2 := s2) (f0 := f0) (f1 := f1) (f2 := f2) (cf := cf_4) (of := of_4) (mem := mem) hdi_0 hdi_8 hdi_16 hdi_24 hdi_32 hdi_40 hsi_32
  rw [← hAd] at k4
  have hBlow : 0 ≤ B - 2 ^ 320 * z b5 ∧ B - 2 ^ 320 * z b5 < 2 ^ 320 := by
    clear * - hBd
    have := z_bnd b0
    have := z_bnd b1
    have := z_bnd b2
    have := z_bnd b3
    have := z_bnd b4
    omega
  have hr : z r9_5 + z b5 ≤ 18446744073709551614 := by
    have P4 : z cx_1 + 2 ^ 64 * z r8_2 + 2 ^ 128 * z r9_3 + 2 ^ 192 * z r10_4 + 2 ^ 256 * z r11_5 + 2 ^ 320 * z r12_5 + 2 ^ 384 * z r13_5 + 2 ^ 448 * z r14_5 + 2 ^ 512 * z r15_5 + 2 ^ 576 * z r8_5 + 2 ^ 640 * z r9_5 = A * (B - 2 ^ 320 * z b5) := by
      linear_combination k0 + 2 ^ 64 * k1 + 2 ^ 128 * k2 + 2 ^ 192 * k3 + 2 ^ 256 * k4 - A * hBd
    have P5 : A * (B - 2 ^ 320 * z b5) ≤ 2 ^ 382 * 2 ^ 320 := mul_le_mul hA.le hBlow.2.le hBlow.1 (by norm_num)
    generalize A * (B - 2 ^ 320 * z b5) = X at P4 P5
    clear * - P4 P5 hBlow hB
    have := z_bnd cx_1
    have := z_bnd r8_2
    have := z_bnd r9_3
    have := z_bnd r10_4
    have := z_bnd r11_5
    have := z_bnd r12_5
    have := z_bnd r13_5
    have := z_bnd r14_5
    have := z_bnd r15_5
    have := z_bnd r8_5
    have := z_bnd r9_5
    omega
  obtain ⟨ax_6, bx_6, si_6, r8_6, r9_6, r12_6, r13_6, r14_6, r15_6, cf_6, of_6, h_6, k5⟩ := adxRow5_spec (ax := ax_5) (bx := bx_5) (cx := cx_1) (dx := b4) (si := si) (di := di) (r8 := r8_5) (r9 := r9_5) (r10 := r10_4) (r11 := r11_5) (r12 := r12_5) (r13 := r13_5) (r14 := r14_5) (r15 := r15_5) (s0 := r8_2) (s1 := r9_3) (s2 := s2) (f0 := f0) (f1 := f1) (f2 := f2) (cf := cf_5) (of := of_5) (mem := mem) hdi_0 hdi_8 hdi_16 hdi_24 hdi_32 hdi_40 hsi_40 hr
  rw [← hAd] at k5
  have h_7 : run adxSwap ⟨ax_6, bx_6, cx_1, b5, si_6, di, r8_6, r9_6, r10_4, r11_5, r12_6, r13_6, r14_6, r15_6, r8_2, r9_3, s2, f0, f1, f2, cf_6, of_6, mem⟩ = ⟨ax_6, r9_3, cx_1, b5, si_6, r8_2, r8_6, r9_6, r10_4, r11_5, r12_6, r13_6, r14_6, r15_6, r9_6, si_6, s2, f0, f1, f2, cf_6, of_6, mem⟩ := rfl
  have hT : z cx_1 + 2 ^ 64 * z r8_2 + 2 ^ 128 * z r9_3 + 2 ^ 192 * z r10_4 + 2 ^ 256 * z r11_5 + 2 ^ 320 * z r12_6 + 2 ^ 384 * z r13_6 + 2 ^ 448 * z r14_6 + 2 ^ 512 * z r15_6 + 2 ^ 576 * z r8_6 + 2 ^ 640 * z r9_6 + 2 ^ 704 * z si_6 = A * B := by
    linear_combination k0 + 2 ^ 64 * k1 + 2 ^ 128 * k2 + 2 ^ 192 * k3 + 2 ^ 256 * k4 + 2 ^ 320 * k5 - A * hBd
  clear k0 k1 k2 k3 k4 k5
  have hAB : A * B < 2 ^ 382 * 2 ^ 382 := mul_lt_mul'' hA hB hA0 hB0
  have ht11 : z si_6 ≤ 9223372036854775808 := by
    generalize A * B = X at hT hAB
    clear * - hT hAB
    have := z_bnd cx_1
    have := z_bnd r8_2
    have := z_bnd r9_3
    have := z_bnd r10_4
    have := z_bnd r11_5
    have := z_bnd r12_6
    have := z_bnd r13_6
    have := z_bnd r14_6
    have := z_bnd r15_6
    have := z_bnd r8_6
    have := z_bnd r9_6
    have := z_bnd si_6
    omega
  obtain ⟨ax_8, bx_8, cx_8, dx_8, si_8, di_8, r9_8, r10_8, r11_8, r12_8, r13_8, cf_8, of_8, h_8, e0, hk1, ho0⟩ := adxRed0_spec (ax := ax_6) (bx := r9_3) (cx := cx_1) (dx := b5) (si := si_6) (di := r8_2) (r8 := r8_6) (r9 := r9_6) (r10 := r10_4) (r11 := r11_5) (r12 := r12_6) (r13 := r13_6) (r14 := r14_6) (r15 := r15_6) (s0 := r9_6) (s1 := si_6) (s2 := s2) (f0 := f0) (f1 := f1) (f2 := f2) (cf := cf_6) (of := of_6) (mem := mem) 
  have ho0' : zb of_8 = 0 := by
    refine no_lossZ h (i := 1) (by norm_num) (by norm_num) (M := (z (mulLo cx_1 Bls.inp))) (L := z di_8 + 2 ^ 64 * z bx_8 + 2 ^ 128 * z r10_8 + 2 ^ 192 * z r11_8 + 2 ^ 256 * z r12_8) (w := z r13_8) (k := z si_8) (o := zb of_8) (U := z r14_6 + 2 ^ 64 * z r15_6 + 2 ^ 128 * z r8_6 + 2 ^ 192 * z r9_6 + 2 ^ 256 * z si_6) (R := z cx_1 + 2 ^ 64 * z r8_2 + 2 ^ 128 * z r9_3 + 2 ^ 192 * z r10_4 + 2 ^ 256 * z r11_5 + 2 ^ 320 * z r12_6 + 2 ^ 384 * z r13_6) ?_ ?_ ?_ ?_ ?_ ?_ ?_ ?_ ?_ ?_ ?_ ?_ ?_ ?_
    · clear * -
      have := z_bnd (mulLo cx_1 Bls.inp)
      omega
    · clear * -
      have := z_bnd (mulLo cx_1 Bls.inp)
      omega
    · clear * -
      have := z_bnd di_8
      have := z_bnd bx_8
      have := z_bnd r10_8
      have := z_bnd r11_8
      have := z_bnd r12_8
      omega
    · clear * -
      have := z_bnd di_8
      have := z_bnd bx_8
      have := z_bnd r10_8
      have := z_bnd r11_8
      have := z_bnd r12_8
      omega
    · clear * -
      have := z_bnd r13_8
      omega
    · clear * -
      have := z_bnd r13_8
      omega
    · clear * -
      have := z_bnd si_8
      omega
    · clear * -
      have := zb_bnd of_8
      omega
    · clear * -
      have := z_bnd r14_6
      have := z_bnd r15_6
      have := z_bnd r8_6
      have := z_bnd r9_6
      have := z_bnd si_6
      omega
    · clear * -
      have := z_bnd cx_1
      have := z_bnd r8_2
      have := z_bnd r9_3
      have := z_bnd r10_4
      have := z_bnd r11_5
      have := z_bnd r12_6
      have := z_bnd r13_6
      omega
    · clear * - ho0
      omega
    · linear_combination ht - hT
    · clear * -
      have := z_bnd cx_1
      have := z_bnd r8_2
      have := z_bnd r9_3
      have := z_bnd r10_4
      have := z_bnd r11_5
      have := z_bnd r12_6
      have := z_bnd r13_6
      omega
    · rw [hQ]
      linear_combination ht - hT - e0
  have I1 : A * B + (z (mulLo cx_1 Bls.inp)) * 0x1a0111ea397fe69a4b1ba7b6434bacd764774b84f38512bf6730d2a0f6b0f6241eabfffeb153ffffb9feffffffffaaab = 2 ^ 64 * (z di_8 + 2 ^ 64 * z bx_8 + 2 ^ 128 * z r10_8 + 2 ^ 192 * z r11_8 + 2 ^ 256 * z r12_8 + 2 ^ 320 * z r13_8 + 2 ^ 384 * z r14_6 + 2 ^ 448 * z r15_6 + 2 ^ 512 * z r8_6 + 2 ^ 576 * z r9_6 + 2 ^ 640 * z si_6) + 2 ^ 448 * z si_8 := by
    linear_combination -hT - 2 ^ 0 * e0 + 2 ^ 448 * ho0'
  obtain ⟨ax_9, bx_9, cx_9, dx_9, di_9, r9_9, r10_9, r11_9, r12_9, r13_9, r14_9, cf_9, of_9, h_9, e1, hk2, ho1⟩ := adxRed1_spec (ax := ax_8) (bx := bx_8) (cx := cx_8) (dx := dx_8) (si := si_8) (di := di_8) (r8 := r8_6) (r9 := r9_8) (r10 := r10_8) (r11 := r11_8) (r12 := r12_8) (r13 := r13_8) (r14 := r14_6) (r15 := r15_6) (s0 := r9_6) (s1 := si_6) (s2 := s2) (f0 := f0) (f1 := f1) (f2 := f2) (cf := cf_8) (of := of_8) (mem := mem) hk1
  have ho1' : zb of_9 = 0 := by
    refine no_lossZ h (i := 2) (by norm_num) (by norm_num) (M := (z (mulLo cx_1 Bls.inp) + 2 ^ 64 * z (mulLo di_8 Bls.inp))) (L := z bx_9 + 2 ^ 64 * z r10_9 + 2 ^ 128 * z r11_9 + 2 ^ 192 * z r12_9 + 2 ^ 256 * z r13_9) (w := z r14_9) (k := z cx_9) (o := zb of_9) (U := z r15_6 + 2 ^ 64 * z r8_6 + 2 ^ 128 * z r9_6 + 2 ^ 192 * z si_6) (R := z cx_1 + 2 ^ 64 * z r8_2 + 2 ^ 128 * z r9_3 + 2 ^ 192 * z r10_4 + 2 ^ 256 * z r11_5 + 2 ^ 320 * z r12_6 + 2 ^ 384 * z r13_6 + 2 ^ 448 * z r14_6) ?_ ?_ ?_ ?_ ?_ ?_ ?_ ?_ ?_ ?_ ?_ ?_ ?_ ?_
    · clear * -
      have := z_bnd (mulLo cx_1 Bls.inp)
      have := z_bnd (mulLo di_8 Bls.inp)
      omega
    · clear * -
      have := z_bnd (mulLo cx_1 Bls.inp)
      have := z_bnd (mulLo di_8 Bls.inp)
      omega
    · clear * -
      have := z_bnd bx_9
      have := z_bnd r10_9
      have := z_bnd r11_9
      have := z_bnd r12_9
      have := z_bnd r13_9
      omega
    · clear * -
      have := z_bnd bx_9
      have := z_bnd r10_9
      have := z_bnd r11_9
      have := z_bnd r12_9
      have := z_bnd r13_9
      omega
    · clear * -
      have := z_bnd r14_9
      omega
    · clear * -
      have := z_bnd r14_9
      omega
    · clear * -
      have := z_bnd cx_9
      omega
    · clear * -
      have := zb_bnd of_9
      omega
    · clear * -
      have := z_bnd r15_6
      have := z_bnd r8_6
      have := z_bnd r9_6
      have := z_bnd si_6
      omega
    · clear * -
      have := z_bnd cx_1
      have := z_bnd r8_2
      have := z_bnd r9_3
      have := z_bnd r10_4
      have := z_bnd r11_5
      have := z_bnd r12_6
      have := z_bnd r13_6
      have := z_bnd r14_6
      omega
    · clear * - ho1
      omega
    · linear_combination ht - hT
    · clear * -
      have := z_bnd cx_1
      have := z_bnd r8_2
      have := z_bnd r9_3
      have := z_bnd r10_4
      have := z_bnd r11_5
      have := z_bnd r12_6
      have := z_bnd r13_6
      have := z_bnd r14_6
      omega
    · rw [hQ]
      linear_combination ht + I1 - 2 ^ 64 * e1
  have I2 : A * B + (z (mulLo cx_1 Bls.inp) + 2 ^ 64 * z (mulLo di_8 Bls.inp)) * 0x1a0111ea397fe69a4b1ba7b6434bacd764774b84f38512bf6730d2a0f6b0f6241eabfffeb153ffffb9feffffffffaaab = 2 ^ 128 * (z bx_9 + 2 ^ 64 * z r10_9 + 2 ^ 128 * z r11_9 + 2 ^ 192 * z r12_9 + 2 ^ 256 * z r13_9 + 2 ^ 320 * z r14_9 + 2 ^ 384 * z r15_6 + 2 ^ 448 * z r8_6 + 2 ^ 512 * z r9_6 + 2 ^ 576 * z si_6) + 2 ^ 512 * z cx_9 := by
    linear_combination I1 - 2 ^ 64 * e1 + 2 ^ 512 * ho1'
  obtain ⟨ax_10, bx_10, dx_10, di_10, r9_10, r10_10, r11_10, r12_10, r13_10, r14_10, r15_10, cf_10, of_10, h_10, e2, hk3, ho2⟩ := adxRed2_spec (ax := ax_9) (bx := bx_9) (cx := cx_9) (dx := dx_9) (si := si_8) (di := di_9) (r8 := r8_6) (r9 := r9_9) (r10 := r10_9) (r11 := r11_9) (r12 := r12_9) (r13 := r13_9) (r14 := r14_9) (r15 := r15_6) (s0 := r9_6) (s1 := si_6) (s2 := s2) (f0 := f0) (f1 := f1) (f2 := f2) (cf := cf_9) (of := of_9) (mem := mem) hk2
  have ho2' : zb of_10 = 0 := by
    refine no_lossZ h (i := 3) (by norm_num) (by norm_num) (M := (z (mulLo cx_1 Bls.inp) + 2 ^ 64 * z (mulLo di_8 Bls.inp) + 2 ^ 128 * z (mulLo bx_9 Bls.inp))) (L := z r10_10 + 2 ^ 64 * z r11_10 + 2 ^ 128 * z r12_10 + 2 ^ 192 * z r13_10 + 2 ^ 256 * z r14_10) (w := z r15_10) (k := z di_10) (o := zb of_10) (U := z r8_6 + 2 ^ 64 * z r9_6 + 2 ^ 128 * z si_6) (R := z cx_1 + 2 ^ 64 * z r8_2 + 2 ^ 128 * z r9_3 + 2 ^ 192 * z r10_4 + 2 ^ 256 * z r11_5 + 2 ^ 320 * z r12_6 + 2 ^ 384 * z r13_6 + 2 ^ 448 * z r14_6 + 2 ^ 512 * z r15_6) ?_ ?_ ?_ ?_ ?_ ?_ ?_ ?_ ?_ ?_ ?_ ?_ ?_ ?_
    · clear * -
      have := z_bnd (mulLo cx_1 Bls.inp)
      have := z_bnd (mulLo di_8 Bls.inp)
      have := z_bnd (mulLo bx_9 Bls.inp)
      omega
    · clear * -
      have := z_bnd (mulLo cx_1 Bls.inp)
      have := z_bnd (mulLo di_8 Bls.inp)
      have := z_bnd (mulLo bx_9 Bls.inp)
      omega
    · clear * -
      have := z_bnd r10_10
      have := z_bnd r11_10
      have := z_bnd r12_10
      have := z_bnd r13_10
      have := z_bnd r14_10
      omega
    · clear * -
      have := z_bnd r10_10
      have := z_bnd r11_10
      have := z_bnd r12_10
      have := z_bnd r13_10
      have := z_bnd r14_10
      omega
    · clear * -
      have := z_bnd r15_10
      omega
    · clear * -
      have := z_bnd r15_10
      omega
    · clear * -
      have := z_bnd di_10
      omega
    · clear * -
      have := zb_bnd of_10
      omega
    · clear * -
      have := z_bnd r8_6
      have := z_bnd r9_6
      have := z_bnd si_6
      omega
    · clear * -
      have := z_bnd cx_1
      have := z_bnd r8_2
      have := z_bnd r9_3
      have := z_bnd r10_4
      have := z_bnd r11_5
      have := z_bnd r12_6
      have := z_bnd r13_6
      have := z_bnd r14_6
      have := z_bnd r15_6
      omega
    · clear * - ho2
      omega
    · linear_combination ht - hT
    · clear * -
      have := z_bnd cx_1
      have := z_bnd r8_2
      have := z_bnd r9_3
      have := z_bnd r10_4
      have := z_bnd r11_5
      have := z_bnd r12_6
      have := z_bnd r13_6
      have := z_bnd r14_6
      have := z_bnd r15_6
      omega
    · rw [hQ]
      linear_combination ht + I2 - 2 ^ 128 * e2
  have I3 : A * B + (z (mulLo cx_1 Bls.inp) + 2 ^ 64 * z (mulLo di_8 Bls.inp) + 2 ^ 128 * z (mulLo bx_9 Bls.inp)) * 0x1a0111ea397fe69a4b1ba7b6434bacd764774b84f38512bf6730d2a0f6b0f6241eabfffeb153ffffb9feffffffffaaab = 2 ^ 192 * (z r10_10 + 2 ^ 64 * z r11_10 + 2 ^ 128 * z r12_10 + 2 ^ 192 * z r13_10 + 2 ^ 256 * z r14_10 + 2 ^ 320 * z r15_10 + 2 ^ 384 * z r8_6 + 2 ^ 448 * z r9_6 + 2 ^ 512 * z si_6) + 2 ^ 576 * z di_10 := by
    linear_combination I2 - 2 ^ 128 * e2 + 2 ^ 576 * ho2'
  obtain ⟨ax_11, bx_11, cx_11, dx_11, r8_11, r10_11, r11_11, r12_11, r13_11, r14_11, r15_11, cf_11, of_11, h_11, e3, hk4, ho3⟩ := adxRed3_spec (ax := ax_10) (bx := bx_10) (cx := cx_9) (dx := dx_10) (si := si_8) (di := di_10) (r8 := r8_6) (r9 := r9_10) (r10 := r10_10) (r11 := r11_10) (r12 := r12_10) (r13 := r13_10) (r14 := r14_10) (r15 := r15_10) (s0 := r9_6) (s1 := si_6) (s2 := s2) (f0 := f0) (f1 := f1) (f2 := f2) (cf := cf_10) (of := of_10) (mem := mem) hk3
  have ho3' : zb of_11 = 0 := by
    refine no_lossZ h (i := 4) (by norm_num) (by norm_num) (M := (z (mulLo cx_1 Bls.inp) + 2 ^ 64 * z (mulLo di_8 Bls.inp) + 2 ^ 128 * z (mulLo bx_9 Bls.inp) + 2 ^ 192 * z (mulLo r10_10 Bls.inp))) (L := z r11_11 + 2 ^ 64 * z r12_11 + 2 ^ 128 * z r13_11 + 2 ^ 192 * z r14_11 + 2 ^ 256 * z r15_11) (w := z r8_11) (k := z cx_11) (o := zb of_11) (U := z r9_6 + 2 ^ 64 * z si_6) (R := z cx_1 + 2 ^ 64 * z r8_2 + 2 ^ 128 * z r9_3 + 2 ^ 192 * z r10_4 + 2 ^ 256 * z r11_5 + 2 ^ 320 * z r12_6 + 2 ^ 384 * z r13_6 + 2 ^ 448 * z r14_6 + 2 ^ 512 * z r15_6 + 2 ^ 576 * z r8_6) ?_ ?_ ?_ ?_ ?_ ?_ ?_ ?_ ?_ ?_ ?_ ?_ ?_ ?_
    · clear * -
      have := z_bnd (mulLo cx_1 Bls.inp)
      have := z_bnd (mulLo di_8 Bls.inp)
      have := z_bnd (mulLo bx_9 Bls.inp)
      have := z_bnd (mulLo r10_10 Bls.inp)
      omega
    · clear * -
      have := z_bnd (mulLo cx_1 Bls.inp)
      have := z_bnd (mulLo di_8 Bls.inp)
      have := z_bnd (mulLo bx_9 Bls.inp)
      have := z_bnd (mulLo r10_10 Bls.inp)
      omega
    · clear * -
      have := z_bnd r11_11
      have := z_bnd r12_11
      have := z_bnd r13_11
      have := z_bnd r14_11
      have := z_bnd r15_11
      omega
    · clear * -
      have := z_bnd r11_11
      have := z_bnd r12_11
      have := z_bnd r13_11
      have := z_bnd r14_11
      have := z_bnd r15_11
      omega
    · clear * -
      have := z_bnd r8_11
      omega
    · clear * -
      have := z_bnd r8_11
      omega
    · clear * -
      have := z_bnd cx_11
      omega
    · clear * -
      have := zb_bnd of_11
      omega
    · clear * -
      have := z_bnd r9_6
      have := z_bnd si_6
      omega
    · clear * -
      have := z_bnd cx_1
      have := z_bnd r8_2
      have := z_bnd r9_3
      have := z_bnd r10_4
      have := z_bnd r11_5
      have := z_bnd r12_6
      have := z_bnd r13_6
      have := z_bnd r14_6
      have := z_bnd r15_6
      have := z_bnd r8_6
      omega
    · clear * - ho3
      omega
    · linear_combination ht - hT
    · clear * -
      have := z_bnd cx_1
      have := z_bnd r8_2
      have := z_bnd r9_3
      have := z_bnd r10_4
      have := z_bnd r11_5
      have := z_bnd r12_6
      have := z_bnd r13_6
      have := z_bnd r14_6
      have := z_bnd r15_6
      have := z_bnd r8_6
      omega
    · rw [hQ]
      linear_combination ht + I3 - 2 ^ 192 * e3
  have I4 : A * B + (z (mulLo cx_1 Bls.inp) + 2 ^ 64 * z (mulLo di_8 Bls.inp) + 2 ^ 128 * z (mulLo bx_9 Bls.inp) + 2 ^ 192 * z (mulLo r10_10 Bls.inp)) * 0x1a0111ea397fe69a4b1ba7b6434bacd764774b84f38512bf6730d2a0f6b0f6241eabfffeb153ffffb9feffffffffaaab = 2 ^ 256 * (z r11_11 + 2 ^ 64 * z r12_11 + 2 ^ 128 * z r13_11 + 2 ^ 192 * z r14_11 + 2 ^ 256 * z r15_11 + 2 ^ 320 * z r8_11 + 2 ^ 384 * z r9_6 + 2 ^ 448 * z si_6) + 2 ^ 640 * z cx_11 := by
    linear_combination I3 - 2 ^ 192 * e3 + 2 ^ 640 * ho3'
  obtain ⟨ax_12, bx_12, dx_12, di_12, r8_12, r9_12, r11_12, r12_12, r13_12, r14_12, r15_12, cf_12, of_12, h_12, e4, hk5, ho4⟩ := adxRed4_spec (ax := ax_11) (bx := bx_11) (cx := cx_11) (dx := dx_11) (si := si_8) (di := di_10) (r8 := r8_11) (r9 := r9_10) (r10 := r10_11) (r11 := r11_11) (r12 := r12_11) (r13 := r13_11) (r14 := r14_11) (r15 := r15_11) (s0 := r9_6) (s1 := si_6) (s2 := s2) (f0 := f0) (f1 := f1) (f2 := f2) (cf := cf_11) (of := of_11) (mem := mem) hk4
  have ho4' : zb of_12 = 0 := by
    refine no_lossZ h (i := 5) (by norm_num) (by norm_num) (M := (z (mulLo cx_1 Bls.inp) + 2 ^ 64 * z (mulLo di_8 Bls.inp) + 2 ^ 128 * z (mulLo bx_9 Bls.inp) + 2 ^ 192 * z (mulLo r10_10 Bls.inp) + 2 ^ 256 * z (mulLo r11_11 Bls.inp))) (L := z r12_12 + 2 ^ 64 * z r13_12 + 2 ^ 128 * z r14_12 + 2 ^ 192 * z r15_12 + 2 ^ 256 * z r8_12) (w := z r9_12) (k := z di_12) (o := zb of_12) (U := z si_6) (R := z cx_1 + 2 ^ 64 * z r8_2 + 2 ^ 128 * z r9_3 + 2 ^ 192 * z r10_4 + 2 ^ 256 * z r11_5 + 2 ^ 320 * z r12_6 + 2 ^ 384 * z r13_6 + 2 ^ 448 * z r14_6 + 2 ^ 512 * z r15_6 + 2 ^ 576 * z r8_6 + 2 ^ 640 * z r9_6) ?_ ?_ ?_ ?_ ?_ ?_ ?_ ?_ ?_ ?_ ?_ ?_ ?_ ?_
    · clear * -
      have := z_bnd (mulLo cx_1 Bls.inp)
      have := z_bnd (mulLo di_8 Bls.inp)
      have := z_bnd (mulLo bx_9 Bls.inp)
      have := z_bnd (mulLo r10_10 Bls.inp)
      have := z_bnd (mulLo r11_11 Bls.inp)
      omega
    · clear * -
      have := z_bnd (mulLo cx_1 Bls.inp)
      have := z_bnd (mulLo di_8 Bls.inp)
      have := z_bnd (mulLo bx_9 Bls.inp)
      have := z_bnd (mulLo r10_10 Bls.inp)
      have := z_bnd (mulLo r11_11 Bls.inp)
      omega
    · clear * -
      have := z_bnd r12_12
      have := z_bnd r13_12
      have := z_bnd r14_12
      have := z_bnd r15_12
      have := z_bnd r8_12
      omega
    · clear * -
      have := z_bnd r12_12
      have := z_bnd r13_12
      have := z_bnd r14_12
      have := z_bnd r15_12
      have := z_bnd r8_12
      omega
    · clear * -
      have := z_bnd r9_12
      omega
    · clear * -
      have := z_bnd r9_12
      omega
    · clear * -
      have := z_bnd di_12
      omega
    · clear * -
      have := zb_bnd of_12
      omega
    · clear * -
      have := z_bnd si_6
      omega
    · clear * -
      have := z_bnd cx_1
      have := z_bnd r8_2
      have := z_bnd r9_3
      have := z_bnd r10_4
      have := z_bnd r11_5
      have := z_bnd r12_6
      have := z_bnd r13_6
      have := z_bnd r14_6
      have := z_bnd r15_6
      have := z_bnd r8_6
      have := z_bnd r9_6
      omega
    · clear * - ho4
      omega
    · linear_combination ht - hT
    · clear * -
      have := z_bnd cx_1
      have := z_bnd r8_2
      have := z_bnd r9_3
      have := z_bnd r10_4
      have := z_bnd r11_5
      have := z_bnd r12_6
      have := z_bnd r13_6
      have := z_bnd r14_6
      have := z_bnd r15_6
      have := z_bnd r8_6
      have := z_bnd r9_6
      omega
    · rw [hQ]
      linear_combination ht + I4 - 2 ^ 256 * e4
  have I5 : A * B + (z (mulLo cx_1 Bls.inp) + 2 ^ 64 * z (mulLo di_8 Bls.inp) + 2 ^ 128 * z (mulLo bx_9 Bls.inp) + 2 ^ 192 * z (mulLo r10_10 Bls.inp) + 2 ^ 256 * z (mulLo r11_11 Bls.inp)) * 0x1a0111ea397fe69a4b1ba7b6434bacd764774b84f38512bf6730d2a0f6b0f6241eabfffeb153ffffb9feffffffffaaab = 2 ^ 320 * (z r12_12 + 2 ^ 64 * z r13_12 + 2 ^ 128 * z r14_12 + 2 ^ 192 * z r15_12 + 2 ^ 256 * z r8_12 + 2 ^ 320 * z r9_12 + 2 ^ 384 * z si_6) + 2 ^ 704 * z di_12 := by
    linear_combination I4 - 2 ^ 256 * e4 + 2 ^ 704 * ho4'
  obtain ⟨ax_13, bx_13, dx_13, r8_13, r9_13, r10_13, r12_13, r13_13, r14_13, r15_13, cf_13, of_13, h_13, e5⟩ := adxRed5_spec (ax := ax_12) (bx := bx_12) (cx := cx_11) (dx := dx_12) (si := si_8) (di := di_12) (r8 := r8_12) (r9 := r9_12) (r10 := r10_11) (r11 := r11_12) (r12 := r12_12) (r13 := r13_12) (r14 := r14_12) (r15 := r15_12) (s0 := r9_6) (s1 := si_6) (s2 := s2) (f0 := f0) (f1 := f1) (f2 := f2) (cf := cf_12) (of := of_12) (mem := mem) hk5 ht11
  have I6 : A * B + (z (mulLo cx_1 Bls.inp) + 2 ^ 64 * z (mulLo di_8 Bls.inp) + 2 ^ 128 * z (mulLo bx_9 Bls.inp) + 2 ^ 192 * z (mulLo r10_10 Bls.inp) + 2 ^ 256 * z (mulLo r11_11 Bls.inp) + 2 ^ 320 * z (mulLo r12_12 Bls.inp)) * 0x1a0111ea397fe69a4b1ba7b6434bacd764774b84f38512bf6730d2a0f6b0f6241eabfffeb153ffffb9feffffffffaaab = 2 ^ 384 * (z r13_13 + 2 ^ 64 * z r14_13 + 2 ^ 128 * z r15_13 + 2 ^ 192 * z r8_13 + 2 ^ 256 * z r9_13 + 2 ^ 320 * z r10_13) := by
    linear_combination I5 - 2 ^ 320 * e5
  obtain ⟨ax_14, bx_14, cx_14, dx_14, r8_14, r9_14, r10_14, r11_14, r12_14, r13_14, r14_14, r15_14, cf_14, of_14, h_14, ef⟩ := adxFin_spec (ax := ax_13) (bx := bx_13) (cx := cx_11) (dx := dx_13) (si := si_8) (di := di_12) (r8 := r8_13) (r9 := r9_13) (r10 := r10_13) (r11 := r11_12) (r12 := r12_13) (r13 := r13_13) (r14 := r14_13) (r15 := r15_13) (s0 := r9_6) (s1 := si_6) (s2 := s2) (f0 := f0) (f1 := f1) (f2 := f2) (cf := cf_13) (of := of_13) (mem := mem) 
  have hrun : run adxBody ⟨ax, bx, cx, dx, si, di, r8, r9, r10, r11, r12, r13, r14, r15, s0, s1, s2, f0, f1, f2, cf, of, mem⟩ = ⟨ax_14, bx_14, cx_14, dx_14, si_8, di_12, r8_14, r9_14, r10_14, r11_14, r12_14, r13_14, r14_14, r15_14, r9_6, si_6, s2, f0, f1, f2, cf_14, of_14, mem⟩ := by
    unfold adxBody
    simp only [run_append]
    rw [h_1, h_2, h_3, h_4, h_5, h_6, h_7, h_8, h_9, h_10, h_11, h_12, h_13, h_14]
  refine ⟨ax_14, bx_14, cx_14, dx_14, si_8, di_12, r8_14, r9_14, r10_14, r11_14, r12_14, r13_14, r14_14, r15_14, r9_6, si_6, cf_14, of_14, hrun, (z (mulLo cx_1 Bls.inp) + 2 ^ 64 * z (mulLo di_8 Bls.inp) + 2 ^ 128 * z (mulLo bx_9 Bls.inp) + 2 ^ 192 * z (mulLo r10_10 Bls.inp) + 2 ^ 256 * z (mulLo r11_11 Bls.inp) + 2 ^ 320 * z (mulLo r12_12 Bls.inp)), z r13_13 + 2 ^ 64 * z r14_13 + 2 ^ 128 * z r15_13 + 2 ^ 192 * z r8_13 + 2 ^ 256 * z r9_13 + 2 ^ 320 * z r10_13, ?_, ?_, ?_, ?_⟩
  · clear * -
    have := z_bnd (mulLo cx_1 Bls.inp)
    have := z_bnd (mulLo di_8 Bls.inp)
    have := z_bnd (mulLo bx_9 Bls.inp)
    have := z_bnd (mulLo r10_10 Bls.inp)
    have := z_bnd (mulLo r11_11 Bls.inp)
    have := z_bnd (mulLo r12_12 Bls.inp)
    omega
  · clear * -
    have := z_bnd (mulLo cx_1 Bls.inp)
    have := z_bnd (mulLo di_8 Bls.inp)
    have := z_bnd (mulLo bx_9 Bls.inp)
    have := z_bnd (mulLo r10_10 Bls.inp)
    have := z_bnd (mulLo r11_11 Bls.inp)
    have := z_bnd (mulLo r12_12 Bls.inp)
    omega
  · linear_combination I6
  · exact ef

/-- the common body of `mulADX` and `mulAssignADX`. -/
theorem adxBody_exact {ax bx cx dx si di r8 r9 r10 r11 r12 r13 r14 r15 s0 s1 s2 f0 f1 f2 : UInt64} {cf of : Bool} {mem : UInt64 → UInt64}
    {a0 a1 a2 a3 a4 a5 b0 b1 b2 b3 b4 b5 : UInt64}
    (hdi_0 : mem (di + 0) = a0)
    (hdi_8 : mem (di + 8) = a1)
    (hdi_16 : mem (di + 16) = a2)
    (hdi_24 : mem (di + 24) = a3)
    (hdi_32 : mem (di + 32) = a4)
    (hdi_40 : mem (di + 40) = a5)
    (hsi_0 : mem (si + 0) = b0)
    (hsi_8 : mem (si + 8) = b1)
    (hsi_16 : mem (si + 16) = b2)
    (hsi_24 : mem (si + 24) = b3)
    (hsi_32 : mem (si + 32) = b4)
    (hsi_40 : mem (si + 40) = b5)
    {A B : ℤ} (hAd : A = z a0 + 2 ^ 64 * z a1 + 2 ^ 128 * z a2 + 2 ^ 192 * z a3 + 2 ^ 256 * z a4 + 2 ^ 320 * z a5)
    (hBd : B = z b0 + 2 ^ 64 * z b1 + 2 ^ 128 * z b2 + 2 ^ 192 * z b3 + 2 ^ 256 * z b4 + 2 ^ 320 * z b5)
    (hA : A < 2 ^ 382) (hB : B < 2 ^ 382) (hA0 : 0 ≤ A) (hB0 : 0 ≤ B) :
    ∃ ax' bx' cx' dx' si' di' r8' r9' r10' r11' r12' r13' r14' r15' s0' s1' : UInt64, ∃ cf' of' : Bool,
      run adxBody ⟨ax, bx, cx, dx, si, di, r8, r9, r10, r11, r12, r13, r14, r15, s0, s1, s2, f0, f1, f2, cf, of, mem⟩ =
      ⟨ax', bx', cx', dx', si', di', r8', r9', r10', r11', r12', r13', r14', r15', s0', s1', s2, f0, f1, f2, cf', of', mem⟩ ∧
      ∃ M R : ℤ, ∃ o0 o1 o2 o3 o4 : Bool, 0 ≤ M ∧ M < 2 ^ 384 ∧
        (run (adxRow0 ++ adxRow1 ++ adxRow2 ++ adxRow3 ++ adxRow4 ++ adxRow5 ++ adxSwap ++ adxRed0) ⟨ax, bx, cx, dx, si, di, r8, r9, r10, r11, r12, r13, r14, r15, s0, s1, s2, f0, f1, f2, cf, of, mem⟩).of = o0 ∧
        (run (adxRow0 ++ adxRow1 ++ adxRow2 ++ adxRow3 ++ adxRow4 ++ adxRow5 ++ adxSwap ++ adxRed0 ++ adxRed1) ⟨ax, bx, cx, dx, si, di, r8, r9, r10, r11, r12, r13, r14, r15, s0, s1, s2, f0, f1, f2, cf, of, mem⟩).of = o1 ∧
        (run (adxRow0 ++ adxRow1 ++ adxRow2 ++ adxRow3 ++ adxRow4 ++ adxRow5 ++ adxSwap ++ adxRed0 ++ adxRed1 ++ adxRed2) ⟨ax, bx, cx, dx, si, di, r8, r9, r10, r11, r12, r13, r14, r15, s0, s1, s2, f0, f1, f2, cf, of, mem⟩).of = o2 ∧
        (run (adxRow0 ++ adxRow1 ++ adxRow2 ++ adxRow3 ++ adxRow4 ++ adxRow5 ++ adxSwap ++ adxRed0 ++ adxRed1 ++ adxRed2 ++ adxRed3) ⟨ax, bx, cx, dx, si, di, r8, r9, r10, r11, r12, r13, r14, r15, s0, s1, s2, f0, f1, f2, cf, of, mem⟩).of = o3 ∧
        (run (adxRow0 ++ adxRow1 ++ adxRow2 ++ adxRow3 ++ adxRow4 ++ adxRow5 ++ adxSwap ++ adxRed0 ++ adxRed1 ++ adxRed2 ++ adxRed3 ++ adxRed4) ⟨ax, bx, cx, dx, si, di, r8, r9, r10, r11, r12, r13, r14, r15, s0, s1, s2, f0, f1, f2, cf, of, mem⟩).of = o4 ∧
        A * B + M * 0x1a0111ea397fe69a4b1ba7b6434bacd764774b84f38512bf6730d2a0f6b0f6241eabfffeb153ffffb9feffffffffaaab = 2 ^ 384 * R + 2 ^ 448 * zb o0 + 2 ^ 512 * zb o1 + 2 ^ 576 * zb o2 + 2 ^ 640 * zb o3 + 2 ^ 704 * zb o4 ∧
        ((R < 0x1a0111ea397fe69a4b1ba7b6434bacd764774b84f38512bf6730d2a0f6b0f6241eabfffeb153ffffb9feffffffffaaab ∧ z r13' + 2 ^ 64 * z r14' + 2 ^ 128 * z r15' + 2 ^ 192 * z r8' + 2 ^ 256 * z r9' + 2 ^ 320 * z r10' = R) ∨
         z r13' + 2 ^ 64 * z r14' + 2 ^ 128 * z r15' + 2 ^ 192 * z r8' + 2 ^ 256 * z r9' + 2 ^ 320 * z r10' + 0x1a0111ea397fe69a4b1ba7b6434bacd764774b84f38512bf6730d2a0f6b0f6241eabfffeb153ffffb9feffffffffaaab = R) := by
  obtain ⟨ax_1, cx_1, r8_1, r9_1, r10_1, r11_1, r12_1, r13_1, cf_1, of_1, h_1, k0⟩ := adxRow0_spec (ax := ax) (bx := bx) (cx := cx) (dx := dx) (si := si) (di := di) (r8 := r8) (r9 := r9) (r10 := r10) (r11 := r11) (r12 := r12) (r13 := r13) (r14 := r14) (r15 := r15) (s0 := s0) (s1 := s1) (s2 := s2) (f0 := f0) (f1 := f1) (f2 := f2) (cf := cf) (of := of) (mem := mem) hdi_0 hdi_8 hdi_16 hdi_24 hdi_32 hdi_40 hsi_0
  rw [← hAd] at k0
  obtain ⟨ax_2, bx_2, r8_2, r9_2, r10_2, r11_2, r12_2, r13_2, r14_2, cf_2, of_2, h_2, k1⟩ := adxRow1_spec (ax := ax_1) (bx := bx) (cx := cx_1) (dx := b0) (si := si) (di := di) (r8 := r8_1) (r9 := r9_1) (r10 := r10_1) (r11 := r11_1) (r12 := r12_1) (r13 := r13_1) (r14 := r14) (r15 := r15) (s0 := s0) (s1 := s1) (s2 := s2) (f0 := f0) (f1 := f1) (f2 := f2) (cf := cf_1) (of := of_1) (mem := mem) hdi_0 hdi_8 hdi_16 hdi_24 hdi_32 hdi_40 hsi_8
  rw [← hAd] at k1
  obtain ⟨ax_3, bx_3, r9_3, r10_3, r11_3, r12_3, r13_3, r14_3, r15_3, cf_3, of_3, h_3, k2⟩ := adxRow2_spec (ax := ax_2) (bx := bx_2) (cx := cx_1) (dx := b1) (si := si) (di := di) (r8 := r8_2) (r9 := r9_2) (r10 := r10_2) (r11 := r11_2) (r12 := r12_2) (r13 := r13_2) (r14 := r14_2) (r15 := r15) (s0 := r8_2) (s1 := s1) (s2 := s2) (f0 := f0) (f1 := f1) (f2 := f2) (cf := cf_2) (of := of_2) (mem := mem) hdi_0 hdi_8 hdi_16 hdi_24 hdi_32 hdi_40 hsi_16
  rw [← hAd] at k2
  obtain ⟨ax_4, bx_4, r8_4, r10_4, r11_4, r12_4, r13_4, r14_4, r15_4, cf_4, of_4, h_4, k3⟩ := adxRow3_spec (ax := ax_3) (bx := bx_3) (cx := cx_1) (dx := b2) (si := si) (di := di) (r8 := r8_2) (r9 := r9_3) (r10 := r10_3) (r11 := r11_3) (r12 := r12_3) (r13 := r13_3) (r14 := r14_3) (r15 := r15_3) (s0 := r8_2) (s1 := r9_3) (s2 := s2) (f0 := f0) (f1 := f1) (f2 := f2) (cf := cf_3) (of := of_3) (mem := mem) hdi_0 hdi_8 hdi_16 hdi_24 hdi_32 hdi_40 hsi_24
  rw [← hAd] at k3
  obtain ⟨ax_5, bx_5, r8_5, r9_5, r11_5, r12_5, r13_5, r14_5, r15_5, cf_5, of_5, h_5, k4⟩ := adxRow4_spec (ax := ax_4) (bx := bx_4) (cx := cx_1) (dx := b3) (si := si) (di := di) (r8 := r8_4) (r9 := r9_3) (r10 := r10_4) (r11 := r11_4) (r12 := r12_4) (r13 := r13_4) (r14 := r14_4) (r15 := r15_4) (s0 := r8_2) (s1 := r9_3) (s2 := s2) (f0 := f0) (f1 := f1) (f2 := f2) (cf := cf_4) (of := of_4) (mem := mem) hdi_0 hdi_8 hdi_16 hdi_24 hdi_32 hdi_40 hsi_32
  rw [← hAd] at k4
  have hBlow : 0 ≤ B - 2 ^ 320 * z b5 ∧ B - 2 ^ 320 * z b5 < 2 ^ 320 := by
    clear * - hBd
    have := z_bnd b0
    have := z_bnd b1
    have := z_bnd b2
    have := z_bnd b3
    have := z_bnd b4
    omega
  have hr : z r9_5 + z b5 ≤ 18446744073709551614 := by
    have P4 : z cx_1 + 2 ^ 64 * z r8_2 + 2 ^ 128 * z r9_3 + 2 ^ 192 * z r10_4 + 2 ^ 256 * z r11_5 + 2 ^ 320 * z r12_5 + 2 ^ 384 * z r13_5 + 2 ^ 448 * z r14_5 + 2 ^ 512 * z r15_5 + 2 ^ 576 * z r8_5 + 2 ^ 640 * z r9_5 = A * (B - 2 ^ 320 * z b5) := by
      linear_combination k0 + 2 ^ 64 * k1 + 2 ^ 128 * k2 + 2 ^ 192 * k3 + 2 ^ 256 * k4 - A * hBd
    have P5 : A * (B - 2 ^ 320 * z b5) ≤ 2 ^ 382 * 2 ^ 320 := mul_le_mul hA.le hBlow.2.le hBlow.1 (by norm_num)
    generalize A * (B - 2 ^ 320 * z b5) = X at P4 P5
    clear * - P4 P5 hBlow hB
    have := z_bnd cx_1
    have := z_bnd r8_2
    have := z_bnd r9_3
    have := z_bnd r10_4
    have := z_bnd r11_5
    have := z_bnd r12_5
    have := z_bnd r13_5
    have := z_bnd r14_5
    have := z_bnd r15_5
    have := z_bnd r8_5
    have := z_bnd r9_5
    omega
  obtain ⟨ax_6, bx_6, si_6, r8_6, r9_6, r12_6, r13_6, r14_6, r15_6, cf_6, of_6, h_6, k5⟩ := adxRow5_spec (ax := ax_5) (bx := bx_5) (cx := cx_1) (dx := b4) (si := si) (di := di) (r8 := r8_5) (r9 := r9_5) (r10 := r10_4) (r11 := r11_5) (r12 := r12_5) (r13 := r13_5) (r14 := r14_5) (r15 := r15_5) (s0 := r8_2) (s1 := r9_3) (s2 := s2) (f0 := f0) (f1 := f1) (f2 := f2) (cf := cf_5) (of := of_5) (mem := mem) hdi_0 hdi_8 hdi_16 hdi_24 hdi_32 hdi_40 hsi_40 hr
  rw [← hAd] at k5
  have h_7 : run adxSwap ⟨ax_6, bx_6, cx_1, b5, si_6, di, r8_6, r9_6, r10_4, r11_5, r12_6, r13_6, r14_6, r15_6, r8_2, r9_3, s2, f0, f1, f2, cf_6, of_6, mem⟩ = ⟨ax_6, r9_3, cx_1, b5, si_6, r8_2, r8_6, r9_6, r10_4, r11_5, r12_6, r13_6, r14_6, r15_6, r9_6, si_6, s2, f0, f1, f2, cf_6, of_6, mem⟩ := rfl
  have hT : z cx_1 + 2 ^ 64 * z r8_2 + 2 ^ 128 * z r9_3 + 2 ^ 192 * z r10_4 + 2 ^ 256 * z r11_5 + 2 ^ 320 * z r12_6 + 2 ^ 384 * z r13_6 + 2 ^ 448 * z r14_6 + 2 ^ 512 * z r15_6 + 2 ^ 576 * z r8_6 + 2 ^ 640 * z r9_6 + 2 ^ 704 * z si_6 = A * B := by
    linear_combination k0 + 2 ^ 64 * k1 + 2 ^ 128 * k2 + 2 ^ 192 * k3 + 2 ^ 256 * k4 + 2 ^ 320 * k5 - A * hBd
  clear k0 k1 k2 k3 k4 k5
  have hAB : A * B < 2 ^ 382 * 2 ^ 382 := mul_lt_mul'' hA hB hA0 hB0
  have ht11 : z si_6 ≤ 9223372036854775808 := by
    generalize A * B = X at hT hAB
    clear * - hT hAB
    have := z_bnd cx_1
    have := z_bnd r8_2
    have := z_bnd r9_3
    have := z_bnd r10_4
    have := z_bnd r11_5
    have := z_bnd r12_6
    have := z_bnd r13_6
    have := z_bnd r14_6
    have := z_bnd r15_6
    have := z_bnd r8_6
    have := z_bnd r9_6
    have := z_bnd si_6
    omega
  obtain ⟨ax_8, bx_8, cx_8, dx_8, si_8, di_8, r9_8, r10_8, r11_8, r12_8, r13_8, cf_8, of_8, h_8, e0, hk1, ho0⟩ := adxRed0_spec (ax := ax_6) (bx := r9_3) (cx := cx_1) (dx := b5) (si := si_6) (di := r8_2) (r8 := r8_6) (r9 := r9_6) (r10 := r10_4) (r11 := r11_5) (r12 := r12_6) (r13 := r13_6) (r14 := r14_6) (r15 := r15_6) (s0 := r9_6) (s1 := si_6) (s2 := s2) (f0 := f0) (f1 := f1) (f2 := f2) (cf := cf_6) (of := of_6) (mem := mem) 
  have I1 : A * B + (z (mulLo cx_1 Bls.inp)) * 0x1a0111ea397fe69a4b1ba7b6434bacd764774b84f38512bf6730d2a0f6b0f6241eabfffeb153ffffb9feffffffffaaab = 2 ^ 64 * (z di_8 + 2 ^ 64 * z bx_8 + 2 ^ 128 * z r10_8 + 2 ^ 192 * z r11_8 + 2 ^ 256 * z r12_8 + 2 ^ 320 * z r13_8 + 2 ^ 384 * z r14_6 + 2 ^ 448 * z r15_6 + 2 ^ 512 * z r8_6 + 2 ^ 576 * z r9_6 + 2 ^ 640 * z si_6) + 2 ^ 448 * z si_8 + 2 ^ 448 * zb of_8 := by
    linear_combination -hT - 2 ^ 0 * e0
  obtain ⟨ax_9, bx_9, cx_9, dx_9, di_9, r9_9, r10_9, r11_9, r12_9, r13_9, r14_9, cf_9, of_9, h_9, e1, hk2, ho1⟩ := adxRed1_spec (ax := ax_8) (bx := bx_8) (cx := cx_8) (dx := dx_8) (si := si_8) (di := di_8) (r8 := r8_6) (r9 := r9_8) (r10 := r10_8) (r11 := r11_8) (r12 := r12_8) (r13 := r13_8) (r14 := r14_6) (r15 := r15_6) (s0 := r9_6) (s1 := si_6) (s2 := s2) (f0 := f0) (f1 := f1) (f2 := f2) (cf := cf_8) (of := of_8) (mem := mem) hk1
  have I2 : A * B + (z (mulLo cx_1 Bls.inp) + 2 ^ 64 * z (mulLo di_8 Bls.inp)) * 0x1a0111ea397fe69a4b1ba7b6434bacd764774b84f38512bf6730d2a0f6b0f6241eabfffeb153ffffb9feffffffffaaab = 2 ^ 128 * (z bx_9 + 2 ^ 64 * z r10_9 + 2 ^ 128 * z r11_9 + 2 ^ 192 * z r12_9 + 2 ^ 256 * z r13_9 + 2 ^ 320 * z r14_9 + 2 ^ 384 * z r15_6 + 2 ^ 448 * z r8_6 + 2 ^ 512 * z r9_6 + 2 ^ 576 * z si_6) + 2 ^ 512 * z cx_9 + 2 ^ 448 * zb of_8 + 2 ^ 512 * zb of_9 := by
    linear_combination I1 - 2 ^ 64 * e1
  obtain ⟨ax_10, bx_10, dx_10, di_10, r9_10, r10_10, r11_10, r12_10, r13_10, r14_10, r15_10, cf_10, of_10, h_10, e2, hk3, ho2⟩ := adxRed2_spec (ax := ax_9) (bx := bx_9) (cx := cx_9) (dx := dx_9) (si := si_8) (di := di_9) (r8 := r8_6) (r9 := r9_9) (r10 := r10_9) (r11 := r11_9) (r12 := r12_9) (r13 := r13_9) (r14 := r14_9) (r15 := r15_6) (s0 := r9_6) (s1 := si_6) (s2 := s2) (f0 := f0) (f1 := f1) (f2 := f2) (cf := cf_9) (of := of_9) (mem := mem) hk2
  have I3 : A * B + (z (mulLo cx_1 Bls.inp) + 2 ^ 64 * z (mulLo di_8 Bls.inp) + 2 ^ 128 * z (mulLo bx_9 Bls.inp)) * 0x1a0111ea397fe69a4b1ba7b6434bacd764774b84f38512bf6730d2a0f6b0f6241eabfffeb153ffffb9feffffffffaaab = 2 ^ 192 * (z r10_10 + 2 ^ 64 * z r11_10 + 2 ^ 128 * z r12_10 + 2 ^ 192 * z r13_10 + 2 ^ 256 * z r14_10 + 2 ^ 320 * z r15_10 + 2 ^ 384 * z r8_6 + 2 ^ 448 * z r9_6 + 2 ^ 512 * z si_6) + 2 ^ 576 * z di_10 + 2 ^ 448 * zb of_8 + 2 ^ 512 * zb of_9 + 2 ^ 576 * zb of_10 := by
    linear_combination I2 - 2 ^ 128 * e2
  obtain ⟨ax_11, bx_11, cx_11, dx_11, r8_11, r10_11, r11_11, r12_11, r13_11, r14_11, r15_11, cf_11, of_11, h_11, e3, hk4, ho3⟩ := adxRed3_spec (ax := ax_10) (bx := bx_10) (cx := cx_9) (dx := dx_10) (si := si_8) (di := di_10) (r8 := r8_6) (r9 := r9_10) (r10 := r10_10) (r11 := r11_10) (r12 := r12_10) (r13 := r13_10) (r14 := r14_10) (r15 := r15_10) (s0 := r9_6) (s1 := si_6) (s2 := s2) (f0 := f0) (f1 := f1) (f2 := f2) (cf := cf_10) (of := of_10) (mem := mem) hk3
  have I4 : A * B + (z (mulLo cx_1 Bls.inp) + 2 ^ 64 * z (mulLo di_8 Bls.inp) + 2 ^ 128 * z (mulLo bx_9 Bls.inp) + 2 ^ 192 * z (mulLo r10_10 Bls.inp)) * 0x1a0111ea397fe69a4b1ba7b6434bacd764774b84f38512bf6730d2a0f6b0f6241eabfffeb153ffffb9feffffffffaaab = 2 ^ 256 * (z r11_11 + 2 ^ 64 * z r12_11 + 2 ^ 128 * z r13_11 + 2 ^ 192 * z r14_11 + 2 ^ 256 * z r15_11 + 2 ^ 320 * z r8_11 + 2 ^ 384 * z r9_6 + 2 ^ 448 * z si_6) + 2 ^ 640 * z cx_11 + 2 ^ 448 * zb of_8 + 2 ^ 512 * zb of_9 + 2 ^ 576 * zb of_10 + 2 ^ 640 * zb of_11 := by
    linear_combination I3 - 2 ^ 192 * e3
  obtain ⟨ax_12, bx_12, dx_12, di_12, r8_12, r9_12, r11_12, r12_12, r13_12, r14_12, r15_12, cf_12, of_12, h_12, e4, hk5, ho4⟩ := adxRed4_spec (ax := ax_11) (bx := bx_11) (cx := cx_11) (dx := dx_11) (si := si_8) (di := di_10) (r8 := r8_11) (r9 := r9_10) (r10 := r10_11) (r11 := r11_11) (r12 := r12_11) (r13 := r13_11) (r14 := r14_11) (r15 := r15_11) (s0 := r9_6) (s1 := si_6) (s2 := s2) (f0 := f0) (f1 := f1) (f2 := f2) (cf := cf_11) (of := of_11) (mem := mem) hk4
  have I5 : A * B + (z (mulLo cx_1 Bls.inp) + 2 ^ 64 * z (mulLo di_8 Bls.inp) + 2 ^ 128 * z (mulLo bx_9 Bls.inp) + 2 ^ 192 * z (mulLo r10_10 Bls.inp) + 2 ^ 256 * z (mulLo r11_11 Bls.inp)) * 0x1a0111ea397fe69a4b1ba7b6434bacd764774b84f38512bf6730d2a0f6b0f6241eabfffeb153ffffb9feffffffffaaab = 2 ^ 320 * (z r12_12 + 2 ^ 64 * z r13_12 + 2 ^ 128 * z r14_12 + 2 ^ 192 * z r15_12 + 2 ^ 256 * z r8_12 + 2 ^ 320 * z r9_12 + 2 ^ 384 * z si_6) + 2 ^ 704 * z di_12 + 2 ^ 448 * zb of_8 + 2 ^ 512 * zb of_9 + 2 ^ 576 * zb of_10 + 2 ^ 640 * zb of_11 + 2 ^ 704 * zb of_12 := by
    linear_combination I4 - 2 ^ 256 * e4
  obtain ⟨ax_13, bx_13, dx_13, r8_13, r9_13, r10_13, r12_13, r13_13, r14_13, r15_13, cf_13, of_13, h_13, e5⟩ := adxRed5_spec (ax := ax_12) (bx := bx_12) (cx := cx_11) (dx := dx_12) (si := si_8) (di := di_12) (r8 := r8_12) (r9 := r9_12) (r10 := r10_11) (r11 := r11_12) (r12 := r12_12) (r13 := r13_12) (r14 := r14_12) (r15 := r15_12) (s0 := r9_6) (s1 := si_6) (s2 := s2) (f0 := f0) (f1 := f1) (f2 := f2) (cf := cf_12) (of := of_12) (mem := mem) hk5 ht11
  have I6 : A * B + (z (mulLo cx_1 Bls.inp) + 2 ^ 64 * z (mulLo di_8 Bls.inp) + 2 ^ 128 * z (mulLo bx_9 Bls.inp) + 2 ^ 192 * z (mulLo r10_10 Bls.inp) + 2 ^ 256 * z (mulLo r11_11 Bls.inp) + 2 ^ 320 * z (mulLo r12_12 Bls.inp)) * 0x1a0111ea397fe69a4b1ba7b6434bacd764774b84f38512bf6730d2a0f6b0f6241eabfffeb153ffffb9feffffffffaaab = 2 ^ 384 * (z r13_13 + 2 ^ 64 * z r14_13 + 2 ^ 128 * z r15_13 + 2 ^ 192 * z r8_13 + 2 ^ 256 * z r9_13 + 2 ^ 320 * z r10_13) + 2 ^ 448 * zb of_8 + 2 ^ 512 * zb of_9 + 2 ^ 576 * zb of_10 + 2 ^ 640 * zb of_11 + 2 ^ 704 * zb of_12 := by
    linear_combination I5 - 2 ^ 320 * e5
  obtain ⟨ax_14, bx_14, cx_14, dx_14, r8_14, r9_14, r10_14, r11_14, r12_14, r13_14, r14_14, r15_14, cf_14, of_14, h_14, ef⟩ := adxFin_spec (ax := ax_13) (bx := bx_13) (cx := cx_11) (dx := dx_13) (si := si_8) (di := di_12) (r8 := r8_13) (r9 := r9_13) (r10 := r10_13) (r11 := r11_12) (r12 := r12_13) (r13 := r13_13) (r14 := r14_13) (r15 := r15_13) (s0 := r9_6) (s1 := si_6) (s2 := s2) (f0 := f0) (f1 := f1) (f2 := f2) (cf := cf_13) (of := of_13) (mem := mem) 
  have hrun : run adxBody ⟨ax, bx, cx, dx, si, di, r8, r9, r10, r11, r12, r13, r14, r15, s0, s1, s2, f0, f1, f2, cf, of, mem⟩ = ⟨ax_14, bx_14, cx_14, dx_14, si_8, di_12, r8_14, r9_14, r10_14, r11_14, r12_14, r13_14, r14_14, r15_14, r9_6, si_6, s2, f0, f1, f2, cf_14, of_14, mem⟩ := by
    unfold adxBody
    simp only [run_append]
    rw [h_1, h_2, h_3, h_4, h_5, h_6, h_7, h_8, h_9, h_10, h_11, h_12, h_13, h_14]
  refine ⟨ax_14, bx_14, cx_14, dx_14, si_8, di_12, r8_14, r9_14, r10_14, r11_14, r12_14, r13_14, r14_14, r15_14, r9_6, si_6, cf_14, of_14, hrun, (z (mulLo cx_1 Bls.inp) + 2 ^ 64 * z (mulLo di_8 Bls.inp) + 2 ^ 128 * z (mulLo bx_9 Bls.inp) + 2 ^ 192 * z (mulLo r10_10 Bls.inp) + 2 ^ 256 * z (mulLo r11_11 Bls.inp) + 2 ^ 320 * z (mulLo r12_12 Bls.inp)), z r13_13 + 2 ^ 64 * z r14_13 + 2 ^ 128 * z r15_13 + 2 ^ 192 * z r8_13 + 2 ^ 256 * z r9_13 + 2 ^ 320 * z r10_13, of_8, of_9, of_10, of_11, of_12, ?_, ?_, ?_, ?_, ?_, ?_, ?_, ?_, ?_⟩
  · clear * -
    have := z_bnd (mulLo cx_1 Bls.inp)
    have := z_bnd (mulLo di_8 Bls.inp)
    have := z_bnd (mulLo bx_9 Bls.inp)
    have := z_bnd (mulLo r10_10 Bls.inp)
    have := z_bnd (mulLo r11_11 Bls.inp)
    have := z_bnd (mulLo r12_12 Bls.inp)
    omega
  · clear * -
    have := z_bnd (mulLo cx_1 Bls.inp)
    have := z_bnd (mulLo di_8 Bls.inp)
    have := z_bnd (mulLo bx_9 Bls.inp)
    have := z_bnd (mulLo r10_10 Bls.inp)
    have := z_bnd (mulLo r11_11 Bls.inp)
    have := z_bnd (mulLo r12_12 Bls.inp)
    omega
  · simp only [run_append]
    rw [h_1, h_2, h_3, h_4, h_5, h_6, h_7, h_8]
  · simp only [run_append]
    rw [h_1, h_2, h_3, h_4, h_5, h_6, h_7, h_8, h_9]
  · simp only [run_append]
    rw [h_1, h_2, h_3, h_4, h_5, h_6, h_7, h_8, h_9, h_10]
  · simp only [run_append]
    rw [h_1, h_2, h_3, h_4, h_5, h_6, h_7, h_8, h_9, h_10, h_11]
  · simp only [run_append]
    rw [h_1, h_2, h_3, h_4, h_5, h_6, h_7, h_8, h_9, h_10, h_11, h_12]
  · linear_combination I6
  · exact ef

end Verif.X86
