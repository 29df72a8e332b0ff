import Verif.X86.NoAdx
import Verif.X86.MulMath

/-!
# The body of `mulNoADX`

Generated: the segments of Verif/X86/NoAdx.lean one after the other.
-/

set_option exponentiation.threshold 1000
set_option maxHeartbeats 1000000
set_option linter.unusedVariables false
set_option linter.unusedSimpArgs false

namespace Verif.X86

/-- the common body of `mulNoADX` and `mulAssignNoADX`. -/
theorem noadxBody_exact {ax bx cx dx si di r8 r9 r10 r11 r12 r13 r14 r15 s0 s1 s2 f0 f1 f2 : UInt64} {cf of : Bool} {mem : UInt64 → UInt64}
    {a0 a1 a2 a3 a4 a5 b0 b1 b2 b3 b4 b5 : UInt64}
    (hdi_0 : mem (di + 0) = a0)
    (hdi_8 : mem (di + 8) = a1)
    (hdi_16 : mem (di + 16) = a2)
    (hdi_24 : mem (di + 24) = a3)
    (hdi_32 : mem (di + 32) = a4)
    (hdi_40 : mem (di + 40) = a5)
    (hsi_0 : mem (si + 0) = b0)
    (hsi_8 : mem (si + 8) = b1)
    (hsi_16 : mem (si + 16) = b2)
    (hsi_24 : mem (si + 24) = b3)
    (hsi_32 : mem (si + 32) = b4)
    (hsi_40 : mem (si + 40) = b5)
    {A B : ℤ} (hAd : A = z a0 + 2 ^ 64 * z a1 + 2 ^ 128 * z a2 + 2 ^ 192 * z a3 + 2 ^ 256 * z a4 + 2 ^ 320 * z a5)
    (hBd : B = z b0 + 2 ^ 64 * z b1 + 2 ^ 128 * z b2 + 2 ^ 192 * z b3 + 2 ^ 256 * z b4 + 2 ^ 320 * z b5)
    (hA : A < 2 ^ 382) (hB : B < 2 ^ 382) (hA0 : 0 ≤ A) (hB0 : 0 ≤ B) :
    ∃ ax' bx' cx' dx' si' di' r8' r9' r10' r11' r12' r13' r14' r15' s0' s1' s2' : UInt64, ∃ cf' of' : Bool,
      run noadxBody ⟨ax, bx, cx, dx, si, di, r8, r9, r10, r11, r12, r13, r14, r15, s0, s1, s2, f0, f1, f2, cf, of, mem⟩ =
      ⟨ax', bx', cx', dx', si', di', r8', r9', r10', r11', r12', r13', r14', r15', s0', s1', s2', f0, f1, f2, cf', of', mem⟩ ∧
      ∃ q0 q1 q2 q3 q4 q5 : UInt64, ∃ V1 V2 V3 V4 V5 V6 : ℤ,
        A * B + (z q0) * 0x1a0111ea397fe69a4b1ba7b6434bacd764774b84f38512bf6730d2a0f6b0f6241eabfffeb153ffffb9feffffffffaaab = 2 ^ 64 * V1 + 2 ^ 64 * zb (q0 == 1) ∧
        A * B + (z q0 + 2 ^ 64 * z q1) * 0x1a0111ea397fe69a4b1ba7b6434bacd764774b84f38512bf6730d2a0f6b0f6241eabfffeb153ffffb9feffffffffaaab = 2 ^ 128 * V2 + 2 ^ 64 * zb (q0 == 1) + 2 ^ 128 * zb (q1 == 1) ∧
        A * B + (z q0 + 2 ^ 64 * z q1 + 2 ^ 128 * z q2) * 0x1a0111ea397fe69a4b1ba7b6434bacd764774b84f38512bf6730d2a0f6b0f6241eabfffeb153ffffb9feffffffffaaab = 2 ^ 192 * V3 + 2 ^ 64 * zb (q0 == 1) + 2 ^ 128 * zb (q1 == 1) + 2 ^ 192 * zb (q2 == 1) ∧
        A * B + (z q0 + 2 ^ 64 * z q1 + 2 ^ 128 * z q2 + 2 ^ 192 * z q3) * 0x1a0111ea397fe69a4b1ba7b6434bacd764774b84f38512bf6730d2a0f6b0f6241eabfffeb153ffffb9feffffffffaaab = 2 ^ 256 * V4 + 2 ^ 64 * zb (q0 == 1) + 2 ^ 128 * zb (q1 == 1) + 2 ^ 192 * zb (q2 == 1) + 2 ^ 256 * zb (q3 == 1) ∧
        A * B + (z q0 + 2 ^ 64 * z q1 + 2 ^ 128 * z q2 + 2 ^ 192 * z q3 + 2 ^ 256 * z q4) * 0x1a0111ea397fe69a4b1ba7b6434bacd764774b84f38512bf6730d2a0f6b0f6241eabfffeb153ffffb9feffffffffaaab = 2 ^ 320 * V5 + 2 ^ 64 * zb (q0 == 1) + 2 ^ 128 * zb (q1 == 1) + 2 ^ 192 * zb (q2 == 1) + 2 ^ 256 * zb (q3 == 1) + 2 ^ 320 * zb (q4 == 1) ∧
        A * B + (z q0 + 2 ^ 64 * z q1 + 2 ^ 128 * z q2 + 2 ^ 192 * z q3 + 2 ^ 256 * z q4 + 2 ^ 320 * z q5) * 0x1a0111ea397fe69a4b1ba7b6434bacd764774b84f38512bf6730d2a0f6b0f6241eabfffeb153ffffb9feffffffffaaab = 2 ^ 384 * V6 + 2 ^ 64 * zb (q0 == 1) + 2 ^ 128 * zb (q1 == 1) + 2 ^ 192 * zb (q2 == 1) + 2 ^ 256 * zb (q3 == 1) + 2 ^ 320 * zb (q4 == 1) + 2 ^ 384 * zb (q5 == 1) ∧
        ((V6 < 0x1a0111ea397fe69a4b1ba7b6434bacd764774b84f38512bf6730d2a0f6b0f6241eabfffeb153ffffb9feffffffffaaab ∧ z r9' + 2 ^ 64 * z r10' + 2 ^ 128 * z r11' + 2 ^ 192 * z r12' + 2 ^ 256 * z cx' + 2 ^ 320 * z r14' = V6) ∨
         z r9' + 2 ^ 64 * z r10' + 2 ^ 128 * z r11' + 2 ^ 192 * z r12' + 2 ^ 256 * z cx' + 2 ^ 320 * z r14' + 0x1a0111ea397fe69a4b1ba7b6434bacd764774b84f38512bf6730d2a0f6b0f6241eabfffeb153ffffb9feffffffffaaab = V6) := by
  obtain ⟨ax_1, dx_1, r8_1, r9_1, r10_1, r11_1, r12_1, r13_1, s0_1, cf_1, of_1, h_1, k0⟩ := noadxRow0_spec (ax := ax) (bx := bx) (cx := cx) (dx := dx) (si := si) (di := di) (r8 := r8) (r9 := r9) (r10 := r10) (r11 := r11) (r12 := r12) (r13 := r13) (r14 := r14) (r15 := r15) (s0 := s0) (s1 := s1) (s2 := s2) (f0 := f0) (f1 := f1) (f2 := f2) (cf := cf) (of := of) (mem := mem) hdi_0 hdi_8 hdi_16 hdi_24 hdi_32 hdi_40 hsi_0
  rw [← hAd] at k0
  obtain ⟨ax_2, bx_2, dx_2, r8_2, r9_2, r10_2, r11_2, r12_2, s1_2, cf_2, of_2, h_2, k1⟩ := noadxRow1_spec (ax := ax_1) (bx := (0 : UInt64)) (cx := b0) (dx := dx_1) (si := si) (di := di) (r8 := r8_1) (r9 := r9_1) (r10 := r10_1) (r11 := r11_1) (r12 := r12_1) (r13 := r13_1) (r14 := r14) (r15 := r15) (s0 := s0_1) (s1 := s1) (s2 := s2) (f0 := f0) (f1 := f1) (f2 := f2) (cf := cf_1) (of := of_1) (mem := mem) hdi_0 hdi_8 hdi_16 hdi_24 hdi_32 hdi_40 hsi_8
  rw [← hAd] at k1
  obtain ⟨ax_3, bx_3, dx_3, r8_3, r9_3, r10_3, r11_3, r12_3, s2_3, cf_3, of_3, h_3, k2⟩ := noadxRow2_spec (ax := ax_2) (bx := bx_2) (cx := b1) (dx := dx_2) (si := si) (di := di) (r8 := r8_2) (r9 := r9_2) (r10 := r10_2) (r11 := r11_2) (r12 := r12_2) (r13 := bx_2) (r14 := r14) (r15 := r15) (s0 := s0_1) (s1 := s1_2) (s2 := s2) (f0 := f0) (f1 := f1) (f2 := f2) (cf := cf_2) (of := of_2) (mem := mem) hdi_0 hdi_8 hdi_16 hdi_24 hdi_32 hdi_40 hsi_16
  rw [← hAd] at k2
  obtain ⟨ax_4, bx_4, dx_4, r8_4, r9_4, r10_4, r11_4, r12_4, r14_4, cf_4, of_4, h_4, k3⟩ := noadxRow3_spec (ax := ax_3) (bx := bx_3) (cx := b2) (dx := dx_3) (si := si) (di := di) (r8 := r8_3) (r9 := r9_3) (r10 := r10_3) (r11 := r11_3) (r12 := r12_3) (r13 := bx_3) (r14 := r14) (r15 := r15) (s0 := s0_1) (s1 := s1_2) (s2 := s2_3) (f0 := f0) (f1 := f1) (f2 := f2) (cf := cf_3) (of := of_3) (mem := mem) hdi_0 hdi_8 hdi_16 hdi_24 hdi_32 hdi_40 hsi_24
  rw [← hAd] at k3
  obtain ⟨ax_5, bx_5, dx_5, r8_5, r9_5, r10_5, r11_5, r12_5, r15_5, cf_5, of_5, h_5, k4⟩ := noadxRow4_spec (ax := ax_4) (bx := bx_4) (cx := b3) (dx := dx_4) (si := si) (di := di) (r8 := r8_4) (r9 := r9_4) (r10 := r10_4) (r11 := r11_4) (r12 := r12_4) (r13 := bx_4) (r14 := r14_4) (r15 := r15) (s0 := s0_1) (s1 := s1_2) (s2 := s2_3) (f0 := f0) (f1 := f1) (f2 := f2) (cf := cf_4) (of := of_4) (mem := mem) hdi_0 hdi_8 hdi_16 hdi_24 hdi_32 hdi_40 hsi_32
  rw [← hAd] at k4
  have hBlow : 0 ≤ B - 2 ^ 320 * z b5 ∧ B - 2 ^ 320 * z b5 < 2 ^ 320 := by
    clear * - hBd
    have := z_bnd b0
    have := z_bnd b1
    have := z_bnd b2
    have := z_bnd b3
    have := z_bnd b4
    omega
  obtain ⟨ax_6, bx_6, dx_6, r8_6, r9_6, r10_6, r11_6, r12_6, r13_6, cf_6, of_6, h_6, k5⟩ := noadxRow5_spec (ax := ax_5) (bx := bx_5) (cx := b4) (dx := dx_5) (si := si) (di := di) (r8 := r8_5) (r9 := r9_5) (r10 := r10_5) (r11 := r11_5) (r12 := r12_5) (r13 := bx_5) (r14 := r14_4) (r15 := r15_5) (s0 := s0_1) (s1 := s1_2) (s2 := s2_3) (f0 := f0) (f1 := f1) (f2 := f2) (cf := cf_5) (of := of_5) (mem := mem) hdi_0 hdi_8 hdi_16 hdi_24 hdi_32 hdi_40 hsi_40
  rw [← hAd] at k5
  have h_7 : run noadxSwap ⟨ax_6, bx_6, b5, dx_6, si, di, r8_6, r9_6, r10_6, r11_6, r12_6, r13_6, r14_4, r15_5, s0_1, s1_2, s2_3, f0, f1, f2, cf_6, of_6, mem⟩ = ⟨ax_6, bx_6, s2_3, dx_6, s0_1, s1_2, r8_6, r9_6, r10_6, r11_6, r12_6, r13_6, r14_4, r15_5, r13_6, bx_6, s2_3, f0, f1, f2, cf_6, of_6, mem⟩ := rfl
  have hT : z s0_1 + 2 ^ 64 * z s1_2 + 2 ^ 128 * z s2_3 + 2 ^ 192 * z r14_4 + 2 ^ 256 * z r15_5 + 2 ^ 320 * z r8_6 + 2 ^ 384 * z r9_6 + 2 ^ 448 * z r10_6 + 2 ^ 512 * z r11_6 + 2 ^ 576 * z r12_6 + 2 ^ 640 * z r13_6 + 2 ^ 704 * z bx_6 = A * B := by
    linear_combination k0 + 2 ^ 64 * k1 + 2 ^ 128 * k2 + 2 ^ 192 * k3 + 2 ^ 256 * k4 + 2 ^ 320 * k5 - A * hBd
  clear k0 k1 k2 k3 k4 k5
  have hAB : A * B < 2 ^ 382 * 2 ^ 382 := mul_lt_mul'' hA hB hA0 hB0
  have ht11 : z bx_6 ≤ 9223372036854775808 := by
    generalize A * B = X at hT hAB
    clear * - hT hAB
    have := z_bnd s0_1
    have := z_bnd s1_2
    have := z_bnd s2_3
    have := z_bnd r14_4
    have := z_bnd r15_5
    have := z_bnd r8_6
    have := z_bnd r9_6
    have := z_bnd r10_6
    have := z_bnd r11_6
    have := z_bnd r12_6
    have := z_bnd r13_6
    have := z_bnd bx_6
    omega
  obtain ⟨ax_8, bx_8, cx_8, dx_8, si_8, di_8, r8_8, r9_8, r13_8, r14_8, r15_8, cf_8, of_8, h_8, e0, hk1⟩ := noadxRed0_spec (ax := ax_6) (bx := bx_6) (cx := s2_3) (dx := dx_6) (si := s0_1) (di := s1_2) (r8 := r8_6) (r9 := r9_6) (r10 := r10_6) (r11 := r11_6) (r12 := r12_6) (r13 := r13_6) (r14 := r14_4) (r15 := r15_5) (s0 := r13_6) (s1 := bx_6) (s2 := s2_3) (f0 := f0) (f1 := f1) (f2 := f2) (cf := cf_6) (of := of_6) (mem := mem) 
  have I1 : A * B + (z (mulLo s0_1 Bls.inp)) * 0x1a0111ea397fe69a4b1ba7b6434bacd764774b84f38512bf6730d2a0f6b0f6241eabfffeb153ffffb9feffffffffaaab = 2 ^ 64 * (z di_8 + 2 ^ 64 * z cx_8 + 2 ^ 128 * z r14_8 + 2 ^ 192 * z r15_8 + 2 ^ 256 * z r8_8 + 2 ^ 320 * z r9_8 + 2 ^ 384 * z r10_6 + 2 ^ 448 * z r11_6 + 2 ^ 512 * z r12_6 + 2 ^ 576 * z r13_6 + 2 ^ 640 * z bx_6) + 2 ^ 448 * z si_8 + 2 ^ 64 * zb (mulLo s0_1 Bls.inp == 1) := by
    linear_combination -hT - 2 ^ 0 * e0
  obtain ⟨ax_9, bx_9, cx_9, dx_9, si_9, r8_9, r9_9, r10_9, r13_9, r14_9, r15_9, cf_9, of_9, h_9, e1, hk2⟩ := noadxRed1_spec (ax := ax_8) (bx := bx_8) (cx := cx_8) (dx := dx_8) (si := si_8) (di := di_8) (r8 := r8_8) (r9 := r9_8) (r10 := r10_6) (r11 := r11_6) (r12 := r12_6) (r13 := r13_8) (r14 := r14_8) (r15 := r15_8) (s0 := r13_6) (s1 := bx_6) (s2 := s2_3) (f0 := f0) (f1 := f1) (f2 := f2) (cf := cf_8) (of := of_8) (mem := mem) hk1
  have I2 : A * B + (z (mulLo s0_1 Bls.inp) + 2 ^ 64 * z (mulLo di_8 Bls.inp)) * 0x1a0111ea397fe69a4b1ba7b6434bacd764774b84f38512bf6730d2a0f6b0f6241eabfffeb153ffffb9feffffffffaaab = 2 ^ 128 * (z cx_9 + 2 ^ 64 * z r14_9 + 2 ^ 128 * z r15_9 + 2 ^ 192 * z r8_9 + 2 ^ 256 * z r9_9 + 2 ^ 320 * z r10_9 + 2 ^ 384 * z r11_6 + 2 ^ 448 * z r12_6 + 2 ^ 512 * z r13_6 + 2 ^ 576 * z bx_6) + 2 ^ 512 * z si_9 + 2 ^ 64 * zb (mulLo s0_1 Bls.inp == 1) + 2 ^ 128 * zb (mulLo di_8 Bls.inp == 1) := by
    linear_combination I1 - 2 ^ 64 * e1
  obtain ⟨ax_10, bx_10, dx_10, si_10, r8_10, r9_10, r10_10, r11_10, r13_10, r14_10, r15_10, cf_10, of_10, h_10, e2, hk3⟩ := noadxRed2_spec (ax := ax_9) (bx := bx_9) (cx := cx_9) (dx := dx_9) (si := si_9) (di := di_8) (r8 := r8_9) (r9 := r9_9) (r10 := r10_9) (r11 := r11_6) (r12 := r12_6) (r13 := r13_9) (r14 := r14_9) (r15 := r15_9) (s0 := r13_6) (s1 := bx_6) (s2 := s2_3) (f0 := f0) (f1 := f1) (f2 := f2) (cf := cf_9) (of := of_9) (mem := mem) hk2
  have I3 : A * B + (z (mulLo s0_1 Bls.inp) + 2 ^ 64 * z (mulLo di_8 Bls.inp) + 2 ^ 128 * z (mulLo cx_9 Bls.inp)) * 0x1a0111ea397fe69a4b1ba7b6434bacd764774b84f38512bf6730d2a0f6b0f6241eabfffeb153ffffb9feffffffffaaab = 2 ^ 192 * (z r14_10 + 2 ^ 64 * z r15_10 + 2 ^ 128 * z r8_10 + 2 ^ 192 * z r9_10 + 2 ^ 256 * z r10_10 + 2 ^ 320 * z r11_10 + 2 ^ 384 * z r12_6 + 2 ^ 448 * z r13_6 + 2 ^ 512 * z bx_6) + 2 ^ 576 * z si_10 + 2 ^ 64 * zb (mulLo s0_1 Bls.inp == 1) + 2 ^ 128 * zb (mulLo di_8 Bls.inp == 1) + 2 ^ 192 * zb (mulLo cx_9 Bls.inp == 1) := by
    linear_combination I2 - 2 ^ 128 * e2
  obtain ⟨ax_11, bx_11, dx_11, si_11, r8_11, r9_11, r10_11, r11_11, r12_11, r13_11, r15_11, cf_11, of_11, h_11, e3, hk4⟩ := noadxRed3_spec (ax := ax_10) (bx := bx_10) (cx := cx_9) (dx := dx_10) (si := si_10) (di := di_8) (r8 := r8_10) (r9 := r9_10) (r10 := r10_10) (r11 := r11_10) (r12 := r12_6) (r13 := r13_10) (r14 := r14_10) (r15 := r15_10) (s0 := r13_6) (s1 := bx_6) (s2 := s2_3) (f0 := f0) (f1 := f1) (f2 := f2) (cf := cf_10) (of := of_10) (mem := mem) hk3
  have I4 : A * B + (z (mulLo s0_1 Bls.inp) + 2 ^ 64 * z (mulLo di_8 Bls.inp) + 2 ^ 128 * z (mulLo cx_9 Bls.inp) + 2 ^ 192 * z (mulLo r14_10 Bls.inp)) * 0x1a0111ea397fe69a4b1ba7b6434bacd764774b84f38512bf6730d2a0f6b0f6241eabfffeb153ffffb9feffffffffaaab = 2 ^ 256 * (z r15_11 + 2 ^ 64 * z r8_11 + 2 ^ 128 * z r9_11 + 2 ^ 192 * z r10_11 + 2 ^ 256 * z r11_11 + 2 ^ 320 * z r12_11 + 2 ^ 384 * z r13_6 + 2 ^ 448 * z bx_6) + 2 ^ 640 * z si_11 + 2 ^ 64 * zb (mulLo s0_1 Bls.inp == 1) + 2 ^ 128 * zb (mulLo di_8 Bls.inp == 1) + 2 ^ 192 * zb (mulLo cx_9 Bls.inp == 1) + 2 ^ 256 * zb (mulLo r14_10 Bls.inp == 1) := by
    linear_combination I3 - 2 ^ 192 * e3
  obtain ⟨ax_12, bx_12, cx_12, dx_12, si_12, r8_12, r9_12, r10_12, r11_12, r12_12, r13_12, r14_12, cf_12, of_12, h_12, e4⟩ := noadxRed4_spec (ax := ax_11) (bx := bx_11) (cx := cx_9) (dx := dx_11) (si := si_11) (di := di_8) (r8 := r8_11) (r9 := r9_11) (r10 := r10_11) (r11 := r11_11) (r12 := r12_11) (r13 := r13_11) (r14 := r14_10) (r15 := r15_11) (s0 := r13_6) (s1 := bx_6) (s2 := s2_3) (f0 := f0) (f1 := f1) (f2 := f2) (cf := cf_11) (of := of_11) (mem := mem) hk4 ht11
  have I5 : A * B + (z (mulLo s0_1 Bls.inp) + 2 ^ 64 * z (mulLo di_8 Bls.inp) + 2 ^ 128 * z (mulLo cx_9 Bls.inp) + 2 ^ 192 * z (mulLo r14_10 Bls.inp) + 2 ^ 256 * z (mulLo r15_11 Bls.inp)) * 0x1a0111ea397fe69a4b1ba7b6434bacd764774b84f38512bf6730d2a0f6b0f6241eabfffeb153ffffb9feffffffffaaab = 2 ^ 320 * (z r8_12 + 2 ^ 64 * z r9_12 + 2 ^ 128 * z r10_12 + 2 ^ 192 * z r11_12 + 2 ^ 256 * z r12_12 + 2 ^ 320 * z cx_12 + 2 ^ 384 * z r14_12) + 2 ^ 64 * zb (mulLo s0_1 Bls.inp == 1) + 2 ^ 128 * zb (mulLo di_8 Bls.inp == 1) + 2 ^ 192 * zb (mulLo cx_9 Bls.inp == 1) + 2 ^ 256 * zb (mulLo r14_10 Bls.inp == 1) + 2 ^ 320 * zb (mulLo r15_11 Bls.inp == 1) := by
    linear_combination I4 - 2 ^ 256 * e4
  have ht5 : z r14_12 ≤ 9223372036854775808 := by
    generalize A * B = X at I5 hAB
    clear * - I5 hAB
    have := z_bnd r8_12
    have := z_bnd r9_12
    have := z_bnd r10_12
    have := z_bnd r11_12
    have := z_bnd r12_12
    have := z_bnd cx_12
    have := z_bnd r14_12
    have := z_bnd (mulLo s0_1 Bls.inp)
    have := z_bnd (mulLo di_8 Bls.inp)
    have := z_bnd (mulLo cx_9 Bls.inp)
    have := z_bnd (mulLo r14_10 Bls.inp)
    have := z_bnd (mulLo r15_11 Bls.inp)
    have := zb_bnd (mulLo s0_1 Bls.inp == 1)
    have := zb_bnd (mulLo di_8 Bls.inp == 1)
    have := zb_bnd (mulLo cx_9 Bls.inp == 1)
    have := zb_bnd (mulLo r14_10 Bls.inp == 1)
    have := zb_bnd (mulLo r15_11 Bls.inp == 1)
    omega
  obtain ⟨ax_13, bx_13, cx_13, dx_13, r9_13, r10_13, r11_13, r12_13, r13_13, r14_13, cf_13, of_13, h_13, e5⟩ := noadxRed5_spec (ax := ax_12) (bx := bx_12) (cx := cx_12) (dx := dx_12) (si := si_12) (di := di_8) (r8 := r8_12) (r9 := r9_12) (r10 := r10_12) (r11 := r11_12) (r12 := r12_12) (r13 := r13_12) (r14 := r14_12) (r15 := r15_11) (s0 := r13_6) (s1 := bx_6) (s2 := s2_3) (f0 := f0) (f1 := f1) (f2 := f2) (cf := cf_12) (of := of_12) (mem := mem) ht5
  have I6 : A * B + (z (mulLo s0_1 Bls.inp) + 2 ^ 64 * z (mulLo di_8 Bls.inp) + 2 ^ 128 * z (mulLo cx_9 Bls.inp) + 2 ^ 192 * z (mulLo r14_10 Bls.inp) + 2 ^ 256 * z (mulLo r15_11 Bls.inp) + 2 ^ 320 * z (mulLo r8_12 Bls.inp)) * 0x1a0111ea397fe69a4b1ba7b6434bacd764774b84f38512bf6730d2a0f6b0f6241eabfffeb153ffffb9feffffffffaaab = 2 ^ 384 * (z r9_13 + 2 ^ 64 * z r10_13 + 2 ^ 128 * z r11_13 + 2 ^ 192 * z r12_13 + 2 ^ 256 * z cx_13 + 2 ^ 320 * z r14_13) + 2 ^ 64 * zb (mulLo s0_1 Bls.inp == 1) + 2 ^ 128 * zb (mulLo di_8 Bls.inp == 1) + 2 ^ 192 * zb (mulLo cx_9 Bls.inp == 1) + 2 ^ 256 * zb (mulLo r14_10 Bls.inp == 1) + 2 ^ 320 * zb (mulLo r15_11 Bls.inp == 1) + 2 ^ 384 * zb (mulLo r8_12 Bls.inp == 1) := by
    linear_combination I5 - 2 ^ 320 * e5
  obtain ⟨ax_14, bx_14, cx_14, dx_14, r8_14, r9_14, r10_14, r11_14, r12_14, r13_14, r14_14, r15_14, cf_14, of_14, h_14, ef⟩ := noadxFin_spec (ax := ax_13) (bx := bx_13) (cx := cx_13) (dx := dx_13) (si := si_12) (di := di_8) (r8 := r8_12) (r9 := r9_13) (r10 := r10_13) (r11 := r11_13) (r12 := r12_13) (r13 := r13_13) (r14 := r14_13) (r15 := r15_11) (s0 := r13_6) (s1 := bx_6) (s2 := s2_3) (f0 := f0) (f1 := f1) (f2 := f2) (cf := cf_13) (of := of_13) (mem := mem) 
  have hrun : run noadxBody ⟨ax, bx, cx, dx, si, di, r8, r9, r10, r11, r12, r13, r14, r15, s0, s1, s2, f0, f1, f2, cf, of, mem⟩ = ⟨ax_14, bx_14, cx_14, dx_14, si_12, di_8, r8_14, r9_14, r10_14, r11_14, r12_14, r13_14, r14_14, r15_14, r13_6, bx_6, s2_3, f0, f1, f2, cf_14, of_14, mem⟩ := by
    unfold noadxBody
    simp only [run_append]
    rw [h_1, h_2, h_3, h_4, h_5, h_6, h_7, h_8, h_9, h_10, h_11, h_12, h_13, h_14]
  refine ⟨ax_14, bx_14, cx_14, dx_14, si_12, di_8, r8_14, r9_14, r10_14, r11_14, r12_14, r13_14, r14_14, r15_14, r13_6, bx_6, s2_3, cf_14, of_14, hrun, mulLo s0_1 Bls.inp, mulLo di_8 Bls.inp, mulLo cx_9 Bls.inp, mulLo r14_10 Bls.inp, mulLo r15_11 Bls.inp, mulLo r8_12 Bls.inp, z di_8 + 2 ^ 64 * z cx_8 + 2 ^ 128 * z r14_8 + 2 ^ 192 * z r15_8 + 2 ^ 256 * z r8_8 + 2 ^ 320 * z r9_8 + 2 ^ 384 * z r10_6 + 2 ^ 448 * z r11_6 + 2 ^ 512 * z r12_6 + 2 ^ 576 * z r13_6 + 2 ^ 640 * z bx_6 + 2 ^ 384 * z si_8,
    z cx_9 + 2 ^ 64 * z r14_9 + 2 ^ 128 * z r15_9 + 2 ^ 192 * z r8_9 + 2 ^ 256 * z r9_9 + 2 ^ 320 * z r10_9 + 2 ^ 384 * z r11_6 + 2 ^ 448 * z r12_6 + 2 ^ 512 * z r13_6 + 2 ^ 576 * z bx_6 + 2 ^ 384 * z si_9,
    z r14_10 + 2 ^ 64 * z r15_10 + 2 ^ 128 * z r8_10 + 2 ^ 192 * z r9_10 + 2 ^ 256 * z r10_10 + 2 ^ 320 * z r11_10 + 2 ^ 384 * z r12_6 + 2 ^ 448 * z r13_6 + 2 ^ 512 * z bx_6 + 2 ^ 384 * z si_10,
    z r15_11 + 2 ^ 64 * z r8_11 + 2 ^ 128 * z r9_11 + 2 ^ 192 * z r10_11 + 2 ^ 256 * z r11_11 + 2 ^ 320 * z r12_11 + 2 ^ 384 * z r13_6 + 2 ^ 448 * z bx_6 + 2 ^ 384 * z si_11,
    z r8_12 + 2 ^ 64 * z r9_12 + 2 ^ 128 * z r10_12 + 2 ^ 192 * z r11_12 + 2 ^ 256 * z r12_12 + 2 ^ 320 * z cx_12 + 2 ^ 384 * z r14_12,
    z r9_13 + 2 ^ 64 * z r10_13 + 2 ^ 128 * z r11_13 + 2 ^ 192 * z r12_13 + 2 ^ 256 * z cx_13 + 2 ^ 320 * z r14_13, ?_, ?_, ?_, ?_, ?_, ?_, ?_⟩
  · linear_combination I1
  · linear_combination I2
  · linear_combination I3
  · linear_combination I4
  · linear_combination I5
  · linear_combination I6
  · exact ef

end Verif.X86
