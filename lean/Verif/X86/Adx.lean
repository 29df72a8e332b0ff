import Verif.X86.Arith

/-!
# `mulADX`, `mulAssignADX`: what each segment computes

Generated from the instructions: one lemma for each segment of Verif/X86/Code.lean, each executing its instructions one by
one and combining their equations.
-/

set_option exponentiation.threshold 1000
set_option maxHeartbeats 1000000
set_option linter.unusedVariables false
set_option linter.unusedSimpArgs false

namespace Verif.X86

/-- word 0 of `b` times `a`. -/
theorem adxRow0_spec {ax bx cx dx si di r8 r9 r10 r11 r12 r13 r14 r15 s0 s1 s2 f0 f1 f2 : UInt64} {cf of : Bool} {mem : UInt64 → UInt64}
    {a0 a1 a2 a3 a4 a5 b : UInt64}
    (hdi_0 : mem (di + 0) = a0)
    (hdi_8 : mem (di + 8) = a1)
    (hdi_16 : mem (di + 16) = a2)
    (hdi_24 : mem (di + 24) = a3)
    (hdi_32 : mem (di + 32) = a4)
    (hdi_40 : mem (di + 40) = a5)
    (hsi_0 : mem (si + 0) = b) :
    ∃ ax' cx' r8' r9' r10' r11' r12' r13' : UInt64, ∃ cf' of' : Bool,
      run adxRow0 ⟨ax, bx, cx, dx, si, di, r8, r9, r10, r11, r12, r13, r14, r15, s0, s1, s2, f0, f1, f2, cf, of, mem⟩ =
      ⟨ax', bx, cx', b, si, di, r8', r9', r10', r11', r12', r13', r14, r15, s0, s1, s2, f0, f1, f2, cf', of', mem⟩ ∧
      z cx' + 2 ^ 64 * z r8' + 2 ^ 128 * z r9' + 2 ^ 192 * z r10' + 2 ^ 256 * z r11' + 2 ^ 320 * z r12' + 2 ^ 384 * z r13' =
        z b * (z a0 + 2 ^ 64 * z a1 + 2 ^ 128 * z a2 + 2 ^ 192 * z a3 + 2 ^ 256 * z a4 + 2 ^ 320 * z a5) := by
  generalize hs : run adxRow0 _ = s
  unfold adxRow0 at hs
  xstep
  rw [hsi_0] at hs
  xstep
  xstep
  rw [hdi_0] at hs
  have e1 := mul_specZ b a0
  have hg1 := mulHi_le b a0
  generalize mulLo b a0 = l1 at hs e1; generalize mulHi b a0 = g1 at hs e1 hg1
  xstep
  xstep
  rw [hdi_8] at hs
  have e2 := mul_specZ b a1
  have hg2 := mulHi_le b a1
  generalize mulLo b a1 = l2 at hs e2; generalize mulHi b a1 = g2 at hs e2 hg2
  xstep
  have e3 := addW_specZ g1 l2 false
  simp only [zb_false, add_zero, zero_add] at e3
  generalize addW g1 l2 false = w3 at hs e3; generalize addC g1 l2 false = c3 at hs e3
  xstep
  rw [hdi_16] at hs
  have e4 := mul_specZ b a2
  have hg4 := mulHi_le b a2
  generalize mulLo b a2 = l4 at hs e4; generalize mulHi b a2 = g4 at hs e4 hg4
  xstep
  have e5 := addW_specZ g2 l4 c3
  generalize addW g2 l4 c3 = w5 at hs e5; generalize addC g2 l4 c3 = c5 at hs e5
  xstep
  rw [hdi_24] at hs
  have e6 := mul_specZ b a3
  have hg6 := mulHi_le b a3
  generalize mulLo b a3 = l6 at hs e6; generalize mulHi b a3 = g6 at hs e6 hg6
  xstep
  have e7 := addW_specZ g4 l6 c5
  generalize addW g4 l6 c5 = w7 at hs e7; generalize addC g4 l6 c5 = c7 at hs e7
  xstep
  rw [hdi_32] at hs
  have e8 := mul_specZ b a4
  have hg8 := mulHi_le b a4
  generalize mulLo b a4 = l8 at hs e8; generalize mulHi b a4 = g8 at hs e8 hg8
  xstep
  have e9 := addW_specZ g6 l8 c7
  generalize addW g6 l8 c7 = w9 at hs e9; generalize addC g6 l8 c7 = c9 at hs e9
  xstep
  rw [hdi_40] at hs
  have e10 := mul_specZ b a5
  have hg10 := mulHi_le b a5
  generalize mulLo b a5 = l10 at hs e10; generalize mulHi b a5 = g10 at hs e10 hg10
  xstep
  have e11 := addW_specZ g8 l10 c9
  generalize addW g8 l10 c9 = w11 at hs e11; generalize addC g8 l10 c9 = c11 at hs e11
  xstep
  have e12 := addW_specZ g10 (0 : UInt64) c11
  simp only [z_zero, add_zero, zero_add] at e12
  generalize addO g10 (0 : UInt64) c11 = o12 at hs
  generalize addW g10 (0 : UInt64) c11 = w12 at hs e12; generalize addC g10 (0 : UInt64) c11 = c12 at hs e12
  rw [run_nil] at hs
  refine ⟨l10, l1, w3, w5, w7, w9, w11, w12, c12, o12, hs.symm, ?_⟩
  have key : z l1 + 2 ^ 64 * z w3 + 2 ^ 128 * z w5 + 2 ^ 192 * z w7 + 2 ^ 256 * z w9 + 2 ^ 320 * z w11 + 2 ^ 384 * z w12 + 2 ^ 448 * zb c12 = z b * (z a0 + 2 ^ 64 * z a1 + 2 ^ 128 * z a2 + 2 ^ 192 * z a3 + 2 ^ 256 * z a4 + 2 ^ 320 * z a5) := by
    linear_combination e1 + 2 ^ 64 * e2 + 2 ^ 64 * e3 + 2 ^ 128 * e4 + 2 ^ 128 * e5 + 2 ^ 192 * e6 + 2 ^ 192 * e7 + 2 ^ 256 * e8 + 2 ^ 256 * e9 + 2 ^ 320 * e10 + 2 ^ 320 * e11 + 2 ^ 384 * e12
  clear * - key
  have := z_bnd l1
  have := z_bnd w3
  have := z_bnd w5
  have := z_bnd w7
  have := z_bnd w9
  have := z_bnd w11
  have := z_bnd w12
  have := zb_bnd c12
  have := z_mul_le b a0
  have := z_mul_le b a1
  have := z_mul_le b a2
  have := z_mul_le b a3
  have := z_mul_le b a4
  have := z_mul_le b a5
  rw [mul_sum6] at key ⊢
  generalize z b * z a0 = p0 at *
  generalize z b * z a1 = p1 at *
  generalize z b * z a2 = p2 at *
  generalize z b * z a3 = p3 at *
  generalize z b * z a4 = p4 at *
  generalize z b * z a5 = p5 at *
  omega

/-- word 1 of `b` times `a`. -/
theorem adxRow1_spec {ax bx cx dx si di r8 r9 r10 r11 r12 r13 r14 r15 s0 s1 s2 f0 f1 f2 : UInt64} {cf of : Bool} {mem : UInt64 → UInt64}
    {a0 a1 a2 a3 a4 a5 b : UInt64}
    (hdi_0 : mem (di + 0) = a0)
    (hdi_8 : mem (di + 8) = a1)
    (hdi_16 : mem (di + 16) = a2)
    (hdi_24 : mem (di + 24) = a3)
    (hdi_32 : mem (di + 32) = a4)
    (hdi_40 : mem (di + 40) = a5)
    (hsi_8 : mem (si + 8) = b) :
    ∃ ax' bx' r8' r9' r10' r11' r12' r13' r14' : UInt64, ∃ cf' of' : Bool,
      run adxRow1 ⟨ax, bx, cx, dx, si, di, r8, r9, r10, r11, r12, r13, r14, r15, s0, s1, s2, f0, f1, f2, cf, of, mem⟩ =
      ⟨ax', bx', cx, b, si, di, r8', r9', r10', r11', r12', r13', r14', r15, r8', s1, s2, f0, f1, f2, cf', of', mem⟩ ∧
      z r8' + 2 ^ 64 * z r9' + 2 ^ 128 * z r10' + 2 ^ 192 * z r11' + 2 ^ 256 * z r12' + 2 ^ 320 * z r13' + 2 ^ 384 * z r14' =
        z r8 + 2 ^ 64 * z r9 + 2 ^ 128 * z r10 + 2 ^ 192 * z r11 + 2 ^ 256 * z r12 + 2 ^ 320 * z r13 + z b * (z a0 + 2 ^ 64 * z a1 + 2 ^ 128 * z a2 + 2 ^ 192 * z a3 + 2 ^ 256 * z a4 + 2 ^ 320 * z a5) := by
  generalize hs : run adxRow1 _ = s
  unfold adxRow1 at hs
  xstep
  rw [hsi_8] at hs
  xstep
  xstep
  rw [hdi_0] at hs
  have e1 := mul_specZ b a0
  have hg1 := mulHi_le b a0
  generalize mulLo b a0 = l1 at hs e1; generalize mulHi b a0 = g1 at hs e1 hg1
  xstep
  have e2 := addW_specZ r8 l1 false
  simp only [zb_false, add_zero, zero_add] at e2
  generalize addW r8 l1 false = w2 at hs e2; generalize addC r8 l1 false = c2 at hs e2
  xstep
  have e3 := addW_specZ r9 g1 false
  simp only [zb_false, add_zero, zero_add] at e3
  generalize addW r9 g1 false = w3 at hs e3; generalize addC r9 g1 false = c3 at hs e3
  xstep
  xstep
  rw [hdi_8] at hs
  have e4 := mul_specZ b a1
  have hg4 := mulHi_le b a1
  generalize mulLo b a1 = l4 at hs e4; generalize mulHi b a1 = g4 at hs e4 hg4
  xstep
  have e5 := addW_specZ w3 l4 c2
  generalize addW w3 l4 c2 = w5 at hs e5; generalize addC w3 l4 c2 = c5 at hs e5
  xstep
  have e6 := addW_specZ r10 g4 c3
  generalize addW r10 g4 c3 = w6 at hs e6; generalize addC r10 g4 c3 = c6 at hs e6
  xstep
  rw [hdi_16] at hs
  have e7 := mul_specZ b a2
  have hg7 := mulHi_le b a2
  generalize mulLo b a2 = l7 at hs e7; generalize mulHi b a2 = g7 at hs e7 hg7
  xstep
  have e8 := addW_specZ w6 l7 c5
  generalize addW w6 l7 c5 = w8 at hs e8; generalize addC w6 l7 c5 = c8 at hs e8
  xstep
  have e9 := addW_specZ r11 g7 c6
  generalize addW r11 g7 c6 = w9 at hs e9; generalize addC r11 g7 c6 = c9 at hs e9
  xstep
  rw [hdi_24] at hs
  have e10 := mul_specZ b a3
  have hg10 := mulHi_le b a3
  generalize mulLo b a3 = l10 at hs e10; generalize mulHi b a3 = g10 at hs e10 hg10
  xstep
  have e11 := addW_specZ w9 l10 c8
  generalize addW w9 l10 c8 = w11 at hs e11; generalize addC w9 l10 c8 = c11 at hs e11
  xstep
  have e12 := addW_specZ r12 g10 c9
  generalize addW r12 g10 c9 = w12 at hs e12; generalize addC r12 g10 c9 = c12 at hs e12
  xstep
  rw [hdi_32] at hs
  have e13 := mul_specZ b a4
  have hg13 := mulHi_le b a4
  generalize mulLo b a4 = l13 at hs e13; generalize mulHi b a4 = g13 at hs e13 hg13
  xstep
  have e14 := addW_specZ w12 l13 c11
  generalize addW w12 l13 c11 = w14 at hs e14; generalize addC w12 l13 c11 = c14 at hs e14
  xstep
  have e15 := addW_specZ r13 g13 c12
  generalize addW r13 g13 c12 = w15 at hs e15; generalize addC r13 g13 c12 = c15 at hs e15
  xstep
  rw [hdi_40] at hs
  have e16 := mul_specZ b a5
  have hg16 := mulHi_le b a5
  generalize mulLo b a5 = l16 at hs e16; generalize mulHi b a5 = g16 at hs e16 hg16
  xstep
  have e17 := addW_specZ w15 l16 c14
  generalize addW w15 l16 c14 = w17 at hs e17; generalize addC w15 l16 c14 = c17 at hs e17
  xstep
  have e18 := addW_specZ (0 : UInt64) (0 : UInt64) c17
  simp only [z_zero, add_zero, zero_add] at e18
  generalize addW (0 : UInt64) (0 : UInt64) c17 = w18 at hs e18; generalize addC (0 : UInt64) (0 : UInt64) c17 = c18 at hs e18
  xstep
  have e19 := addW_specZ w18 g16 c15
  generalize addW w18 g16 c15 = w19 at hs e19; generalize addC w18 g16 c15 = c19 at hs e19
  rw [run_nil] at hs
  refine ⟨l16, g16, w2, w5, w8, w11, w14, w17, w19, c19, c18, hs.symm, ?_⟩
  have key : z w2 + 2 ^ 64 * z w5 + 2 ^ 128 * z w8 + 2 ^ 192 * z w11 + 2 ^ 256 * z w14 + 2 ^ 320 * z w17 + 2 ^ 384 * z w19 + 2 ^ 448 * zb c19 + 2 ^ 448 * zb c18 = z r8 + 2 ^ 64 * z r9 + 2 ^ 128 * z r10 + 2 ^ 192 * z r11 + 2 ^ 256 * z r12 + 2 ^ 320 * z r13 + z b * (z a0 + 2 ^ 64 * z a1 + 2 ^ 128 * z a2 + 2 ^ 192 * z a3 + 2 ^ 256 * z a4 + 2 ^ 320 * z a5) := by
    linear_combination e1 + e2 + 2 ^ 64 * e3 + 2 ^ 64 * e4 + 2 ^ 64 * e5 + 2 ^ 128 * e6 + 2 ^ 128 * e7 + 2 ^ 128 * e8 + 2 ^ 192 * e9 + 2 ^ 192 * e10 + 2 ^ 192 * e11 + 2 ^ 256 * e12 + 2 ^ 256 * e13 + 2 ^ 256 * e14 + 2 ^ 320 * e15 + 2 ^ 320 * e16 + 2 ^ 320 * e17 + 2 ^ 384 * e18 + 2 ^ 384 * e19
  clear * - key
  have := z_bnd w2
  have := z_bnd w5
  have := z_bnd w8
  have := z_bnd w11
  have := z_bnd w14
  have := z_bnd w17
  have := z_bnd w19
  have := z_bnd r8
  have := z_bnd r9
  have := z_bnd r10
  have := z_bnd r11
  have := z_bnd r12
  have := z_bnd r13
  have := zb_bnd c19
  have := zb_bnd c18
  have := z_mul_le b a0
  have := z_mul_le b a1
  have := z_mul_le b a2
  have := z_mul_le b a3
  have := z_mul_le b a4
  have := z_mul_le b a5
  rw [mul_sum6] at key ⊢
  generalize z b * z a0 = p0 at *
  generalize z b * z a1 = p1 at *
  generalize z b * z a2 = p2 at *
  generalize z b * z a3 = p3 at *
  generalize z b * z a4 = p4 at *
  generalize z b * z a5 = p5 at *
  omega

/-- word 2 of `b` times `a`. -/
theorem adxRow2_spec {ax bx cx dx si di r8 r9 r10 r11 r12 r13 r14 r15 s0 s1 s2 f0 f1 f2 : UInt64} {cf of : Bool} {mem : UInt64 → UInt64}
    {a0 a1 a2 a3 a4 a5 b : UInt64}
    (hdi_0 : mem (di + 0) = a0)
    (hdi_8 : mem (di + 8) = a1)
    (hdi_16 : mem (di + 16) = a2)
    (hdi_24 : mem (di + 24) = a3)
    (hdi_32 : mem (di + 32) = a4)
    (hdi_40 : mem (di + 40) = a5)
    (hsi_16 : mem (si + 16) = b) :
    ∃ ax' bx' r9' r10' r11' r12' r13' r14' r15' : UInt64, ∃ cf' of' : Bool,
      run adxRow2 ⟨ax, bx, cx, dx, si, di, r8, r9, r10, r11, r12, r13, r14, r15, s0, s1, s2, f0, f1, f2, cf, of, mem⟩ =
      ⟨ax', bx', cx, b, si, di, r8, r9', r10', r11', r12', r13', r14', r15', s0, r9', s2, f0, f1, f2, cf', of', mem⟩ ∧
      z r9' + 2 ^ 64 * z r10' + 2 ^ 128 * z r11' + 2 ^ 192 * z r12' + 2 ^ 256 * z r13' + 2 ^ 320 * z r14' + 2 ^ 384 * z r15' =
        z r9 + 2 ^ 64 * z r10 + 2 ^ 128 * z r11 + 2 ^ 192 * z r12 + 2 ^ 256 * z r13 + 2 ^ 320 * z r14 + z b * (z a0 + 2 ^ 64 * z a1 + 2 ^ 128 * z a2 + 2 ^ 192 * z a3 + 2 ^ 256 * z a4 + 2 ^ 320 * z a5) := by
  generalize hs : run adxRow2 _ = s
  unfold adxRow2 at hs
  xstep
  rw [hsi_16] at hs
  xstep
  xstep
  rw [hdi_0] at hs
  have e1 := mul_specZ b a0
  have hg1 := mulHi_le b a0
  generalize mulLo b a0 = l1 at hs e1; generalize mulHi b a0 = g1 at hs e1 hg1
  xstep
  have e2 := addW_specZ r9 l1 false
  simp only [zb_false, add_zero, zero_add] at e2
  generalize addW r9 l1 false = w2 at hs e2; generalize addC r9 l1 false = c2 at hs e2
  xstep
  have e3 := addW_specZ r10 g1 false
  simp only [zb_false, add_zero, zero_add] at e3
  generalize addW r10 g1 false = w3 at hs e3; generalize addC r10 g1 false = c3 at hs e3
  xstep
  xstep
  rw [hdi_8] at hs
  have e4 := mul_specZ b a1
  have hg4 := mulHi_le b a1
  generalize mulLo b a1 = l4 at hs e4; generalize mulHi b a1 = g4 at hs e4 hg4
  xstep
  have e5 := addW_specZ w3 l4 c2
  generalize addW w3 l4 c2 = w5 at hs e5; generalize addC w3 l4 c2 = c5 at hs e5
  xstep
  have e6 := addW_specZ r11 g4 c3
  generalize addW r11 g4 c3 = w6 at hs e6; generalize addC r11 g4 c3 = c6 at hs e6
  xstep
  rw [hdi_16] at hs
  have e7 := mul_specZ b a2
  have hg7 := mulHi_le b a2
  generalize mulLo b a2 = l7 at hs e7; generalize mulHi b a2 = g7 at hs e7 hg7
  xstep
  have e8 := addW_specZ w6 l7 c5
  generalize addW w6 l7 c5 = w8 at hs e8; generalize addC w6 l7 c5 = c8 at hs e8
  xstep
  have e9 := addW_specZ r12 g7 c6
  generalize addW r12 g7 c6 = w9 at hs e9; generalize addC r12 g7 c6 = c9 at hs e9
  xstep
  rw [hdi_24] at hs
  have e10 := mul_specZ b a3
  have hg10 := mulHi_le b a3
  generalize mulLo b a3 = l10 at hs e10; generalize mulHi b a3 = g10 at hs e10 hg10
  xstep
  have e11 := addW_specZ w9 l10 c8
  generalize addW w9 l10 c8 = w11 at hs e11; generalize addC w9 l10 c8 = c11 at hs e11
  xstep
  have e12 := addW_specZ r13 g10 c9
  generalize addW r13 g10 c9 = w12 at hs e12; generalize addC r13 g10 c9 = c12 at hs e12
  xstep
  rw [hdi_32] at hs
  have e13 := mul_specZ b a4
  have hg13 := mulHi_le b a4
  generalize mulLo b a4 = l13 at hs e13; generalize mulHi b a4 = g13 at hs e13 hg13
  xstep
  have e14 := addW_specZ w12 l13 c11
  generalize addW w12 l13 c11 = w14 at hs e14; generalize addC w12 l13 c11 = c14 at hs e14
  xstep
  have e15 := addW_specZ r14 g13 c12
  generalize addW r14 g13 c12 = w15 at hs e15; generalize addC r14 g13 c12 = c15 at hs e15
  xstep
  rw [hdi_40] at hs
  have e16 := mul_specZ b a5
  have hg16 := mulHi_le b a5
  generalize mulLo b a5 = l16 at hs e16; generalize mulHi b a5 = g16 at hs e16 hg16
  xstep
  have e17 := addW_specZ w15 l16 c14
  generalize addW w15 l16 c14 = w17 at hs e17; generalize addC w15 l16 c14 = c17 at hs e17
  xstep
  have e18 := addW_specZ (0 : UInt64) (0 : UInt64) c17
  simp only [z_zero, add_zero, zero_add] at e18
  generalize addW (0 : UInt64) (0 : UInt64) c17 = w18 at hs e18; generalize addC (0 : UInt64) (0 : UInt64) c17 = c18 at hs e18
  xstep
  have e19 := addW_specZ w18 g16 c15
  generalize addW w18 g16 c15 = w19 at hs e19; generalize addC w18 g16 c15 = c19 at hs e19
  rw [run_nil] at hs
  refine ⟨l16, g16, w2, w5, w8, w11, w14, w17, w19, c19, c18, hs.symm, ?_⟩
  have key : z w2 + 2 ^ 64 * z w5 + 2 ^ 128 * z w8 + 2 ^ 192 * z w11 + 2 ^ 256 * z w14 + 2 ^ 320 * z w17 + 2 ^ 384 * z w19 + 2 ^ 448 * zb c19 + 2 ^ 448 * zb c18 = z r9 + 2 ^ 64 * z r10 + 2 ^ 128 * z r11 + 2 ^ 192 * z r12 + 2 ^ 256 * z r13 + 2 ^ 320 * z r14 + z b * (z a0 + 2 ^ 64 * z a1 + 2 ^ 128 * z a2 + 2 ^ 192 * z a3 + 2 ^ 256 * z a4 + 2 ^ 320 * z a5) := by
    linear_combination e1 + e2 + 2 ^ 64 * e3 + 2 ^ 64 * e4 + 2 ^ 64 * e5 + 2 ^ 128 * e6 + 2 ^ 128 * e7 + 2 ^ 128 * e8 + 2 ^ 192 * e9 + 2 ^ 192 * e10 + 2 ^ 192 * e11 + 2 ^ 256 * e12 + 2 ^ 256 * e13 + 2 ^ 256 * e14 + 2 ^ 320 * e15 + 2 ^ 320 * e16 + 2 ^ 320 * e17 + 2 ^ 384 * e18 + 2 ^ 384 * e19
  clear * - key
  have := z_bnd w2
  have := z_bnd w5
  have := z_bnd w8
  have := z_bnd w11
  have := z_bnd w14
  have := z_bnd w17
  have := z_bnd w19
  have := z_bnd r9
  have := z_bnd r10
  have := z_bnd r11
  have := z_bnd r12
  have := z_bnd r13
  have := z_bnd r14
  have := zb_bnd c19
  have := zb_bnd c18
  have := z_mul_le b a0
  have := z_mul_le b a1
  have := z_mul_le b a2
  have := z_mul_le b a3
  have := z_mul_le b a4
  have := z_mul_le b a5
  rw [mul_sum6] at key ⊢
  generalize z b * z a0 = p0 at *
  generalize z b * z a1 = p1 at *
  generalize z b * z a2 = p2 at *
  generalize z b * z a3 = p3 at *
  generalize z b * z a4 = p4 at *
  generalize z b * z a5 = p5 at *
  omega

/-- word 3 of `b` times `a`. -/
theorem adxRow3_spec {ax bx cx dx si di r8 r9 r10 r11 r12 r13 r14 r15 s0 s1 s2 f0 f1 f2 : UInt64} {cf of : Bool} {mem : UInt64 → UInt64}
    {a0 a1 a2 a3 a4 a5 b : UInt64}
    (hdi_0 : mem (di + 0) = a0)
    (hdi_8 : mem (di + 8) = a1)
    (hdi_16 : mem (di + 16) = a2)
    (hdi_24 : mem (di + 24) = a3)
    (hdi_32 : mem (di + 32) = a4)
    (hdi_40 : mem (di + 40) = a5)
    (hsi_24 : mem (si + 24) = b) :
    ∃ ax' bx' r8' r10' r11' r12' r13' r14' r15' : UInt64, ∃ cf' of' : Bool,
      run adxRow3 ⟨ax, bx, cx, dx, si, di, r8, r9, r10, r11, r12, r13, r14, r15, s0, s1, s2, f0, f1, f2, cf, of, mem⟩ =
      ⟨ax', bx', cx, b, si, di, r8', r9, r10', r11', r12', r13', r14', r15', s0, s1, s2, f0, f1, f2, cf', of', mem⟩ ∧
      z r10' + 2 ^ 64 * z r11' + 2 ^ 128 * z r12' + 2 ^ 192 * z r13' + 2 ^ 256 * z r14' + 2 ^ 320 * z r15' + 2 ^ 384 * z r8' =
        z r10 + 2 ^ 64 * z r11 + 2 ^ 128 * z r12 + 2 ^ 192 * z r13 + 2 ^ 256 * z r14 + 2 ^ 320 * z r15 + z b * (z a0 + 2 ^ 64 * z a1 + 2 ^ 128 * z a2 + 2 ^ 192 * z a3 + 2 ^ 256 * z a4 + 2 ^ 320 * z a5) := by
  generalize hs : run adxRow3 _ = s
  unfold adxRow3 at hs
  xstep
  rw [hsi_24] at hs
  xstep
  xstep
  rw [hdi_0] at hs
  have e1 := mul_specZ b a0
  have hg1 := mulHi_le b a0
  generalize mulLo b a0 = l1 at hs e1; generalize mulHi b a0 = g1 at hs e1 hg1
  xstep
  have e2 := addW_specZ r10 l1 false
  simp only [zb_false, add_zero, zero_add] at e2
  generalize addW r10 l1 false = w2 at hs e2; generalize addC r10 l1 false = c2 at hs e2
  xstep
  have e3 := addW_specZ r11 g1 false
  simp only [zb_false, add_zero, zero_add] at e3
  generalize addW r11 g1 false = w3 at hs e3; generalize addC r11 g1 false = c3 at hs e3
  xstep
  rw [hdi_8] at hs
  have e4 := mul_specZ b a1
  have hg4 := mulHi_le b a1
  generalize mulLo b a1 = l4 at hs e4; generalize mulHi b a1 = g4 at hs e4 hg4
  xstep
  have e5 := addW_specZ w3 l4 c2
  generalize addW w3 l4 c2 = w5 at hs e5; generalize addC w3 l4 c2 = c5 at hs e5
  xstep
  have e6 := addW_specZ r12 g4 c3
  generalize addW r12 g4 c3 = w6 at hs e6; generalize addC r12 g4 c3 = c6 at hs e6
  xstep
  rw [hdi_16] at hs
  have e7 := mul_specZ b a2
  have hg7 := mulHi_le b a2
  generalize mulLo b a2 = l7 at hs e7; generalize mulHi b a2 = g7 at hs e7 hg7
  xstep
  have e8 := addW_specZ w6 l7 c5
  generalize addW w6 l7 c5 = w8 at hs e8; generalize addC w6 l7 c5 = c8 at hs e8
  xstep
  have e9 := addW_specZ r13 g7 c6
  generalize addW r13 g7 c6 = w9 at hs e9; generalize addC r13 g7 c6 = c9 at hs e9
  xstep
  rw [hdi_24] at hs
  have e10 := mul_specZ b a3
  have hg10 := mulHi_le b a3
  generalize mulLo b a3 = l10 at hs e10; generalize mulHi b a3 = g10 at hs e10 hg10
  xstep
  have e11 := addW_specZ w9 l10 c8
  generalize addW w9 l10 c8 = w11 at hs e11; generalize addC w9 l10 c8 = c11 at hs e11
  xstep
  have e12 := addW_specZ r14 g10 c9
  generalize addW r14 g10 c9 = w12 at hs e12; generalize addC r14 g10 c9 = c12 at hs e12
  xstep
  rw [hdi_32] at hs
  have e13 := mul_specZ b a4
  have hg13 := mulHi_le b a4
  generalize mulLo b a4 = l13 at hs e13; generalize mulHi b a4 = g13 at hs e13 hg13
  xstep
  have e14 := addW_specZ w12 l13 c11
  generalize addW w12 l13 c11 = w14 at hs e14; generalize addC w12 l13 c11 = c14 at hs e14
  xstep
  have e15 := addW_specZ r15 g13 c12
  generalize addW r15 g13 c12 = w15 at hs e15; generalize addC r15 g13 c12 = c15 at hs e15
  xstep
  rw [hdi_40] at hs
  have e16 := mul_specZ b a5
  have hg16 := mulHi_le b a5
  generalize mulLo b a5 = l16 at hs e16; generalize mulHi b a5 = g16 at hs e16 hg16
  xstep
  have e17 := addW_specZ w15 l16 c14
  generalize addW w15 l16 c14 = w17 at hs e17; generalize addC w15 l16 c14 = c17 at hs e17
  xstep
  have e18 := addW_specZ (0 : UInt64) (0 : UInt64) c17
  simp only [z_zero, add_zero, zero_add] at e18
  generalize addW (0 : UInt64) (0 : UInt64) c17 = w18 at hs e18; generalize addC (0 : UInt64) (0 : UInt64) c17 = c18 at hs e18
  xstep
  have e19 := addW_specZ w18 g16 c15
  generalize addW w18 g16 c15 = w19 at hs e19; generalize addC w18 g16 c15 = c19 at hs e19
  rw [run_nil] at hs
  refine ⟨l16, g16, w19, w2, w5, w8, w11, w14, w17, c19, c18, hs.symm, ?_⟩
  have key : z w2 + 2 ^ 64 * z w5 + 2 ^ 128 * z w8 + 2 ^ 192 * z w11 + 2 ^ 256 * z w14 + 2 ^ 320 * z w17 + 2 ^ 384 * z w19 + 2 ^ 448 * zb c19 + 2 ^ 448 * zb c18 = z r10 + 2 ^ 64 * z r11 + 2 ^ 128 * z r12 + 2 ^ 192 * z r13 + 2 ^ 256 * z r14 + 2 ^ 320 * z r15 + z b * (z a0 + 2 ^ 64 * z a1 + 2 ^ 128 * z a2 + 2 ^ 192 * z a3 + 2 ^ 256 * z a4 + 2 ^ 320 * z a5) := by
    linear_combination e1 + e2 + 2 ^ 64 * e3 + 2 ^ 64 * e4 + 2 ^ 64 * e5 + 2 ^ 128 * e6 + 2 ^ 128 * e7 + 2 ^ 128 * e8 + 2 ^ 192 * e9 + 2 ^ 192 * e10 + 2 ^ 192 * e11 + 2 ^ 256 * e12 + 2 ^ 256 * e13 + 2 ^ 256 * e14 + 2 ^ 320 * e15 + 2 ^ 320 * e16 + 2 ^ 320 * e17 + 2 ^ 384 * e18 + 2 ^ 384 * e19
  clear * - key
  have := z_bnd w2
  have := z_bnd w5
  have := z_bnd w8
  have := z_bnd w11
  have := z_bnd w14
  have := z_bnd w17
  have := z_bnd w19
  have := z_bnd r10
  have := z_bnd r11
  have := z_bnd r12
  have := z_bnd r13
  have := z_bnd r14
  have := z_bnd r15
  have := zb_bnd c19
  have := zb_bnd c18
  have := z_mul_le b a0
  have := z_mul_le b a1
  have := z_mul_le b a2
  have := z_mul_le b a3
  have := z_mul_le b a4
  have := z_mul_le b a5
  rw [mul_sum6] at key ⊢
  generalize z b * z a0 = p0 at *
  generalize z b * z a1 = p1 at *
  generalize z b * z a2 = p2 at *
  generalize z b * z a3 = p3 at *
  generalize z b * z a4 = p4 at *
  generalize z b * z a5 = p5 at *
  omega

/-- word 4 of `b` times `a`. -/
theorem adxRow4_spec {ax bx cx dx si di r8 r9 r10 r11 r12 r13 r14 r15 s0 s1 s2 f0 f1 f2 : UInt64} {cf of : Bool} {mem : UInt64 → UInt64}
    {a0 a1 a2 a3 a4 a5 b : UInt64}
    (hdi_0 : mem (di + 0) = a0)
    (hdi_8 : mem (di + 8) = a1)
    (hdi_16 : mem (di + 16) = a2)
    (hdi_24 : mem (di + 24) = a3)
    (hdi_32 : mem (di + 32) = a4)
    (hdi_40 : mem (di + 40) = a5)
    (hsi_32 : mem (si + 32) = b) :
    ∃ ax' bx' r8' r9' r11' r12' r13' r14' r15' : UInt64, ∃ cf' of' : Bool,
      run adxRow4 ⟨ax, bx, cx, dx, si, di, r8, r9, r10, r11, r12, r13, r14, r15, s0, s1, s2, f0, f1, f2, cf, of, mem⟩ =
      ⟨ax', bx', cx, b, si, di, r8', r9', r10, r11', r12', r13', r14', r15', s0, s1, s2, f0, f1, f2, cf', of', mem⟩ ∧
      z r11' + 2 ^ 64 * z r12' + 2 ^ 128 * z r13' + 2 ^ 192 * z r14' + 2 ^ 256 * z r15' + 2 ^ 320 * z r8' + 2 ^ 384 * z r9' =
        z r11 + 2 ^ 64 * z r12 + 2 ^ 128 * z r13 + 2 ^ 192 * z r14 + 2 ^ 256 * z r15 + 2 ^ 320 * z r8 + z b * (z a0 + 2 ^ 64 * z a1 + 2 ^ 128 * z a2 + 2 ^ 192 * z a3 + 2 ^ 256 * z a4 + 2 ^ 320 * z a5) := by
  generalize hs : run adxRow4 _ = s
  unfold adxRow4 at hs
  xstep
  rw [hsi_32] at hs
  xstep
  xstep
  rw [hdi_0] at hs
  have e1 := mul_specZ b a0
  have hg1 := mulHi_le b a0
  generalize mulLo b a0 = l1 at hs e1; generalize mulHi b a0 = g1 at hs e1 hg1
  xstep
  have e2 := addW_specZ r11 l1 false
  simp only [zb_false, add_zero, zero_add] at e2
  generalize addW r11 l1 false = w2 at hs e2; generalize addC r11 l1 false = c2 at hs e2
  xstep
  have e3 := addW_specZ r12 g1 false
  simp only [zb_false, add_zero, zero_add] at e3
  generalize addW r12 g1 false = w3 at hs e3; generalize addC r12 g1 false = c3 at hs e3
  xstep
  rw [hdi_8] at hs
  have e4 := mul_specZ b a1
  have hg4 := mulHi_le b a1
  generalize mulLo b a1 = l4 at hs e4; generalize mulHi b a1 = g4 at hs e4 hg4
  xstep
  have e5 := addW_specZ w3 l4 c2
  generalize addW w3 l4 c2 = w5 at hs e5; generalize addC w3 l4 c2 = c5 at hs e5
  xstep
  have e6 := addW_specZ r13 g4 c3
  generalize addW r13 g4 c3 = w6 at hs e6; generalize addC r13 g4 c3 = c6 at hs e6
  xstep
  rw [hdi_16] at hs
  have e7 := mul_specZ b a2
  have hg7 := mulHi_le b a2
  generalize mulLo b a2 = l7 at hs e7; generalize mulHi b a2 = g7 at hs e7 hg7
  xstep
  have e8 := addW_specZ w6 l7 c5
  generalize addW w6 l7 c5 = w8 at hs e8; generalize addC w6 l7 c5 = c8 at hs e8
  xstep
  have e9 := addW_specZ r14 g7 c6
  generalize addW r14 g7 c6 = w9 at hs e9; generalize addC r14 g7 c6 = c9 at hs e9
  xstep
  rw [hdi_24] at hs
  have e10 := mul_specZ b a3
  have hg10 := mulHi_le b a3
  generalize mulLo b a3 = l10 at hs e10; generalize mulHi b a3 = g10 at hs e10 hg10
  xstep
  have e11 := addW_specZ w9 l10 c8
  generalize addW w9 l10 c8 = w11 at hs e11; generalize addC w9 l10 c8 = c11 at hs e11
  xstep
  have e12 := addW_specZ r15 g10 c9
  generalize addW r15 g10 c9 = w12 at hs e12; generalize addC r15 g10 c9 = c12 at hs e12
  xstep
  rw [hdi_32] at hs
  have e13 := mul_specZ b a4
  have hg13 := mulHi_le b a4
  generalize mulLo b a4 = l13 at hs e13; generalize mulHi b a4 = g13 at hs e13 hg13
  xstep
  have e14 := addW_specZ w12 l13 c11
  generalize addW w12 l13 c11 = w14 at hs e14; generalize addC w12 l13 c11 = c14 at hs e14
  xstep
  have e15 := addW_specZ r8 g13 c12
  generalize addW r8 g13 c12 = w15 at hs e15; generalize addC r8 g13 c12 = c15 at hs e15
  xstep
  rw [hdi_40] at hs
  have e16 := mul_specZ b a5
  have hg16 := mulHi_le b a5
  generalize mulLo b a5 = l16 at hs e16; generalize mulHi b a5 = g16 at hs e16 hg16
  xstep
  have e17 := addW_specZ w15 l16 c14
  generalize addW w15 l16 c14 = w17 at hs e17; generalize addC w15 l16 c14 = c17 at hs e17
  xstep
  have e18 := addW_specZ (0 : UInt64) (0 : UInt64) c17
  simp only [z_zero, add_zero, zero_add] at e18
  generalize addW (0 : UInt64) (0 : UInt64) c17 = w18 at hs e18; generalize addC (0 : UInt64) (0 : UInt64) c17 = c18 at hs e18
  xstep
  have e19 := addW_specZ w18 g16 c15
  generalize addW w18 g16 c15 = w19 at hs e19; generalize addC w18 g16 c15 = c19 at hs e19
  rw [run_nil] at hs
  refine ⟨l16, g16, w17, w19, w2, w5, w8, w11, w14, c19, c18, hs.symm, ?_⟩
  have key : z w2 + 2 ^ 64 * z w5 + 2 ^ 128 * z w8 + 2 ^ 192 * z w11 + 2 ^ 256 * z w14 + 2 ^ 320 * z w17 + 2 ^ 384 * z w19 + 2 ^ 448 * zb c19 + 2 ^ 448 * zb c18 = z r11 + 2 ^ 64 * z r12 + 2 ^ 128 * z r13 + 2 ^ 192 * z r14 + 2 ^ 256 * z r15 + 2 ^ 320 * z r8 + z b * (z a0 + 2 ^ 64 * z a1 + 2 ^ 128 * z a2 + 2 ^ 192 * z a3 + 2 ^ 256 * z a4 + 2 ^ 320 * z a5) := by
    linear_combination e1 + e2 + 2 ^ 64 * e3 + 2 ^ 64 * e4 + 2 ^ 64 * e5 + 2 ^ 128 * e6 + 2 ^ 128 * e7 + 2 ^ 128 * e8 + 2 ^ 192 * e9 + 2 ^ 192 * e10 + 2 ^ 192 * e11 + 2 ^ 256 * e12 + 2 ^ 256 * e13 + 2 ^ 256 * e14 + 2 ^ 320 * e15 + 2 ^ 320 * e16 + 2 ^ 320 * e17 + 2 ^ 384 * e18 + 2 ^ 384 * e19
  clear * - key
  have := z_bnd w2
  have := z_bnd w5
  have := z_bnd w8
  have := z_bnd w11
  have := z_bnd w14
  have := z_bnd w17
  have := z_bnd w19
  have := z_bnd r11
  have := z_bnd r12
  have := z_bnd r13
  have := z_bnd r14
  have := z_bnd r15
  have := z_bnd r8
  have := zb_bnd c19
  have := zb_bnd c18
  have := z_mul_le b a0
  have := z_mul_le b a1
  have := z_mul_le b a2
  have := z_mul_le b a3
  have := z_mul_le b a4
  have := z_mul_le b a5
  rw [mul_sum6] at key ⊢
  generalize z b * z a0 = p0 at *
  generalize z b * z a1 = p1 at *
  generalize z b * z a2 = p2 at *
  generalize z b * z a3 = p3 at *
  generalize z b * z a4 = p4 at *
  generalize z b * z a5 = p5 at *
  omega

/-- word 5 of `b` times `a`. -/
theorem adxRow5_spec {ax bx cx dx si di r8 r9 r10 r11 r12 r13 r14 r15 s0 s1 s2 f0 f1 f2 : UInt64} {cf of : Bool} {mem : UInt64 → UInt64}
    {a0 a1 a2 a3 a4 a5 b : UInt64}
    (hdi_0 : mem (di + 0) = a0)
    (hdi_8 : mem (di + 8) = a1)
    (hdi_16 : mem (di + 16) = a2)
    (hdi_24 : mem (di + 24) = a3)
    (hdi_32 : mem (di + 32) = a4)
    (hdi_40 : mem (di + 40) = a5)
    (hsi_40 : mem (si + 40) = b)
    (hr : z r9 + z b ≤ 18446744073709551614) :
    ∃ ax' bx' si' r8' r9' r12' r13' r14' r15' : UInt64, ∃ cf' of' : Bool,
      run adxRow5 ⟨ax, bx, cx, dx, si, di, r8, r9, r10, r11, r12, r13, r14, r15, s0, s1, s2, f0, f1, f2, cf, of, mem⟩ =
      ⟨ax', bx', cx, b, si', di, r8', r9', r10, r11, r12', r13', r14', r15', s0, s1, s2, f0, f1, f2, cf', of', mem⟩ ∧
      z r12' + 2 ^ 64 * z r13' + 2 ^ 128 * z r14' + 2 ^ 192 * z r15' + 2 ^ 256 * z r8' + 2 ^ 320 * z r9' + 2 ^ 384 * z si' =
        z r12 + 2 ^ 64 * z r13 + 2 ^ 128 * z r14 + 2 ^ 192 * z r15 + 2 ^ 256 * z r8 + 2 ^ 320 * z r9 + z b * (z a0 + 2 ^ 64 * z a1 + 2 ^ 128 * z a2 + 2 ^ 192 * z a3 + 2 ^ 256 * z a4 + 2 ^ 320 * z a5) := by
  generalize hs : run adxRow5 _ = s
  unfold adxRow5 at hs
  xstep
  rw [hsi_40] at hs
  xstep
  xstep
  rw [hdi_0] at hs
  have e1 := mul_specZ b a0
  have hg1 := mulHi_le b a0
  generalize mulLo b a0 = l1 at hs e1; generalize mulHi b a0 = g1 at hs e1 hg1
  xstep
  have e2 := addW_specZ r12 l1 false
  simp only [zb_false, add_zero, zero_add] at e2
  generalize addW r12 l1 false = w2 at hs e2; generalize addC r12 l1 false = c2 at hs e2
  xstep
  have e3 := addW_specZ r13 g1 false
  simp only [zb_false, add_zero, zero_add] at e3
  generalize addW r13 g1 false = w3 at hs e3; generalize addC r13 g1 false = c3 at hs e3
  xstep
  rw [hdi_8] at hs
  have e4 := mul_specZ b a1
  have hg4 := mulHi_le b a1
  generalize mulLo b a1 = l4 at hs e4; generalize mulHi b a1 = g4 at hs e4 hg4
  xstep
  have e5 := addW_specZ w3 l4 c2
  generalize addW w3 l4 c2 = w5 at hs e5; generalize addC w3 l4 c2 = c5 at hs e5
  xstep
  have e6 := addW_specZ r14 g4 c3
  generalize addW r14 g4 c3 = w6 at hs e6; generalize addC r14 g4 c3 = c6 at hs e6
  xstep
  rw [hdi_16] at hs
  have e7 := mul_specZ b a2
  have hg7 := mulHi_le b a2
  generalize mulLo b a2 = l7 at hs e7; generalize mulHi b a2 = g7 at hs e7 hg7
  xstep
  have e8 := addW_specZ w6 l7 c5
  generalize addW w6 l7 c5 = w8 at hs e8; generalize addC w6 l7 c5 = c8 at hs e8
  xstep
  have e9 := addW_specZ r15 g7 c6
  generalize addW r15 g7 c6 = w9 at hs e9; generalize addC r15 g7 c6 = c9 at hs e9
  xstep
  rw [hdi_24] at hs
  have e10 := mul_specZ b a3
  have hg10 := mulHi_le b a3
  generalize mulLo b a3 = l10 at hs e10; generalize mulHi b a3 = g10 at hs e10 hg10
  xstep
  have e11 := addW_specZ w9 l10 c8
  generalize addW w9 l10 c8 = w11 at hs e11; generalize addC w9 l10 c8 = c11 at hs e11
  xstep
  have e12 := addW_specZ r8 g10 c9
  generalize addW r8 g10 c9 = w12 at hs e12; generalize addC r8 g10 c9 = c12 at hs e12
  xstep
  rw [hdi_32] at hs
  have e13 := mul_specZ b a4
  have hg13 := mulHi_le b a4
  generalize mulLo b a4 = l13 at hs e13; generalize mulHi b a4 = g13 at hs e13 hg13
  xstep
  have e14 := addW_specZ w12 l13 c11
  generalize addW w12 l13 c11 = w14 at hs e14; generalize addC w12 l13 c11 = c14 at hs e14
  xstep
  have e15 := addW_specZ r9 g13 c12
  generalize addW r9 g13 c12 = w15 at hs e15; generalize addC r9 g13 c12 = c15 at hs e15
  have d15 : zb c15 = 0 := by
    clear * - e15 hg13 e12 hg10 e9 hg7 e6 hr
    have := z_bnd r9
    have := z_bnd g13
    have := z_bnd b
    have := z_bnd a4
    have := z_bnd r8
    have := z_bnd g10
    have := z_bnd a3
    have := z_bnd r15
    have := z_bnd g7
    have := z_bnd a2
    have := z_bnd r14
    have := z_bnd g4
    have := z_bnd w6
    have := z_bnd w9
    have := z_bnd w12
    have := z_bnd w15
    have := zb_bnd c15
    have := zb_bnd c12
    have := zb_bnd c9
    have := zb_bnd c6
    have := zb_bnd c3
    omega
  xstep
  rw [hdi_40] at hs
  have e16 := mul_specZ b a5
  have hg16 := mulHi_le b a5
  generalize mulLo b a5 = l16 at hs e16; generalize mulHi b a5 = g16 at hs e16 hg16
  xstep
  have e17 := addW_specZ w15 l16 c14
  generalize addW w15 l16 c14 = w17 at hs e17; generalize addC w15 l16 c14 = c17 at hs e17
  xstep
  have e18 := addW_specZ (0 : UInt64) g16 c17
  simp only [z_zero, add_zero, zero_add] at e18
  generalize addW (0 : UInt64) g16 c17 = w18 at hs e18; generalize addC (0 : UInt64) g16 c17 = c18 at hs e18
  rw [run_nil] at hs
  refine ⟨l16, g16, w18, w14, w17, w2, w5, w8, w11, c15, c18, hs.symm, ?_⟩
  have key : z w2 + 2 ^ 64 * z w5 + 2 ^ 128 * z w8 + 2 ^ 192 * z w11 + 2 ^ 256 * z w14 + 2 ^ 320 * z w17 + 2 ^ 384 * z w18 + 2 ^ 448 * zb c18 = z r12 + 2 ^ 64 * z r13 + 2 ^ 128 * z r14 + 2 ^ 192 * z r15 + 2 ^ 256 * z r8 + 2 ^ 320 * z r9 + z b * (z a0 + 2 ^ 64 * z a1 + 2 ^ 128 * z a2 + 2 ^ 192 * z a3 + 2 ^ 256 * z a4 + 2 ^ 320 * z a5) := by
    linear_combination e1 + e2 + 2 ^ 64 * e3 + 2 ^ 64 * e4 + 2 ^ 64 * e5 + 2 ^ 128 * e6 + 2 ^ 128 * e7 + 2 ^ 128 * e8 + 2 ^ 192 * e9 + 2 ^ 192 * e10 + 2 ^ 192 * e11 + 2 ^ 256 * e12 + 2 ^ 256 * e13 + 2 ^ 256 * e14 + 2 ^ 320 * e15 + 2 ^ 320 * e16 + 2 ^ 320 * e17 + 2 ^ 384 * e18 - 2 ^ 384 * d15
  clear * - key
  have := z_bnd w2
  have := z_bnd w5
  have := z_bnd w8
  have := z_bnd w11
  have := z_bnd w14
  have := z_bnd w17
  have := z_bnd w18
  have := z_bnd r12
  have := z_bnd r13
  have := z_bnd r14
  have := z_bnd r15
  have := z_bnd r8
  have := z_bnd r9
  have := zb_bnd c18
  have := z_mul_le b a0
  have := z_mul_le b a1
  have := z_mul_le b a2
  have := z_mul_le b a3
  have := z_mul_le b a4
  have := z_mul_le b a5
  rw [mul_sum6] at key ⊢
  generalize z b * z a0 = p0 at *
  generalize z b * z a1 = p1 at *
  generalize z b * z a2 = p2 at *
  generalize z b * z a3 = p3 at *
  generalize z b * z a4 = p4 at *
  generalize z b * z a5 = p5 at *
  omega

/-- step 0 of the reduction; the carry in OF is lost. -/
theorem adxRed0_spec {ax bx cx dx si di r8 r9 r10 r11 r12 r13 r14 r15 s0 s1 s2 f0 f1 f2 : UInt64} {cf of : Bool} {mem : UInt64 → UInt64} :
    ∃ ax' bx' cx' dx' si' di' r9' r10' r11' r12' r13' : UInt64, ∃ cf' of' : Bool,
      run adxRed0 ⟨ax, bx, cx, dx, si, di, r8, r9, r10, r11, r12, r13, r14, r15, s0, s1, s2, f0, f1, f2, cf, of, mem⟩ =
      ⟨ax', bx', cx', dx', si', di', r8, r9', r10', r11', r12', r13', r14, r15, s0, s1, s2, f0, f1, f2, cf', of', mem⟩ ∧
      2 ^ 64 * z di' + 2 ^ 128 * z bx' + 2 ^ 192 * z r10' + 2 ^ 256 * z r11' + 2 ^ 320 * z r12' + 2 ^ 384 * z r13' + 2 ^ 448 * (z si' + zb of') =
        z cx + 2 ^ 64 * z di + 2 ^ 128 * z bx + 2 ^ 192 * z r10 + 2 ^ 256 * z r11 + 2 ^ 320 * z r12 + 2 ^ 384 * z r13 + z (mulLo cx Bls.inp) * 0x1a0111ea397fe69a4b1ba7b6434bacd764774b84f38512bf6730d2a0f6b0f6241eabfffeb153ffffb9feffffffffaaab ∧ z si' ≤ 1 ∧
      z r13' + 18446744073709551616 * zb of' ≤ 18446744073709551617 := by
  generalize hs : run adxRed0 _ = s
  unfold adxRed0 at hs
  xstep
  xstep
  have hq := quot_spec cx
  rw [mulLo_comm Bls.inp cx] at hs
  generalize hqd : mulLo cx Bls.inp = q at hs hq; generalize mulHi Bls.inp cx = g1 at hs
  xstep
  xstep
  have e2 := mul_specZ q Bls.modulus.l0
  have hg2 := mulHi_le q Bls.modulus.l0
  simp only [z_l0] at e2
  simp only [z_l0] at hg2
  generalize mulLo q Bls.modulus.l0 = l2 at hs e2; generalize mulHi q Bls.modulus.l0 = g2 at hs e2 hg2
  xstep
  have e3 := addW_specZ cx l2 false
  simp only [zb_false, add_zero, zero_add] at e3
  generalize addW cx l2 false = w3 at hs e3; generalize addC cx l2 false = c3 at hs e3
  have hz : z w3 = 0 := lowest_zero e2 e3 hq
  xstep
  have e4 := addW_specZ di g2 false
  simp only [zb_false, add_zero, zero_add] at e4
  generalize addW di g2 false = w4 at hs e4; generalize addC di g2 false = c4 at hs e4
  xstep
  have e5 := mul_specZ q Bls.modulus.l1
  have hg5 := mulHi_le q Bls.modulus.l1
  simp only [z_l1] at e5
  simp only [z_l1] at hg5
  generalize mulLo q Bls.modulus.l1 = l5 at hs e5; generalize mulHi q Bls.modulus.l1 = g5 at hs e5 hg5
  xstep
  have e6 := addW_specZ w4 l5 c3
  generalize addW w4 l5 c3 = w6 at hs e6; generalize addC w4 l5 c3 = c6 at hs e6
  xstep
  have e7 := addW_specZ bx g5 c4
  generalize addW bx g5 c4 = w7 at hs e7; generalize addC bx g5 c4 = c7 at hs e7
  xstep
  have e8 := mul_specZ q Bls.modulus.l2
  have hg8 := mulHi_le q Bls.modulus.l2
  simp only [z_l2] at e8
  simp only [z_l2] at hg8
  generalize mulLo q Bls.modulus.l2 = l8 at hs e8; generalize mulHi q Bls.modulus.l2 = g8 at hs e8 hg8
  xstep
  have e9 := addW_specZ w7 l8 c6
  generalize addW w7 l8 c6 = w9 at hs e9; generalize addC w7 l8 c6 = c9 at hs e9
  xstep
  have e10 := addW_specZ r10 g8 c7
  generalize addW r10 g8 c7 = w10 at hs e10; generalize addC r10 g8 c7 = c10 at hs e10
  xstep
  have e11 := mul_specZ q Bls.modulus.l3
  have hg11 := mulHi_le q Bls.modulus.l3
  simp only [z_l3] at e11
  simp only [z_l3] at hg11
  generalize mulLo q Bls.modulus.l3 = l11 at hs e11; generalize mulHi q Bls.modulus.l3 = g11 at hs e11 hg11
  xstep
  have e12 := addW_specZ w10 l11 c9
  generalize addW w10 l11 c9 = w12 at hs e12; generalize addC w10 l11 c9 = c12 at hs e12
  xstep
  have e13 := addW_specZ r11 g11 c10
  generalize addW r11 g11 c10 = w13 at hs e13; generalize addC r11 g11 c10 = c13 at hs e13
  xstep
  have e14 := mul_specZ q Bls.modulus.l4
  have hg14 := mulHi_le q Bls.modulus.l4
  simp only [z_l4] at e14
  simp only [z_l4] at hg14
  generalize mulLo q Bls.modulus.l4 = l14 at hs e14; generalize mulHi q Bls.modulus.l4 = g14 at hs e14 hg14
  xstep
  have e15 := addW_specZ w13 l14 c12
  generalize addW w13 l14 c12 = w15 at hs e15; generalize addC w13 l14 c12 = c15 at hs e15
  xstep
  have e16 := addW_specZ r12 g14 c13
  generalize addW r12 g14 c13 = w16 at hs e16; generalize addC r12 g14 c13 = c16 at hs e16
  xstep
  have e17 := mul_specZ q Bls.modulus.l5
  have hg17 := mulHi_le q Bls.modulus.l5
  simp only [z_l5] at e17
  simp only [z_l5] at hg17
  generalize mulLo q Bls.modulus.l5 = l17 at hs e17; generalize mulHi q Bls.modulus.l5 = g17 at hs e17 hg17
  xstep
  have e18 := addW_specZ w16 l17 c15
  generalize addW w16 l17 c15 = w18 at hs e18; generalize addC w16 l17 c15 = c18 at hs e18
  xstep
  have e19 := addW_specZ r13 g17 c16
  generalize addW r13 g17 c16 = w19 at hs e19; generalize addC r13 g17 c16 = c19 at hs e19
  xstep
  have e20 := addW_specZ w19 (0 : UInt64) c18
  simp only [z_zero, add_zero, zero_add] at e20
  generalize addW w19 (0 : UInt64) c18 = w20 at hs e20; generalize addC w19 (0 : UInt64) c18 = c20 at hs e20
  xstep
  have e21 := addW_specZ (0 : UInt64) (0 : UInt64) c19
  simp only [z_zero, add_zero, zero_add] at e21
  generalize addW (0 : UInt64) (0 : UInt64) c19 = w21 at hs e21; generalize addC (0 : UInt64) (0 : UInt64) c19 = c21 at hs e21
  have d21 : zb c21 = 0 := by
    clear * - e21 e19 hg17 e16 hg14 e13
    have := z_bnd r13
    have := z_bnd g17
    have := z_bnd q
    have := z_bnd r12
    have := z_bnd g14
    have := z_bnd r11
    have := z_bnd g11
    have := z_bnd w13
    have := z_bnd w16
    have := z_bnd w19
    have := z_bnd w21
    have := zb_bnd c21
    have := zb_bnd c19
    have := zb_bnd c16
    have := zb_bnd c13
    have := zb_bnd c10
    omega
  rw [run_nil] at hs
  refine ⟨l17, w9, w3, q, w21, w6, g17, w12, w15, w18, w20, c21, c20, hs.symm, ?_⟩
  have key : 2 ^ 64 * z w6 + 2 ^ 128 * z w9 + 2 ^ 192 * z w12 + 2 ^ 256 * z w15 + 2 ^ 320 * z w18 + 2 ^ 384 * z w20 + 2 ^ 448 * (z w21 + zb c20) = z cx + 2 ^ 64 * z di + 2 ^ 128 * z bx + 2 ^ 192 * z r10 + 2 ^ 256 * z r11 + 2 ^ 320 * z r12 + 2 ^ 384 * z r13 + z q * 0x1a0111ea397fe69a4b1ba7b6434bacd764774b84f38512bf6730d2a0f6b0f6241eabfffeb153ffffb9feffffffffaaab := by
    linear_combination e2 + e3 + 2 ^ 64 * e4 + 2 ^ 64 * e5 + 2 ^ 64 * e6 + 2 ^ 128 * e7 + 2 ^ 128 * e8 + 2 ^ 128 * e9 + 2 ^ 192 * e10 + 2 ^ 192 * e11 + 2 ^ 192 * e12 + 2 ^ 256 * e13 + 2 ^ 256 * e14 + 2 ^ 256 * e15 + 2 ^ 320 * e16 + 2 ^ 320 * e17 + 2 ^ 320 * e18 + 2 ^ 384 * e19 + 2 ^ 384 * e20 + 2 ^ 448 * e21 - 2 ^ 512 * d21 - hz
  have hk' : z w21 ≤ 1 := by
    clear * - e21
    have := zb_bnd c19
    have := zb_bnd c21
    omega
  have ho : z w20 + 18446744073709551616 * zb c20 ≤ 18446744073709551617 := by
    clear * - e20 
    have := z_bnd w19
    have := zb_bnd c18
    have := zb_bnd c20
    omega
  exact ⟨key, hk', ho⟩

/-- step 1 of the reduction; the carry in OF is lost. -/
theorem adxRed1_spec {ax bx cx dx si di r8 r9 r10 r11 r12 r13 r14 r15 s0 s1 s2 f0 f1 f2 : UInt64} {cf of : Bool} {mem : UInt64 → UInt64}
    (hk : z si ≤ 1) :
    ∃ ax' bx' cx' dx' di' r9' r10' r11' r12' r13' r14' : UInt64, ∃ cf' of' : Bool,
      run adxRed1 ⟨ax, bx, cx, dx, si, di, r8, r9, r10, r11, r12, r13, r14, r15, s0, s1, s2, f0, f1, f2, cf, of, mem⟩ =
      ⟨ax', bx', cx', dx', si, di', r8, r9', r10', r11', r12', r13', r14', r15, s0, s1, s2, f0, f1, f2, cf', of', mem⟩ ∧
      2 ^ 64 * z bx' + 2 ^ 128 * z r10' + 2 ^ 192 * z r11' + 2 ^ 256 * z r12' + 2 ^ 320 * z r13' + 2 ^ 384 * z r14' + 2 ^ 448 * (z cx' + zb of') =
        z di + 2 ^ 64 * z bx + 2 ^ 128 * z r10 + 2 ^ 192 * z r11 + 2 ^ 256 * z r12 + 2 ^ 320 * z r13 + 2 ^ 384 * z r14 + 2 ^ 384 * z si + z (mulLo di Bls.inp) * 0x1a0111ea397fe69a4b1ba7b6434bacd764774b84f38512bf6730d2a0f6b0f6241eabfffeb153ffffb9feffffffffaaab ∧ z cx' ≤ 1 ∧
      z r14' + 18446744073709551616 * zb of' ≤ 18446744073709551617 := by
  generalize hs : run adxRed1 _ = s
  unfold adxRed1 at hs
  xstep
  xstep
  xstep
  have hq := quot_spec di
  generalize hqd : mulLo di Bls.inp = q at hs hq; generalize mulHi di Bls.inp = g1 at hs
  xstep
  have e2 := mul_specZ q Bls.modulus.l0
  have hg2 := mulHi_le q Bls.modulus.l0
  simp only [z_l0] at e2
  simp only [z_l0] at hg2
  generalize mulLo q Bls.modulus.l0 = l2 at hs e2; generalize mulHi q Bls.modulus.l0 = g2 at hs e2 hg2
  xstep
  have e3 := addW_specZ di l2 false
  simp only [zb_false, add_zero, zero_add] at e3
  generalize addW di l2 false = w3 at hs e3; generalize addC di l2 false = c3 at hs e3
  have hz : z w3 = 0 := lowest_zero e2 e3 hq
  xstep
  have e4 := addW_specZ bx g2 false
  simp only [zb_false, add_zero, zero_add] at e4
  generalize addW bx g2 false = w4 at hs e4; generalize addC bx g2 false = c4 at hs e4
  xstep
  have e5 := mul_specZ q Bls.modulus.l1
  have hg5 := mulHi_le q Bls.modulus.l1
  simp only [z_l1] at e5
  simp only [z_l1] at hg5
  generalize mulLo q Bls.modulus.l1 = l5 at hs e5; generalize mulHi q Bls.modulus.l1 = g5 at hs e5 hg5
  xstep
  have e6 := addW_specZ w4 l5 c3
  generalize addW w4 l5 c3 = w6 at hs e6; generalize addC w4 l5 c3 = c6 at hs e6
  xstep
  have e7 := addW_specZ r10 g5 c4
  generalize addW r10 g5 c4 = w7 at hs e7; generalize addC r10 g5 c4 = c7 at hs e7
  xstep
  have e8 := mul_specZ q Bls.modulus.l2
  have hg8 := mulHi_le q Bls.modulus.l2
  simp only [z_l2] at e8
  simp only [z_l2] at hg8
  generalize mulLo q Bls.modulus.l2 = l8 at hs e8; generalize mulHi q Bls.modulus.l2 = g8 at hs e8 hg8
  xstep
  have e9 := addW_specZ w7 l8 c6
  generalize addW w7 l8 c6 = w9 at hs e9; generalize addC w7 l8 c6 = c9 at hs e9
  xstep
  have e10 := addW_specZ r11 g8 c7
  generalize addW r11 g8 c7 = w10 at hs e10; generalize addC r11 g8 c7 = c10 at hs e10
  xstep
  have e11 := mul_specZ q Bls.modulus.l3
  have hg11 := mulHi_le q Bls.modulus.l3
  simp only [z_l3] at e11
  simp only [z_l3] at hg11
  generalize mulLo q Bls.modulus.l3 = l11 at hs e11; generalize mulHi q Bls.modulus.l3 = g11 at hs e11 hg11
  xstep
  have e12 := addW_specZ w10 l11 c9
  generalize addW w10 l11 c9 = w12 at hs e12; generalize addC w10 l11 c9 = c12 at hs e12
  xstep
  have e13 := addW_specZ r12 g11 c10
  generalize addW r12 g11 c10 = w13 at hs e13; generalize addC r12 g11 c10 = c13 at hs e13
  xstep
  have e14 := mul_specZ q Bls.modulus.l4
  have hg14 := mulHi_le q Bls.modulus.l4
  simp only [z_l4] at e14
  simp only [z_l4] at hg14
  generalize mulLo q Bls.modulus.l4 = l14 at hs e14; generalize mulHi q Bls.modulus.l4 = g14 at hs e14 hg14
  xstep
  have e15 := addW_specZ w13 l14 c12
  generalize addW w13 l14 c12 = w15 at hs e15; generalize addC w13 l14 c12 = c15 at hs e15
  xstep
  have e16 := addW_specZ r13 g14 c13
  generalize addW r13 g14 c13 = w16 at hs e16; generalize addC r13 g14 c13 = c16 at hs e16
  xstep
  have e17 := mul_specZ q Bls.modulus.l5
  have hg17 := mulHi_le q Bls.modulus.l5
  simp only [z_l5] at e17
  simp only [z_l5] at hg17
  generalize mulLo q Bls.modulus.l5 = l17 at hs e17; generalize mulHi q Bls.modulus.l5 = g17 at hs e17 hg17
  xstep
  have e18 := addW_specZ w16 l17 c15
  generalize addW w16 l17 c15 = w18 at hs e18; generalize addC w16 l17 c15 = c18 at hs e18
  xstep
  have e19 := addW_specZ r14 g17 c16
  generalize addW r14 g17 c16 = w19 at hs e19; generalize addC r14 g17 c16 = c19 at hs e19
  xstep
  have e20 := addW_specZ w19 si c18
  generalize addW w19 si c18 = w20 at hs e20; generalize addC w19 si c18 = c20 at hs e20
  xstep
  have e21 := addW_specZ (0 : UInt64) (0 : UInt64) c19
  simp only [z_zero, add_zero, zero_add] at e21
  generalize addW (0 : UInt64) (0 : UInt64) c19 = w21 at hs e21; generalize addC (0 : UInt64) (0 : UInt64) c19 = c21 at hs e21
  have d21 : zb c21 = 0 := by
    clear * - e21 e19 hg17 e16 hg14 e13 hk
    have := z_bnd r14
    have := z_bnd g17
    have := z_bnd q
    have := z_bnd r13
    have := z_bnd g14
    have := z_bnd r12
    have := z_bnd g11
    have := z_bnd w13
    have := z_bnd w16
    have := z_bnd w19
    have := z_bnd w21
    have := zb_bnd c21
    have := zb_bnd c19
    have := zb_bnd c16
    have := zb_bnd c13
    have := zb_bnd c10
    omega
  rw [run_nil] at hs
  refine ⟨l17, w6, w21, q, w3, g17, w9, w12, w15, w18, w20, c21, c20, hs.symm, ?_⟩
  have key : 2 ^ 64 * z w6 + 2 ^ 128 * z w9 + 2 ^ 192 * z w12 + 2 ^ 256 * z w15 + 2 ^ 320 * z w18 + 2 ^ 384 * z w20 + 2 ^ 448 * (z w21 + zb c20) = z di + 2 ^ 64 * z bx + 2 ^ 128 * z r10 + 2 ^ 192 * z r11 + 2 ^ 256 * z r12 + 2 ^ 320 * z r13 + 2 ^ 384 * z r14 + 2 ^ 384 * z si + z q * 0x1a0111ea397fe69a4b1ba7b6434bacd764774b84f38512bf6730d2a0f6b0f6241eabfffeb153ffffb9feffffffffaaab := by
    linear_combination e2 + e3 + 2 ^ 64 * e4 + 2 ^ 64 * e5 + 2 ^ 64 * e6 + 2 ^ 128 * e7 + 2 ^ 128 * e8 + 2 ^ 128 * e9 + 2 ^ 192 * e10 + 2 ^ 192 * e11 + 2 ^ 192 * e12 + 2 ^ 256 * e13 + 2 ^ 256 * e14 + 2 ^ 256 * e15 + 2 ^ 320 * e16 + 2 ^ 320 * e17 + 2 ^ 320 * e18 + 2 ^ 384 * e19 + 2 ^ 384 * e20 + 2 ^ 448 * e21 - 2 ^ 512 * d21 - hz
  have hk' : z w21 ≤ 1 := by
    clear * - e21
    have := zb_bnd c19
    have := zb_bnd c21
    omega
  have ho : z w20 + 18446744073709551616 * zb c20 ≤ 18446744073709551617 := by
    clear * - e20 hk
    have := z_bnd w19
    have := z_bnd si
    have := zb_bnd c18
    have := zb_bnd c20
    omega
  exact ⟨key, hk', ho⟩

/-- step 2 of the reduction; the carry in OF is lost. -/
theorem adxRed2_spec {ax bx cx dx si di r8 r9 r10 r11 r12 r13 r14 r15 s0 s1 s2 f0 f1 f2 : UInt64} {cf of : Bool} {mem : UInt64 → UInt64}
    (hk : z cx ≤ 1) :
    ∃ ax' bx' dx' di' r9' r10' r11' r12' r13' r14' r15' : UInt64, ∃ cf' of' : Bool,
      run adxRed2 ⟨ax, bx, cx, dx, si, di, r8, r9, r10, r11, r12, r13, r14, r15, s0, s1, s2, f0, f1, f2, cf, of, mem⟩ =
      ⟨ax', bx', cx, dx', si, di', r8, r9', r10', r11', r12', r13', r14', r15', s0, s1, s2, f0, f1, f2, cf', of', mem⟩ ∧
      2 ^ 64 * z r10' + 2 ^ 128 * z r11' + 2 ^ 192 * z r12' + 2 ^ 256 * z r13' + 2 ^ 320 * z r14' + 2 ^ 384 * z r15' + 2 ^ 448 * (z di' + zb of') =
        z bx + 2 ^ 64 * z r10 + 2 ^ 128 * z r11 + 2 ^ 192 * z r12 + 2 ^ 256 * z r13 + 2 ^ 320 * z r14 + 2 ^ 384 * z r15 + 2 ^ 384 * z cx + z (mulLo bx Bls.inp) * 0x1a0111ea397fe69a4b1ba7b6434bacd764774b84f38512bf6730d2a0f6b0f6241eabfffeb153ffffb9feffffffffaaab ∧ z di' ≤ 1 ∧
      z r15' + 18446744073709551616 * zb of' ≤ 18446744073709551617 := by
  generalize hs : run adxRed2 _ = s
  unfold adxRed2 at hs
  xstep
  xstep
  xstep
  have hq := quot_spec bx
  generalize hqd : mulLo bx Bls.inp = q at hs hq; generalize mulHi bx Bls.inp = g1 at hs
  xstep
  have e2 := mul_specZ q Bls.modulus.l0
  have hg2 := mulHi_le q Bls.modulus.l0
  simp only [z_l0] at e2
  simp only [z_l0] at hg2
  generalize mulLo q Bls.modulus.l0 = l2 at hs e2; generalize mulHi q Bls.modulus.l0 = g2 at hs e2 hg2
  xstep
  have e3 := addW_specZ bx l2 false
  simp only [zb_false, add_zero, zero_add] at e3
  generalize addW bx l2 false = w3 at hs e3; generalize addC bx l2 false = c3 at hs e3
  have hz : z w3 = 0 := lowest_zero e2 e3 hq
  xstep
  have e4 := addW_specZ r10 g2 false
  simp only [zb_false, add_zero, zero_add] at e4
  generalize addW r10 g2 false = w4 at hs e4; generalize addC r10 g2 false = c4 at hs e4
  xstep
  have e5 := mul_specZ q Bls.modulus.l1
  have hg5 := mulHi_le q Bls.modulus.l1
  simp only [z_l1] at e5
  simp only [z_l1] at hg5
  generalize mulLo q Bls.modulus.l1 = l5 at hs e5; generalize mulHi q Bls.modulus.l1 = g5 at hs e5 hg5
  xstep
  have e6 := addW_specZ w4 l5 c3
  generalize addW w4 l5 c3 = w6 at hs e6; generalize addC w4 l5 c3 = c6 at hs e6
  xstep
  have e7 := addW_specZ r11 g5 c4
  generalize addW r11 g5 c4 = w7 at hs e7; generalize addC r11 g5 c4 = c7 at hs e7
  xstep
  have e8 := mul_specZ q Bls.modulus.l2
  have hg8 := mulHi_le q Bls.modulus.l2
  simp only [z_l2] at e8
  simp only [z_l2] at hg8
  generalize mulLo q Bls.modulus.l2 = l8 at hs e8; generalize mulHi q Bls.modulus.l2 = g8 at hs e8 hg8
  xstep
  have e9 := addW_specZ w7 l8 c6
  generalize addW w7 l8 c6 = w9 at hs e9; generalize addC w7 l8 c6 = c9 at hs e9
  xstep
  have e10 := addW_specZ r12 g8 c7
  generalize addW r12 g8 c7 = w10 at hs e10; generalize addC r12 g8 c7 = c10 at hs e10
  xstep
  have e11 := mul_specZ q Bls.modulus.l3
  have hg11 := mulHi_le q Bls.modulus.l3
  simp only [z_l3] at e11
  simp only [z_l3] at hg11
  generalize mulLo q Bls.modulus.l3 = l11 at hs e11; generalize mulHi q Bls.modulus.l3 = g11 at hs e11 hg11
  xstep
  have e12 := addW_specZ w10 l11 c9
  generalize addW w10 l11 c9 = w12 at hs e12; generalize addC w10 l11 c9 = c12 at hs e12
  xstep
  have e13 := addW_specZ r13 g11 c10
  generalize addW r13 g11 c10 = w13 at hs e13; generalize addC r13 g11 c10 = c13 at hs e13
  xstep
  have e14 := mul_specZ q Bls.modulus.l4
  have hg14 := mulHi_le q Bls.modulus.l4
  simp only [z_l4] at e14
  simp only [z_l4] at hg14
  generalize mulLo q Bls.modulus.l4 = l14 at hs e14; generalize mulHi q Bls.modulus.l4 = g14 at hs e14 hg14
  xstep
  have e15 := addW_specZ w13 l14 c12
  generalize addW w13 l14 c12 = w15 at hs e15; generalize addC w13 l14 c12 = c15 at hs e15
  xstep
  have e16 := addW_specZ r14 g14 c13
  generalize addW r14 g14 c13 = w16 at hs e16; generalize addC r14 g14 c13 = c16 at hs e16
  xstep
  have e17 := mul_specZ q Bls.modulus.l5
  have hg17 := mulHi_le q Bls.modulus.l5
  simp only [z_l5] at e17
  simp only [z_l5] at hg17
  generalize mulLo q Bls.modulus.l5 = l17 at hs e17; generalize mulHi q Bls.modulus.l5 = g17 at hs e17 hg17
  xstep
  have e18 := addW_specZ w16 l17 c15
  generalize addW w16 l17 c15 = w18 at hs e18; generalize addC w16 l17 c15 = c18 at hs e18
  xstep
  have e19 := addW_specZ r15 g17 c16
  generalize addW r15 g17 c16 = w19 at hs e19; generalize addC r15 g17 c16 = c19 at hs e19
  xstep
  have e20 := addW_specZ w19 cx c18
  generalize addW w19 cx c18 = w20 at hs e20; generalize addC w19 cx c18 = c20 at hs e20
  xstep
  have e21 := addW_specZ (0 : UInt64) (0 : UInt64) c19
  simp only [z_zero, add_zero, zero_add] at e21
  generalize addW (0 : UInt64) (0 : UInt64) c19 = w21 at hs e21; generalize addC (0 : UInt64) (0 : UInt64) c19 = c21 at hs e21
  have d21 : zb c21 = 0 := by
    clear * - e21 e19 hg17 e16 hg14 e13 hk
    have := z_bnd r15
    have := z_bnd g17
    have := z_bnd q
    have := z_bnd r14
    have := z_bnd g14
    have := z_bnd r13
    have := z_bnd g11
    have := z_bnd w13
    have := z_bnd w16
    have := z_bnd w19
    have := z_bnd w21
    have := zb_bnd c21
    have := zb_bnd c19
    have := zb_bnd c16
    have := zb_bnd c13
    have := zb_bnd c10
    omega
  rw [run_nil] at hs
  refine ⟨l17, w3, q, w21, g17, w6, w9, w12, w15, w18, w20, c21, c20, hs.symm, ?_⟩
  have key : 2 ^ 64 * z w6 + 2 ^ 128 * z w9 + 2 ^ 192 * z w12 + 2 ^ 256 * z w15 + 2 ^ 320 * z w18 + 2 ^ 384 * z w20 + 2 ^ 448 * (z w21 + zb c20) = z bx + 2 ^ 64 * z r10 + 2 ^ 128 * z r11 + 2 ^ 192 * z r12 + 2 ^ 256 * z r13 + 2 ^ 320 * z r14 + 2 ^ 384 * z r15 + 2 ^ 384 * z cx + z q * 0x1a0111ea397fe69a4b1ba7b6434bacd764774b84f38512bf6730d2a0f6b0f6241eabfffeb153ffffb9feffffffffaaab := by
    linear_combination e2 + e3 + 2 ^ 64 * e4 + 2 ^ 64 * e5 + 2 ^ 64 * e6 + 2 ^ 128 * e7 + 2 ^ 128 * e8 + 2 ^ 128 * e9 + 2 ^ 192 * e10 + 2 ^ 192 * e11 + 2 ^ 192 * e12 + 2 ^ 256 * e13 + 2 ^ 256 * e14 + 2 ^ 256 * e15 + 2 ^ 320 * e16 + 2 ^ 320 * e17 + 2 ^ 320 * e18 + 2 ^ 384 * e19 + 2 ^ 384 * e20 + 2 ^ 448 * e21 - 2 ^ 512 * d21 - hz
  have hk' : z w21 ≤ 1 := by
    clear * - e21
    have := zb_bnd c19
    have := zb_bnd c21
    omega
  have ho : z w20 + 18446744073709551616 * zb c20 ≤ 18446744073709551617 := by
    clear * - e20 hk
    have := z_bnd w19
    have := z_bnd cx
    have := zb_bnd c18
    have := zb_bnd c20
    omega
  exact ⟨key, hk', ho⟩

/-- step 3 of the reduction; the carry in OF is lost. -/
theorem adxRed3_spec {ax bx cx dx si di r8 r9 r10 r11 r12 r13 r14 r15 s0 s1 s2 f0 f1 f2 : UInt64} {cf of : Bool} {mem : UInt64 → UInt64}
    (hk : z di ≤ 1) :
    ∃ ax' bx' cx' dx' r8' r10' r11' r12' r13' r14' r15' : UInt64, ∃ cf' of' : Bool,
      run adxRed3 ⟨ax, bx, cx, dx, si, di, r8, r9, r10, r11, r12, r13, r14, r15, s0, s1, s2, f0, f1, f2, cf, of, mem⟩ =
      ⟨ax', bx', cx', dx', si, di, r8', r9, r10', r11', r12', r13', r14', r15', s0, s1, s2, f0, f1, f2, cf', of', mem⟩ ∧
      2 ^ 64 * z r11' + 2 ^ 128 * z r12' + 2 ^ 192 * z r13' + 2 ^ 256 * z r14' + 2 ^ 320 * z r15' + 2 ^ 384 * z r8' + 2 ^ 448 * (z cx' + zb of') =
        z r10 + 2 ^ 64 * z r11 + 2 ^ 128 * z r12 + 2 ^ 192 * z r13 + 2 ^ 256 * z r14 + 2 ^ 320 * z r15 + 2 ^ 384 * z r8 + 2 ^ 384 * z di + z (mulLo r10 Bls.inp) * 0x1a0111ea397fe69a4b1ba7b6434bacd764774b84f38512bf6730d2a0f6b0f6241eabfffeb153ffffb9feffffffffaaab ∧ z cx' ≤ 1 ∧
      z r8' + 18446744073709551616 * zb of' ≤ 18446744073709551617 := by
  generalize hs : run adxRed3 _ = s
  unfold adxRed3 at hs
  xstep
  xstep
  xstep
  have hq := quot_spec r10
  generalize hqd : mulLo r10 Bls.inp = q at hs hq; generalize mulHi r10 Bls.inp = g1 at hs
  xstep
  have e2 := mul_specZ q Bls.modulus.l0
  have hg2 := mulHi_le q Bls.modulus.l0
  simp only [z_l0] at e2
  simp only [z_l0] at hg2
  generalize mulLo q Bls.modulus.l0 = l2 at hs e2; generalize mulHi q Bls.modulus.l0 = g2 at hs e2 hg2
  xstep
  have e3 := addW_specZ r10 l2 false
  simp only [zb_false, add_zero, zero_add] at e3
  generalize addW r10 l2 false = w3 at hs e3; generalize addC r10 l2 false = c3 at hs e3
  have hz : z w3 = 0 := lowest_zero e2 e3 hq
  xstep
  have e4 := addW_specZ r11 g2 false
  simp only [zb_false, add_zero, zero_add] at e4
  generalize addW r11 g2 false = w4 at hs e4; generalize addC r11 g2 false = c4 at hs e4
  xstep
  have e5 := mul_specZ q Bls.modulus.l1
  have hg5 := mulHi_le q Bls.modulus.l1
  simp only [z_l1] at e5
  simp only [z_l1] at hg5
  generalize mulLo q Bls.modulus.l1 = l5 at hs e5; generalize mulHi q Bls.modulus.l1 = g5 at hs e5 hg5
  xstep
  have e6 := addW_specZ w4 l5 c3
  generalize addW w4 l5 c3 = w6 at hs e6; generalize addC w4 l5 c3 = c6 at hs e6
  xstep
  have e7 := addW_specZ r12 g5 c4
  generalize addW r12 g5 c4 = w7 at hs e7; generalize addC r12 g5 c4 = c7 at hs e7
  xstep
  have e8 := mul_specZ q Bls.modulus.l2
  have hg8 := mulHi_le q Bls.modulus.l2
  simp only [z_l2] at e8
  simp only [z_l2] at hg8
  generalize mulLo q Bls.modulus.l2 = l8 at hs e8; generalize mulHi q Bls.modulus.l2 = g8 at hs e8 hg8
  xstep
  have e9 := addW_specZ w7 l8 c6
  generalize addW w7 l8 c6 = w9 at hs e9; generalize addC w7 l8 c6 = c9 at hs e9
  xstep
  have e10 := addW_specZ r13 g8 c7
  generalize addW r13 g8 c7 = w10 at hs e10; generalize addC r13 g8 c7 = c10 at hs e10
  xstep
  have e11 := mul_specZ q Bls.modulus.l3
  have hg11 := mulHi_le q Bls.modulus.l3
  simp only [z_l3] at e11
  simp only [z_l3] at hg11
  generalize mulLo q Bls.modulus.l3 = l11 at hs e11; generalize mulHi q Bls.modulus.l3 = g11 at hs e11 hg11
  xstep
  have e12 := addW_specZ w10 l11 c9
  generalize addW w10 l11 c9 = w12 at hs e12; generalize addC w10 l11 c9 = c12 at hs e12
  xstep
  have e13 := addW_specZ r14 g11 c10
  generalize addW r14 g11 c10 = w13 at hs e13; generalize addC r14 g11 c10 = c13 at hs e13
  xstep
  have e14 := mul_specZ q Bls.modulus.l4
  have hg14 := mulHi_le q Bls.modulus.l4
  simp only [z_l4] at e14
  simp only [z_l4] at hg14
  generalize mulLo q Bls.modulus.l4 = l14 at hs e14; generalize mulHi q Bls.modulus.l4 = g14 at hs e14 hg14
  xstep
  have e15 := addW_specZ w13 l14 c12
  generalize addW w13 l14 c12 = w15 at hs e15; generalize addC w13 l14 c12 = c15 at hs e15
  xstep
  have e16 := addW_specZ r15 g14 c13
  generalize addW r15 g14 c13 = w16 at hs e16; generalize addC r15 g14 c13 = c16 at hs e16
  xstep
  have e17 := mul_specZ q Bls.modulus.l5
  have hg17 := mulHi_le q Bls.modulus.l5
  simp only [z_l5] at e17
  simp only [z_l5] at hg17
  generalize mulLo q Bls.modulus.l5 = l17 at hs e17; generalize mulHi q Bls.modulus.l5 = g17 at hs e17 hg17
  xstep
  have e18 := addW_specZ w16 l17 c15
  generalize addW w16 l17 c15 = w18 at hs e18; generalize addC w16 l17 c15 = c18 at hs e18
  xstep
  have e19 := addW_specZ r8 g17 c16
  generalize addW r8 g17 c16 = w19 at hs e19; generalize addC r8 g17 c16 = c19 at hs e19
  xstep
  have e20 := addW_specZ w19 di c18
  generalize addW w19 di c18 = w20 at hs e20; generalize addC w19 di c18 = c20 at hs e20
  xstep
  have e21 := addW_specZ (0 : UInt64) (0 : UInt64) c19
  simp only [z_zero, add_zero, zero_add] at e21
  generalize addW (0 : UInt64) (0 : UInt64) c19 = w21 at hs e21; generalize addC (0 : UInt64) (0 : UInt64) c19 = c21 at hs e21
  have d21 : zb c21 = 0 := by
    clear * - e21 e19 hg17 e16 hg14 e13 hk
    have := z_bnd r8
    have := z_bnd g17
    have := z_bnd q
    have := z_bnd r15
    have := z_bnd g14
    have := z_bnd r14
    have := z_bnd g11
    have := z_bnd w13
    have := z_bnd w16
    have := z_bnd w19
    have := z_bnd w21
    have := zb_bnd c21
    have := zb_bnd c19
    have := zb_bnd c16
    have := zb_bnd c13
    have := zb_bnd c10
    omega
  rw [run_nil] at hs
  refine ⟨l17, g17, w21, q, w20, w3, w6, w9, w12, w15, w18, c21, c20, hs.symm, ?_⟩
  have key : 2 ^ 64 * z w6 + 2 ^ 128 * z w9 + 2 ^ 192 * z w12 + 2 ^ 256 * z w15 + 2 ^ 320 * z w18 + 2 ^ 384 * z w20 + 2 ^ 448 * (z w21 + zb c20) = z r10 + 2 ^ 64 * z r11 + 2 ^ 128 * z r12 + 2 ^ 192 * z r13 + 2 ^ 256 * z r14 + 2 ^ 320 * z r15 + 2 ^ 384 * z r8 + 2 ^ 384 * z di + z q * 0x1a0111ea397fe69a4b1ba7b6434bacd764774b84f38512bf6730d2a0f6b0f6241eabfffeb153ffffb9feffffffffaaab := by
    linear_combination e2 + e3 + 2 ^ 64 * e4 + 2 ^ 64 * e5 + 2 ^ 64 * e6 + 2 ^ 128 * e7 + 2 ^ 128 * e8 + 2 ^ 128 * e9 + 2 ^ 192 * e10 + 2 ^ 192 * e11 + 2 ^ 192 * e12 + 2 ^ 256 * e13 + 2 ^ 256 * e14 + 2 ^ 256 * e15 + 2 ^ 320 * e16 + 2 ^ 320 * e17 + 2 ^ 320 * e18 + 2 ^ 384 * e19 + 2 ^ 384 * e20 + 2 ^ 448 * e21 - 2 ^ 512 * d21 - hz
  have hk' : z w21 ≤ 1 := by
    clear * - e21
    have := zb_bnd c19
    have := zb_bnd c21
    omega
  have ho : z w20 + 18446744073709551616 * zb c20 ≤ 18446744073709551617 := by
    clear * - e20 hk
    have := z_bnd w19
    have := z_bnd di
    have := zb_bnd c18
    have := zb_bnd c20
    omega
  exact ⟨key, hk', ho⟩

/-- step 4 of the reduction; the carry in OF is lost. -/
theorem adxRed4_spec {ax bx cx dx si di r8 r9 r10 r11 r12 r13 r14 r15 s0 s1 s2 f0 f1 f2 : UInt64} {cf of : Bool} {mem : UInt64 → UInt64}
    (hk : z cx ≤ 1) :
    ∃ ax' bx' dx' di' r8' r9' r11' r12' r13' r14' r15' : UInt64, ∃ cf' of' : Bool,
      run adxRed4 ⟨ax, bx, cx, dx, si, di, r8, r9, r10, r11, r12, r13, r14, r15, s0, s1, s2, f0, f1, f2, cf, of, mem⟩ =
      ⟨ax', bx', cx, dx', si, di', r8', r9', r10, r11', r12', r13', r14', r15', s0, s1, s2, f0, f1, f2, cf', of', mem⟩ ∧
      2 ^ 64 * z r12' + 2 ^ 128 * z r13' + 2 ^ 192 * z r14' + 2 ^ 256 * z r15' + 2 ^ 320 * z r8' + 2 ^ 384 * z r9' + 2 ^ 448 * (z di' + zb of') =
        z r11 + 2 ^ 64 * z r12 + 2 ^ 128 * z r13 + 2 ^ 192 * z r14 + 2 ^ 256 * z r15 + 2 ^ 320 * z r8 + 2 ^ 384 * z s0 + 2 ^ 384 * z cx + z (mulLo r11 Bls.inp) * 0x1a0111ea397fe69a4b1ba7b6434bacd764774b84f38512bf6730d2a0f6b0f6241eabfffeb153ffffb9feffffffffaaab ∧ z di' ≤ 1 ∧
      z r9' + 18446744073709551616 * zb of' ≤ 18446744073709551617 := by
  generalize hs : run adxRed4 _ = s
  unfold adxRed4 at hs
  xstep
  xstep
  xstep
  xstep
  have hq := quot_spec r11
  generalize hqd : mulLo r11 Bls.inp = q at hs hq; generalize mulHi r11 Bls.inp = g1 at hs
  xstep
  have e2 := mul_specZ q Bls.modulus.l0
  have hg2 := mulHi_le q Bls.modulus.l0
  simp only [z_l0] at e2
  simp only [z_l0] at hg2
  generalize mulLo q Bls.modulus.l0 = l2 at hs e2; generalize mulHi q Bls.modulus.l0 = g2 at hs e2 hg2
  xstep
  have e3 := addW_specZ r11 l2 false
  simp only [zb_false, add_zero, zero_add] at e3
  generalize addW r11 l2 false = w3 at hs e3; generalize addC r11 l2 false = c3 at hs e3
  have hz : z w3 = 0 := lowest_zero e2 e3 hq
  xstep
  have e4 := addW_specZ r12 g2 false
  simp only [zb_false, add_zero, zero_add] at e4
  generalize addW r12 g2 false = w4 at hs e4; generalize addC r12 g2 false = c4 at hs e4
  xstep
  have e5 := mul_specZ q Bls.modulus.l1
  have hg5 := mulHi_le q Bls.modulus.l1
  simp only [z_l1] at e5
  simp only [z_l1] at hg5
  generalize mulLo q Bls.modulus.l1 = l5 at hs e5; generalize mulHi q Bls.modulus.l1 = g5 at hs e5 hg5
  xstep
  have e6 := addW_specZ w4 l5 c3
  generalize addW w4 l5 c3 = w6 at hs e6; generalize addC w4 l5 c3 = c6 at hs e6
  xstep
  have e7 := addW_specZ r13 g5 c4
  generalize addW r13 g5 c4 = w7 at hs e7; generalize addC r13 g5 c4 = c7 at hs e7
  xstep
  have e8 := mul_specZ q Bls.modulus.l2
  have hg8 := mulHi_le q Bls.modulus.l2
  simp only [z_l2] at e8
  simp only [z_l2] at hg8
  generalize mulLo q Bls.modulus.l2 = l8 at hs e8; generalize mulHi q Bls.modulus.l2 = g8 at hs e8 hg8
  xstep
  have e9 := addW_specZ w7 l8 c6
  generalize addW w7 l8 c6 = w9 at hs e9; generalize addC w7 l8 c6 = c9 at hs e9
  xstep
  have e10 := addW_specZ r14 g8 c7
  generalize addW r14 g8 c7 = w10 at hs e10; generalize addC r14 g8 c7 = c10 at hs e10
  xstep
  have e11 := mul_specZ q Bls.modulus.l3
  have hg11 := mulHi_le q Bls.modulus.l3
  simp only [z_l3] at e11
  simp only [z_l3] at hg11
  generalize mulLo q Bls.modulus.l3 = l11 at hs e11; generalize mulHi q Bls.modulus.l3 = g11 at hs e11 hg11
  xstep
  have e12 := addW_specZ w10 l11 c9
  generalize addW w10 l11 c9 = w12 at hs e12; generalize addC w10 l11 c9 = c12 at hs e12
  xstep
  have e13 := addW_specZ r15 g11 c10
  generalize addW r15 g11 c10 = w13 at hs e13; generalize addC r15 g11 c10 = c13 at hs e13
  xstep
  have e14 := mul_specZ q Bls.modulus.l4
  have hg14 := mulHi_le q Bls.modulus.l4
  simp only [z_l4] at e14
  simp only [z_l4] at hg14
  generalize mulLo q Bls.modulus.l4 = l14 at hs e14; generalize mulHi q Bls.modulus.l4 = g14 at hs e14 hg14
  xstep
  have e15 := addW_specZ w13 l14 c12
  generalize addW w13 l14 c12 = w15 at hs e15; generalize addC w13 l14 c12 = c15 at hs e15
  xstep
  have e16 := addW_specZ r8 g14 c13
  generalize addW r8 g14 c13 = w16 at hs e16; generalize addC r8 g14 c13 = c16 at hs e16
  xstep
  have e17 := mul_specZ q Bls.modulus.l5
  have hg17 := mulHi_le q Bls.modulus.l5
  simp only [z_l5] at e17
  simp only [z_l5] at hg17
  generalize mulLo q Bls.modulus.l5 = l17 at hs e17; generalize mulHi q Bls.modulus.l5 = g17 at hs e17 hg17
  xstep
  have e18 := addW_specZ w16 l17 c15
  generalize addW w16 l17 c15 = w18 at hs e18; generalize addC w16 l17 c15 = c18 at hs e18
  xstep
  have e19 := addW_specZ s0 g17 c16
  generalize addW s0 g17 c16 = w19 at hs e19; generalize addC s0 g17 c16 = c19 at hs e19
  xstep
  have e20 := addW_specZ w19 cx c18
  generalize addW w19 cx c18 = w20 at hs e20; generalize addC w19 cx c18 = c20 at hs e20
  xstep
  have e21 := addW_specZ (0 : UInt64) (0 : UInt64) c19
  simp only [z_zero, add_zero, zero_add] at e21
  generalize addW (0 : UInt64) (0 : UInt64) c19 = w21 at hs e21; generalize addC (0 : UInt64) (0 : UInt64) c19 = c21 at hs e21
  have d21 : zb c21 = 0 := by
    clear * - e21 e19 hg17 e16 hg14 e13 hk
    have := z_bnd s0
    have := z_bnd g17
    have := z_bnd q
    have := z_bnd r8
    have := z_bnd g14
    have := z_bnd r15
    have := z_bnd g11
    have := z_bnd w13
    have := z_bnd w16
    have := z_bnd w19
    have := z_bnd w21
    have := zb_bnd c21
    have := zb_bnd c19
    have := zb_bnd c16
    have := zb_bnd c13
    have := zb_bnd c10
    omega
  rw [run_nil] at hs
  refine ⟨l17, g17, q, w21, w18, w20, w3, w6, w9, w12, w15, c21, c20, hs.symm, ?_⟩
  have key : 2 ^ 64 * z w6 + 2 ^ 128 * z w9 + 2 ^ 192 * z w12 + 2 ^ 256 * z w15 + 2 ^ 320 * z w18 + 2 ^ 384 * z w20 + 2 ^ 448 * (z w21 + zb c20) = z r11 + 2 ^ 64 * z r12 + 2 ^ 128 * z r13 + 2 ^ 192 * z r14 + 2 ^ 256 * z r15 + 2 ^ 320 * z r8 + 2 ^ 384 * z s0 + 2 ^ 384 * z cx + z q * 0x1a0111ea397fe69a4b1ba7b6434bacd764774b84f38512bf6730d2a0f6b0f6241eabfffeb153ffffb9feffffffffaaab := by
    linear_combination e2 + e3 + 2 ^ 64 * e4 + 2 ^ 64 * e5 + 2 ^ 64 * e6 + 2 ^ 128 * e7 + 2 ^ 128 * e8 + 2 ^ 128 * e9 + 2 ^ 192 * e10 + 2 ^ 192 * e11 + 2 ^ 192 * e12 + 2 ^ 256 * e13 + 2 ^ 256 * e14 + 2 ^ 256 * e15 + 2 ^ 320 * e16 + 2 ^ 320 * e17 + 2 ^ 320 * e18 + 2 ^ 384 * e19 + 2 ^ 384 * e20 + 2 ^ 448 * e21 - 2 ^ 512 * d21 - hz
  have hk' : z w21 ≤ 1 := by
    clear * - e21
    have := zb_bnd c19
    have := zb_bnd c21
    omega
  have ho : z w20 + 18446744073709551616 * zb c20 ≤ 18446744073709551617 := by
    clear * - e20 hk
    have := z_bnd w19
    have := z_bnd cx
    have := zb_bnd c18
    have := zb_bnd c20
    omega
  exact ⟨key, hk', ho⟩

/-- step 5 of the reduction. -/
theorem adxRed5_spec {ax bx cx dx si di r8 r9 r10 r11 r12 r13 r14 r15 s0 s1 s2 f0 f1 f2 : UInt64} {cf of : Bool} {mem : UInt64 → UInt64}
    (hk : z di ≤ 1)
    (ht : z s1 ≤ 9223372036854775808) :
    ∃ ax' bx' dx' r8' r9' r10' r12' r13' r14' r15' : UInt64, ∃ cf' of' : Bool,
      run adxRed5 ⟨ax, bx, cx, dx, si, di, r8, r9, r10, r11, r12, r13, r14, r15, s0, s1, s2, f0, f1, f2, cf, of, mem⟩ =
      ⟨ax', bx', cx, dx', si, di, r8', r9', r10', r11, r12', r13', r14', r15', s0, s1, s2, f0, f1, f2, cf', of', mem⟩ ∧
      2 ^ 64 * z r13' + 2 ^ 128 * z r14' + 2 ^ 192 * z r15' + 2 ^ 256 * z r8' + 2 ^ 320 * z r9' + 2 ^ 384 * z r10' =
        z r12 + 2 ^ 64 * z r13 + 2 ^ 128 * z r14 + 2 ^ 192 * z r15 + 2 ^ 256 * z r8 + 2 ^ 320 * z r9 + 2 ^ 384 * z s1 + 2 ^ 384 * z di + z (mulLo r12 Bls.inp) * 0x1a0111ea397fe69a4b1ba7b6434bacd764774b84f38512bf6730d2a0f6b0f6241eabfffeb153ffffb9feffffffffaaab := by
  generalize hs : run adxRed5 _ = s
  unfold adxRed5 at hs
  xstep
  xstep
  xstep
  xstep
  have hq := quot_spec r12
  generalize hqd : mulLo r12 Bls.inp = q at hs hq; generalize mulHi r12 Bls.inp = g1 at hs
  xstep
  have e2 := mul_specZ q Bls.modulus.l0
  have hg2 := mulHi_le q Bls.modulus.l0
  simp only [z_l0] at e2
  simp only [z_l0] at hg2
  generalize mulLo q Bls.modulus.l0 = l2 at hs e2; generalize mulHi q Bls.modulus.l0 = g2 at hs e2 hg2
  xstep
  have e3 := addW_specZ r12 l2 false
  simp only [zb_false, add_zero, zero_add] at e3
  generalize addW r12 l2 false = w3 at hs e3; generalize addC r12 l2 false = c3 at hs e3
  have hz : z w3 = 0 := lowest_zero e2 e3 hq
  xstep
  have e4 := addW_specZ r13 g2 false
  simp only [zb_false, add_zero, zero_add] at e4
  generalize addW r13 g2 false = w4 at hs e4; generalize addC r13 g2 false = c4 at hs e4
  xstep
  have e5 := mul_specZ q Bls.modulus.l1
  have hg5 := mulHi_le q Bls.modulus.l1
  simp only [z_l1] at e5
  simp only [z_l1] at hg5
  generalize mulLo q Bls.modulus.l1 = l5 at hs e5; generalize mulHi q Bls.modulus.l1 = g5 at hs e5 hg5
  xstep
  have e6 := addW_specZ w4 l5 c3
  generalize addW w4 l5 c3 = w6 at hs e6; generalize addC w4 l5 c3 = c6 at hs e6
  xstep
  have e7 := addW_specZ r14 g5 c4
  generalize addW r14 g5 c4 = w7 at hs e7; generalize addC r14 g5 c4 = c7 at hs e7
  xstep
  have e8 := mul_specZ q Bls.modulus.l2
  have hg8 := mulHi_le q Bls.modulus.l2
  simp only [z_l2] at e8
  simp only [z_l2] at hg8
  generalize mulLo q Bls.modulus.l2 = l8 at hs e8; generalize mulHi q Bls.modulus.l2 = g8 at hs e8 hg8
  xstep
  have e9 := addW_specZ w7 l8 c6
  generalize addW w7 l8 c6 = w9 at hs e9; generalize addC w7 l8 c6 = c9 at hs e9
  xstep
  have e10 := addW_specZ r15 g8 c7
  generalize addW r15 g8 c7 = w10 at hs e10; generalize addC r15 g8 c7 = c10 at hs e10
  xstep
  have e11 := mul_specZ q Bls.modulus.l3
  have hg11 := mulHi_le q Bls.modulus.l3
  simp only [z_l3] at e11
  simp only [z_l3] at hg11
  generalize mulLo q Bls.modulus.l3 = l11 at hs e11; generalize mulHi q Bls.modulus.l3 = g11 at hs e11 hg11
  xstep
  have e12 := addW_specZ w10 l11 c9
  generalize addW w10 l11 c9 = w12 at hs e12; generalize addC w10 l11 c9 = c12 at hs e12
  xstep
  have e13 := addW_specZ r8 g11 c10
  generalize addW r8 g11 c10 = w13 at hs e13; generalize addC r8 g11 c10 = c13 at hs e13
  xstep
  have e14 := mul_specZ q Bls.modulus.l4
  have hg14 := mulHi_le q Bls.modulus.l4
  simp only [z_l4] at e14
  simp only [z_l4] at hg14
  generalize mulLo q Bls.modulus.l4 = l14 at hs e14; generalize mulHi q Bls.modulus.l4 = g14 at hs e14 hg14
  xstep
  have e15 := addW_specZ w13 l14 c12
  generalize addW w13 l14 c12 = w15 at hs e15; generalize addC w13 l14 c12 = c15 at hs e15
  xstep
  have e16 := addW_specZ r9 g14 c13
  generalize addW r9 g14 c13 = w16 at hs e16; generalize addC r9 g14 c13 = c16 at hs e16
  xstep
  have e17 := mul_specZ q Bls.modulus.l5
  have hg17 := mulHi_le q Bls.modulus.l5
  simp only [z_l5] at e17
  simp only [z_l5] at hg17
  generalize mulLo q Bls.modulus.l5 = l17 at hs e17; generalize mulHi q Bls.modulus.l5 = g17 at hs e17 hg17
  xstep
  have e18 := addW_specZ w16 l17 c15
  generalize addW w16 l17 c15 = w18 at hs e18; generalize addC w16 l17 c15 = c18 at hs e18
  xstep
  have e19 := addW_specZ s1 g17 c16
  generalize addW s1 g17 c16 = w19 at hs e19; generalize addC s1 g17 c16 = c19 at hs e19
  have d19 : zb c19 = 0 := by
    clear * - e19 hg17 e16 hg14 e13 hg11 e10 hk ht
    have := z_bnd s1
    have := z_bnd g17
    have := z_bnd q
    have := z_bnd r9
    have := z_bnd g14
    have := z_bnd r8
    have := z_bnd g11
    have := z_bnd r15
    have := z_bnd g8
    have := z_bnd w10
    have := z_bnd w13
    have := z_bnd w16
    have := z_bnd w19
    have := zb_bnd c19
    have := zb_bnd c16
    have := zb_bnd c13
    have := zb_bnd c10
    have := zb_bnd c7
    omega
  xstep
  have e20 := addW_specZ w19 di c18
  generalize addW w19 di c18 = w20 at hs e20; generalize addC w19 di c18 = c20 at hs e20
  have d20 : zb c20 = 0 := by
    clear * - e20 e19 hg17 e16 hg14 e13 e18 e15 e12 hk ht
    have := z_bnd w19
    have := z_bnd s1
    have := z_bnd g17
    have := z_bnd q
    have := z_bnd r9
    have := z_bnd g14
    have := z_bnd r8
    have := z_bnd g11
    have := z_bnd w13
    have := z_bnd w16
    have := z_bnd di
    have := z_bnd l17
    have := z_bnd l14
    have := z_bnd w10
    have := z_bnd l11
    have := z_bnd w12
    have := z_bnd w15
    have := z_bnd w18
    have := z_bnd w20
    have := zb_bnd c20
    have := zb_bnd c16
    have := zb_bnd c13
    have := zb_bnd c10
    have := zb_bnd c19
    have := zb_bnd c18
    have := zb_bnd c15
    have := zb_bnd c12
    have := zb_bnd c9
    omega
  rw [run_nil] at hs
  refine ⟨l17, g17, q, w15, w18, w20, w3, w6, w9, w12, c19, c20, hs.symm, ?_⟩
  have key : 2 ^ 64 * z w6 + 2 ^ 128 * z w9 + 2 ^ 192 * z w12 + 2 ^ 256 * z w15 + 2 ^ 320 * z w18 + 2 ^ 384 * z w20 = z r12 + 2 ^ 64 * z r13 + 2 ^ 128 * z r14 + 2 ^ 192 * z r15 + 2 ^ 256 * z r8 + 2 ^ 320 * z r9 + 2 ^ 384 * z s1 + 2 ^ 384 * z di + z q * 0x1a0111ea397fe69a4b1ba7b6434bacd764774b84f38512bf6730d2a0f6b0f6241eabfffeb153ffffb9feffffffffaaab := by
    linear_combination e2 + e3 + 2 ^ 64 * e4 + 2 ^ 64 * e5 + 2 ^ 64 * e6 + 2 ^ 128 * e7 + 2 ^ 128 * e8 + 2 ^ 128 * e9 + 2 ^ 192 * e10 + 2 ^ 192 * e11 + 2 ^ 192 * e12 + 2 ^ 256 * e13 + 2 ^ 256 * e14 + 2 ^ 256 * e15 + 2 ^ 320 * e16 + 2 ^ 320 * e17 + 2 ^ 320 * e18 + 2 ^ 384 * e19 + 2 ^ 384 * e20 - 2 ^ 448 * d19 - 2 ^ 448 * d20 - hz
  exact key

/-- the conditional subtraction. -/
theorem adxFin_spec {ax bx cx dx si di r8 r9 r10 r11 r12 r13 r14 r15 s0 s1 s2 f0 f1 f2 : UInt64} {cf of : Bool} {mem : UInt64 → UInt64} :
    ∃ ax' bx' cx' dx' r8' r9' r10' r11' r12' r13' r14' r15' : UInt64, ∃ cf' of' : Bool,
      run adxFin ⟨ax, bx, cx, dx, si, di, r8, r9, r10, r11, r12, r13, r14, r15, s0, s1, s2, f0, f1, f2, cf, of, mem⟩ =
      ⟨ax', bx', cx', dx', si, di, r8', r9', r10', r11', r12', r13', r14', r15', s0, s1, s2, f0, f1, f2, cf', of', mem⟩ ∧
      ((z r13 + 2 ^ 64 * z r14 + 2 ^ 128 * z r15 + 2 ^ 192 * z r8 + 2 ^ 256 * z r9 + 2 ^ 320 * z r10 < 0x1a0111ea397fe69a4b1ba7b6434bacd764774b84f38512bf6730d2a0f6b0f6241eabfffeb153ffffb9feffffffffaaab ∧
        z r13' + 2 ^ 64 * z r14' + 2 ^ 128 * z r15' + 2 ^ 192 * z r8' + 2 ^ 256 * z r9' + 2 ^ 320 * z r10' = z r13 + 2 ^ 64 * z r14 + 2 ^ 128 * z r15 + 2 ^ 192 * z r8 + 2 ^ 256 * z r9 + 2 ^ 320 * z r10) ∨
      z r13' + 2 ^ 64 * z r14' + 2 ^ 128 * z r15' + 2 ^ 192 * z r8' + 2 ^ 256 * z r9' + 2 ^ 320 * z r10' + 0x1a0111ea397fe69a4b1ba7b6434bacd764774b84f38512bf6730d2a0f6b0f6241eabfffeb153ffffb9feffffffffaaab = z r13 + 2 ^ 64 * z r14 + 2 ^ 128 * z r15 + 2 ^ 192 * z r8 + 2 ^ 256 * z r9 + 2 ^ 320 * z r10) := by
  generalize hs : run adxFin _ = s
  unfold adxFin at hs
  xstep
  xstep
  xstep
  xstep
  xstep
  xstep
  xstep
  have e1 := subW_specZ r13 Bls.modulus.l0 false
  simp only [zb_false, z_l0, add_zero, zero_add] at e1
  generalize subO r13 Bls.modulus.l0 false = o1 at hs
  generalize subW r13 Bls.modulus.l0 false = w1 at hs e1; generalize subC r13 Bls.modulus.l0 false = c1 at hs e1
  xstep
  have e2 := subW_specZ r14 Bls.modulus.l1 c1
  simp only [z_l1] at e2
  generalize subO r14 Bls.modulus.l1 c1 = o2 at hs
  generalize subW r14 Bls.modulus.l1 c1 = w2 at hs e2; generalize subC r14 Bls.modulus.l1 c1 = c2 at hs e2
  xstep
  have e3 := subW_specZ r15 Bls.modulus.l2 c2
  simp only [z_l2] at e3
  generalize subO r15 Bls.modulus.l2 c2 = o3 at hs
  generalize subW r15 Bls.modulus.l2 c2 = w3 at hs e3; generalize subC r15 Bls.modulus.l2 c2 = c3 at hs e3
  xstep
  have e4 := subW_specZ r8 Bls.modulus.l3 c3
  simp only [z_l3] at e4
  generalize subO r8 Bls.modulus.l3 c3 = o4 at hs
  generalize subW r8 Bls.modulus.l3 c3 = w4 at hs e4; generalize subC r8 Bls.modulus.l3 c3 = c4 at hs e4
  xstep
  have e5 := subW_specZ r9 Bls.modulus.l4 c4
  simp only [z_l4] at e5
  generalize subO r9 Bls.modulus.l4 c4 = o5 at hs
  generalize subW r9 Bls.modulus.l4 c4 = w5 at hs e5; generalize subC r9 Bls.modulus.l4 c4 = c5 at hs e5
  xstep
  have e6 := subW_specZ r10 Bls.modulus.l5 c5
  simp only [z_l5] at e6
  generalize subO r10 Bls.modulus.l5 c5 = o6 at hs
  generalize subW r10 Bls.modulus.l5 c5 = w6 at hs e6; generalize subC r10 Bls.modulus.l5 c5 = c6 at hs e6
  cases c6
  · xstep
    xstep
    xstep
    xstep
    xstep
    xstep
    rw [run_nil] at hs
    refine ⟨w1, w2, w3, w4, w4, w5, w6, w5, w6, w1, w2, w3, false, o6, hs.symm, ?_⟩
    right
    simp only [zb_false] at e6
    linear_combination e1 + 2 ^ 64 * e2 + 2 ^ 128 * e3 + 2 ^ 192 * e4 + 2 ^ 256 * e5 + 2 ^ 320 * e6
  · xstep
    xstep
    xstep
    xstep
    xstep
    xstep
    rw [run_nil] at hs
    refine ⟨w1, w2, w3, w4, r8, r9, r10, w5, w6, r13, r14, r15, true, o6, hs.symm, ?_⟩
    left
    simp only [zb_true] at e6
    have key : z w1 + 2 ^ 64 * z w2 + 2 ^ 128 * z w3 + 2 ^ 192 * z w4 + 2 ^ 256 * z w5 + 2 ^ 320 * z w6 + 0x1a0111ea397fe69a4b1ba7b6434bacd764774b84f38512bf6730d2a0f6b0f6241eabfffeb153ffffb9feffffffffaaab = z r13 + 2 ^ 64 * z r14 + 2 ^ 128 * z r15 + 2 ^ 192 * z r8 + 2 ^ 256 * z r9 + 2 ^ 320 * z r10 + 2 ^ 384 := by
      linear_combination e1 + 2 ^ 64 * e2 + 2 ^ 128 * e3 + 2 ^ 192 * e4 + 2 ^ 256 * e5 + 2 ^ 320 * e6
    refine ⟨?_, rfl⟩
    clear * - key
    have := z_bnd w1
    have := z_bnd w2
    have := z_bnd w3
    have := z_bnd w4
    have := z_bnd w5
    have := z_bnd w6
    omega

end Verif.X86
