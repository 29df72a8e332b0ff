import Verif.X86.Arith

/-!
# `mulNoADX`, `mulAssignNoADX`: what each segment computes

Generated from the instructions: one lemma for each segment of Verif/X86/Code.lean, each executing its instructions one by
one and combining their equations.
-/

set_option exponentiation.threshold 1000
set_option maxHeartbeats 1000000
set_option linter.unusedVariables false
set_option linter.unusedSimpArgs false

namespace Verif.X86

/-- word 0 of `b` times `a`. -/
theorem noadxRow0_spec {ax bx cx dx si di r8 r9 r10 r11 r12 r13 r14 r15 s0 s1 s2 f0 f1 f2 : UInt64} {cf of : Bool} {mem : UInt64 → UInt64}
    {a0 a1 a2 a3 a4 a5 b : UInt64}
    (hdi_0 : mem (di + 0) = a0)
    (hdi_8 : mem (di + 8) = a1)
    (hdi_16 : mem (di + 16) = a2)
    (hdi_24 : mem (di + 24) = a3)
    (hdi_32 : mem (di + 32) = a4)
    (hdi_40 : mem (di + 40) = a5)
    (hsi_0 : mem (si + 0) = b) :
    ∃ ax' dx' r8' r9' r10' r11' r12' r13' s0' : UInt64, ∃ cf' of' : Bool,
      run noadxRow0 ⟨ax, bx, cx, dx, si, di, r8, r9, r10, r11, r12, r13, r14, r15, s0, s1, s2, f0, f1, f2, cf, of, mem⟩ =
      ⟨ax', (0 : UInt64), b, dx', si, di, r8', r9', r10', r11', r12', r13', r14, r15, s0', s1, s2, f0, f1, f2, cf', of', mem⟩ ∧
      z s0' + 2 ^ 64 * z r8' + 2 ^ 128 * z r9' + 2 ^ 192 * z r10' + 2 ^ 256 * z r11' + 2 ^ 320 * z r12' + 2 ^ 384 * z r13' =
        z b * (z a0 + 2 ^ 64 * z a1 + 2 ^ 128 * z a2 + 2 ^ 192 * z a3 + 2 ^ 256 * z a4 + 2 ^ 320 * z a5) := by
  generalize hs : run noadxRow0 _ = s
  unfold noadxRow0 at hs
  xstep
  xstep
  xstep
  xstep
  xstep
  xstep
  xstep
  rw [hsi_0] at hs
  xstep
  rw [hdi_0] at hs
  xstep
  have e1 := mul_specZ a0 b
  have hg1 := mulHi_le a0 b
  generalize mulLo a0 b = l1 at hs e1; generalize mulHi a0 b = g1 at hs e1 hg1; generalize (g1 != 0) = z1 at hs
  xstep
  xstep
  xstep
  rw [hdi_8] at hs
  xstep
  have e2 := mul_specZ a1 b
  have hg2 := mulHi_le a1 b
  generalize mulLo a1 b = l2 at hs e2; generalize mulHi a1 b = g2 at hs e2 hg2; generalize (g2 != 0) = z2 at hs
  xstep
  have e3 := addW_specZ g1 l2 false
  simp only [zb_false, add_zero, zero_add] at e3
  generalize addO g1 l2 false = o3 at hs
  generalize addW g1 l2 false = w3 at hs e3; generalize addC g1 l2 false = c3 at hs e3
  xstep
  have e4 := addW_specZ (0 : UInt64) g2 c3
  simp only [z_zero, add_zero, zero_add] at e4
  generalize addO (0 : UInt64) g2 c3 = o4 at hs
  generalize addW (0 : UInt64) g2 c3 = w4 at hs e4; generalize addC (0 : UInt64) g2 c3 = c4 at hs e4
  have d4 : zb c4 = 0 := by
    clear * - e4 hg2 e3 hg1
    have := z_bnd g2
    have := z_bnd a1
    have := z_bnd b
    have := z_bnd g1
    have := z_bnd a0
    have := z_bnd l2
    have := z_bnd w3
    have := z_bnd w4
    have := zb_bnd c4
    have := zb_bnd c3
    omega
  xstep
  rw [hdi_16] at hs
  xstep
  have e5 := mul_specZ a2 b
  have hg5 := mulHi_le a2 b
  generalize mulLo a2 b = l5 at hs e5; generalize mulHi a2 b = g5 at hs e5 hg5; generalize (g5 != 0) = z5 at hs
  xstep
  have e6 := addW_specZ w4 l5 false
  simp only [zb_false, add_zero, zero_add] at e6
  generalize addO w4 l5 false = o6 at hs
  generalize addW w4 l5 false = w6 at hs e6; generalize addC w4 l5 false = c6 at hs e6
  xstep
  have e7 := addW_specZ (0 : UInt64) g5 c6
  simp only [z_zero, add_zero, zero_add] at e7
  generalize addO (0 : UInt64) g5 c6 = o7 at hs
  generalize addW (0 : UInt64) g5 c6 = w7 at hs e7; generalize addC (0 : UInt64) g5 c6 = c7 at hs e7
  have d7 : zb c7 = 0 := by
    clear * - e7 hg5 e6 e4 hg2 e3
    have := z_bnd g5
    have := z_bnd a2
    have := z_bnd b
    have := z_bnd w4
    have := z_bnd g2
    have := z_bnd a1
    have := z_bnd g1
    have := z_bnd l2
    have := z_bnd w3
    have := z_bnd l5
    have := z_bnd w6
    have := z_bnd w7
    have := zb_bnd c7
    have := zb_bnd c6
    have := zb_bnd c3
    have := zb_bnd c4
    omega
  xstep
  rw [hdi_24] at hs
  xstep
  have e8 := mul_specZ a3 b
  have hg8 := mulHi_le a3 b
  generalize mulLo a3 b = l8 at hs e8; generalize mulHi a3 b = g8 at hs e8 hg8; generalize (g8 != 0) = z8 at hs
  xstep
  have e9 := addW_specZ w7 l8 false
  simp only [zb_false, add_zero, zero_add] at e9
  generalize addO w7 l8 false = o9 at hs
  generalize addW w7 l8 false = w9 at hs e9; generalize addC w7 l8 false = c9 at hs e9
  xstep
  have e10 := addW_specZ (0 : UInt64) g8 c9
  simp only [z_zero, add_zero, zero_add] at e10
  generalize addO (0 : UInt64) g8 c9 = o10 at hs
  generalize addW (0 : UInt64) g8 c9 = w10 at hs e10; generalize addC (0 : UInt64) g8 c9 = c10 at hs e10
  have d10 : zb c10 = 0 := by
    clear * - e10 hg8 e9 e7 hg5 e6
    have := z_bnd g8
    have := z_bnd a3
    have := z_bnd b
    have := z_bnd w7
    have := z_bnd g5
    have := z_bnd a2
    have := z_bnd w4
    have := z_bnd l5
    have := z_bnd w6
    have := z_bnd l8
    have := z_bnd w9
    have := z_bnd w10
    have := zb_bnd c10
    have := zb_bnd c9
    have := zb_bnd c6
    have := zb_bnd c7
    omega
  xstep
  rw [hdi_32] at hs
  xstep
  have e11 := mul_specZ a4 b
  have hg11 := mulHi_le a4 b
  generalize mulLo a4 b = l11 at hs e11; generalize mulHi a4 b = g11 at hs e11 hg11; generalize (g11 != 0) = z11 at hs
  xstep
  have e12 := addW_specZ w10 l11 false
  simp only [zb_false, add_zero, zero_add] at e12
  generalize addO w10 l11 false = o12 at hs
  generalize addW w10 l11 false = w12 at hs e12; generalize addC w10 l11 false = c12 at hs e12
  xstep
  have e13 := addW_specZ (0 : UInt64) g11 c12
  simp only [z_zero, add_zero, zero_add] at e13
  generalize addO (0 : UInt64) g11 c12 = o13 at hs
  generalize addW (0 : UInt64) g11 c12 = w13 at hs e13; generalize addC (0 : UInt64) g11 c12 = c13 at hs e13
  have d13 : zb c13 = 0 := by
    clear * - e13 hg11 e12 e10 hg8 e9
    have := z_bnd g11
    have := z_bnd a4
    have := z_bnd b
    have := z_bnd w10
    have := z_bnd g8
    have := z_bnd a3
    have := z_bnd w7
    have := z_bnd l8
    have := z_bnd w9
    have := z_bnd l11
    have := z_bnd w12
    have := z_bnd w13
    have := zb_bnd c13
    have := zb_bnd c12
    have := zb_bnd c9
    have := zb_bnd c10
    omega
  xstep
  rw [hdi_40] at hs
  xstep
  have e14 := mul_specZ a5 b
  have hg14 := mulHi_le a5 b
  generalize mulLo a5 b = l14 at hs e14; generalize mulHi a5 b = g14 at hs e14 hg14; generalize (g14 != 0) = z14 at hs
  xstep
  have e15 := addW_specZ w13 l14 false
  simp only [zb_false, add_zero, zero_add] at e15
  generalize addO w13 l14 false = o15 at hs
  generalize addW w13 l14 false = w15 at hs e15; generalize addC w13 l14 false = c15 at hs e15
  xstep
  have e16 := addW_specZ (0 : UInt64) g14 c15
  simp only [z_zero, add_zero, zero_add] at e16
  generalize addO (0 : UInt64) g14 c15 = o16 at hs
  generalize addW (0 : UInt64) g14 c15 = w16 at hs e16; generalize addC (0 : UInt64) g14 c15 = c16 at hs e16
  rw [run_nil] at hs
  refine ⟨l14, g14, w3, w6, w9, w12, w15, w16, l1, c16, o16, hs.symm, ?_⟩
  have key : z l1 + 2 ^ 64 * z w3 + 2 ^ 128 * z w6 + 2 ^ 192 * z w9 + 2 ^ 256 * z w12 + 2 ^ 320 * z w15 + 2 ^ 384 * z w16 + 2 ^ 448 * zb c16 = z b * (z a0 + 2 ^ 64 * z a1 + 2 ^ 128 * z a2 + 2 ^ 192 * z a3 + 2 ^ 256 * z a4 + 2 ^ 320 * z a5) := by
    linear_combination e1 + 2 ^ 64 * e2 + 2 ^ 64 * e3 + 2 ^ 128 * e4 + 2 ^ 128 * e5 + 2 ^ 128 * e6 + 2 ^ 192 * e7 + 2 ^ 192 * e8 + 2 ^ 192 * e9 + 2 ^ 256 * e10 + 2 ^ 256 * e11 + 2 ^ 256 * e12 + 2 ^ 320 * e13 + 2 ^ 320 * e14 + 2 ^ 320 * e15 + 2 ^ 384 * e16 - 2 ^ 192 * d4 - 2 ^ 256 * d7 - 2 ^ 320 * d10 - 2 ^ 384 * d13
  clear * - key
  have := z_bnd l1
  have := z_bnd w3
  have := z_bnd w6
  have := z_bnd w9
  have := z_bnd w12
  have := z_bnd w15
  have := z_bnd w16
  have := zb_bnd c16
  have := z_mul_le b a0
  have := z_mul_le b a1
  have := z_mul_le b a2
  have := z_mul_le b a3
  have := z_mul_le b a4
  have := z_mul_le b a5
  rw [mul_sum6] at key ⊢
  generalize z b * z a0 = p0 at *
  generalize z b * z a1 = p1 at *
  generalize z b * z a2 = p2 at *
  generalize z b * z a3 = p3 at *
  generalize z b * z a4 = p4 at *
  generalize z b * z a5 = p5 at *
  omega

/-- word 1 of `b` times `a`. -/
theorem noadxRow1_spec {ax bx cx dx si di r8 r9 r10 r11 r12 r13 r14 r15 s0 s1 s2 f0 f1 f2 : UInt64} {cf of : Bool} {mem : UInt64 → UInt64}
    {a0 a1 a2 a3 a4 a5 b : UInt64}
    (hdi_0 : mem (di + 0) = a0)
    (hdi_8 : mem (di + 8) = a1)
    (hdi_16 : mem (di + 16) = a2)
    (hdi_24 : mem (di + 24) = a3)
    (hdi_32 : mem (di + 32) = a4)
    (hdi_40 : mem (di + 40) = a5)
    (hsi_8 : mem (si + 8) = b) :
    ∃ ax' bx' dx' r8' r9' r10' r11' r12' s1' : UInt64, ∃ cf' of' : Bool,
      run noadxRow1 ⟨ax, (0 : UInt64), cx, dx, si, di, r8, r9, r10, r11, r12, r13, r14, r15, s0, s1, s2, f0, f1, f2, cf, of, mem⟩ =
      ⟨ax', bx', b, dx', si, di, r8', r9', r10', r11', r12', bx', r14, r15, s0, s1', s2, f0, f1, f2, cf', of', mem⟩ ∧
      z s1' + 2 ^ 64 * z r8' + 2 ^ 128 * z r9' + 2 ^ 192 * z r10' + 2 ^ 256 * z r11' + 2 ^ 320 * z r12' + 2 ^ 384 * z bx' =
        z r8 + 2 ^ 64 * z r9 + 2 ^ 128 * z r10 + 2 ^ 192 * z r11 + 2 ^ 256 * z r12 + 2 ^ 320 * z r13 + z b * (z a0 + 2 ^ 64 * z a1 + 2 ^ 128 * z a2 + 2 ^ 192 * z a3 + 2 ^ 256 * z a4 + 2 ^ 320 * z a5) := by
  generalize hs : run noadxRow1 _ = s
  unfold noadxRow1 at hs
  xstep
  rw [hsi_8] at hs
  xstep
  rw [hdi_0] at hs
  xstep
  have e1 := mul_specZ a0 b
  have hg1 := mulHi_le a0 b
  generalize mulLo a0 b = l1 at hs e1; generalize mulHi a0 b = g1 at hs e1 hg1; generalize (g1 != 0) = z1 at hs
  xstep
  have e2 := addW_specZ r8 l1 false
  simp only [zb_false, add_zero, zero_add] at e2
  generalize addO r8 l1 false = o2 at hs
  generalize addW r8 l1 false = w2 at hs e2; generalize addC r8 l1 false = c2 at hs e2
  xstep
  have e3 := addW_specZ r9 g1 c2
  generalize addO r9 g1 c2 = o3 at hs
  generalize addW r9 g1 c2 = w3 at hs e3; generalize addC r9 g1 c2 = c3 at hs e3
  xstep
  have e4 := addW_specZ r10 (0 : UInt64) c3
  simp only [z_zero, add_zero, zero_add] at e4
  generalize addO r10 (0 : UInt64) c3 = o4 at hs
  generalize addW r10 (0 : UInt64) c3 = w4 at hs e4; generalize addC r10 (0 : UInt64) c3 = c4 at hs e4
  xstep
  have e5 := addW_specZ (0 : UInt64) (0 : UInt64) c4
  simp only [z_zero, add_zero, zero_add] at e5
  generalize addO (0 : UInt64) (0 : UInt64) c4 = o5 at hs
  generalize addW (0 : UInt64) (0 : UInt64) c4 = w5 at hs e5; generalize addC (0 : UInt64) (0 : UInt64) c4 = c5 at hs e5
  have d5 : zb c5 = 0 := by
    clear * - e5 e4 e3 hg1 e2
    have := z_bnd r10
    have := z_bnd r9
    have := z_bnd g1
    have := z_bnd a0
    have := z_bnd b
    have := z_bnd r8
    have := z_bnd l1
    have := z_bnd w2
    have := z_bnd w3
    have := z_bnd w4
    have := z_bnd w5
    have := zb_bnd c5
    have := zb_bnd c4
    have := zb_bnd c3
    have := zb_bnd c2
    omega
  xstep
  xstep
  rw [hdi_8] at hs
  xstep
  have e6 := mul_specZ a1 b
  have hg6 := mulHi_le a1 b
  generalize mulLo a1 b = l6 at hs e6; generalize mulHi a1 b = g6 at hs e6 hg6; generalize (g6 != 0) = z6 at hs
  xstep
  have e7 := addW_specZ w3 l6 false
  simp only [zb_false, add_zero, zero_add] at e7
  generalize addO w3 l6 false = o7 at hs
  generalize addW w3 l6 false = w7 at hs e7; generalize addC w3 l6 false = c7 at hs e7
  xstep
  have e8 := addW_specZ w4 g6 c7
  generalize addO w4 g6 c7 = o8 at hs
  generalize addW w4 g6 c7 = w8 at hs e8; generalize addC w4 g6 c7 = c8 at hs e8
  xstep
  have e9 := addW_specZ r11 w5 c8
  generalize addO r11 w5 c8 = o9 at hs
  generalize addW r11 w5 c8 = w9 at hs e9; generalize addC r11 w5 c8 = c9 at hs e9
  xstep
  xstep
  have e10 := addW_specZ (0 : UInt64) (0 : UInt64) c9
  simp only [z_zero, add_zero, zero_add] at e10
  generalize addO (0 : UInt64) (0 : UInt64) c9 = o10 at hs
  generalize addW (0 : UInt64) (0 : UInt64) c9 = w10 at hs e10; generalize addC (0 : UInt64) (0 : UInt64) c9 = c10 at hs e10
  have d10 : zb c10 = 0 := by
    clear * - e10 e9 e5 e4 e8 hg6 e7
    have := z_bnd r11
    have := z_bnd w5
    have := z_bnd r10
    have := z_bnd w4
    have := z_bnd g6
    have := z_bnd a1
    have := z_bnd b
    have := z_bnd w3
    have := z_bnd l6
    have := z_bnd w7
    have := z_bnd w8
    have := z_bnd w9
    have := z_bnd w10
    have := zb_bnd c10
    have := zb_bnd c9
    have := zb_bnd c4
    have := zb_bnd c3
    have := zb_bnd c5
    have := zb_bnd c8
    have := zb_bnd c7
    omega
  xstep
  xstep
  rw [hdi_16] at hs
  xstep
  have e11 := mul_specZ a2 b
  have hg11 := mulHi_le a2 b
  generalize mulLo a2 b = l11 at hs e11; generalize mulHi a2 b = g11 at hs e11 hg11; generalize (g11 != 0) = z11 at hs
  xstep
  have e12 := addW_specZ w8 l11 false
  simp only [zb_false, add_zero, zero_add] at e12
  generalize addO w8 l11 false = o12 at hs
  generalize addW w8 l11 false = w12 at hs e12; generalize addC w8 l11 false = c12 at hs e12
  xstep
  have e13 := addW_specZ w9 g11 c12
  generalize addO w9 g11 c12 = o13 at hs
  generalize addW w9 g11 c12 = w13 at hs e13; generalize addC w9 g11 c12 = c13 at hs e13
  xstep
  have e14 := addW_specZ r12 w10 c13
  generalize addO r12 w10 c13 = o14 at hs
  generalize addW r12 w10 c13 = w14 at hs e14; generalize addC r12 w10 c13 = c14 at hs e14
  xstep
  xstep
  have e15 := addW_specZ (0 : UInt64) (0 : UInt64) c14
  simp only [z_zero, add_zero, zero_add] at e15
  generalize addO (0 : UInt64) (0 : UInt64) c14 = o15 at hs
  generalize addW (0 : UInt64) (0 : UInt64) c14 = w15 at hs e15; generalize addC (0 : UInt64) (0 : UInt64) c14 = c15 at hs e15
  have d15 : zb c15 = 0 := by
    clear * - e15 e14 e10 e9 e13 hg11 e12
    have := z_bnd r12
    have := z_bnd w10
    have := z_bnd r11
    have := z_bnd w5
    have := z_bnd w9
    have := z_bnd g11
    have := z_bnd a2
    have := z_bnd b
    have := z_bnd w8
    have := z_bnd l11
    have := z_bnd w12
    have := z_bnd w13
    have := z_bnd w14
    have := z_bnd w15
    have := zb_bnd c15
    have := zb_bnd c14
    have := zb_bnd c9
    have := zb_bnd c8
    have := zb_bnd c10
    have := zb_bnd c13
    have := zb_bnd c12
    omega
  xstep
  xstep
  rw [hdi_24] at hs
  xstep
  have e16 := mul_specZ a3 b
  have hg16 := mulHi_le a3 b
  generalize mulLo a3 b = l16 at hs e16; generalize mulHi a3 b = g16 at hs e16 hg16; generalize (g16 != 0) = z16 at hs
  xstep
  have e17 := addW_specZ w13 l16 false
  simp only [zb_false, add_zero, zero_add] at e17
  generalize addO w13 l16 false = o17 at hs
  generalize addW w13 l16 false = w17 at hs e17; generalize addC w13 l16 false = c17 at hs e17
  xstep
  have e18 := addW_specZ w14 g16 c17
  generalize addO w14 g16 c17 = o18 at hs
  generalize addW w14 g16 c17 = w18 at hs e18; generalize addC w14 g16 c17 = c18 at hs e18
  xstep
  have e19 := addW_specZ r13 w15 c18
  generalize addO r13 w15 c18 = o19 at hs
  generalize addW r13 w15 c18 = w19 at hs e19; generalize addC r13 w15 c18 = c19 at hs e19
  xstep
  xstep
  have e20 := addW_specZ (0 : UInt64) (0 : UInt64) c19
  simp only [z_zero, add_zero, zero_add] at e20
  generalize addO (0 : UInt64) (0 : UInt64) c19 = o20 at hs
  generalize addW (0 : UInt64) (0 : UInt64) c19 = w20 at hs e20; generalize addC (0 : UInt64) (0 : UInt64) c19 = c20 at hs e20
  have d20 : zb c20 = 0 := by
    clear * - e20 e19 e15 e14 e18 hg16 e17
    have := z_bnd r13
    have := z_bnd w15
    have := z_bnd r12
    have := z_bnd w10
    have := z_bnd w14
    have := z_bnd g16
    have := z_bnd a3
    have := z_bnd b
    have := z_bnd w13
    have := z_bnd l16
    have := z_bnd w17
    have := z_bnd w18
    have := z_bnd w19
    have := z_bnd w20
    have := zb_bnd c20
    have := zb_bnd c19
    have := zb_bnd c14
    have := zb_bnd c13
    have := zb_bnd c15
    have := zb_bnd c18
    have := zb_bnd c17
    omega
  xstep
  xstep
  rw [hdi_32] at hs
  xstep
  have e21 := mul_specZ a4 b
  have hg21 := mulHi_le a4 b
  generalize mulLo a4 b = l21 at hs e21; generalize mulHi a4 b = g21 at hs e21 hg21; generalize (g21 != 0) = z21 at hs
  xstep
  have e22 := addW_specZ w18 l21 false
  simp only [zb_false, add_zero, zero_add] at e22
  generalize addO w18 l21 false = o22 at hs
  generalize addW w18 l21 false = w22 at hs e22; generalize addC w18 l21 false = c22 at hs e22
  xstep
  have e23 := addW_specZ w19 g21 c22
  generalize addO w19 g21 c22 = o23 at hs
  generalize addW w19 g21 c22 = w23 at hs e23; generalize addC w19 g21 c22 = c23 at hs e23
  xstep
  have e24 := addW_specZ w20 (0 : UInt64) c23
  simp only [z_zero, add_zero, zero_add] at e24
  generalize addO w20 (0 : UInt64) c23 = o24 at hs
  generalize addW w20 (0 : UInt64) c23 = w24 at hs e24; generalize addC w20 (0 : UInt64) c23 = c24 at hs e24
  have d24 : zb c24 = 0 := by
    clear * - e24 e20 e19 e15 e18 e23 hg21 e22
    have := z_bnd w20
    have := z_bnd r13
    have := z_bnd w15
    have := z_bnd w14
    have := z_bnd g16
    have := z_bnd w18
    have := z_bnd w19
    have := z_bnd g21
    have := z_bnd a4
    have := z_bnd b
    have := z_bnd l21
    have := z_bnd w22
    have := z_bnd w23
    have := z_bnd w24
    have := zb_bnd c24
    have := zb_bnd c19
    have := zb_bnd c14
    have := zb_bnd c15
    have := zb_bnd c18
    have := zb_bnd c17
    have := zb_bnd c20
    have := zb_bnd c23
    have := zb_bnd c22
    omega
  xstep
  xstep
  rw [hdi_40] at hs
  xstep
  have e25 := mul_specZ a5 b
  have hg25 := mulHi_le a5 b
  generalize mulLo a5 b = l25 at hs e25; generalize mulHi a5 b = g25 at hs e25 hg25; generalize (g25 != 0) = z25 at hs
  xstep
  have e26 := addW_specZ w23 l25 false
  simp only [zb_false, add_zero, zero_add] at e26
  generalize addO w23 l25 false = o26 at hs
  generalize addW w23 l25 false = w26 at hs e26; generalize addC w23 l25 false = c26 at hs e26
  xstep
  have e27 := addW_specZ w24 g25 c26
  generalize addO w24 g25 c26 = o27 at hs
  generalize addW w24 g25 c26 = w27 at hs e27; generalize addC w24 g25 c26 = c27 at hs e27
  xstep
  xstep
  rw [run_nil] at hs
  refine ⟨l25, w27, g25, w7, w12, w17, w22, w26, w2, c27, o27, hs.symm, ?_⟩
  have key : z w2 + 2 ^ 64 * z w7 + 2 ^ 128 * z w12 + 2 ^ 192 * z w17 + 2 ^ 256 * z w22 + 2 ^ 320 * z w26 + 2 ^ 384 * z w27 + 2 ^ 448 * zb c27 = z r8 + 2 ^ 64 * z r9 + 2 ^ 128 * z r10 + 2 ^ 192 * z r11 + 2 ^ 256 * z r12 + 2 ^ 320 * z r13 + z b * (z a0 + 2 ^ 64 * z a1 + 2 ^ 128 * z a2 + 2 ^ 192 * z a3 + 2 ^ 256 * z a4 + 2 ^ 320 * z a5) := by
    linear_combination e1 + e2 + 2 ^ 64 * e3 + 2 ^ 128 * e4 + 2 ^ 192 * e5 + 2 ^ 64 * e6 + 2 ^ 64 * e7 + 2 ^ 128 * e8 + 2 ^ 192 * e9 + 2 ^ 256 * e10 + 2 ^ 128 * e11 + 2 ^ 128 * e12 + 2 ^ 192 * e13 + 2 ^ 256 * e14 + 2 ^ 320 * e15 + 2 ^ 192 * e16 + 2 ^ 192 * e17 + 2 ^ 256 * e18 + 2 ^ 320 * e19 + 2 ^ 384 * e20 + 2 ^ 256 * e21 + 2 ^ 256 * e22 + 2 ^ 320 * e23 + 2 ^ 384 * e24 + 2 ^ 320 * e25 + 2 ^ 320 * e26 + 2 ^ 384 * e27 - 2 ^ 256 * d5 - 2 ^ 320 * d10 - 2 ^ 384 * d15 - 2 ^ 448 * d20 - 2 ^ 448 * d24
  clear * - key
  have := z_bnd w2
  have := z_bnd w7
  have := z_bnd w12
  have := z_bnd w17
  have := z_bnd w22
  have := z_bnd w26
  have := z_bnd w27
  have := z_bnd r8
  have := z_bnd r9
  have := z_bnd r10
  have := z_bnd r11
  have := z_bnd r12
  have := z_bnd r13
  have := zb_bnd c27
  have := z_mul_le b a0
  have := z_mul_le b a1
  have := z_mul_le b a2
  have := z_mul_le b a3
  have := z_mul_le b a4
  have := z_mul_le b a5
  rw [mul_sum6] at key ⊢
  generalize z b * z a0 = p0 at *
  generalize z b * z a1 = p1 at *
  generalize z b * z a2 = p2 at *
  generalize z b * z a3 = p3 at *
  generalize z b * z a4 = p4 at *
  generalize z b * z a5 = p5 at *
  omega

/-- word 2 of `b` times `a`. -/
theorem noadxRow2_spec {ax bx cx dx si di r8 r9 r10 r11 r12 r13 r14 r15 s0 s1 s2 f0 f1 f2 : UInt64} {cf of : Bool} {mem : UInt64 → UInt64}
    {a0 a1 a2 a3 a4 a5 b : UInt64}
    (hdi_0 : mem (di + 0) = a0)
    (hdi_8 : mem (di + 8) = a1)
    (hdi_16 : mem (di + 16) = a2)
    (hdi_24 : mem (di + 24) = a3)
    (hdi_32 : mem (di + 32) = a4)
    (hdi_40 : mem (di + 40) = a5)
    (hsi_16 : mem (si + 16) = b) :
    ∃ ax' bx' dx' r8' r9' r10' r11' r12' s2' : UInt64, ∃ cf' of' : Bool,
      run noadxRow2 ⟨ax, bx, cx, dx, si, di, r8, r9, r10, r11, r12, r13, r14, r15, s0, s1, s2, f0, f1, f2, cf, of, mem⟩ =
      ⟨ax', bx', b, dx', si, di, r8', r9', r10', r11', r12', bx', r14, r15, s0, s1, s2', f0, f1, f2, cf', of', mem⟩ ∧
      z s2' + 2 ^ 64 * z r8' + 2 ^ 128 * z r9' + 2 ^ 192 * z r10' + 2 ^ 256 * z r11' + 2 ^ 320 * z r12' + 2 ^ 384 * z bx' =
        z r8 + 2 ^ 64 * z r9 + 2 ^ 128 * z r10 + 2 ^ 192 * z r11 + 2 ^ 256 * z r12 + 2 ^ 320 * z r13 + z b * (z a0 + 2 ^ 64 * z a1 + 2 ^ 128 * z a2 + 2 ^ 192 * z a3 + 2 ^ 256 * z a4 + 2 ^ 320 * z a5) := by
  generalize hs : run noadxRow2 _ = s
  unfold noadxRow2 at hs
  xstep
  rw [hsi_16] at hs
  xstep
  xstep
  rw [hdi_0] at hs
  xstep
  have e1 := mul_specZ a0 b
  have hg1 := mulHi_le a0 b
  generalize mulLo a0 b = l1 at hs e1; generalize mulHi a0 b = g1 at hs e1 hg1; generalize (g1 != 0) = z1 at hs
  xstep
  have e2 := addW_specZ r8 l1 false
  simp only [zb_false, add_zero, zero_add] at e2
  generalize addO r8 l1 false = o2 at hs
  generalize addW r8 l1 false = w2 at hs e2; generalize addC r8 l1 false = c2 at hs e2
  xstep
  have e3 := addW_specZ r9 g1 c2
  generalize addO r9 g1 c2 = o3 at hs
  generalize addW r9 g1 c2 = w3 at hs e3; generalize addC r9 g1 c2 = c3 at hs e3
  xstep
  have e4 := addW_specZ r10 (0 : UInt64) c3
  simp only [z_zero, add_zero, zero_add] at e4
  generalize addO r10 (0 : UInt64) c3 = o4 at hs
  generalize addW r10 (0 : UInt64) c3 = w4 at hs e4; generalize addC r10 (0 : UInt64) c3 = c4 at hs e4
  xstep
  have e5 := addW_specZ (0 : UInt64) (0 : UInt64) c4
  simp only [z_zero, add_zero, zero_add] at e5
  generalize addO (0 : UInt64) (0 : UInt64) c4 = o5 at hs
  generalize addW (0 : UInt64) (0 : UInt64) c4 = w5 at hs e5; generalize addC (0 : UInt64) (0 : UInt64) c4 = c5 at hs e5
  have d5 : zb c5 = 0 := by
    clear * - e5 e4 e3 hg1 e2
    have := z_bnd r10
    have := z_bnd r9
    have := z_bnd g1
    have := z_bnd a0
    have := z_bnd b
    have := z_bnd r8
    have := z_bnd l1
    have := z_bnd w2
    have := z_bnd w3
    have := z_bnd w4
    have := z_bnd w5
    have := zb_bnd c5
    have := zb_bnd c4
    have := zb_bnd c3
    have := zb_bnd c2
    omega
  xstep
  xstep
  rw [hdi_8] at hs
  xstep
  have e6 := mul_specZ a1 b
  have hg6 := mulHi_le a1 b
  generalize mulLo a1 b = l6 at hs e6; generalize mulHi a1 b = g6 at hs e6 hg6; generalize (g6 != 0) = z6 at hs
  xstep
  have e7 := addW_specZ w3 l6 false
  simp only [zb_false, add_zero, zero_add] at e7
  generalize addO w3 l6 false = o7 at hs
  generalize addW w3 l6 false = w7 at hs e7; generalize addC w3 l6 false = c7 at hs e7
  xstep
  have e8 := addW_specZ w4 g6 c7
  generalize addO w4 g6 c7 = o8 at hs
  generalize addW w4 g6 c7 = w8 at hs e8; generalize addC w4 g6 c7 = c8 at hs e8
  xstep
  have e9 := addW_specZ r11 w5 c8
  generalize addO r11 w5 c8 = o9 at hs
  generalize addW r11 w5 c8 = w9 at hs e9; generalize addC r11 w5 c8 = c9 at hs e9
  xstep
  xstep
  have e10 := addW_specZ (0 : UInt64) (0 : UInt64) c9
  simp only [z_zero, add_zero, zero_add] at e10
  generalize addO (0 : UInt64) (0 : UInt64) c9 = o10 at hs
  generalize addW (0 : UInt64) (0 : UInt64) c9 = w10 at hs e10; generalize addC (0 : UInt64) (0 : UInt64) c9 = c10 at hs e10
  have d10 : zb c10 = 0 := by
    clear * - e10 e9 e5 e4 e8 hg6 e7
    have := z_bnd r11
    have := z_bnd w5
    have := z_bnd r10
    have := z_bnd w4
    have := z_bnd g6
    have := z_bnd a1
    have := z_bnd b
    have := z_bnd w3
    have := z_bnd l6
    have := z_bnd w7
    have := z_bnd w8
    have := z_bnd w9
    have := z_bnd w10
    have := zb_bnd c10
    have := zb_bnd c9
    have := zb_bnd c4
    have := zb_bnd c3
    have := zb_bnd c5
    have := zb_bnd c8
    have := zb_bnd c7
    omega
  xstep
  xstep
  rw [hdi_16] at hs
  xstep
  have e11 := mul_specZ a2 b
  have hg11 := mulHi_le a2 b
  generalize mulLo a2 b = l11 at hs e11; generalize mulHi a2 b = g11 at hs e11 hg11; generalize (g11 != 0) = z11 at hs
  xstep
  have e12 := addW_specZ w8 l11 false
  simp only [zb_false, add_zero, zero_add] at e12
  generalize addO w8 l11 false = o12 at hs
  generalize addW w8 l11 false = w12 at hs e12; generalize addC w8 l11 false = c12 at hs e12
  xstep
  have e13 := addW_specZ w9 g11 c12
  generalize addO w9 g11 c12 = o13 at hs
  generalize addW w9 g11 c12 = w13 at hs e13; generalize addC w9 g11 c12 = c13 at hs e13
  xstep
  have e14 := addW_specZ r12 w10 c13
  generalize addO r12 w10 c13 = o14 at hs
  generalize addW r12 w10 c13 = w14 at hs e14; generalize addC r12 w10 c13 = c14 at hs e14
  xstep
  xstep
  have e15 := addW_specZ (0 : UInt64) (0 : UInt64) c14
  simp only [z_zero, add_zero, zero_add] at e15
  generalize addO (0 : UInt64) (0 : UInt64) c14 = o15 at hs
  generalize addW (0 : UInt64) (0 : UInt64) c14 = w15 at hs e15; generalize addC (0 : UInt64) (0 : UInt64) c14 = c15 at hs e15
  have d15 : zb c15 = 0 := by
    clear * - e15 e14 e10 e9 e13 hg11 e12
    have := z_bnd r12
    have := z_bnd w10
    have := z_bnd r11
    have := z_bnd w5
    have := z_bnd w9
    have := z_bnd g11
    have := z_bnd a2
    have := z_bnd b
    have := z_bnd w8
    have := z_bnd l11
    have := z_bnd w12
    have := z_bnd w13
    have := z_bnd w14
    have := z_bnd w15
    have := zb_bnd c15
    have := zb_bnd c14
    have := zb_bnd c9
    have := zb_bnd c8
    have := zb_bnd c10
    have := zb_bnd c13
    have := zb_bnd c12
    omega
  xstep
  xstep
  rw [hdi_24] at hs
  xstep
  have e16 := mul_specZ a3 b
  have hg16 := mulHi_le a3 b
  generalize mulLo a3 b = l16 at hs e16; generalize mulHi a3 b = g16 at hs e16 hg16; generalize (g16 != 0) = z16 at hs
  xstep
  have e17 := addW_specZ w13 l16 false
  simp only [zb_false, add_zero, zero_add] at e17
  generalize addO w13 l16 false = o17 at hs
  generalize addW w13 l16 false = w17 at hs e17; generalize addC w13 l16 false = c17 at hs e17
  xstep
  have e18 := addW_specZ w14 g16 c17
  generalize addO w14 g16 c17 = o18 at hs
  generalize addW w14 g16 c17 = w18 at hs e18; generalize addC w14 g16 c17 = c18 at hs e18
  xstep
  have e19 := addW_specZ r13 w15 c18
  generalize addO r13 w15 c18 = o19 at hs
  generalize addW r13 w15 c18 = w19 at hs e19; generalize addC r13 w15 c18 = c19 at hs e19
  xstep
  xstep
  have e20 := addW_specZ (0 : UInt64) (0 : UInt64) c19
  simp only [z_zero, add_zero, zero_add] at e20
  generalize addO (0 : UInt64) (0 : UInt64) c19 = o20 at hs
  generalize addW (0 : UInt64) (0 : UInt64) c19 = w20 at hs e20; generalize addC (0 : UInt64) (0 : UInt64) c19 = c20 at hs e20
  have d20 : zb c20 = 0 := by
    clear * - e20 e19 e15 e14 e18 hg16 e17
    have := z_bnd r13
    have := z_bnd w15
    have := z_bnd r12
    have := z_bnd w10
    have := z_bnd w14
    have := z_bnd g16
    have := z_bnd a3
    have := z_bnd b
    have := z_bnd w13
    have := z_bnd l16
    have := z_bnd w17
    have := z_bnd w18
    have := z_bnd w19
    have := z_bnd w20
    have := zb_bnd c20
    have := zb_bnd c19
    have := zb_bnd c14
    have := zb_bnd c13
    have := zb_bnd c15
    have := zb_bnd c18
    have := zb_bnd c17
    omega
  xstep
  xstep
  rw [hdi_32] at hs
  xstep
  have e21 := mul_specZ a4 b
  have hg21 := mulHi_le a4 b
  generalize mulLo a4 b = l21 at hs e21; generalize mulHi a4 b = g21 at hs e21 hg21; generalize (g21 != 0) = z21 at hs
  xstep
  have e22 := addW_specZ w18 l21 false
  simp only [zb_false, add_zero, zero_add] at e22
  generalize addO w18 l21 false = o22 at hs
  generalize addW w18 l21 false = w22 at hs e22; generalize addC w18 l21 false = c22 at hs e22
  xstep
  have e23 := addW_specZ w19 g21 c22
  generalize addO w19 g21 c22 = o23 at hs
  generalize addW w19 g21 c22 = w23 at hs e23; generalize addC w19 g21 c22 = c23 at hs e23
  xstep
  have e24 := addW_specZ w20 (0 : UInt64) c23
  simp only [z_zero, add_zero, zero_add] at e24
  generalize addO w20 (0 : UInt64) c23 = o24 at hs
  generalize addW w20 (0 : UInt64) c23 = w24 at hs e24; generalize addC w20 (0 : UInt64) c23 = c24 at hs e24
  have d24 : zb c24 = 0 := by
    clear * - e24 e20 e19 e15 e18 e23 hg21 e22
    have := z_bnd w20
    have := z_bnd r13
    have := z_bnd w15
    have := z_bnd w14
    have := z_bnd g16
    have := z_bnd w18
    have := z_bnd w19
    have := z_bnd g21
    have := z_bnd a4
    have := z_bnd b
    have := z_bnd l21
    have := z_bnd w22
    have := z_bnd w23
    have := z_bnd w24
    have := zb_bnd c24
    have := zb_bnd c19
    have := zb_bnd c14
    have := zb_bnd c15
    have := zb_bnd c18
    have := zb_bnd c17
    have := zb_bnd c20
    have := zb_bnd c23
    have := zb_bnd c22
    omega
  xstep
  xstep
  rw [hdi_40] at hs
  xstep
  have e25 := mul_specZ a5 b
  have hg25 := mulHi_le a5 b
  generalize mulLo a5 b = l25 at hs e25; generalize mulHi a5 b = g25 at hs e25 hg25; generalize (g25 != 0) = z25 at hs
  xstep
  have e26 := addW_specZ w23 l25 false
  simp only [zb_false, add_zero, zero_add] at e26
  generalize addO w23 l25 false = o26 at hs
  generalize addW w23 l25 false = w26 at hs e26; generalize addC w23 l25 false = c26 at hs e26
  xstep
  have e27 := addW_specZ w24 g25 c26
  generalize addO w24 g25 c26 = o27 at hs
  generalize addW w24 g25 c26 = w27 at hs e27; generalize addC w24 g25 c26 = c27 at hs e27
  xstep
  xstep
  rw [run_nil] at hs
  refine ⟨l25, w27, g25, w7, w12, w17, w22, w26, w2, c27, o27, hs.symm, ?_⟩
  have key : z w2 + 2 ^ 64 * z w7 + 2 ^ 128 * z w12 + 2 ^ 192 * z w17 + 2 ^ 256 * z w22 + 2 ^ 320 * z w26 + 2 ^ 384 * z w27 + 2 ^ 448 * zb c27 = z r8 + 2 ^ 64 * z r9 + 2 ^ 128 * z r10 + 2 ^ 192 * z r11 + 2 ^ 256 * z r12 + 2 ^ 320 * z r13 + z b * (z a0 + 2 ^ 64 * z a1 + 2 ^ 128 * z a2 + 2 ^ 192 * z a3 + 2 ^ 256 * z a4 + 2 ^ 320 * z a5) := by
    linear_combination e1 + e2 + 2 ^ 64 * e3 + 2 ^ 128 * e4 + 2 ^ 192 * e5 + 2 ^ 64 * e6 + 2 ^ 64 * e7 + 2 ^ 128 * e8 + 2 ^ 192 * e9 + 2 ^ 256 * e10 + 2 ^ 128 * e11 + 2 ^ 128 * e12 + 2 ^ 192 * e13 + 2 ^ 256 * e14 + 2 ^ 320 * e15 + 2 ^ 192 * e16 + 2 ^ 192 * e17 + 2 ^ 256 * e18 + 2 ^ 320 * e19 + 2 ^ 384 * e20 + 2 ^ 256 * e21 + 2 ^ 256 * e22 + 2 ^ 320 * e23 + 2 ^ 384 * e24 + 2 ^ 320 * e25 + 2 ^ 320 * e26 + 2 ^ 384 * e27 - 2 ^ 256 * d5 - 2 ^ 320 * d10 - 2 ^ 384 * d15 - 2 ^ 448 * d20 - 2 ^ 448 * d24
  clear * - key
  have := z_bnd w2
  have := z_bnd w7
  have := z_bnd w12
  have := z_bnd w17
  have := z_bnd w22
  have := z_bnd w26
  have := z_bnd w27
  have := z_bnd r8
  have := z_bnd r9
  have := z_bnd r10
  have := z_bnd r11
  have := z_bnd r12
  have := z_bnd r13
  have := zb_bnd c27
  have := z_mul_le b a0
  have := z_mul_le b a1
  have := z_mul_le b a2
  have := z_mul_le b a3
  have := z_mul_le b a4
  have := z_mul_le b a5
  rw [mul_sum6] at key ⊢
  generalize z b * z a0 = p0 at *
  generalize z b * z a1 = p1 at *
  generalize z b * z a2 = p2 at *
  generalize z b * z a3 = p3 at *
  generalize z b * z a4 = p4 at *
  generalize z b * z a5 = p5 at *
  omega

/-- word 3 of `b` times `a`. -/
theorem noadxRow3_spec {ax bx cx dx si di r8 r9 r10 r11 r12 r13 r14 r15 s0 s1 s2 f0 f1 f2 : UInt64} {cf of : Bool} {mem : UInt64 → UInt64}
    {a0 a1 a2 a3 a4 a5 b : UInt64}
    (hdi_0 : mem (di + 0) = a0)
    (hdi_8 : mem (di + 8) = a1)
    (hdi_16 : mem (di + 16) = a2)
    (hdi_24 : mem (di + 24) = a3)
    (hdi_32 : mem (di + 32) = a4)
    (hdi_40 : mem (di + 40) = a5)
    (hsi_24 : mem (si + 24) = b) :
    ∃ ax' bx' dx' r8' r9' r10' r11' r12' r14' : UInt64, ∃ cf' of' : Bool,
      run noadxRow3 ⟨ax, bx, cx, dx, si, di, r8, r9, r10, r11, r12, r13, r14, r15, s0, s1, s2, f0, f1, f2, cf, of, mem⟩ =
      ⟨ax', bx', b, dx', si, di, r8', r9', r10', r11', r12', bx', r14', r15, s0, s1, s2, f0, f1, f2, cf', of', mem⟩ ∧
      z r14' + 2 ^ 64 * z r8' + 2 ^ 128 * z r9' + 2 ^ 192 * z r10' + 2 ^ 256 * z r11' + 2 ^ 320 * z r12' + 2 ^ 384 * z bx' =
        z r8 + 2 ^ 64 * z r9 + 2 ^ 128 * z r10 + 2 ^ 192 * z r11 + 2 ^ 256 * z r12 + 2 ^ 320 * z r13 + z b * (z a0 + 2 ^ 64 * z a1 + 2 ^ 128 * z a2 + 2 ^ 192 * z a3 + 2 ^ 256 * z a4 + 2 ^ 320 * z a5) := by
  generalize hs : run noadxRow3 _ = s
  unfold noadxRow3 at hs
  xstep
  rw [hsi_24] at hs
  xstep
  xstep
  rw [hdi_0] at hs
  xstep
  have e1 := mul_specZ a0 b
  have hg1 := mulHi_le a0 b
  generalize mulLo a0 b = l1 at hs e1; generalize mulHi a0 b = g1 at hs e1 hg1; generalize (g1 != 0) = z1 at hs
  xstep
  have e2 := addW_specZ r8 l1 false
  simp only [zb_false, add_zero, zero_add] at e2
  generalize addO r8 l1 false = o2 at hs
  generalize addW r8 l1 false = w2 at hs e2; generalize addC r8 l1 false = c2 at hs e2
  xstep
  have e3 := addW_specZ r9 g1 c2
  generalize addO r9 g1 c2 = o3 at hs
  generalize addW r9 g1 c2 = w3 at hs e3; generalize addC r9 g1 c2 = c3 at hs e3
  xstep
  have e4 := addW_specZ r10 (0 : UInt64) c3
  simp only [z_zero, add_zero, zero_add] at e4
  generalize addO r10 (0 : UInt64) c3 = o4 at hs
  generalize addW r10 (0 : UInt64) c3 = w4 at hs e4; generalize addC r10 (0 : UInt64) c3 = c4 at hs e4
  xstep
  have e5 := addW_specZ (0 : UInt64) (0 : UInt64) c4
  simp only [z_zero, add_zero, zero_add] at e5
  generalize addO (0 : UInt64) (0 : UInt64) c4 = o5 at hs
  generalize addW (0 : UInt64) (0 : UInt64) c4 = w5 at hs e5; generalize addC (0 : UInt64) (0 : UInt64) c4 = c5 at hs e5
  have d5 : zb c5 = 0 := by
    clear * - e5 e4 e3 hg1 e2
    have := z_bnd r10
    have := z_bnd r9
    have := z_bnd g1
    have := z_bnd a0
    have := z_bnd b
    have := z_bnd r8
    have := z_bnd l1
    have := z_bnd w2
    have := z_bnd w3
    have := z_bnd w4
    have := z_bnd w5
    have := zb_bnd c5
    have := zb_bnd c4
    have := zb_bnd c3
    have := zb_bnd c2
    omega
  xstep
  xstep
  rw [hdi_8] at hs
  xstep
  have e6 := mul_specZ a1 b
  have hg6 := mulHi_le a1 b
  generalize mulLo a1 b = l6 at hs e6; generalize mulHi a1 b = g6 at hs e6 hg6; generalize (g6 != 0) = z6 at hs
  xstep
  have e7 := addW_specZ w3 l6 false
  simp only [zb_false, add_zero, zero_add] at e7
  generalize addO w3 l6 false = o7 at hs
  generalize addW w3 l6 false = w7 at hs e7; generalize addC w3 l6 false = c7 at hs e7
  xstep
  have e8 := addW_specZ w4 g6 c7
  generalize addO w4 g6 c7 = o8 at hs
  generalize addW w4 g6 c7 = w8 at hs e8; generalize addC w4 g6 c7 = c8 at hs e8
  xstep
  have e9 := addW_specZ r11 w5 c8
  generalize addO r11 w5 c8 = o9 at hs
  generalize addW r11 w5 c8 = w9 at hs e9; generalize addC r11 w5 c8 = c9 at hs e9
  xstep
  xstep
  have e10 := addW_specZ (0 : UInt64) (0 : UInt64) c9
  simp only [z_zero, add_zero, zero_add] at e10
  generalize addO (0 : UInt64) (0 : UInt64) c9 = o10 at hs
  generalize addW (0 : UInt64) (0 : UInt64) c9 = w10 at hs e10; generalize addC (0 : UInt64) (0 : UInt64) c9 = c10 at hs e10
  have d10 : zb c10 = 0 := by
    clear * - e10 e9 e5 e4 e8 hg6 e7
    have := z_bnd r11
    have := z_bnd w5
    have := z_bnd r10
    have := z_bnd w4
    have := z_bnd g6
    have := z_bnd a1
    have := z_bnd b
    have := z_bnd w3
    have := z_bnd l6
    have := z_bnd w7
    have := z_bnd w8
    have := z_bnd w9
    have := z_bnd w10
    have := zb_bnd c10
    have := zb_bnd c9
    have := zb_bnd c4
    have := zb_bnd c3
    have := zb_bnd c5
    have := zb_bnd c8
    have := zb_bnd c7
    omega
  xstep
  xstep
  rw [hdi_16] at hs
  xstep
  have e11 := mul_specZ a2 b
  have hg11 := mulHi_le a2 b
  generalize mulLo a2 b = l11 at hs e11; generalize mulHi a2 b = g11 at hs e11 hg11; generalize (g11 != 0) = z11 at hs
  xstep
  have e12 := addW_specZ w8 l11 false
  simp only [zb_false, add_zero, zero_add] at e12
  generalize addO w8 l11 false = o12 at hs
  generalize addW w8 l11 false = w12 at hs e12; generalize addC w8 l11 false = c12 at hs e12
  xstep
  have e13 := addW_specZ w9 g11 c12
  generalize addO w9 g11 c12 = o13 at hs
  generalize addW w9 g11 c12 = w13 at hs e13; generalize addC w9 g11 c12 = c13 at hs e13
  xstep
  have e14 := addW_specZ r12 w10 c13
  generalize addO r12 w10 c13 = o14 at hs
  generalize addW r12 w10 c13 = w14 at hs e14; generalize addC r12 w10 c13 = c14 at hs e14
  xstep
  xstep
  have e15 := addW_specZ (0 : UInt64) (0 : UInt64) c14
  simp only [z_zero, add_zero, zero_add] at e15
  generalize addO (0 : UInt64) (0 : UInt64) c14 = o15 at hs
  generalize addW (0 : UInt64) (0 : UInt64) c14 = w15 at hs e15; generalize addC (0 : UInt64) (0 : UInt64) c14 = c15 at hs e15
  have d15 : zb c15 = 0 := by
    clear * - e15 e14 e10 e9 e13 hg11 e12
    have := z_bnd r12
    have := z_bnd w10
    have := z_bnd r11
    have := z_bnd w5
    have := z_bnd w9
    have := z_bnd g11
    have := z_bnd a2
    have := z_bnd b
    have := z_bnd w8
    have := z_bnd l11
    have := z_bnd w12
    have := z_bnd w13
    have := z_bnd w14
    have := z_bnd w15
    have := zb_bnd c15
    have := zb_bnd c14
    have := zb_bnd c9
    have := zb_bnd c8
    have := zb_bnd c10
    have := zb_bnd c13
    have := zb_bnd c12
    omega
  xstep
  xstep
  rw [hdi_24] at hs
  xstep
  have e16 := mul_specZ a3 b
  have hg16 := mulHi_le a3 b
  generalize mulLo a3 b = l16 at hs e16; generalize mulHi a3 b = g16 at hs e16 hg16; generalize (g16 != 0) = z16 at hs
  xstep
  have e17 := addW_specZ w13 l16 false
  simp only [zb_false, add_zero, zero_add] at e17
  generalize addO w13 l16 false = o17 at hs
  generalize addW w13 l16 false = w17 at hs e17; generalize addC w13 l16 false = c17 at hs e17
  xstep
  have e18 := addW_specZ w14 g16 c17
  generalize addO w14 g16 c17 = o18 at hs
  generalize addW w14 g16 c17 = w18 at hs e18; generalize addC w14 g16 c17 = c18 at hs e18
  xstep
  have e19 := addW_specZ r13 w15 c18
  generalize addO r13 w15 c18 = o19 at hs
  generalize addW r13 w15 c18 = w19 at hs e19; generalize addC r13 w15 c18 = c19 at hs e19
  xstep
  xstep
  have e20 := addW_specZ (0 : UInt64) (0 : UInt64) c19
  simp only [z_zero, add_zero, zero_add] at e20
  generalize addO (0 : UInt64) (0 : UInt64) c19 = o20 at hs
  generalize addW (0 : UInt64) (0 : UInt64) c19 = w20 at hs e20; generalize addC (0 : UInt64) (0 : UInt64) c19 = c20 at hs e20
  have d20 : zb c20 = 0 := by
    clear * - e20 e19 e15 e14 e18 hg16 e17
    have := z_bnd r13
    have := z_bnd w15
    have := z_bnd r12
    have := z_bnd w10
    have := z_bnd w14
    have := z_bnd g16
    have := z_bnd a3
    have := z_bnd b
    have := z_bnd w13
    have := z_bnd l16
    have := z_bnd w17
    have := z_bnd w18
    have := z_bnd w19
    have := z_bnd w20
    have := zb_bnd c20
    have := zb_bnd c19
    have := zb_bnd c14
    have := zb_bnd c13
    have := zb_bnd c15
    have := zb_bnd c18
    have := zb_bnd c17
    omega
  xstep
  xstep
  rw [hdi_32] at hs
  xstep
  have e21 := mul_specZ a4 b
  have hg21 := mulHi_le a4 b
  generalize mulLo a4 b = l21 at hs e21; generalize mulHi a4 b = g21 at hs e21 hg21; generalize (g21 != 0) = z21 at hs
  xstep
  have e22 := addW_specZ w18 l21 false
  simp only [zb_false, add_zero, zero_add] at e22
  generalize addO w18 l21 false = o22 at hs
  generalize addW w18 l21 false = w22 at hs e22; generalize addC w18 l21 false = c22 at hs e22
  xstep
  have e23 := addW_specZ w19 g21 c22
  generalize addO w19 g21 c22 = o23 at hs
  generalize addW w19 g21 c22 = w23 at hs e23; generalize addC w19 g21 c22 = c23 at hs e23
  xstep
  have e24 := addW_specZ w20 (0 : UInt64) c23
  simp only [z_zero, add_zero, zero_add] at e24
  generalize addO w20 (0 : UInt64) c23 = o24 at hs
  generalize addW w20 (0 : UInt64) c23 = w24 at hs e24; generalize addC w20 (0 : UInt64) c23 = c24 at hs e24
  have d24 : zb c24 = 0 := by
    clear * - e24 e20 e19 e15 e18 e23 hg21 e22
    have := z_bnd w20
    have := z_bnd r13
    have := z_bnd w15
    have := z_bnd w14
    have := z_bnd g16
    have := z_bnd w18
    have := z_bnd w19
    have := z_bnd g21
    have := z_bnd a4
    have := z_bnd b
    have := z_bnd l21
    have := z_bnd w22
    have := z_bnd w23
    have := z_bnd w24
    have := zb_bnd c24
    have := zb_bnd c19
    have := zb_bnd c14
    have := zb_bnd c15
    have := zb_bnd c18
    have := zb_bnd c17
    have := zb_bnd c20
    have := zb_bnd c23
    have := zb_bnd c22
    omega
  xstep
  xstep
  rw [hdi_40] at hs
  xstep
  have e25 := mul_specZ a5 b
  have hg25 := mulHi_le a5 b
  generalize mulLo a5 b = l25 at hs e25; generalize mulHi a5 b = g25 at hs e25 hg25; generalize (g25 != 0) = z25 at hs
  xstep
  have e26 := addW_specZ w23 l25 false
  simp only [zb_false, add_zero, zero_add] at e26
  generalize addO w23 l25 false = o26 at hs
  generalize addW w23 l25 false = w26 at hs e26; generalize addC w23 l25 false = c26 at hs e26
  xstep
  have e27 := addW_specZ w24 g25 c26
  generalize addO w24 g25 c26 = o27 at hs
  generalize addW w24 g25 c26 = w27 at hs e27; generalize addC w24 g25 c26 = c27 at hs e27
  xstep
  xstep
  rw [run_nil] at hs
  refine ⟨l25, w27, g25, w7, w12, w17, w22, w26, w2, c27, o27, hs.symm, ?_⟩
  have key : z w2 + 2 ^ 64 * z w7 + 2 ^ 128 * z w12 + 2 ^ 192 * z w17 + 2 ^ 256 * z w22 + 2 ^ 320 * z w26 + 2 ^ 384 * z w27 + 2 ^ 448 * zb c27 = z r8 + 2 ^ 64 * z r9 + 2 ^ 128 * z r10 + 2 ^ 192 * z r11 + 2 ^ 256 * z r12 + 2 ^ 320 * z r13 + z b * (z a0 + 2 ^ 64 * z a1 + 2 ^ 128 * z a2 + 2 ^ 192 * z a3 + 2 ^ 256 * z a4 + 2 ^ 320 * z a5) := by
    linear_combination e1 + e2 + 2 ^ 64 * e3 + 2 ^ 128 * e4 + 2 ^ 192 * e5 + 2 ^ 64 * e6 + 2 ^ 64 * e7 + 2 ^ 128 * e8 + 2 ^ 192 * e9 + 2 ^ 256 * e10 + 2 ^ 128 * e11 + 2 ^ 128 * e12 + 2 ^ 192 * e13 + 2 ^ 256 * e14 + 2 ^ 320 * e15 + 2 ^ 192 * e16 + 2 ^ 192 * e17 + 2 ^ 256 * e18 + 2 ^ 320 * e19 + 2 ^ 384 * e20 + 2 ^ 256 * e21 + 2 ^ 256 * e22 + 2 ^ 320 * e23 + 2 ^ 384 * e24 + 2 ^ 320 * e25 + 2 ^ 320 * e26 + 2 ^ 384 * e27 - 2 ^ 256 * d5 - 2 ^ 320 * d10 - 2 ^ 384 * d15 - 2 ^ 448 * d20 - 2 ^ 448 * d24
  clear * - key
  have := z_bnd w2
  have := z_bnd w7
  have := z_bnd w12
  have := z_bnd w17
  have := z_bnd w22
  have := z_bnd w26
  have := z_bnd w27
  have := z_bnd r8
  have := z_bnd r9
  have := z_bnd r10
  have := z_bnd r11
  have := z_bnd r12
  have := z_bnd r13
  have := zb_bnd c27
  have := z_mul_le b a0
  have := z_mul_le b a1
  have := z_mul_le b a2
  have := z_mul_le b a3
  have := z_mul_le b a4
  have := z_mul_le b a5
  rw [mul_sum6] at key ⊢
  generalize z b * z a0 = p0 at *
  generalize z b * z a1 = p1 at *
  generalize z b * z a2 = p2 at *
  generalize z b * z a3 = p3 at *
  generalize z b * z a4 = p4 at *
  generalize z b * z a5 = p5 at *
  omega

/-- word 4 of `b` times `a`. -/
theorem noadxRow4_spec {ax bx cx dx si di r8 r9 r10 r11 r12 r13 r14 r15 s0 s1 s2 f0 f1 f2 : UInt64} {cf of : Bool} {mem : UInt64 → UInt64}
    {a0 a1 a2 a3 a4 a5 b : UInt64}
    (hdi_0 : mem (di + 0) = a0)
    (hdi_8 : mem (di + 8) = a1)
    (hdi_16 : mem (di + 16) = a2)
    (hdi_24 : mem (di + 24) = a3)
    (hdi_32 : mem (di + 32) = a4)
    (hdi_40 : mem (di + 40) = a5)
    (hsi_32 : mem (si + 32) = b) :
    ∃ ax' bx' dx' r8' r9' r10' r11' r12' r15' : UInt64, ∃ cf' of' : Bool,
      run noadxRow4 ⟨ax, bx, cx, dx, si, di, r8, r9, r10, r11, r12, r13, r14, r15, s0, s1, s2, f0, f1, f2, cf, of, mem⟩ =
      ⟨ax', bx', b, dx', si, di, r8', r9', r10', r11', r12', bx', r14, r15', s0, s1, s2, f0, f1, f2, cf', of', mem⟩ ∧
      z r15' + 2 ^ 64 * z r8' + 2 ^ 128 * z r9' + 2 ^ 192 * z r10' + 2 ^ 256 * z r11' + 2 ^ 320 * z r12' + 2 ^ 384 * z bx' =
        z r8 + 2 ^ 64 * z r9 + 2 ^ 128 * z r10 + 2 ^ 192 * z r11 + 2 ^ 256 * z r12 + 2 ^ 320 * z r13 + z b * (z a0 + 2 ^ 64 * z a1 + 2 ^ 128 * z a2 + 2 ^ 192 * z a3 + 2 ^ 256 * z a4 + 2 ^ 320 * z a5) := by
  generalize hs : run noadxRow4 _ = s
  unfold noadxRow4 at hs
  xstep
  rw [hsi_32] at hs
  xstep
  xstep
  rw [hdi_0] at hs
  xstep
  have e1 := mul_specZ a0 b
  have hg1 := mulHi_le a0 b
  generalize mulLo a0 b = l1 at hs e1; generalize mulHi a0 b = g1 at hs e1 hg1; generalize (g1 != 0) = z1 at hs
  xstep
  have e2 := addW_specZ r8 l1 false
  simp only [zb_false, add_zero, zero_add] at e2
  generalize addO r8 l1 false = o2 at hs
  generalize addW r8 l1 false = w2 at hs e2; generalize addC r8 l1 false = c2 at hs e2
  xstep
  have e3 := addW_specZ r9 g1 c2
  generalize addO r9 g1 c2 = o3 at hs
  generalize addW r9 g1 c2 = w3 at hs e3; generalize addC r9 g1 c2 = c3 at hs e3
  xstep
  have e4 := addW_specZ r10 (0 : UInt64) c3
  simp only [z_zero, add_zero, zero_add] at e4
  generalize addO r10 (0 : UInt64) c3 = o4 at hs
  generalize addW r10 (0 : UInt64) c3 = w4 at hs e4; generalize addC r10 (0 : UInt64) c3 = c4 at hs e4
  xstep
  have e5 := addW_specZ (0 : UInt64) (0 : UInt64) c4
  simp only [z_zero, add_zero, zero_add] at e5
  generalize addO (0 : UInt64) (0 : UInt64) c4 = o5 at hs
  generalize addW (0 : UInt64) (0 : UInt64) c4 = w5 at hs e5; generalize addC (0 : UInt64) (0 : UInt64) c4 = c5 at hs e5
  have d5 : zb c5 = 0 := by
    clear * - e5 e4 e3 hg1 e2
    have := z_bnd r10
    have := z_bnd r9
    have := z_bnd g1
    have := z_bnd a0
    have := z_bnd b
    have := z_bnd r8
    have := z_bnd l1
    have := z_bnd w2
    have := z_bnd w3
    have := z_bnd w4
    have := z_bnd w5
    have := zb_bnd c5
    have := zb_bnd c4
    have := zb_bnd c3
    have := zb_bnd c2
    omega
  xstep
  xstep
  rw [hdi_8] at hs
  xstep
  have e6 := mul_specZ a1 b
  have hg6 := mulHi_le a1 b
  generalize mulLo a1 b = l6 at hs e6; generalize mulHi a1 b = g6 at hs e6 hg6; generalize (g6 != 0) = z6 at hs
  xstep
  have e7 := addW_specZ w3 l6 false
  simp only [zb_false, add_zero, zero_add] at e7
  generalize addO w3 l6 false = o7 at hs
  generalize addW w3 l6 false = w7 at hs e7; generalize addC w3 l6 false = c7 at hs e7
  xstep
  have e8 := addW_specZ w4 g6 c7
  generalize addO w4 g6 c7 = o8 at hs
  generalize addW w4 g6 c7 = w8 at hs e8; generalize addC w4 g6 c7 = c8 at hs e8
  xstep
  have e9 := addW_specZ r11 w5 c8
  generalize addO r11 w5 c8 = o9 at hs
  generalize addW r11 w5 c8 = w9 at hs e9; generalize addC r11 w5 c8 = c9 at hs e9
  xstep
  xstep
  have e10 := addW_specZ (0 : UInt64) (0 : UInt64) c9
  simp only [z_zero, add_zero, zero_add] at e10
  generalize addO (0 : UInt64) (0 : UInt64) c9 = o10 at hs
  generalize addW (0 : UInt64) (0 : UInt64) c9 = w10 at hs e10; generalize addC (0 : UInt64) (0 : UInt64) c9 = c10 at hs e10
  have d10 : zb c10 = 0 := by
    clear * - e10 e9 e5 e4 e8 hg6 e7
    have := z_bnd r11
    have := z_bnd w5
    have := z_bnd r10
    have := z_bnd w4
    have := z_bnd g6
    have := z_bnd a1
    have := z_bnd b
    have := z_bnd w3
    have := z_bnd l6
    have := z_bnd w7
    have := z_bnd w8
    have := z_bnd w9
    have := z_bnd w10
    have := zb_bnd c10
    have := zb_bnd c9
    have := zb_bnd c4
    have := zb_bnd c3
    have := zb_bnd c5
    have := zb_bnd c8
    have := zb_bnd c7
    omega
  xstep
  xstep
  rw [hdi_16] at hs
  xstep
  have e11 := mul_specZ a2 b
  have hg11 := mulHi_le a2 b
  generalize mulLo a2 b = l11 at hs e11; generalize mulHi a2 b = g11 at hs e11 hg11; generalize (g11 != 0) = z11 at hs
  xstep
  have e12 := addW_specZ w8 l11 false
  simp only [zb_false, add_zero, zero_add] at e12
  generalize addO w8 l11 false = o12 at hs
  generalize addW w8 l11 false = w12 at hs e12; generalize addC w8 l11 false = c12 at hs e12
  xstep
  have e13 := addW_specZ w9 g11 c12
  generalize addO w9 g11 c12 = o13 at hs
  generalize addW w9 g11 c12 = w13 at hs e13; generalize addC w9 g11 c12 = c13 at hs e13
  xstep
  have e14 := addW_specZ r12 w10 c13
  generalize addO r12 w10 c13 = o14 at hs
  generalize addW r12 w10 c13 = w14 at hs e14; generalize addC r12 w10 c13 = c14 at hs e14
  xstep
  xstep
  have e15 := addW_specZ (0 : UInt64) (0 : UInt64) c14
  simp only [z_zero, add_zero, zero_add] at e15
  generalize addO (0 : UInt64) (0 : UInt64) c14 = o15 at hs
  generalize addW (0 : UInt64) (0 : UInt64) c14 = w15 at hs e15; generalize addC (0 : UInt64) (0 : UInt64) c14 = c15 at hs e15
  have d15 : zb c15 = 0 := by
    clear * - e15 e14 e10 e9 e13 hg11 e12
    have := z_bnd r12
    have := z_bnd w10
    have := z_bnd r11
    have := z_bnd w5
    have := z_bnd w9
    have := z_bnd g11
    have := z_bnd a2
    have := z_bnd b
    have := z_bnd w8
    have := z_bnd l11
    have := z_bnd w12
    have := z_bnd w13
    have := z_bnd w14
    have := z_bnd w15
    have := zb_bnd c15
    have := zb_bnd c14
    have := zb_bnd c9
    have := zb_bnd c8
    have := zb_bnd c10
    have := zb_bnd c13
    have := zb_bnd c12
    omega
  xstep
  xstep
  rw [hdi_24] at hs
  xstep
  have e16 := mul_specZ a3 b
  have hg16 := mulHi_le a3 b
  generalize mulLo a3 b = l16 at hs e16; generalize mulHi a3 b = g16 at hs e16 hg16; generalize (g16 != 0) = z16 at hs
  xstep
  have e17 := addW_specZ w13 l16 false
  simp only [zb_false, add_zero, zero_add] at e17
  generalize addO w13 l16 false = o17 at hs
  generalize addW w13 l16 false = w17 at hs e17; generalize addC w13 l16 false = c17 at hs e17
  xstep
  have e18 := addW_specZ w14 g16 c17
  generalize addO w14 g16 c17 = o18 at hs
  generalize addW w14 g16 c17 = w18 at hs e18; generalize addC w14 g16 c17 = c18 at hs e18
  xstep
  have e19 := addW_specZ r13 w15 c18
  generalize addO r13 w15 c18 = o19 at hs
  generalize addW r13 w15 c18 = w19 at hs e19; generalize addC r13 w15 c18 = c19 at hs e19
  xstep
  xstep
  have e20 := addW_specZ (0 : UInt64) (0 : UInt64) c19
  simp only [z_zero, add_zero, zero_add] at e20
  generalize addO (0 : UInt64) (0 : UInt64) c19 = o20 at hs
  generalize addW (0 : UInt64) (0 : UInt64) c19 = w20 at hs e20; generalize addC (0 : UInt64) (0 : UInt64) c19 = c20 at hs e20
  have d20 : zb c20 = 0 := by
    clear * - e20 e19 e15 e14 e18 hg16 e17
    have := z_bnd r13
    have := z_bnd w15
    have := z_bnd r12
    have := z_bnd w10
    have := z_bnd w14
    have := z_bnd g16
    have := z_bnd a3
    have := z_bnd b
    have := z_bnd w13
    have := z_bnd l16
    have := z_bnd w17
    have := z_bnd w18
    have := z_bnd w19
    have := z_bnd w20
    have := zb_bnd c20
    have := zb_bnd c19
    have := zb_bnd c14
    have := zb_bnd c13
    have := zb_bnd c15
    have := zb_bnd c18
    have := zb_bnd c17
    omega
  xstep
  xstep
  rw [hdi_32] at hs
  xstep
  have e21 := mul_specZ a4 b
  have hg21 := mulHi_le a4 b
  generalize mulLo a4 b = l21 at hs e21; generalize mulHi a4 b = g21 at hs e21 hg21; generalize (g21 != 0) = z21 at hs
  xstep
  have e22 := addW_specZ w18 l21 false
  simp only [zb_false, add_zero, zero_add] at e22
  generalize addO w18 l21 false = o22 at hs
  generalize addW w18 l21 false = w22 at hs e22; generalize addC w18 l21 false = c22 at hs e22
  xstep
  have e23 := addW_specZ w19 g21 c22
  generalize addO w19 g21 c22 = o23 at hs
  generalize addW w19 g21 c22 = w23 at hs e23; generalize addC w19 g21 c22 = c23 at hs e23
  xstep
  have e24 := addW_specZ w20 (0 : UInt64) c23
  simp only [z_zero, add_zero, zero_add] at e24
  generalize addO w20 (0 : UInt64) c23 = o24 at hs
  generalize addW w20 (0 : UInt64) c23 = w24 at hs e24; generalize addC w20 (0 : UInt64) c23 = c24 at hs e24
  have d24 : zb c24 = 0 := by
    clear * - e24 e20 e19 e15 e18 e23 hg21 e22
    have := z_bnd w20
    have := z_bnd r13
    have := z_bnd w15
    have := z_bnd w14
    have := z_bnd g16
    have := z_bnd w18
    have := z_bnd w19
    have := z_bnd g21
    have := z_bnd a4
    have := z_bnd b
    have := z_bnd l21
    have := z_bnd w22
    have := z_bnd w23
    have := z_bnd w24
    have := zb_bnd c24
    have := zb_bnd c19
    have := zb_bnd c14
    have := zb_bnd c15
    have := zb_bnd c18
    have := zb_bnd c17
    have := zb_bnd c20
    have := zb_bnd c23
    have := zb_bnd c22
    omega
  xstep
  xstep
  rw [hdi_40] at hs
  xstep
  have e25 := mul_specZ a5 b
  have hg25 := mulHi_le a5 b
  generalize mulLo a5 b = l25 at hs e25; generalize mulHi a5 b = g25 at hs e25 hg25; generalize (g25 != 0) = z25 at hs
  xstep
  have e26 := addW_specZ w23 l25 false
  simp only [zb_false, add_zero, zero_add] at e26
  generalize addO w23 l25 false = o26 at hs
  generalize addW w23 l25 false = w26 at hs e26; generalize addC w23 l25 false = c26 at hs e26
  xstep
  have e27 := addW_specZ w24 g25 c26
  generalize addO w24 g25 c26 = o27 at hs
  generalize addW w24 g25 c26 = w27 at hs e27; generalize addC w24 g25 c26 = c27 at hs e27
  xstep
  xstep
  rw [run_nil] at hs
  refine ⟨l25, w27, g25, w7, w12, w17, w22, w26, w2, c27, o27, hs.symm, ?_⟩
  have key : z w2 + 2 ^ 64 * z w7 + 2 ^ 128 * z w12 + 2 ^ 192 * z w17 + 2 ^ 256 * z w22 + 2 ^ 320 * z w26 + 2 ^ 384 * z w27 + 2 ^ 448 * zb c27 = z r8 + 2 ^ 64 * z r9 + 2 ^ 128 * z r10 + 2 ^ 192 * z r11 + 2 ^ 256 * z r12 + 2 ^ 320 * z r13 + z b * (z a0 + 2 ^ 64 * z a1 + 2 ^ 128 * z a2 + 2 ^ 192 * z a3 + 2 ^ 256 * z a4 + 2 ^ 320 * z a5) := by
    linear_combination e1 + e2 + 2 ^ 64 * e3 + 2 ^ 128 * e4 + 2 ^ 192 * e5 + 2 ^ 64 * e6 + 2 ^ 64 * e7 + 2 ^ 128 * e8 + 2 ^ 192 * e9 + 2 ^ 256 * e10 + 2 ^ 128 * e11 + 2 ^ 128 * e12 + 2 ^ 192 * e13 + 2 ^ 256 * e14 + 2 ^ 320 * e15 + 2 ^ 192 * e16 + 2 ^ 192 * e17 + 2 ^ 256 * e18 + 2 ^ 320 * e19 + 2 ^ 384 * e20 + 2 ^ 256 * e21 + 2 ^ 256 * e22 + 2 ^ 320 * e23 + 2 ^ 384 * e24 + 2 ^ 320 * e25 + 2 ^ 320 * e26 + 2 ^ 384 * e27 - 2 ^ 256 * d5 - 2 ^ 320 * d10 - 2 ^ 384 * d15 - 2 ^ 448 * d20 - 2 ^ 448 * d24
  clear * - key
  have := z_bnd w2
  have := z_bnd w7
  have := z_bnd w12
  have := z_bnd w17
  have := z_bnd w22
  have := z_bnd w26
  have := z_bnd w27
  have := z_bnd r8
  have := z_bnd r9
  have := z_bnd r10
  have := z_bnd r11
  have := z_bnd r12
  have := z_bnd r13
  have := zb_bnd c27
  have := z_mul_le b a0
  have := z_mul_le b a1
  have := z_mul_le b a2
  have := z_mul_le b a3
  have := z_mul_le b a4
  have := z_mul_le b a5
  rw [mul_sum6] at key ⊢
  generalize z b * z a0 = p0 at *
  generalize z b * z a1 = p1 at *
  generalize z b * z a2 = p2 at *
  generalize z b * z a3 = p3 at *
  generalize z b * z a4 = p4 at *
  generalize z b * z a5 = p5 at *
  omega

/-- word 5 of `b` times `a`. -/
theorem noadxRow5_spec {ax bx cx dx si di r8 r9 r10 r11 r12 r13 r14 r15 s0 s1 s2 f0 f1 f2 : UInt64} {cf of : Bool} {mem : UInt64 → UInt64}
    {a0 a1 a2 a3 a4 a5 b : UInt64}
    (hdi_0 : mem (di + 0) = a0)
    (hdi_8 : mem (di + 8) = a1)
    (hdi_16 : mem (di + 16) = a2)
    (hdi_24 : mem (di + 24) = a3)
    (hdi_32 : mem (di + 32) = a4)
    (hdi_40 : mem (di + 40) = a5)
    (hsi_40 : mem (si + 40) = b) :
    ∃ ax' bx' dx' r8' r9' r10' r11' r12' r13' : UInt64, ∃ cf' of' : Bool,
      run noadxRow5 ⟨ax, bx, cx, dx, si, di, r8, r9, r10, r11, r12, r13, r14, r15, s0, s1, s2, f0, f1, f2, cf, of, mem⟩ =
      ⟨ax', bx', b, dx', si, di, r8', r9', r10', r11', r12', r13', r14, r15, s0, s1, s2, f0, f1, f2, cf', of', mem⟩ ∧
      z r8' + 2 ^ 64 * z r9' + 2 ^ 128 * z r10' + 2 ^ 192 * z r11' + 2 ^ 256 * z r12' + 2 ^ 320 * z r13' + 2 ^ 384 * z bx' =
        z r8 + 2 ^ 64 * z r9 + 2 ^ 128 * z r10 + 2 ^ 192 * z r11 + 2 ^ 256 * z r12 + 2 ^ 320 * z r13 + z b * (z a0 + 2 ^ 64 * z a1 + 2 ^ 128 * z a2 + 2 ^ 192 * z a3 + 2 ^ 256 * z a4 + 2 ^ 320 * z a5) := by
  generalize hs : run noadxRow5 _ = s
  unfold noadxRow5 at hs
  xstep
  rw [hsi_40] at hs
  xstep
  xstep
  rw [hdi_0] at hs
  xstep
  have e1 := mul_specZ a0 b
  have hg1 := mulHi_le a0 b
  generalize mulLo a0 b = l1 at hs e1; generalize mulHi a0 b = g1 at hs e1 hg1; generalize (g1 != 0) = z1 at hs
  xstep
  have e2 := addW_specZ r8 l1 false
  simp only [zb_false, add_zero, zero_add] at e2
  generalize addO r8 l1 false = o2 at hs
  generalize addW r8 l1 false = w2 at hs e2; generalize addC r8 l1 false = c2 at hs e2
  xstep
  have e3 := addW_specZ r9 g1 c2
  generalize addO r9 g1 c2 = o3 at hs
  generalize addW r9 g1 c2 = w3 at hs e3; generalize addC r9 g1 c2 = c3 at hs e3
  xstep
  have e4 := addW_specZ r10 (0 : UInt64) c3
  simp only [z_zero, add_zero, zero_add] at e4
  generalize addO r10 (0 : UInt64) c3 = o4 at hs
  generalize addW r10 (0 : UInt64) c3 = w4 at hs e4; generalize addC r10 (0 : UInt64) c3 = c4 at hs e4
  xstep
  have e5 := addW_specZ (0 : UInt64) (0 : UInt64) c4
  simp only [z_zero, add_zero, zero_add] at e5
  generalize addO (0 : UInt64) (0 : UInt64) c4 = o5 at hs
  generalize addW (0 : UInt64) (0 : UInt64) c4 = w5 at hs e5; generalize addC (0 : UInt64) (0 : UInt64) c4 = c5 at hs e5
  have d5 : zb c5 = 0 := by
    clear * - e5 e4 e3 hg1 e2
    have := z_bnd r10
    have := z_bnd r9
    have := z_bnd g1
    have := z_bnd a0
    have := z_bnd b
    have := z_bnd r8
    have := z_bnd l1
    have := z_bnd w2
    have := z_bnd w3
    have := z_bnd w4
    have := z_bnd w5
    have := zb_bnd c5
    have := zb_bnd c4
    have := zb_bnd c3
    have := zb_bnd c2
    omega
  xstep
  rw [hdi_8] at hs
  xstep
  have e6 := mul_specZ a1 b
  have hg6 := mulHi_le a1 b
  generalize mulLo a1 b = l6 at hs e6; generalize mulHi a1 b = g6 at hs e6 hg6; generalize (g6 != 0) = z6 at hs
  xstep
  have e7 := addW_specZ w3 l6 false
  simp only [zb_false, add_zero, zero_add] at e7
  generalize addO w3 l6 false = o7 at hs
  generalize addW w3 l6 false = w7 at hs e7; generalize addC w3 l6 false = c7 at hs e7
  xstep
  have e8 := addW_specZ w4 g6 c7
  generalize addO w4 g6 c7 = o8 at hs
  generalize addW w4 g6 c7 = w8 at hs e8; generalize addC w4 g6 c7 = c8 at hs e8
  xstep
  have e9 := addW_specZ r11 w5 c8
  generalize addO r11 w5 c8 = o9 at hs
  generalize addW r11 w5 c8 = w9 at hs e9; generalize addC r11 w5 c8 = c9 at hs e9
  xstep
  xstep
  have e10 := addW_specZ (0 : UInt64) (0 : UInt64) c9
  simp only [z_zero, add_zero, zero_add] at e10
  generalize addO (0 : UInt64) (0 : UInt64) c9 = o10 at hs
  generalize addW (0 : UInt64) (0 : UInt64) c9 = w10 at hs e10; generalize addC (0 : UInt64) (0 : UInt64) c9 = c10 at hs e10
  have d10 : zb c10 = 0 := by
    clear * - e10 e9 e5 e4 e8 hg6 e7
    have := z_bnd r11
    have := z_bnd w5
    have := z_bnd r10
    have := z_bnd w4
    have := z_bnd g6
    have := z_bnd a1
    have := z_bnd b
    have := z_bnd w3
    have := z_bnd l6
    have := z_bnd w7
    have := z_bnd w8
    have := z_bnd w9
    have := z_bnd w10
    have := zb_bnd c10
    have := zb_bnd c9
    have := zb_bnd c4
    have := zb_bnd c3
    have := zb_bnd c5
    have := zb_bnd c8
    have := zb_bnd c7
    omega
  xstep
  rw [hdi_16] at hs
  xstep
  have e11 := mul_specZ a2 b
  have hg11 := mulHi_le a2 b
  generalize mulLo a2 b = l11 at hs e11; generalize mulHi a2 b = g11 at hs e11 hg11; generalize (g11 != 0) = z11 at hs
  xstep
  have e12 := addW_specZ w8 l11 false
  simp only [zb_false, add_zero, zero_add] at e12
  generalize addO w8 l11 false = o12 at hs
  generalize addW w8 l11 false = w12 at hs e12; generalize addC w8 l11 false = c12 at hs e12
  xstep
  have e13 := addW_specZ w9 g11 c12
  generalize addO w9 g11 c12 = o13 at hs
  generalize addW w9 g11 c12 = w13 at hs e13; generalize addC w9 g11 c12 = c13 at hs e13
  xstep
  have e14 := addW_specZ r12 w10 c13
  generalize addO r12 w10 c13 = o14 at hs
  generalize addW r12 w10 c13 = w14 at hs e14; generalize addC r12 w10 c13 = c14 at hs e14
  xstep
  xstep
  have e15 := addW_specZ (0 : UInt64) (0 : UInt64) c14
  simp only [z_zero, add_zero, zero_add] at e15
  generalize addO (0 : UInt64) (0 : UInt64) c14 = o15 at hs
  generalize addW (0 : UInt64) (0 : UInt64) c14 = w15 at hs e15; generalize addC (0 : UInt64) (0 : UInt64) c14 = c15 at hs e15
  have d15 : zb c15 = 0 := by
    clear * - e15 e14 e10 e9 e13 hg11 e12
    have := z_bnd r12
    have := z_bnd w10
    have := z_bnd r11
    have := z_bnd w5
    have := z_bnd w9
    have := z_bnd g11
    have := z_bnd a2
    have := z_bnd b
    have := z_bnd w8
    have := z_bnd l11
    have := z_bnd w12
    have := z_bnd w13
    have := z_bnd w14
    have := z_bnd w15
    have := zb_bnd c15
    have := zb_bnd c14
    have := zb_bnd c9
    have := zb_bnd c8
    have := zb_bnd c10
    have := zb_bnd c13
    have := zb_bnd c12
    omega
  xstep
  rw [hdi_24] at hs
  xstep
  have e16 := mul_specZ a3 b
  have hg16 := mulHi_le a3 b
  generalize mulLo a3 b = l16 at hs e16; generalize mulHi a3 b = g16 at hs e16 hg16; generalize (g16 != 0) = z16 at hs
  xstep
  have e17 := addW_specZ w13 l16 false
  simp only [zb_false, add_zero, zero_add] at e17
  generalize addO w13 l16 false = o17 at hs
  generalize addW w13 l16 false = w17 at hs e17; generalize addC w13 l16 false = c17 at hs e17
  xstep
  have e18 := addW_specZ w14 g16 c17
  generalize addO w14 g16 c17 = o18 at hs
  generalize addW w14 g16 c17 = w18 at hs e18; generalize addC w14 g16 c17 = c18 at hs e18
  xstep
  have e19 := addW_specZ r13 w15 c18
  generalize addO r13 w15 c18 = o19 at hs
  generalize addW r13 w15 c18 = w19 at hs e19; generalize addC r13 w15 c18 = c19 at hs e19
  xstep
  xstep
  have e20 := addW_specZ (0 : UInt64) (0 : UInt64) c19
  simp only [z_zero, add_zero, zero_add] at e20
  generalize addO (0 : UInt64) (0 : UInt64) c19 = o20 at hs
  generalize addW (0 : UInt64) (0 : UInt64) c19 = w20 at hs e20; generalize addC (0 : UInt64) (0 : UInt64) c19 = c20 at hs e20
  have d20 : zb c20 = 0 := by
    clear * - e20 e19 e15 e14 e18 hg16 e17
    have := z_bnd r13
    have := z_bnd w15
    have := z_bnd r12
    have := z_bnd w10
    have := z_bnd w14
    have := z_bnd g16
    have := z_bnd a3
    have := z_bnd b
    have := z_bnd w13
    have := z_bnd l16
    have := z_bnd w17
    have := z_bnd w18
    have := z_bnd w19
    have := z_bnd w20
    have := zb_bnd c20
    have := zb_bnd c19
    have := zb_bnd c14
    have := zb_bnd c13
    have := zb_bnd c15
    have := zb_bnd c18
    have := zb_bnd c17
    omega
  xstep
  rw [hdi_32] at hs
  xstep
  have e21 := mul_specZ a4 b
  have hg21 := mulHi_le a4 b
  generalize mulLo a4 b = l21 at hs e21; generalize mulHi a4 b = g21 at hs e21 hg21; generalize (g21 != 0) = z21 at hs
  xstep
  have e22 := addW_specZ w18 l21 false
  simp only [zb_false, add_zero, zero_add] at e22
  generalize addO w18 l21 false = o22 at hs
  generalize addW w18 l21 false = w22 at hs e22; generalize addC w18 l21 false = c22 at hs e22
  xstep
  have e23 := addW_specZ w19 g21 c22
  generalize addO w19 g21 c22 = o23 at hs
  generalize addW w19 g21 c22 = w23 at hs e23; generalize addC w19 g21 c22 = c23 at hs e23
  xstep
  have e24 := addW_specZ w20 (0 : UInt64) c23
  simp only [z_zero, add_zero, zero_add] at e24
  generalize addO w20 (0 : UInt64) c23 = o24 at hs
  generalize addW w20 (0 : UInt64) c23 = w24 at hs e24; generalize addC w20 (0 : UInt64) c23 = c24 at hs e24
  have d24 : zb c24 = 0 := by
    clear * - e24 e20 e19 e15 e18 e23 hg21 e22
    have := z_bnd w20
    have := z_bnd r13
    have := z_bnd w15
    have := z_bnd w14
    have := z_bnd g16
    have := z_bnd w18
    have := z_bnd w19
    have := z_bnd g21
    have := z_bnd a4
    have := z_bnd b
    have := z_bnd l21
    have := z_bnd w22
    have := z_bnd w23
    have := z_bnd w24
    have := zb_bnd c24
    have := zb_bnd c19
    have := zb_bnd c14
    have := zb_bnd c15
    have := zb_bnd c18
    have := zb_bnd c17
    have := zb_bnd c20
    have := zb_bnd c23
    have := zb_bnd c22
    omega
  xstep
  rw [hdi_40] at hs
  xstep
  have e25 := mul_specZ a5 b
  have hg25 := mulHi_le a5 b
  generalize mulLo a5 b = l25 at hs e25; generalize mulHi a5 b = g25 at hs e25 hg25; generalize (g25 != 0) = z25 at hs
  xstep
  have e26 := addW_specZ w23 l25 false
  simp only [zb_false, add_zero, zero_add] at e26
  generalize addO w23 l25 false = o26 at hs
  generalize addW w23 l25 false = w26 at hs e26; generalize addC w23 l25 false = c26 at hs e26
  xstep
  have e27 := addW_specZ w24 g25 c26
  generalize addO w24 g25 c26 = o27 at hs
  generalize addW w24 g25 c26 = w27 at hs e27; generalize addC w24 g25 c26 = c27 at hs e27
  rw [run_nil] at hs
  refine ⟨l25, w27, g25, w2, w7, w12, w17, w22, w26, c27, o27, hs.symm, ?_⟩
  have key : z w2 + 2 ^ 64 * z w7 + 2 ^ 128 * z w12 + 2 ^ 192 * z w17 + 2 ^ 256 * z w22 + 2 ^ 320 * z w26 + 2 ^ 384 * z w27 + 2 ^ 448 * zb c27 = z r8 + 2 ^ 64 * z r9 + 2 ^ 128 * z r10 + 2 ^ 192 * z r11 + 2 ^ 256 * z r12 + 2 ^ 320 * z r13 + z b * (z a0 + 2 ^ 64 * z a1 + 2 ^ 128 * z a2 + 2 ^ 192 * z a3 + 2 ^ 256 * z a4 + 2 ^ 320 * z a5) := by
    linear_combination e1 + e2 + 2 ^ 64 * e3 + 2 ^ 128 * e4 + 2 ^ 192 * e5 + 2 ^ 64 * e6 + 2 ^ 64 * e7 + 2 ^ 128 * e8 + 2 ^ 192 * e9 + 2 ^ 256 * e10 + 2 ^ 128 * e11 + 2 ^ 128 * e12 + 2 ^ 192 * e13 + 2 ^ 256 * e14 + 2 ^ 320 * e15 + 2 ^ 192 * e16 + 2 ^ 192 * e17 + 2 ^ 256 * e18 + 2 ^ 320 * e19 + 2 ^ 384 * e20 + 2 ^ 256 * e21 + 2 ^ 256 * e22 + 2 ^ 320 * e23 + 2 ^ 384 * e24 + 2 ^ 320 * e25 + 2 ^ 320 * e26 + 2 ^ 384 * e27 - 2 ^ 256 * d5 - 2 ^ 320 * d10 - 2 ^ 384 * d15 - 2 ^ 448 * d20 - 2 ^ 448 * d24
  clear * - key
  have := z_bnd w2
  have := z_bnd w7
  have := z_bnd w12
  have := z_bnd w17
  have := z_bnd w22
  have := z_bnd w26
  have := z_bnd w27
  have := z_bnd r8
  have := z_bnd r9
  have := z_bnd r10
  have := z_bnd r11
  have := z_bnd r12
  have := z_bnd r13
  have := zb_bnd c27
  have := z_mul_le b a0
  have := z_mul_le b a1
  have := z_mul_le b a2
  have := z_mul_le b a3
  have := z_mul_le b a4
  have := z_mul_le b a5
  rw [mul_sum6] at key ⊢
  generalize z b * z a0 = p0 at *
  generalize z b * z a1 = p1 at *
  generalize z b * z a2 = p2 at *
  generalize z b * z a3 = p3 at *
  generalize z b * z a4 = p4 at *
  generalize z b * z a5 = p5 at *
  omega

/-- step 0 of the reduction. -/
theorem noadxRed0_spec {ax bx cx dx si di r8 r9 r10 r11 r12 r13 r14 r15 s0 s1 s2 f0 f1 f2 : UInt64} {cf of : Bool} {mem : UInt64 → UInt64} :
    ∃ ax' bx' cx' dx' si' di' r8' r9' r13' r14' r15' : UInt64, ∃ cf' of' : Bool,
      run noadxRed0 ⟨ax, bx, cx, dx, si, di, r8, r9, r10, r11, r12, r13, r14, r15, s0, s1, s2, f0, f1, f2, cf, of, mem⟩ =
      ⟨ax', bx', cx', dx', si', di', r8', r9', r10, r11, r12, r13', r14', r15', s0, s1, s2, f0, f1, f2, cf', of', mem⟩ ∧
      2 ^ 64 * z di' + 2 ^ 128 * z cx' + 2 ^ 192 * z r14' + 2 ^ 256 * z r15' + 2 ^ 320 * z r8' + 2 ^ 384 * z r9' + 2 ^ 448 * z si' + 2 ^ 64 * zb ((mulLo si Bls.inp) == 1) =
        z si + 2 ^ 64 * z di + 2 ^ 128 * z cx + 2 ^ 192 * z r14 + 2 ^ 256 * z r15 + 2 ^ 320 * z r8 + 2 ^ 384 * z r9 + z (mulLo si Bls.inp) * 0x1a0111ea397fe69a4b1ba7b6434bacd764774b84f38512bf6730d2a0f6b0f6241eabfffeb153ffffb9feffffffffaaab ∧ z si' ≤ 1 := by
  generalize hs : run noadxRed0 _ = s
  unfold noadxRed0 at hs
  xstep
  xstep
  have hq := quot_carry' si
  generalize hqd : mulLo si Bls.inp = q at hs hq; generalize mulHi si Bls.inp = g1 at hs
  generalize (g1 != 0) = z1 at hs
  xstep
  xstep
  xstep
  xstep
  have e2 := mul_specZ Bls.modulus.l0 q
  have hg2 := mulHi_le Bls.modulus.l0 q
  simp only [z_l0] at e2
  simp only [z_l0] at hg2
  generalize mulLo Bls.modulus.l0 q = l2 at hs e2; generalize mulHi Bls.modulus.l0 q = g2 at hs e2 hg2 hq; generalize (g2 != 0) = z2 at hs hq
  xstep
  have e3 := addW_specZ (0 : UInt64) g2 z2
  simp only [z_zero, add_zero, zero_add] at e3
  generalize addO (0 : UInt64) g2 z2 = o3 at hs
  generalize addW (0 : UInt64) g2 z2 = w3 at hs e3; generalize addC (0 : UInt64) g2 z2 = c3 at hs e3
  have d3 : zb c3 = 0 := by
    clear * - e3 hg2
    have := z_bnd g2
    have := z_bnd q
    have := z_bnd w3
    have := zb_bnd c3
    have := zb_bnd z2
    omega
  xstep
  xstep
  have e4 := mul_specZ Bls.modulus.l1 q
  have hg4 := mulHi_le Bls.modulus.l1 q
  simp only [z_l1] at e4
  simp only [z_l1] at hg4
  generalize mulLo Bls.modulus.l1 q = l4 at hs e4; generalize mulHi Bls.modulus.l1 q = g4 at hs e4 hg4; generalize (g4 != 0) = z4 at hs
  xstep
  have e5 := addW_specZ di l4 false
  simp only [zb_false, add_zero, zero_add] at e5
  generalize addO di l4 false = o5 at hs
  generalize addW di l4 false = w5 at hs e5; generalize addC di l4 false = c5 at hs e5
  xstep
  have e6 := addW_specZ g4 (0 : UInt64) c5
  simp only [z_zero, add_zero, zero_add] at e6
  generalize addO g4 (0 : UInt64) c5 = o6 at hs
  generalize addW g4 (0 : UInt64) c5 = w6 at hs e6; generalize addC g4 (0 : UInt64) c5 = c6 at hs e6
  have d6 : zb c6 = 0 := by
    clear * - e6 hg4 e5
    have := z_bnd g4
    have := z_bnd q
    have := z_bnd di
    have := z_bnd l4
    have := z_bnd w5
    have := z_bnd w6
    have := zb_bnd c6
    have := zb_bnd c5
    omega
  xstep
  have e7 := addW_specZ w5 w3 false
  simp only [zb_false, add_zero, zero_add] at e7
  generalize addO w5 w3 false = o7 at hs
  generalize addW w5 w3 false = w7 at hs e7; generalize addC w5 w3 false = c7 at hs e7
  xstep
  xstep
  have e8 := addW_specZ (0 : UInt64) w6 c7
  simp only [z_zero, add_zero, zero_add] at e8
  generalize addO (0 : UInt64) w6 c7 = o8 at hs
  generalize addW (0 : UInt64) w6 c7 = w8 at hs e8; generalize addC (0 : UInt64) w6 c7 = c8 at hs e8
  have d8 : zb c8 = 0 := by
    clear * - e8 e6 hg4 e5 e7 e3 hg2
    have := z_bnd w6
    have := z_bnd g4
    have := z_bnd q
    have := z_bnd di
    have := z_bnd l4
    have := z_bnd w5
    have := z_bnd w3
    have := z_bnd g2
    have := z_bnd w7
    have := z_bnd w8
    have := zb_bnd c8
    have := zb_bnd c5
    have := zb_bnd c6
    have := zb_bnd c7
    have := zb_bnd z2
    have := zb_bnd c3
    omega
  xstep
  xstep
  have e9 := mul_specZ Bls.modulus.l2 q
  have hg9 := mulHi_le Bls.modulus.l2 q
  simp only [z_l2] at e9
  simp only [z_l2] at hg9
  generalize mulLo Bls.modulus.l2 q = l9 at hs e9; generalize mulHi Bls.modulus.l2 q = g9 at hs e9 hg9; generalize (g9 != 0) = z9 at hs
  xstep
  have e10 := addW_specZ cx l9 false
  simp only [zb_false, add_zero, zero_add] at e10
  generalize addO cx l9 false = o10 at hs
  generalize addW cx l9 false = w10 at hs e10; generalize addC cx l9 false = c10 at hs e10
  xstep
  have e11 := addW_specZ g9 (0 : UInt64) c10
  simp only [z_zero, add_zero, zero_add] at e11
  generalize addO g9 (0 : UInt64) c10 = o11 at hs
  generalize addW g9 (0 : UInt64) c10 = w11 at hs e11; generalize addC g9 (0 : UInt64) c10 = c11 at hs e11
  have d11 : zb c11 = 0 := by
    clear * - e11 hg9 e10
    have := z_bnd g9
    have := z_bnd q
    have := z_bnd cx
    have := z_bnd l9
    have := z_bnd w10
    have := z_bnd w11
    have := zb_bnd c11
    have := zb_bnd c10
    omega
  xstep
  have e12 := addW_specZ w10 w8 false
  simp only [zb_false, add_zero, zero_add] at e12
  generalize addO w10 w8 false = o12 at hs
  generalize addW w10 w8 false = w12 at hs e12; generalize addC w10 w8 false = c12 at hs e12
  xstep
  xstep
  have e13 := addW_specZ (0 : UInt64) w11 c12
  simp only [z_zero, add_zero, zero_add] at e13
  generalize addO (0 : UInt64) w11 c12 = o13 at hs
  generalize addW (0 : UInt64) w11 c12 = w13 at hs e13; generalize addC (0 : UInt64) w11 c12 = c13 at hs e13
  have d13 : zb c13 = 0 := by
    clear * - e13 e11 hg9 e10 e12 e8 e6 e7
    have := z_bnd w11
    have := z_bnd g9
    have := z_bnd q
    have := z_bnd cx
    have := z_bnd l9
    have := z_bnd w10
    have := z_bnd w8
    have := z_bnd w6
    have := z_bnd g4
    have := z_bnd w5
    have := z_bnd w3
    have := z_bnd w7
    have := z_bnd w12
    have := z_bnd w13
    have := zb_bnd c13
    have := zb_bnd c10
    have := zb_bnd c11
    have := zb_bnd c12
    have := zb_bnd c5
    have := zb_bnd c6
    have := zb_bnd c7
    have := zb_bnd c8
    omega
  xstep
  xstep
  have e14 := mul_specZ Bls.modulus.l3 q
  have hg14 := mulHi_le Bls.modulus.l3 q
  simp only [z_l3] at e14
  simp only [z_l3] at hg14
  generalize mulLo Bls.modulus.l3 q = l14 at hs e14; generalize mulHi Bls.modulus.l3 q = g14 at hs e14 hg14; generalize (g14 != 0) = z14 at hs
  xstep
  have e15 := addW_specZ r14 l14 false
  simp only [zb_false, add_zero, zero_add] at e15
  generalize addO r14 l14 false = o15 at hs
  generalize addW r14 l14 false = w15 at hs e15; generalize addC r14 l14 false = c15 at hs e15
  xstep
  have e16 := addW_specZ g14 (0 : UInt64) c15
  simp only [z_zero, add_zero, zero_add] at e16
  generalize addO g14 (0 : UInt64) c15 = o16 at hs
  generalize addW g14 (0 : UInt64) c15 = w16 at hs e16; generalize addC g14 (0 : UInt64) c15 = c16 at hs e16
  have d16 : zb c16 = 0 := by
    clear * - e16 hg14 e15
    have := z_bnd g14
    have := z_bnd q
    have := z_bnd r14
    have := z_bnd l14
    have := z_bnd w15
    have := z_bnd w16
    have := zb_bnd c16
    have := zb_bnd c15
    omega
  xstep
  have e17 := addW_specZ w15 w13 false
  simp only [zb_false, add_zero, zero_add] at e17
  generalize addO w15 w13 false = o17 at hs
  generalize addW w15 w13 false = w17 at hs e17; generalize addC w15 w13 false = c17 at hs e17
  xstep
  xstep
  have e18 := addW_specZ (0 : UInt64) w16 c17
  simp only [z_zero, add_zero, zero_add] at e18
  generalize addO (0 : UInt64) w16 c17 = o18 at hs
  generalize addW (0 : UInt64) w16 c17 = w18 at hs e18; generalize addC (0 : UInt64) w16 c17 = c18 at hs e18
  have d18 : zb c18 = 0 := by
    clear * - e18 e16 hg14 e15 e17 e13 e11 e12
    have := z_bnd w16
    have := z_bnd g14
    have := z_bnd q
    have := z_bnd r14
    have := z_bnd l14
    have := z_bnd w15
    have := z_bnd w13
    have := z_bnd w11
    have := z_bnd g9
    have := z_bnd w10
    have := z_bnd w8
    have := z_bnd w12
    have := z_bnd w17
    have := z_bnd w18
    have := zb_bnd c18
    have := zb_bnd c15
    have := zb_bnd c16
    have := zb_bnd c17
    have := zb_bnd c10
    have := zb_bnd c11
    have := zb_bnd c12
    have := zb_bnd c13
    omega
  xstep
  xstep
  have e19 := mul_specZ Bls.modulus.l4 q
  have hg19 := mulHi_le Bls.modulus.l4 q
  simp only [z_l4] at e19
  simp only [z_l4] at hg19
  generalize mulLo Bls.modulus.l4 q = l19 at hs e19; generalize mulHi Bls.modulus.l4 q = g19 at hs e19 hg19; generalize (g19 != 0) = z19 at hs
  xstep
  have e20 := addW_specZ r15 l19 false
  simp only [zb_false, add_zero, zero_add] at e20
  generalize addO r15 l19 false = o20 at hs
  generalize addW r15 l19 false = w20 at hs e20; generalize addC r15 l19 false = c20 at hs e20
  xstep
  have e21 := addW_specZ g19 (0 : UInt64) c20
  simp only [z_zero, add_zero, zero_add] at e21
  generalize addO g19 (0 : UInt64) c20 = o21 at hs
  generalize addW g19 (0 : UInt64) c20 = w21 at hs e21; generalize addC g19 (0 : UInt64) c20 = c21 at hs e21
  have d21 : zb c21 = 0 := by
    clear * - e21 hg19 e20
    have := z_bnd g19
    have := z_bnd q
    have := z_bnd r15
    have := z_bnd l19
    have := z_bnd w20
    have := z_bnd w21
    have := zb_bnd c21
    have := zb_bnd c20
    omega
  xstep
  have e22 := addW_specZ w20 w18 false
  simp only [zb_false, add_zero, zero_add] at e22
  generalize addO w20 w18 false = o22 at hs
  generalize addW w20 w18 false = w22 at hs e22; generalize addC w20 w18 false = c22 at hs e22
  xstep
  xstep
  have e23 := addW_specZ (0 : UInt64) w21 c22
  simp only [z_zero, add_zero, zero_add] at e23
  generalize addO (0 : UInt64) w21 c22 = o23 at hs
  generalize addW (0 : UInt64) w21 c22 = w23 at hs e23; generalize addC (0 : UInt64) w21 c22 = c23 at hs e23
  have d23 : zb c23 = 0 := by
    clear * - e23 e21 hg19 e20 e22 e18 e16 e17
    have := z_bnd w21
    have := z_bnd g19
    have := z_bnd q
    have := z_bnd r15
    have := z_bnd l19
    have := z_bnd w20
    have := z_bnd w18
    have := z_bnd w16
    have := z_bnd g14
    have := z_bnd w15
    have := z_bnd w13
    have := z_bnd w17
    have := z_bnd w22
    have := z_bnd w23
    have := zb_bnd c23
    have := zb_bnd c20
    have := zb_bnd c21
    have := zb_bnd c22
    have := zb_bnd c15
    have := zb_bnd c16
    have := zb_bnd c17
    have := zb_bnd c18
    omega
  xstep
  xstep
  have e24 := mul_specZ Bls.modulus.l5 q
  have hg24 := mulHi_le Bls.modulus.l5 q
  simp only [z_l5] at e24
  simp only [z_l5] at hg24
  generalize mulLo Bls.modulus.l5 q = l24 at hs e24; generalize mulHi Bls.modulus.l5 q = g24 at hs e24 hg24; generalize (g24 != 0) = z24 at hs
  xstep
  have e25 := addW_specZ r8 l24 false
  simp only [zb_false, add_zero, zero_add] at e25
  generalize addO r8 l24 false = o25 at hs
  generalize addW r8 l24 false = w25 at hs e25; generalize addC r8 l24 false = c25 at hs e25
  xstep
  have e26 := addW_specZ g24 (0 : UInt64) c25
  simp only [z_zero, add_zero, zero_add] at e26
  generalize addO g24 (0 : UInt64) c25 = o26 at hs
  generalize addW g24 (0 : UInt64) c25 = w26 at hs e26; generalize addC g24 (0 : UInt64) c25 = c26 at hs e26
  have d26 : zb c26 = 0 := by
    clear * - e26 hg24 e25
    have := z_bnd g24
    have := z_bnd q
    have := z_bnd r8
    have := z_bnd l24
    have := z_bnd w25
    have := z_bnd w26
    have := zb_bnd c26
    have := zb_bnd c25
    omega
  xstep
  have e27 := addW_specZ w25 w23 false
  simp only [zb_false, add_zero, zero_add] at e27
  generalize addO w25 w23 false = o27 at hs
  generalize addW w25 w23 false = w27 at hs e27; generalize addC w25 w23 false = c27 at hs e27
  xstep
  have e28 := addW_specZ r9 w26 c27
  generalize addO r9 w26 c27 = o28 at hs
  generalize addW r9 w26 c27 = w28 at hs e28; generalize addC r9 w26 c27 = c28 at hs e28
  xstep
  xstep
  have e29 := addW_specZ (0 : UInt64) (0 : UInt64) c28
  simp only [z_zero, add_zero, zero_add] at e29
  generalize addO (0 : UInt64) (0 : UInt64) c28 = o29 at hs
  generalize addW (0 : UInt64) (0 : UInt64) c28 = w29 at hs e29; generalize addC (0 : UInt64) (0 : UInt64) c28 = c29 at hs e29
  have d29 : zb c29 = 0 := by
    clear * - e29 e28 e26 hg24 e25 e27 e23
    have := z_bnd r9
    have := z_bnd w26
    have := z_bnd g24
    have := z_bnd q
    have := z_bnd r8
    have := z_bnd l24
    have := z_bnd w25
    have := z_bnd w23
    have := z_bnd w21
    have := z_bnd w27
    have := z_bnd w28
    have := z_bnd w29
    have := zb_bnd c29
    have := zb_bnd c28
    have := zb_bnd c25
    have := zb_bnd c26
    have := zb_bnd c27
    have := zb_bnd c22
    have := zb_bnd c23
    omega
  rw [run_nil] at hs
  refine ⟨l24, q, w12, w26, w29, w7, w27, w28, w23, w17, w22, c29, o29, hs.symm, ?_⟩
  have key : 2 ^ 64 * z w7 + 2 ^ 128 * z w12 + 2 ^ 192 * z w17 + 2 ^ 256 * z w22 + 2 ^ 320 * z w27 + 2 ^ 384 * z w28 + 2 ^ 448 * z w29 + 2 ^ 64 * zb (q == 1) = z si + 2 ^ 64 * z di + 2 ^ 128 * z cx + 2 ^ 192 * z r14 + 2 ^ 256 * z r15 + 2 ^ 320 * z r8 + 2 ^ 384 * z r9 + z q * 0x1a0111ea397fe69a4b1ba7b6434bacd764774b84f38512bf6730d2a0f6b0f6241eabfffeb153ffffb9feffffffffaaab := by
    linear_combination hq + 2 ^ 64 * e3 + 2 ^ 64 * e4 + 2 ^ 64 * e5 + 2 ^ 128 * e6 + 2 ^ 64 * e7 + 2 ^ 128 * e8 + 2 ^ 128 * e9 + 2 ^ 128 * e10 + 2 ^ 192 * e11 + 2 ^ 128 * e12 + 2 ^ 192 * e13 + 2 ^ 192 * e14 + 2 ^ 192 * e15 + 2 ^ 256 * e16 + 2 ^ 192 * e17 + 2 ^ 256 * e18 + 2 ^ 256 * e19 + 2 ^ 256 * e20 + 2 ^ 320 * e21 + 2 ^ 256 * e22 + 2 ^ 320 * e23 + 2 ^ 320 * e24 + 2 ^ 320 * e25 + 2 ^ 384 * e26 + 2 ^ 320 * e27 + 2 ^ 384 * e28 + 2 ^ 448 * e29 - 2 ^ 128 * d3 - 2 ^ 192 * d6 - 2 ^ 192 * d8 - 2 ^ 256 * d11 - 2 ^ 256 * d13 - 2 ^ 320 * d16 - 2 ^ 320 * d18 - 2 ^ 384 * d21 - 2 ^ 384 * d23 - 2 ^ 448 * d26 - 2 ^ 512 * d29
  have hk' : z w29 ≤ 1 := by
    clear * - e29
    have := zb_bnd c28
    have := zb_bnd c29
    omega
  exact ⟨key, hk'⟩

/-- step 1 of the reduction. -/
theorem noadxRed1_spec {ax bx cx dx si di r8 r9 r10 r11 r12 r13 r14 r15 s0 s1 s2 f0 f1 f2 : UInt64} {cf of : Bool} {mem : UInt64 → UInt64}
    (hk : z si ≤ 1) :
    ∃ ax' bx' cx' dx' si' r8' r9' r10' r13' r14' r15' : UInt64, ∃ cf' of' : Bool,
      run noadxRed1 ⟨ax, bx, cx, dx, si, di, r8, r9, r10, r11, r12, r13, r14, r15, s0, s1, s2, f0, f1, f2, cf, of, mem⟩ =
      ⟨ax', bx', cx', dx', si', di, r8', r9', r10', r11, r12, r13', r14', r15', s0, s1, s2, f0, f1, f2, cf', of', mem⟩ ∧
      2 ^ 64 * z cx' + 2 ^ 128 * z r14' + 2 ^ 192 * z r15' + 2 ^ 256 * z r8' + 2 ^ 320 * z r9' + 2 ^ 384 * z r10' + 2 ^ 448 * z si' + 2 ^ 64 * zb ((mulLo di Bls.inp) == 1) =
        z di + 2 ^ 64 * z cx + 2 ^ 128 * z r14 + 2 ^ 192 * z r15 + 2 ^ 256 * z r8 + 2 ^ 320 * z r9 + 2 ^ 384 * z r10 + 2 ^ 384 * z si + z (mulLo di Bls.inp) * 0x1a0111ea397fe69a4b1ba7b6434bacd764774b84f38512bf6730d2a0f6b0f6241eabfffeb153ffffb9feffffffffaaab ∧ z si' ≤ 1 := by
  generalize hs : run noadxRed1 _ = s
  unfold noadxRed1 at hs
  xstep
  xstep
  have hq := quot_carry' di
  generalize hqd : mulLo di Bls.inp = q at hs hq; generalize mulHi di Bls.inp = g1 at hs
  generalize (g1 != 0) = z1 at hs
  xstep
  xstep
  xstep
  xstep
  have e2 := mul_specZ Bls.modulus.l0 q
  have hg2 := mulHi_le Bls.modulus.l0 q
  simp only [z_l0] at e2
  simp only [z_l0] at hg2
  generalize mulLo Bls.modulus.l0 q = l2 at hs e2; generalize mulHi Bls.modulus.l0 q = g2 at hs e2 hg2 hq; generalize (g2 != 0) = z2 at hs hq
  xstep
  have e3 := addW_specZ (0 : UInt64) g2 z2
  simp only [z_zero, add_zero, zero_add] at e3
  generalize addO (0 : UInt64) g2 z2 = o3 at hs
  generalize addW (0 : UInt64) g2 z2 = w3 at hs e3; generalize addC (0 : UInt64) g2 z2 = c3 at hs e3
  have d3 : zb c3 = 0 := by
    clear * - e3 hg2 hk
    have := z_bnd g2
    have := z_bnd q
    have := z_bnd w3
    have := zb_bnd c3
    have := zb_bnd z2
    omega
  xstep
  xstep
  have e4 := mul_specZ Bls.modulus.l1 q
  have hg4 := mulHi_le Bls.modulus.l1 q
  simp only [z_l1] at e4
  simp only [z_l1] at hg4
  generalize mulLo Bls.modulus.l1 q = l4 at hs e4; generalize mulHi Bls.modulus.l1 q = g4 at hs e4 hg4; generalize (g4 != 0) = z4 at hs
  xstep
  have e5 := addW_specZ cx l4 false
  simp only [zb_false, add_zero, zero_add] at e5
  generalize addO cx l4 false = o5 at hs
  generalize addW cx l4 false = w5 at hs e5; generalize addC cx l4 false = c5 at hs e5
  xstep
  have e6 := addW_specZ g4 (0 : UInt64) c5
  simp only [z_zero, add_zero, zero_add] at e6
  generalize addO g4 (0 : UInt64) c5 = o6 at hs
  generalize addW g4 (0 : UInt64) c5 = w6 at hs e6; generalize addC g4 (0 : UInt64) c5 = c6 at hs e6
  have d6 : zb c6 = 0 := by
    clear * - e6 hg4 e5 hk
    have := z_bnd g4
    have := z_bnd q
    have := z_bnd cx
    have := z_bnd l4
    have := z_bnd w5
    have := z_bnd w6
    have := zb_bnd c6
    have := zb_bnd c5
    omega
  xstep
  have e7 := addW_specZ w5 w3 false
  simp only [zb_false, add_zero, zero_add] at e7
  generalize addO w5 w3 false = o7 at hs
  generalize addW w5 w3 false = w7 at hs e7; generalize addC w5 w3 false = c7 at hs e7
  xstep
  xstep
  have e8 := addW_specZ (0 : UInt64) w6 c7
  simp only [z_zero, add_zero, zero_add] at e8
  generalize addO (0 : UInt64) w6 c7 = o8 at hs
  generalize addW (0 : UInt64) w6 c7 = w8 at hs e8; generalize addC (0 : UInt64) w6 c7 = c8 at hs e8
  have d8 : zb c8 = 0 := by
    clear * - e8 e6 hg4 e5 e7 e3 hg2 hk
    have := z_bnd w6
    have := z_bnd g4
    have := z_bnd q
    have := z_bnd cx
    have := z_bnd l4
    have := z_bnd w5
    have := z_bnd w3
    have := z_bnd g2
    have := z_bnd w7
    have := z_bnd w8
    have := zb_bnd c8
    have := zb_bnd c5
    have := zb_bnd c6
    have := zb_bnd c7
    have := zb_bnd z2
    have := zb_bnd c3
    omega
  xstep
  xstep
  have e9 := mul_specZ Bls.modulus.l2 q
  have hg9 := mulHi_le Bls.modulus.l2 q
  simp only [z_l2] at e9
  simp only [z_l2] at hg9
  generalize mulLo Bls.modulus.l2 q = l9 at hs e9; generalize mulHi Bls.modulus.l2 q = g9 at hs e9 hg9; generalize (g9 != 0) = z9 at hs
  xstep
  have e10 := addW_specZ r14 l9 false
  simp only [zb_false, add_zero, zero_add] at e10
  generalize addO r14 l9 false = o10 at hs
  generalize addW r14 l9 false = w10 at hs e10; generalize addC r14 l9 false = c10 at hs e10
  xstep
  have e11 := addW_specZ g9 (0 : UInt64) c10
  simp only [z_zero, add_zero, zero_add] at e11
  generalize addO g9 (0 : UInt64) c10 = o11 at hs
  generalize addW g9 (0 : UInt64) c10 = w11 at hs e11; generalize addC g9 (0 : UInt64) c10 = c11 at hs e11
  have d11 : zb c11 = 0 := by
    clear * - e11 hg9 e10 hk
    have := z_bnd g9
    have := z_bnd q
    have := z_bnd r14
    have := z_bnd l9
    have := z_bnd w10
    have := z_bnd w11
    have := zb_bnd c11
    have := zb_bnd c10
    omega
  xstep
  have e12 := addW_specZ w10 w8 false
  simp only [zb_false, add_zero, zero_add] at e12
  generalize addO w10 w8 false = o12 at hs
  generalize addW w10 w8 false = w12 at hs e12; generalize addC w10 w8 false = c12 at hs e12
  xstep
  xstep
  have e13 := addW_specZ (0 : UInt64) w11 c12
  simp only [z_zero, add_zero, zero_add] at e13
  generalize addO (0 : UInt64) w11 c12 = o13 at hs
  generalize addW (0 : UInt64) w11 c12 = w13 at hs e13; generalize addC (0 : UInt64) w11 c12 = c13 at hs e13
  have d13 : zb c13 = 0 := by
    clear * - e13 e11 hg9 e10 e12 e8 e6 e7 hk
    have := z_bnd w11
    have := z_bnd g9
    have := z_bnd q
    have := z_bnd r14
    have := z_bnd l9
    have := z_bnd w10
    have := z_bnd w8
    have := z_bnd w6
    have := z_bnd g4
    have := z_bnd w5
    have := z_bnd w3
    have := z_bnd w7
    have := z_bnd w12
    have := z_bnd w13
    have := zb_bnd c13
    have := zb_bnd c10
    have := zb_bnd c11
    have := zb_bnd c12
    have := zb_bnd c5
    have := zb_bnd c6
    have := zb_bnd c7
    have := zb_bnd c8
    omega
  xstep
  xstep
  have e14 := mul_specZ Bls.modulus.l3 q
  have hg14 := mulHi_le Bls.modulus.l3 q
  simp only [z_l3] at e14
  simp only [z_l3] at hg14
  generalize mulLo Bls.modulus.l3 q = l14 at hs e14; generalize mulHi Bls.modulus.l3 q = g14 at hs e14 hg14; generalize (g14 != 0) = z14 at hs
  xstep
  have e15 := addW_specZ r15 l14 false
  simp only [zb_false, add_zero, zero_add] at e15
  generalize addO r15 l14 false = o15 at hs
  generalize addW r15 l14 false = w15 at hs e15; generalize addC r15 l14 false = c15 at hs e15
  xstep
  have e16 := addW_specZ g14 (0 : UInt64) c15
  simp only [z_zero, add_zero, zero_add] at e16
  generalize addO g14 (0 : UInt64) c15 = o16 at hs
  generalize addW g14 (0 : UInt64) c15 = w16 at hs e16; generalize addC g14 (0 : UInt64) c15 = c16 at hs e16
  have d16 : zb c16 = 0 := by
    clear * - e16 hg14 e15 hk
    have := z_bnd g14
    have := z_bnd q
    have := z_bnd r15
    have := z_bnd l14
    have := z_bnd w15
    have := z_bnd w16
    have := zb_bnd c16
    have := zb_bnd c15
    omega
  xstep
  have e17 := addW_specZ w15 w13 false
  simp only [zb_false, add_zero, zero_add] at e17
  generalize addO w15 w13 false = o17 at hs
  generalize addW w15 w13 false = w17 at hs e17; generalize addC w15 w13 false = c17 at hs e17
  xstep
  xstep
  have e18 := addW_specZ (0 : UInt64) w16 c17
  simp only [z_zero, add_zero, zero_add] at e18
  generalize addO (0 : UInt64) w16 c17 = o18 at hs
  generalize addW (0 : UInt64) w16 c17 = w18 at hs e18; generalize addC (0 : UInt64) w16 c17 = c18 at hs e18
  have d18 : zb c18 = 0 := by
    clear * - e18 e16 hg14 e15 e17 e13 e11 e12 hk
    have := z_bnd w16
    have := z_bnd g14
    have := z_bnd q
    have := z_bnd r15
    have := z_bnd l14
    have := z_bnd w15
    have := z_bnd w13
    have := z_bnd w11
    have := z_bnd g9
    have := z_bnd w10
    have := z_bnd w8
    have := z_bnd w12
    have := z_bnd w17
    have := z_bnd w18
    have := zb_bnd c18
    have := zb_bnd c15
    have := zb_bnd c16
    have := zb_bnd c17
    have := zb_bnd c10
    have := zb_bnd c11
    have := zb_bnd c12
    have := zb_bnd c13
    omega
  xstep
  xstep
  have e19 := mul_specZ Bls.modulus.l4 q
  have hg19 := mulHi_le Bls.modulus.l4 q
  simp only [z_l4] at e19
  simp only [z_l4] at hg19
  generalize mulLo Bls.modulus.l4 q = l19 at hs e19; generalize mulHi Bls.modulus.l4 q = g19 at hs e19 hg19; generalize (g19 != 0) = z19 at hs
  xstep
  have e20 := addW_specZ r8 l19 false
  simp only [zb_false, add_zero, zero_add] at e20
  generalize addO r8 l19 false = o20 at hs
  generalize addW r8 l19 false = w20 at hs e20; generalize addC r8 l19 false = c20 at hs e20
  xstep
  have e21 := addW_specZ g19 (0 : UInt64) c20
  simp only [z_zero, add_zero, zero_add] at e21
  generalize addO g19 (0 : UInt64) c20 = o21 at hs
  generalize addW g19 (0 : UInt64) c20 = w21 at hs e21; generalize addC g19 (0 : UInt64) c20 = c21 at hs e21
  have d21 : zb c21 = 0 := by
    clear * - e21 hg19 e20 hk
    have := z_bnd g19
    have := z_bnd q
    have := z_bnd r8
    have := z_bnd l19
    have := z_bnd w20
    have := z_bnd w21
    have := zb_bnd c21
    have := zb_bnd c20
    omega
  xstep
  have e22 := addW_specZ w20 w18 false
  simp only [zb_false, add_zero, zero_add] at e22
  generalize addO w20 w18 false = o22 at hs
  generalize addW w20 w18 false = w22 at hs e22; generalize addC w20 w18 false = c22 at hs e22
  xstep
  xstep
  have e23 := addW_specZ (0 : UInt64) w21 c22
  simp only [z_zero, add_zero, zero_add] at e23
  generalize addO (0 : UInt64) w21 c22 = o23 at hs
  generalize addW (0 : UInt64) w21 c22 = w23 at hs e23; generalize addC (0 : UInt64) w21 c22 = c23 at hs e23
  have d23 : zb c23 = 0 := by
    clear * - e23 e21 hg19 e20 e22 e18 e16 e17 hk
    have := z_bnd w21
    have := z_bnd g19
    have := z_bnd q
    have := z_bnd r8
    have := z_bnd l19
    have := z_bnd w20
    have := z_bnd w18
    have := z_bnd w16
    have := z_bnd g14
    have := z_bnd w15
    have := z_bnd w13
    have := z_bnd w17
    have := z_bnd w22
    have := z_bnd w23
    have := zb_bnd c23
    have := zb_bnd c20
    have := zb_bnd c21
    have := zb_bnd c22
    have := zb_bnd c15
    have := zb_bnd c16
    have := zb_bnd c17
    have := zb_bnd c18
    omega
  xstep
  xstep
  have e24 := mul_specZ Bls.modulus.l5 q
  have hg24 := mulHi_le Bls.modulus.l5 q
  simp only [z_l5] at e24
  simp only [z_l5] at hg24
  generalize mulLo Bls.modulus.l5 q = l24 at hs e24; generalize mulHi Bls.modulus.l5 q = g24 at hs e24 hg24; generalize (g24 != 0) = z24 at hs
  xstep
  have e25 := addW_specZ r9 l24 false
  simp only [zb_false, add_zero, zero_add] at e25
  generalize addO r9 l24 false = o25 at hs
  generalize addW r9 l24 false = w25 at hs e25; generalize addC r9 l24 false = c25 at hs e25
  xstep
  have e26 := addW_specZ si g24 c25
  generalize addO si g24 c25 = o26 at hs
  generalize addW si g24 c25 = w26 at hs e26; generalize addC si g24 c25 = c26 at hs e26
  have d26 : zb c26 = 0 := by
    clear * - e26 hg24 e25 hk
    have := z_bnd si
    have := z_bnd g24
    have := z_bnd q
    have := z_bnd r9
    have := z_bnd l24
    have := z_bnd w25
    have := z_bnd w26
    have := zb_bnd c26
    have := zb_bnd c25
    omega
  xstep
  have e27 := addW_specZ w25 w23 false
  simp only [zb_false, add_zero, zero_add] at e27
  generalize addO w25 w23 false = o27 at hs
  generalize addW w25 w23 false = w27 at hs e27; generalize addC w25 w23 false = c27 at hs e27
  xstep
  have e28 := addW_specZ r10 w26 c27
  generalize addO r10 w26 c27 = o28 at hs
  generalize addW r10 w26 c27 = w28 at hs e28; generalize addC r10 w26 c27 = c28 at hs e28
  xstep
  xstep
  have e29 := addW_specZ (0 : UInt64) (0 : UInt64) c28
  simp only [z_zero, add_zero, zero_add] at e29
  generalize addO (0 : UInt64) (0 : UInt64) c28 = o29 at hs
  generalize addW (0 : UInt64) (0 : UInt64) c28 = w29 at hs e29; generalize addC (0 : UInt64) (0 : UInt64) c28 = c29 at hs e29
  have d29 : zb c29 = 0 := by
    clear * - e29 e28 e26 hg24 e25 e27 e23 hk
    have := z_bnd r10
    have := z_bnd w26
    have := z_bnd si
    have := z_bnd g24
    have := z_bnd q
    have := z_bnd r9
    have := z_bnd l24
    have := z_bnd w25
    have := z_bnd w23
    have := z_bnd w21
    have := z_bnd w27
    have := z_bnd w28
    have := z_bnd w29
    have := zb_bnd c29
    have := zb_bnd c28
    have := zb_bnd c25
    have := zb_bnd c26
    have := zb_bnd c27
    have := zb_bnd c22
    have := zb_bnd c23
    omega
  rw [run_nil] at hs
  refine ⟨l24, q, w7, g24, w29, w22, w27, w28, w23, w12, w17, c29, o29, hs.symm, ?_⟩
  have key : 2 ^ 64 * z w7 + 2 ^ 128 * z w12 + 2 ^ 192 * z w17 + 2 ^ 256 * z w22 + 2 ^ 320 * z w27 + 2 ^ 384 * z w28 + 2 ^ 448 * z w29 + 2 ^ 64 * zb (q == 1) = z di + 2 ^ 64 * z cx + 2 ^ 128 * z r14 + 2 ^ 192 * z r15 + 2 ^ 256 * z r8 + 2 ^ 320 * z r9 + 2 ^ 384 * z r10 + 2 ^ 384 * z si + z q * 0x1a0111ea397fe69a4b1ba7b6434bacd764774b84f38512bf6730d2a0f6b0f6241eabfffeb153ffffb9feffffffffaaab := by
    linear_combination hq + 2 ^ 64 * e3 + 2 ^ 64 * e4 + 2 ^ 64 * e5 + 2 ^ 128 * e6 + 2 ^ 64 * e7 + 2 ^ 128 * e8 + 2 ^ 128 * e9 + 2 ^ 128 * e10 + 2 ^ 192 * e11 + 2 ^ 128 * e12 + 2 ^ 192 * e13 + 2 ^ 192 * e14 + 2 ^ 192 * e15 + 2 ^ 256 * e16 + 2 ^ 192 * e17 + 2 ^ 256 * e18 + 2 ^ 256 * e19 + 2 ^ 256 * e20 + 2 ^ 320 * e21 + 2 ^ 256 * e22 + 2 ^ 320 * e23 + 2 ^ 320 * e24 + 2 ^ 320 * e25 + 2 ^ 384 * e26 + 2 ^ 320 * e27 + 2 ^ 384 * e28 + 2 ^ 448 * e29 - 2 ^ 128 * d3 - 2 ^ 192 * d6 - 2 ^ 192 * d8 - 2 ^ 256 * d11 - 2 ^ 256 * d13 - 2 ^ 320 * d16 - 2 ^ 320 * d18 - 2 ^ 384 * d21 - 2 ^ 384 * d23 - 2 ^ 448 * d26 - 2 ^ 512 * d29
  have hk' : z w29 ≤ 1 := by
    clear * - e29
    have := zb_bnd c28
    have := zb_bnd c29
    omega
  exact ⟨key, hk'⟩

/-- step 2 of the reduction. -/
theorem noadxRed2_spec {ax bx cx dx si di r8 r9 r10 r11 r12 r13 r14 r15 s0 s1 s2 f0 f1 f2 : UInt64} {cf of : Bool} {mem : UInt64 → UInt64}
    (hk : z si ≤ 1) :
    ∃ ax' bx' dx' si' r8' r9' r10' r11' r13' r14' r15' : UInt64, ∃ cf' of' : Bool,
      run noadxRed2 ⟨ax, bx, cx, dx, si, di, r8, r9, r10, r11, r12, r13, r14, r15, s0, s1, s2, f0, f1, f2, cf, of, mem⟩ =
      ⟨ax', bx', cx, dx', si', di, r8', r9', r10', r11', r12, r13', r14', r15', s0, s1, s2, f0, f1, f2, cf', of', mem⟩ ∧
      2 ^ 64 * z r14' + 2 ^ 128 * z r15' + 2 ^ 192 * z r8' + 2 ^ 256 * z r9' + 2 ^ 320 * z r10' + 2 ^ 384 * z r11' + 2 ^ 448 * z si' + 2 ^ 64 * zb ((mulLo cx Bls.inp) == 1) =
        z cx + 2 ^ 64 * z r14 + 2 ^ 128 * z r15 + 2 ^ 192 * z r8 + 2 ^ 256 * z r9 + 2 ^ 320 * z r10 + 2 ^ 384 * z r11 + 2 ^ 384 * z si + z (mulLo cx Bls.inp) * 0x1a0111ea397fe69a4b1ba7b6434bacd764774b84f38512bf6730d2a0f6b0f6241eabfffeb153ffffb9feffffffffaaab ∧ z si' ≤ 1 := by
  generalize hs : run noadxRed2 _ = s
  unfold noadxRed2 at hs
  xstep
  xstep
  have hq := quot_carry' cx
  generalize hqd : mulLo cx Bls.inp = q at hs hq; generalize mulHi cx Bls.inp = g1 at hs
  generalize (g1 != 0) = z1 at hs
  xstep
  xstep
  xstep
  xstep
  have e2 := mul_specZ Bls.modulus.l0 q
  have hg2 := mulHi_le Bls.modulus.l0 q
  simp only [z_l0] at e2
  simp only [z_l0] at hg2
  generalize mulLo Bls.modulus.l0 q = l2 at hs e2; generalize mulHi Bls.modulus.l0 q = g2 at hs e2 hg2 hq; generalize (g2 != 0) = z2 at hs hq
  xstep
  have e3 := addW_specZ (0 : UInt64) g2 z2
  simp only [z_zero, add_zero, zero_add] at e3
  generalize addO (0 : UInt64) g2 z2 = o3 at hs
  generalize addW (0 : UInt64) g2 z2 = w3 at hs e3; generalize addC (0 : UInt64) g2 z2 = c3 at hs e3
  have d3 : zb c3 = 0 := by
    clear * - e3 hg2 hk
    have := z_bnd g2
    have := z_bnd q
    have := z_bnd w3
    have := zb_bnd c3
    have := zb_bnd z2
    omega
  xstep
  xstep
  have e4 := mul_specZ Bls.modulus.l1 q
  have hg4 := mulHi_le Bls.modulus.l1 q
  simp only [z_l1] at e4
  simp only [z_l1] at hg4
  generalize mulLo Bls.modulus.l1 q = l4 at hs e4; generalize mulHi Bls.modulus.l1 q = g4 at hs e4 hg4; generalize (g4 != 0) = z4 at hs
  xstep
  have e5 := addW_specZ r14 l4 false
  simp only [zb_false, add_zero, zero_add] at e5
  generalize addO r14 l4 false = o5 at hs
  generalize addW r14 l4 false = w5 at hs e5; generalize addC r14 l4 false = c5 at hs e5
  xstep
  have e6 := addW_specZ g4 (0 : UInt64) c5
  simp only [z_zero, add_zero, zero_add] at e6
  generalize addO g4 (0 : UInt64) c5 = o6 at hs
  generalize addW g4 (0 : UInt64) c5 = w6 at hs e6; generalize addC g4 (0 : UInt64) c5 = c6 at hs e6
  have d6 : zb c6 = 0 := by
    clear * - e6 hg4 e5 hk
    have := z_bnd g4
    have := z_bnd q
    have := z_bnd r14
    have := z_bnd l4
    have := z_bnd w5
    have := z_bnd w6
    have := zb_bnd c6
    have := zb_bnd c5
    omega
  xstep
  have e7 := addW_specZ w5 w3 false
  simp only [zb_false, add_zero, zero_add] at e7
  generalize addO w5 w3 false = o7 at hs
  generalize addW w5 w3 false = w7 at hs e7; generalize addC w5 w3 false = c7 at hs e7
  xstep
  xstep
  have e8 := addW_specZ (0 : UInt64) w6 c7
  simp only [z_zero, add_zero, zero_add] at e8
  generalize addO (0 : UInt64) w6 c7 = o8 at hs
  generalize addW (0 : UInt64) w6 c7 = w8 at hs e8; generalize addC (0 : UInt64) w6 c7 = c8 at hs e8
  have d8 : zb c8 = 0 := by
    clear * - e8 e6 hg4 e5 e7 e3 hg2 hk
    have := z_bnd w6
    have := z_bnd g4
    have := z_bnd q
    have := z_bnd r14
    have := z_bnd l4
    have := z_bnd w5
    have := z_bnd w3
    have := z_bnd g2
    have := z_bnd w7
    have := z_bnd w8
    have := zb_bnd c8
    have := zb_bnd c5
    have := zb_bnd c6
    have := zb_bnd c7
    have := zb_bnd z2
    have := zb_bnd c3
    omega
  xstep
  xstep
  have e9 := mul_specZ Bls.modulus.l2 q
  have hg9 := mulHi_le Bls.modulus.l2 q
  simp only [z_l2] at e9
  simp only [z_l2] at hg9
  generalize mulLo Bls.modulus.l2 q = l9 at hs e9; generalize mulHi Bls.modulus.l2 q = g9 at hs e9 hg9; generalize (g9 != 0) = z9 at hs
  xstep
  have e10 := addW_specZ r15 l9 false
  simp only [zb_false, add_zero, zero_add] at e10
  generalize addO r15 l9 false = o10 at hs
  generalize addW r15 l9 false = w10 at hs e10; generalize addC r15 l9 false = c10 at hs e10
  xstep
  have e11 := addW_specZ g9 (0 : UInt64) c10
  simp only [z_zero, add_zero, zero_add] at e11
  generalize addO g9 (0 : UInt64) c10 = o11 at hs
  generalize addW g9 (0 : UInt64) c10 = w11 at hs e11; generalize addC g9 (0 : UInt64) c10 = c11 at hs e11
  have d11 : zb c11 = 0 := by
    clear * - e11 hg9 e10 hk
    have := z_bnd g9
    have := z_bnd q
    have := z_bnd r15
    have := z_bnd l9
    have := z_bnd w10
    have := z_bnd w11
    have := zb_bnd c11
    have := zb_bnd c10
    omega
  xstep
  have e12 := addW_specZ w10 w8 false
  simp only [zb_false, add_zero, zero_add] at e12
  generalize addO w10 w8 false = o12 at hs
  generalize addW w10 w8 false = w12 at hs e12; generalize addC w10 w8 false = c12 at hs e12
  xstep
  xstep
  have e13 := addW_specZ (0 : UInt64) w11 c12
  simp only [z_zero, add_zero, zero_add] at e13
  generalize addO (0 : UInt64) w11 c12 = o13 at hs
  generalize addW (0 : UInt64) w11 c12 = w13 at hs e13; generalize addC (0 : UInt64) w11 c12 = c13 at hs e13
  have d13 : zb c13 = 0 := by
    clear * - e13 e11 hg9 e10 e12 e8 e6 e7 hk
    have := z_bnd w11
    have := z_bnd g9
    have := z_bnd q
    have := z_bnd r15
    have := z_bnd l9
    have := z_bnd w10
    have := z_bnd w8
    have := z_bnd w6
    have := z_bnd g4
    have := z_bnd w5
    have := z_bnd w3
    have := z_bnd w7
    have := z_bnd w12
    have := z_bnd w13
    have := zb_bnd c13
    have := zb_bnd c10
    have := zb_bnd c11
    have := zb_bnd c12
    have := zb_bnd c5
    have := zb_bnd c6
    have := zb_bnd c7
    have := zb_bnd c8
    omega
  xstep
  xstep
  have e14 := mul_specZ Bls.modulus.l3 q
  have hg14 := mulHi_le Bls.modulus.l3 q
  simp only [z_l3] at e14
  simp only [z_l3] at hg14
  generalize mulLo Bls.modulus.l3 q = l14 at hs e14; generalize mulHi Bls.modulus.l3 q = g14 at hs e14 hg14; generalize (g14 != 0) = z14 at hs
  xstep
  have e15 := addW_specZ r8 l14 false
  simp only [zb_false, add_zero, zero_add] at e15
  generalize addO r8 l14 false = o15 at hs
  generalize addW r8 l14 false = w15 at hs e15; generalize addC r8 l14 false = c15 at hs e15
  xstep
  have e16 := addW_specZ g14 (0 : UInt64) c15
  simp only [z_zero, add_zero, zero_add] at e16
  generalize addO g14 (0 : UInt64) c15 = o16 at hs
  generalize addW g14 (0 : UInt64) c15 = w16 at hs e16; generalize addC g14 (0 : UInt64) c15 = c16 at hs e16
  have d16 : zb c16 = 0 := by
    clear * - e16 hg14 e15 hk
    have := z_bnd g14
    have := z_bnd q
    have := z_bnd r8
    have := z_bnd l14
    have := z_bnd w15
    have := z_bnd w16
    have := zb_bnd c16
    have := zb_bnd c15
    omega
  xstep
  have e17 := addW_specZ w15 w13 false
  simp only [zb_false, add_zero, zero_add] at e17
  generalize addO w15 w13 false = o17 at hs
  generalize addW w15 w13 false = w17 at hs e17; generalize addC w15 w13 false = c17 at hs e17
  xstep
  xstep
  have e18 := addW_specZ (0 : UInt64) w16 c17
  simp only [z_zero, add_zero, zero_add] at e18
  generalize addO (0 : UInt64) w16 c17 = o18 at hs
  generalize addW (0 : UInt64) w16 c17 = w18 at hs e18; generalize addC (0 : UInt64) w16 c17 = c18 at hs e18
  have d18 : zb c18 = 0 := by
    clear * - e18 e16 hg14 e15 e17 e13 e11 e12 hk
    have := z_bnd w16
    have := z_bnd g14
    have := z_bnd q
    have := z_bnd r8
    have := z_bnd l14
    have := z_bnd w15
    have := z_bnd w13
    have := z_bnd w11
    have := z_bnd g9
    have := z_bnd w10
    have := z_bnd w8
    have := z_bnd w12
    have := z_bnd w17
    have := z_bnd w18
    have := zb_bnd c18
    have := zb_bnd c15
    have := zb_bnd c16
    have := zb_bnd c17
    have := zb_bnd c10
    have := zb_bnd c11
    have := zb_bnd c12
    have := zb_bnd c13
    omega
  xstep
  xstep
  have e19 := mul_specZ Bls.modulus.l4 q
  have hg19 := mulHi_le Bls.modulus.l4 q
  simp only [z_l4] at e19
  simp only [z_l4] at hg19
  generalize mulLo Bls.modulus.l4 q = l19 at hs e19; generalize mulHi Bls.modulus.l4 q = g19 at hs e19 hg19; generalize (g19 != 0) = z19 at hs
  xstep
  have e20 := addW_specZ r9 l19 false
  simp only [zb_false, add_zero, zero_add] at e20
  generalize addO r9 l19 false = o20 at hs
  generalize addW r9 l19 false = w20 at hs e20; generalize addC r9 l19 false = c20 at hs e20
  xstep
  have e21 := addW_specZ g19 (0 : UInt64) c20
  simp only [z_zero, add_zero, zero_add] at e21
  generalize addO g19 (0 : UInt64) c20 = o21 at hs
  generalize addW g19 (0 : UInt64) c20 = w21 at hs e21; generalize addC g19 (0 : UInt64) c20 = c21 at hs e21
  have d21 : zb c21 = 0 := by
    clear * - e21 hg19 e20 hk
    have := z_bnd g19
    have := z_bnd q
    have := z_bnd r9
    have := z_bnd l19
    have := z_bnd w20
    have := z_bnd w21
    have := zb_bnd c21
    have := zb_bnd c20
    omega
  xstep
  have e22 := addW_specZ w20 w18 false
  simp only [zb_false, add_zero, zero_add] at e22
  generalize addO w20 w18 false = o22 at hs
  generalize addW w20 w18 false = w22 at hs e22; generalize addC w20 w18 false = c22 at hs e22
  xstep
  xstep
  have e23 := addW_specZ (0 : UInt64) w21 c22
  simp only [z_zero, add_zero, zero_add] at e23
  generalize addO (0 : UInt64) w21 c22 = o23 at hs
  generalize addW (0 : UInt64) w21 c22 = w23 at hs e23; generalize addC (0 : UInt64) w21 c22 = c23 at hs e23
  have d23 : zb c23 = 0 := by
    clear * - e23 e21 hg19 e20 e22 e18 e16 e17 hk
    have := z_bnd w21
    have := z_bnd g19
    have := z_bnd q
    have := z_bnd r9
    have := z_bnd l19
    have := z_bnd w20
    have := z_bnd w18
    have := z_bnd w16
    have := z_bnd g14
    have := z_bnd w15
    have := z_bnd w13
    have := z_bnd w17
    have := z_bnd w22
    have := z_bnd w23
    have := zb_bnd c23
    have := zb_bnd c20
    have := zb_bnd c21
    have := zb_bnd c22
    have := zb_bnd c15
    have := zb_bnd c16
    have := zb_bnd c17
    have := zb_bnd c18
    omega
  xstep
  xstep
  have e24 := mul_specZ Bls.modulus.l5 q
  have hg24 := mulHi_le Bls.modulus.l5 q
  simp only [z_l5] at e24
  simp only [z_l5] at hg24
  generalize mulLo Bls.modulus.l5 q = l24 at hs e24; generalize mulHi Bls.modulus.l5 q = g24 at hs e24 hg24; generalize (g24 != 0) = z24 at hs
  xstep
  have e25 := addW_specZ r10 l24 false
  simp only [zb_false, add_zero, zero_add] at e25
  generalize addO r10 l24 false = o25 at hs
  generalize addW r10 l24 false = w25 at hs e25; generalize addC r10 l24 false = c25 at hs e25
  xstep
  have e26 := addW_specZ si g24 c25
  generalize addO si g24 c25 = o26 at hs
  generalize addW si g24 c25 = w26 at hs e26; generalize addC si g24 c25 = c26 at hs e26
  have d26 : zb c26 = 0 := by
    clear * - e26 hg24 e25 hk
    have := z_bnd si
    have := z_bnd g24
    have := z_bnd q
    have := z_bnd r10
    have := z_bnd l24
    have := z_bnd w25
    have := z_bnd w26
    have := zb_bnd c26
    have := zb_bnd c25
    omega
  xstep
  have e27 := addW_specZ w25 w23 false
  simp only [zb_false, add_zero, zero_add] at e27
  generalize addO w25 w23 false = o27 at hs
  generalize addW w25 w23 false = w27 at hs e27; generalize addC w25 w23 false = c27 at hs e27
  xstep
  have e28 := addW_specZ r11 w26 c27
  generalize addO r11 w26 c27 = o28 at hs
  generalize addW r11 w26 c27 = w28 at hs e28; generalize addC r11 w26 c27 = c28 at hs e28
  xstep
  xstep
  have e29 := addW_specZ (0 : UInt64) (0 : UInt64) c28
  simp only [z_zero, add_zero, zero_add] at e29
  generalize addO (0 : UInt64) (0 : UInt64) c28 = o29 at hs
  generalize addW (0 : UInt64) (0 : UInt64) c28 = w29 at hs e29; generalize addC (0 : UInt64) (0 : UInt64) c28 = c29 at hs e29
  have d29 : zb c29 = 0 := by
    clear * - e29 e28 e26 hg24 e25 e27 e23 hk
    have := z_bnd r11
    have := z_bnd w26
    have := z_bnd si
    have := z_bnd g24
    have := z_bnd q
    have := z_bnd r10
    have := z_bnd l24
    have := z_bnd w25
    have := z_bnd w23
    have := z_bnd w21
    have := z_bnd w27
    have := z_bnd w28
    have := z_bnd w29
    have := zb_bnd c29
    have := zb_bnd c28
    have := zb_bnd c25
    have := zb_bnd c26
    have := zb_bnd c27
    have := zb_bnd c22
    have := zb_bnd c23
    omega
  rw [run_nil] at hs
  refine ⟨l24, q, g24, w29, w17, w22, w27, w28, w23, w7, w12, c29, o29, hs.symm, ?_⟩
  have key : 2 ^ 64 * z w7 + 2 ^ 128 * z w12 + 2 ^ 192 * z w17 + 2 ^ 256 * z w22 + 2 ^ 320 * z w27 + 2 ^ 384 * z w28 + 2 ^ 448 * z w29 + 2 ^ 64 * zb (q == 1) = z cx + 2 ^ 64 * z r14 + 2 ^ 128 * z r15 + 2 ^ 192 * z r8 + 2 ^ 256 * z r9 + 2 ^ 320 * z r10 + 2 ^ 384 * z r11 + 2 ^ 384 * z si + z q * 0x1a0111ea397fe69a4b1ba7b6434bacd764774b84f38512bf6730d2a0f6b0f6241eabfffeb153ffffb9feffffffffaaab := by
    linear_combination hq + 2 ^ 64 * e3 + 2 ^ 64 * e4 + 2 ^ 64 * e5 + 2 ^ 128 * e6 + 2 ^ 64 * e7 + 2 ^ 128 * e8 + 2 ^ 128 * e9 + 2 ^ 128 * e10 + 2 ^ 192 * e11 + 2 ^ 128 * e12 + 2 ^ 192 * e13 + 2 ^ 192 * e14 + 2 ^ 192 * e15 + 2 ^ 256 * e16 + 2 ^ 192 * e17 + 2 ^ 256 * e18 + 2 ^ 256 * e19 + 2 ^ 256 * e20 + 2 ^ 320 * e21 + 2 ^ 256 * e22 + 2 ^ 320 * e23 + 2 ^ 320 * e24 + 2 ^ 320 * e25 + 2 ^ 384 * e26 + 2 ^ 320 * e27 + 2 ^ 384 * e28 + 2 ^ 448 * e29 - 2 ^ 128 * d3 - 2 ^ 192 * d6 - 2 ^ 192 * d8 - 2 ^ 256 * d11 - 2 ^ 256 * d13 - 2 ^ 320 * d16 - 2 ^ 320 * d18 - 2 ^ 384 * d21 - 2 ^ 384 * d23 - 2 ^ 448 * d26 - 2 ^ 512 * d29
  have hk' : z w29 ≤ 1 := by
    clear * - e29
    have := zb_bnd c28
    have := zb_bnd c29
    omega
  exact ⟨key, hk'⟩

/-- step 3 of the reduction. -/
theorem noadxRed3_spec {ax bx cx dx si di r8 r9 r10 r11 r12 r13 r14 r15 s0 s1 s2 f0 f1 f2 : UInt64} {cf of : Bool} {mem : UInt64 → UInt64}
    (hk : z si ≤ 1) :
    ∃ ax' bx' dx' si' r8' r9' r10' r11' r12' r13' r15' : UInt64, ∃ cf' of' : Bool,
      run noadxRed3 ⟨ax, bx, cx, dx, si, di, r8, r9, r10, r11, r12, r13, r14, r15, s0, s1, s2, f0, f1, f2, cf, of, mem⟩ =
      ⟨ax', bx', cx, dx', si', di, r8', r9', r10', r11', r12', r13', r14, r15', s0, s1, s2, f0, f1, f2, cf', of', mem⟩ ∧
      2 ^ 64 * z r15' + 2 ^ 128 * z r8' + 2 ^ 192 * z r9' + 2 ^ 256 * z r10' + 2 ^ 320 * z r11' + 2 ^ 384 * z r12' + 2 ^ 448 * z si' + 2 ^ 64 * zb ((mulLo r14 Bls.inp) == 1) =
        z r14 + 2 ^ 64 * z r15 + 2 ^ 128 * z r8 + 2 ^ 192 * z r9 + 2 ^ 256 * z r10 + 2 ^ 320 * z r11 + 2 ^ 384 * z r12 + 2 ^ 384 * z si + z (mulLo r14 Bls.inp) * 0x1a0111ea397fe69a4b1ba7b6434bacd764774b84f38512bf6730d2a0f6b0f6241eabfffeb153ffffb9feffffffffaaab ∧ z si' ≤ 1 := by
  generalize hs : run noadxRed3 _ = s
  unfold noadxRed3 at hs
  xstep
  xstep
  have hq := quot_carry' r14
  generalize hqd : mulLo r14 Bls.inp = q at hs hq; generalize mulHi r14 Bls.inp = g1 at hs
  generalize (g1 != 0) = z1 at hs
  xstep
  xstep
  xstep
  xstep
  have e2 := mul_specZ Bls.modulus.l0 q
  have hg2 := mulHi_le Bls.modulus.l0 q
  simp only [z_l0] at e2
  simp only [z_l0] at hg2
  generalize mulLo Bls.modulus.l0 q = l2 at hs e2; generalize mulHi Bls.modulus.l0 q = g2 at hs e2 hg2 hq; generalize (g2 != 0) = z2 at hs hq
  xstep
  have e3 := addW_specZ (0 : UInt64) g2 z2
  simp only [z_zero, add_zero, zero_add] at e3
  generalize addO (0 : UInt64) g2 z2 = o3 at hs
  generalize addW (0 : UInt64) g2 z2 = w3 at hs e3; generalize addC (0 : UInt64) g2 z2 = c3 at hs e3
  have d3 : zb c3 = 0 := by
    clear * - e3 hg2 hk
    have := z_bnd g2
    have := z_bnd q
    have := z_bnd w3
    have := zb_bnd c3
    have := zb_bnd z2
    omega
  xstep
  xstep
  have e4 := mul_specZ Bls.modulus.l1 q
  have hg4 := mulHi_le Bls.modulus.l1 q
  simp only [z_l1] at e4
  simp only [z_l1] at hg4
  generalize mulLo Bls.modulus.l1 q = l4 at hs e4; generalize mulHi Bls.modulus.l1 q = g4 at hs e4 hg4; generalize (g4 != 0) = z4 at hs
  xstep
  have e5 := addW_specZ r15 l4 false
  simp only [zb_false, add_zero, zero_add] at e5
  generalize addO r15 l4 false = o5 at hs
  generalize addW r15 l4 false = w5 at hs e5; generalize addC r15 l4 false = c5 at hs e5
  xstep
  have e6 := addW_specZ g4 (0 : UInt64) c5
  simp only [z_zero, add_zero, zero_add] at e6
  generalize addO g4 (0 : UInt64) c5 = o6 at hs
  generalize addW g4 (0 : UInt64) c5 = w6 at hs e6; generalize addC g4 (0 : UInt64) c5 = c6 at hs e6
  have d6 : zb c6 = 0 := by
    clear * - e6 hg4 e5 hk
    have := z_bnd g4
    have := z_bnd q
    have := z_bnd r15
    have := z_bnd l4
    have := z_bnd w5
    have := z_bnd w6
    have := zb_bnd c6
    have := zb_bnd c5
    omega
  xstep
  have e7 := addW_specZ w5 w3 false
  simp only [zb_false, add_zero, zero_add] at e7
  generalize addO w5 w3 false = o7 at hs
  generalize addW w5 w3 false = w7 at hs e7; generalize addC w5 w3 false = c7 at hs e7
  xstep
  xstep
  have e8 := addW_specZ (0 : UInt64) w6 c7
  simp only [z_zero, add_zero, zero_add] at e8
  generalize addO (0 : UInt64) w6 c7 = o8 at hs
  generalize addW (0 : UInt64) w6 c7 = w8 at hs e8; generalize addC (0 : UInt64) w6 c7 = c8 at hs e8
  have d8 : zb c8 = 0 := by
    clear * - e8 e6 hg4 e5 e7 e3 hg2 hk
    have := z_bnd w6
    have := z_bnd g4
    have := z_bnd q
    have := z_bnd r15
    have := z_bnd l4
    have := z_bnd w5
    have := z_bnd w3
    have := z_bnd g2
    have := z_bnd w7
    have := z_bnd w8
    have := zb_bnd c8
    have := zb_bnd c5
    have := zb_bnd c6
    have := zb_bnd c7
    have := zb_bnd z2
    have := zb_bnd c3
    omega
  xstep
  xstep
  have e9 := mul_specZ Bls.modulus.l2 q
  have hg9 := mulHi_le Bls.modulus.l2 q
  simp only [z_l2] at e9
  simp only [z_l2] at hg9
  generalize mulLo Bls.modulus.l2 q = l9 at hs e9; generalize mulHi Bls.modulus.l2 q = g9 at hs e9 hg9; generalize (g9 != 0) = z9 at hs
  xstep
  have e10 := addW_specZ r8 l9 false
  simp only [zb_false, add_zero, zero_add] at e10
  generalize addO r8 l9 false = o10 at hs
  generalize addW r8 l9 false = w10 at hs e10; generalize addC r8 l9 false = c10 at hs e10
  xstep
  have e11 := addW_specZ g9 (0 : UInt64) c10
  simp only [z_zero, add_zero, zero_add] at e11
  generalize addO g9 (0 : UInt64) c10 = o11 at hs
  generalize addW g9 (0 : UInt64) c10 = w11 at hs e11; generalize addC g9 (0 : UInt64) c10 = c11 at hs e11
  have d11 : zb c11 = 0 := by
    clear * - e11 hg9 e10 hk
    have := z_bnd g9
    have := z_bnd q
    have := z_bnd r8
    have := z_bnd l9
    have := z_bnd w10
    have := z_bnd w11
    have := zb_bnd c11
    have := zb_bnd c10
    omega
  xstep
  have e12 := addW_specZ w10 w8 false
  simp only [zb_false, add_zero, zero_add] at e12
  generalize addO w10 w8 false = o12 at hs
  generalize addW w10 w8 false = w12 at hs e12; generalize addC w10 w8 false = c12 at hs e12
  xstep
  xstep
  have e13 := addW_specZ (0 : UInt64) w11 c12
  simp only [z_zero, add_zero, zero_add] at e13
  generalize addO (0 : UInt64) w11 c12 = o13 at hs
  generalize addW (0 : UInt64) w11 c12 = w13 at hs e13; generalize addC (0 : UInt64) w11 c12 = c13 at hs e13
  have d13 : zb c13 = 0 := by
    clear * - e13 e11 hg9 e10 e12 e8 e6 e7 hk
    have := z_bnd w11
    have := z_bnd g9
    have := z_bnd q
    have := z_bnd r8
    have := z_bnd l9
    have := z_bnd w10
    have := z_bnd w8
    have := z_bnd w6
    have := z_bnd g4
    have := z_bnd w5
    have := z_bnd w3
    have := z_bnd w7
    have := z_bnd w12
    have := z_bnd w13
    have := zb_bnd c13
    have := zb_bnd c10
    have := zb_bnd c11
    have := zb_bnd c12
    have := zb_bnd c5
    have := zb_bnd c6
    have := zb_bnd c7
    have := zb_bnd c8
    omega
  xstep
  xstep
  have e14 := mul_specZ Bls.modulus.l3 q
  have hg14 := mulHi_le Bls.modulus.l3 q
  simp only [z_l3] at e14
  simp only [z_l3] at hg14
  generalize mulLo Bls.modulus.l3 q = l14 at hs e14; generalize mulHi Bls.modulus.l3 q = g14 at hs e14 hg14; generalize (g14 != 0) = z14 at hs
  xstep
  have e15 := addW_specZ r9 l14 false
  simp only [zb_false, add_zero, zero_add] at e15
  generalize addO r9 l14 false = o15 at hs
  generalize addW r9 l14 false = w15 at hs e15; generalize addC r9 l14 false = c15 at hs e15
  xstep
  have e16 := addW_specZ g14 (0 : UInt64) c15
  simp only [z_zero, add_zero, zero_add] at e16
  generalize addO g14 (0 : UInt64) c15 = o16 at hs
  generalize addW g14 (0 : UInt64) c15 = w16 at hs e16; generalize addC g14 (0 : UInt64) c15 = c16 at hs e16
  have d16 : zb c16 = 0 := by
    clear * - e16 hg14 e15 hk
    have := z_bnd g14
    have := z_bnd q
    have := z_bnd r9
    have := z_bnd l14
    have := z_bnd w15
    have := z_bnd w16
    have := zb_bnd c16
    have := zb_bnd c15
    omega
  xstep
  have e17 := addW_specZ w15 w13 false
  simp only [zb_false, add_zero, zero_add] at e17
  generalize addO w15 w13 false = o17 at hs
  generalize addW w15 w13 false = w17 at hs e17; generalize addC w15 w13 false = c17 at hs e17
  xstep
  xstep
  have e18 := addW_specZ (0 : UInt64) w16 c17
  simp only [z_zero, add_zero, zero_add] at e18
  generalize addO (0 : UInt64) w16 c17 = o18 at hs
  generalize addW (0 : UInt64) w16 c17 = w18 at hs e18; generalize addC (0 : UInt64) w16 c17 = c18 at hs e18
  have d18 : zb c18 = 0 := by
    clear * - e18 e16 hg14 e15 e17 e13 e11 e12 hk
    have := z_bnd w16
    have := z_bnd g14
    have := z_bnd q
    have := z_bnd r9
    have := z_bnd l14
    have := z_bnd w15
    have := z_bnd w13
    have := z_bnd w11
    have := z_bnd g9
    have := z_bnd w10
    have := z_bnd w8
    have := z_bnd w12
    have := z_bnd w17
    have := z_bnd w18
    have := zb_bnd c18
    have := zb_bnd c15
    have := zb_bnd c16
    have := zb_bnd c17
    have := zb_bnd c10
    have := zb_bnd c11
    have := zb_bnd c12
    have := zb_bnd c13
    omega
  xstep
  xstep
  have e19 := mul_specZ Bls.modulus.l4 q
  have hg19 := mulHi_le Bls.modulus.l4 q
  simp only [z_l4] at e19
  simp only [z_l4] at hg19
  generalize mulLo Bls.modulus.l4 q = l19 at hs e19; generalize mulHi Bls.modulus.l4 q = g19 at hs e19 hg19; generalize (g19 != 0) = z19 at hs
  xstep
  have e20 := addW_specZ r10 l19 false
  simp only [zb_false, add_zero, zero_add] at e20
  generalize addO r10 l19 false = o20 at hs
  generalize addW r10 l19 false = w20 at hs e20; generalize addC r10 l19 false = c20 at hs e20
  xstep
  have e21 := addW_specZ g19 (0 : UInt64) c20
  simp only [z_zero, add_zero, zero_add] at e21
  generalize addO g19 (0 : UInt64) c20 = o21 at hs
  generalize addW g19 (0 : UInt64) c20 = w21 at hs e21; generalize addC g19 (0 : UInt64) c20 = c21 at hs e21
  have d21 : zb c21 = 0 := by
    clear * - e21 hg19 e20 hk
    have := z_bnd g19
    have := z_bnd q
    have := z_bnd r10
    have := z_bnd l19
    have := z_bnd w20
    have := z_bnd w21
    have := zb_bnd c21
    have := zb_bnd c20
    omega
  xstep
  have e22 := addW_specZ w20 w18 false
  simp only [zb_false, add_zero, zero_add] at e22
  generalize addO w20 w18 false = o22 at hs
  generalize addW w20 w18 false = w22 at hs e22; generalize addC w20 w18 false = c22 at hs e22
  xstep
  xstep
  have e23 := addW_specZ (0 : UInt64) w21 c22
  simp only [z_zero, add_zero, zero_add] at e23
  generalize addO (0 : UInt64) w21 c22 = o23 at hs
  generalize addW (0 : UInt64) w21 c22 = w23 at hs e23; generalize addC (0 : UInt64) w21 c22 = c23 at hs e23
  have d23 : zb c23 = 0 := by
    clear * - e23 e21 hg19 e20 e22 e18 e16 e17 hk
    have := z_bnd w21
    have := z_bnd g19
    have := z_bnd q
    have := z_bnd r10
    have := z_bnd l19
    have := z_bnd w20
    have := z_bnd w18
    have := z_bnd w16
    have := z_bnd g14
    have := z_bnd w15
    have := z_bnd w13
    have := z_bnd w17
    have := z_bnd w22
    have := z_bnd w23
    have := zb_bnd c23
    have := zb_bnd c20
    have := zb_bnd c21
    have := zb_bnd c22
    have := zb_bnd c15
    have := zb_bnd c16
    have := zb_bnd c17
    have := zb_bnd c18
    omega
  xstep
  xstep
  have e24 := mul_specZ Bls.modulus.l5 q
  have hg24 := mulHi_le Bls.modulus.l5 q
  simp only [z_l5] at e24
  simp only [z_l5] at hg24
  generalize mulLo Bls.modulus.l5 q = l24 at hs e24; generalize mulHi Bls.modulus.l5 q = g24 at hs e24 hg24; generalize (g24 != 0) = z24 at hs
  xstep
  have e25 := addW_specZ r11 l24 false
  simp only [zb_false, add_zero, zero_add] at e25
  generalize addO r11 l24 false = o25 at hs
  generalize addW r11 l24 false = w25 at hs e25; generalize addC r11 l24 false = c25 at hs e25
  xstep
  have e26 := addW_specZ si g24 c25
  generalize addO si g24 c25 = o26 at hs
  generalize addW si g24 c25 = w26 at hs e26; generalize addC si g24 c25 = c26 at hs e26
  have d26 : zb c26 = 0 := by
    clear * - e26 hg24 e25 hk
    have := z_bnd si
    have := z_bnd g24
    have := z_bnd q
    have := z_bnd r11
    have := z_bnd l24
    have := z_bnd w25
    have := z_bnd w26
    have := zb_bnd c26
    have := zb_bnd c25
    omega
  xstep
  have e27 := addW_specZ w25 w23 false
  simp only [zb_false, add_zero, zero_add] at e27
  generalize addO w25 w23 false = o27 at hs
  generalize addW w25 w23 false = w27 at hs e27; generalize addC w25 w23 false = c27 at hs e27
  xstep
  have e28 := addW_specZ r12 w26 c27
  generalize addO r12 w26 c27 = o28 at hs
  generalize addW r12 w26 c27 = w28 at hs e28; generalize addC r12 w26 c27 = c28 at hs e28
  xstep
  xstep
  have e29 := addW_specZ (0 : UInt64) (0 : UInt64) c28
  simp only [z_zero, add_zero, zero_add] at e29
  generalize addO (0 : UInt64) (0 : UInt64) c28 = o29 at hs
  generalize addW (0 : UInt64) (0 : UInt64) c28 = w29 at hs e29; generalize addC (0 : UInt64) (0 : UInt64) c28 = c29 at hs e29
  have d29 : zb c29 = 0 := by
    clear * - e29 e28 e26 hg24 e25 e27 e23 hk
    have := z_bnd r12
    have := z_bnd w26
    have := z_bnd si
    have := z_bnd g24
    have := z_bnd q
    have := z_bnd r11
    have := z_bnd l24
    have := z_bnd w25
    have := z_bnd w23
    have := z_bnd w21
    have := z_bnd w27
    have := z_bnd w28
    have := z_bnd w29
    have := zb_bnd c29
    have := zb_bnd c28
    have := zb_bnd c25
    have := zb_bnd c26
    have := zb_bnd c27
    have := zb_bnd c22
    have := zb_bnd c23
    omega
  rw [run_nil] at hs
  refine ⟨l24, q, g24, w29, w12, w17, w22, w27, w28, w23, w7, c29, o29, hs.symm, ?_⟩
  have key : 2 ^ 64 * z w7 + 2 ^ 128 * z w12 + 2 ^ 192 * z w17 + 2 ^ 256 * z w22 + 2 ^ 320 * z w27 + 2 ^ 384 * z w28 + 2 ^ 448 * z w29 + 2 ^ 64 * zb (q == 1) = z r14 + 2 ^ 64 * z r15 + 2 ^ 128 * z r8 + 2 ^ 192 * z r9 + 2 ^ 256 * z r10 + 2 ^ 320 * z r11 + 2 ^ 384 * z r12 + 2 ^ 384 * z si + z q * 0x1a0111ea397fe69a4b1ba7b6434bacd764774b84f38512bf6730d2a0f6b0f6241eabfffeb153ffffb9feffffffffaaab := by
    linear_combination hq + 2 ^ 64 * e3 + 2 ^ 64 * e4 + 2 ^ 64 * e5 + 2 ^ 128 * e6 + 2 ^ 64 * e7 + 2 ^ 128 * e8 + 2 ^ 128 * e9 + 2 ^ 128 * e10 + 2 ^ 192 * e11 + 2 ^ 128 * e12 + 2 ^ 192 * e13 + 2 ^ 192 * e14 + 2 ^ 192 * e15 + 2 ^ 256 * e16 + 2 ^ 192 * e17 + 2 ^ 256 * e18 + 2 ^ 256 * e19 + 2 ^ 256 * e20 + 2 ^ 320 * e21 + 2 ^ 256 * e22 + 2 ^ 320 * e23 + 2 ^ 320 * e24 + 2 ^ 320 * e25 + 2 ^ 384 * e26 + 2 ^ 320 * e27 + 2 ^ 384 * e28 + 2 ^ 448 * e29 - 2 ^ 128 * d3 - 2 ^ 192 * d6 - 2 ^ 192 * d8 - 2 ^ 256 * d11 - 2 ^ 256 * d13 - 2 ^ 320 * d16 - 2 ^ 320 * d18 - 2 ^ 384 * d21 - 2 ^ 384 * d23 - 2 ^ 448 * d26 - 2 ^ 512 * d29
  have hk' : z w29 ≤ 1 := by
    clear * - e29
    have := zb_bnd c28
    have := zb_bnd c29
    omega
  exact ⟨key, hk'⟩

/-- step 4 of the reduction. -/
theorem noadxRed4_spec {ax bx cx dx si di r8 r9 r10 r11 r12 r13 r14 r15 s0 s1 s2 f0 f1 f2 : UInt64} {cf of : Bool} {mem : UInt64 → UInt64}
    (hk : z si ≤ 1)
    (ht : z s1 ≤ 9223372036854775808) :
    ∃ ax' bx' cx' dx' si' r8' r9' r10' r11' r12' r13' r14' : UInt64, ∃ cf' of' : Bool,
      run noadxRed4 ⟨ax, bx, cx, dx, si, di, r8, r9, r10, r11, r12, r13, r14, r15, s0, s1, s2, f0, f1, f2, cf, of, mem⟩ =
      ⟨ax', bx', cx', dx', si', di, r8', r9', r10', r11', r12', r13', r14', r15, s0, s1, s2, f0, f1, f2, cf', of', mem⟩ ∧
      2 ^ 64 * z r8' + 2 ^ 128 * z r9' + 2 ^ 192 * z r10' + 2 ^ 256 * z r11' + 2 ^ 320 * z r12' + 2 ^ 384 * z cx' + 2 ^ 448 * z r14' + 2 ^ 64 * zb ((mulLo r15 Bls.inp) == 1) =
        z r15 + 2 ^ 64 * z r8 + 2 ^ 128 * z r9 + 2 ^ 192 * z r10 + 2 ^ 256 * z r11 + 2 ^ 320 * z r12 + 2 ^ 384 * z s0 + 2 ^ 448 * z s1 + 2 ^ 384 * z si + z (mulLo r15 Bls.inp) * 0x1a0111ea397fe69a4b1ba7b6434bacd764774b84f38512bf6730d2a0f6b0f6241eabfffeb153ffffb9feffffffffaaab := by
  generalize hs : run noadxRed4 _ = s
  unfold noadxRed4 at hs
  xstep
  xstep
  have hq := quot_carry' r15
  generalize hqd : mulLo r15 Bls.inp = q at hs hq; generalize mulHi r15 Bls.inp = g1 at hs
  generalize (g1 != 0) = z1 at hs
  xstep
  xstep
  xstep
  xstep
  have e2 := mul_specZ Bls.modulus.l0 q
  have hg2 := mulHi_le Bls.modulus.l0 q
  simp only [z_l0] at e2
  simp only [z_l0] at hg2
  generalize mulLo Bls.modulus.l0 q = l2 at hs e2; generalize mulHi Bls.modulus.l0 q = g2 at hs e2 hg2 hq; generalize (g2 != 0) = z2 at hs hq
  xstep
  have e3 := addW_specZ (0 : UInt64) g2 z2
  simp only [z_zero, add_zero, zero_add] at e3
  generalize addO (0 : UInt64) g2 z2 = o3 at hs
  generalize addW (0 : UInt64) g2 z2 = w3 at hs e3; generalize addC (0 : UInt64) g2 z2 = c3 at hs e3
  have d3 : zb c3 = 0 := by
    clear * - e3 hg2 hk ht
    have := z_bnd g2
    have := z_bnd q
    have := z_bnd w3
    have := zb_bnd c3
    have := zb_bnd z2
    omega
  xstep
  xstep
  have e4 := mul_specZ Bls.modulus.l1 q
  have hg4 := mulHi_le Bls.modulus.l1 q
  simp only [z_l1] at e4
  simp only [z_l1] at hg4
  generalize mulLo Bls.modulus.l1 q = l4 at hs e4; generalize mulHi Bls.modulus.l1 q = g4 at hs e4 hg4; generalize (g4 != 0) = z4 at hs
  xstep
  have e5 := addW_specZ r8 l4 false
  simp only [zb_false, add_zero, zero_add] at e5
  generalize addO r8 l4 false = o5 at hs
  generalize addW r8 l4 false = w5 at hs e5; generalize addC r8 l4 false = c5 at hs e5
  xstep
  have e6 := addW_specZ g4 (0 : UInt64) c5
  simp only [z_zero, add_zero, zero_add] at e6
  generalize addO g4 (0 : UInt64) c5 = o6 at hs
  generalize addW g4 (0 : UInt64) c5 = w6 at hs e6; generalize addC g4 (0 : UInt64) c5 = c6 at hs e6
  have d6 : zb c6 = 0 := by
    clear * - e6 hg4 e5 hk ht
    have := z_bnd g4
    have := z_bnd q
    have := z_bnd r8
    have := z_bnd l4
    have := z_bnd w5
    have := z_bnd w6
    have := zb_bnd c6
    have := zb_bnd c5
    omega
  xstep
  have e7 := addW_specZ w5 w3 false
  simp only [zb_false, add_zero, zero_add] at e7
  generalize addO w5 w3 false = o7 at hs
  generalize addW w5 w3 false = w7 at hs e7; generalize addC w5 w3 false = c7 at hs e7
  xstep
  xstep
  have e8 := addW_specZ (0 : UInt64) w6 c7
  simp only [z_zero, add_zero, zero_add] at e8
  generalize addO (0 : UInt64) w6 c7 = o8 at hs
  generalize addW (0 : UInt64) w6 c7 = w8 at hs e8; generalize addC (0 : UInt64) w6 c7 = c8 at hs e8
  have d8 : zb c8 = 0 := by
    clear * - e8 e6 hg4 e5 e7 e3 hg2 hk ht
    have := z_bnd w6
    have := z_bnd g4
    have := z_bnd q
    have := z_bnd r8
    have := z_bnd l4
    have := z_bnd w5
    have := z_bnd w3
    have := z_bnd g2
    have := z_bnd w7
    have := z_bnd w8
    have := zb_bnd c8
    have := zb_bnd c5
    have := zb_bnd c6
    have := zb_bnd c7
    have := zb_bnd z2
    have := zb_bnd c3
    omega
  xstep
  xstep
  have e9 := mul_specZ Bls.modulus.l2 q
  have hg9 := mulHi_le Bls.modulus.l2 q
  simp only [z_l2] at e9
  simp only [z_l2] at hg9
  generalize mulLo Bls.modulus.l2 q = l9 at hs e9; generalize mulHi Bls.modulus.l2 q = g9 at hs e9 hg9; generalize (g9 != 0) = z9 at hs
  xstep
  have e10 := addW_specZ r9 l9 false
  simp only [zb_false, add_zero, zero_add] at e10
  generalize addO r9 l9 false = o10 at hs
  generalize addW r9 l9 false = w10 at hs e10; generalize addC r9 l9 false = c10 at hs e10
  xstep
  have e11 := addW_specZ g9 (0 : UInt64) c10
  simp only [z_zero, add_zero, zero_add] at e11
  generalize addO g9 (0 : UInt64) c10 = o11 at hs
  generalize addW g9 (0 : UInt64) c10 = w11 at hs e11; generalize addC g9 (0 : UInt64) c10 = c11 at hs e11
  have d11 : zb c11 = 0 := by
    clear * - e11 hg9 e10 hk ht
    have := z_bnd g9
    have := z_bnd q
    have := z_bnd r9
    have := z_bnd l9
    have := z_bnd w10
    have := z_bnd w11
    have := zb_bnd c11
    have := zb_bnd c10
    omega
  xstep
  have e12 := addW_specZ w10 w8 false
  simp only [zb_false, add_zero, zero_add] at e12
  generalize addO w10 w8 false = o12 at hs
  generalize addW w10 w8 false = w12 at hs e12; generalize addC w10 w8 false = c12 at hs e12
  xstep
  xstep
  have e13 := addW_specZ (0 : UInt64) w11 c12
  simp only [z_zero, add_zero, zero_add] at e13
  generalize addO (0 : UInt64) w11 c12 = o13 at hs
  generalize addW (0 : UInt64) w11 c12 = w13 at hs e13; generalize addC (0 : UInt64) w11 c12 = c13 at hs e13
  have d13 : zb c13 = 0 := by
    clear * - e13 e11 hg9 e10 e12 e8 e6 e7 hk ht
    have := z_bnd w11
    have := z_bnd g9
    have := z_bnd q
    have := z_bnd r9
    have := z_bnd l9
    have := z_bnd w10
    have := z_bnd w8
    have := z_bnd w6
    have := z_bnd g4
    have := z_bnd w5
    have := z_bnd w3
    have := z_bnd w7
    have := z_bnd w12
    have := z_bnd w13
    have := zb_bnd c13
    have := zb_bnd c10
    have := zb_bnd c11
    have := zb_bnd c12
    have := zb_bnd c5
    have := zb_bnd c6
    have := zb_bnd c7
    have := zb_bnd c8
    omega
  xstep
  xstep
  have e14 := mul_specZ Bls.modulus.l3 q
  have hg14 := mulHi_le Bls.modulus.l3 q
  simp only [z_l3] at e14
  simp only [z_l3] at hg14
  generalize mulLo Bls.modulus.l3 q = l14 at hs e14; generalize mulHi Bls.modulus.l3 q = g14 at hs e14 hg14; generalize (g14 != 0) = z14 at hs
  xstep
  have e15 := addW_specZ r10 l14 false
  simp only [zb_false, add_zero, zero_add] at e15
  generalize addO r10 l14 false = o15 at hs
  generalize addW r10 l14 false = w15 at hs e15; generalize addC r10 l14 false = c15 at hs e15
  xstep
  have e16 := addW_specZ g14 (0 : UInt64) c15
  simp only [z_zero, add_zero, zero_add] at e16
  generalize addO g14 (0 : UInt64) c15 = o16 at hs
  generalize addW g14 (0 : UInt64) c15 = w16 at hs e16; generalize addC g14 (0 : UInt64) c15 = c16 at hs e16
  have d16 : zb c16 = 0 := by
    clear * - e16 hg14 e15 hk ht
    have := z_bnd g14
    have := z_bnd q
    have := z_bnd r10
    have := z_bnd l14
    have := z_bnd w15
    have := z_bnd w16
    have := zb_bnd c16
    have := zb_bnd c15
    omega
  xstep
  have e17 := addW_specZ w15 w13 false
  simp only [zb_false, add_zero, zero_add] at e17
  generalize addO w15 w13 false = o17 at hs
  generalize addW w15 w13 false = w17 at hs e17; generalize addC w15 w13 false = c17 at hs e17
  xstep
  xstep
  have e18 := addW_specZ (0 : UInt64) w16 c17
  simp only [z_zero, add_zero, zero_add] at e18
  generalize addO (0 : UInt64) w16 c17 = o18 at hs
  generalize addW (0 : UInt64) w16 c17 = w18 at hs e18; generalize addC (0 : UInt64) w16 c17 = c18 at hs e18
  have d18 : zb c18 = 0 := by
    clear * - e18 e16 hg14 e15 e17 e13 e11 e12 hk ht
    have := z_bnd w16
    have := z_bnd g14
    have := z_bnd q
    have := z_bnd r10
    have := z_bnd l14
    have := z_bnd w15
    have := z_bnd w13
    have := z_bnd w11
    have := z_bnd g9
    have := z_bnd w10
    have := z_bnd w8
    have := z_bnd w12
    have := z_bnd w17
    have := z_bnd w18
    have := zb_bnd c18
    have := zb_bnd c15
    have := zb_bnd c16
    have := zb_bnd c17
    have := zb_bnd c10
    have := zb_bnd c11
    have := zb_bnd c12
    have := zb_bnd c13
    omega
  xstep
  xstep
  have e19 := mul_specZ Bls.modulus.l4 q
  have hg19 := mulHi_le Bls.modulus.l4 q
  simp only [z_l4] at e19
  simp only [z_l4] at hg19
  generalize mulLo Bls.modulus.l4 q = l19 at hs e19; generalize mulHi Bls.modulus.l4 q = g19 at hs e19 hg19; generalize (g19 != 0) = z19 at hs
  xstep
  have e20 := addW_specZ r11 l19 false
  simp only [zb_false, add_zero, zero_add] at e20
  generalize addO r11 l19 false = o20 at hs
  generalize addW r11 l19 false = w20 at hs e20; generalize addC r11 l19 false = c20 at hs e20
  xstep
  have e21 := addW_specZ g19 (0 : UInt64) c20
  simp only [z_zero, add_zero, zero_add] at e21
  generalize addO g19 (0 : UInt64) c20 = o21 at hs
  generalize addW g19 (0 : UInt64) c20 = w21 at hs e21; generalize addC g19 (0 : UInt64) c20 = c21 at hs e21
  have d21 : zb c21 = 0 := by
    clear * - e21 hg19 e20 hk ht
    have := z_bnd g19
    have := z_bnd q
    have := z_bnd r11
    have := z_bnd l19
    have := z_bnd w20
    have := z_bnd w21
    have := zb_bnd c21
    have := zb_bnd c20
    omega
  xstep
  have e22 := addW_specZ w20 w18 false
  simp only [zb_false, add_zero, zero_add] at e22
  generalize addO w20 w18 false = o22 at hs
  generalize addW w20 w18 false = w22 at hs e22; generalize addC w20 w18 false = c22 at hs e22
  xstep
  xstep
  have e23 := addW_specZ (0 : UInt64) w21 c22
  simp only [z_zero, add_zero, zero_add] at e23
  generalize addO (0 : UInt64) w21 c22 = o23 at hs
  generalize addW (0 : UInt64) w21 c22 = w23 at hs e23; generalize addC (0 : UInt64) w21 c22 = c23 at hs e23
  have d23 : zb c23 = 0 := by
    clear * - e23 e21 hg19 e20 e22 e18 e16 e17 hk ht
    have := z_bnd w21
    have := z_bnd g19
    have := z_bnd q
    have := z_bnd r11
    have := z_bnd l19
    have := z_bnd w20
    have := z_bnd w18
    have := z_bnd w16
    have := z_bnd g14
    have := z_bnd w15
    have := z_bnd w13
    have := z_bnd w17
    have := z_bnd w22
    have := z_bnd w23
    have := zb_bnd c23
    have := zb_bnd c20
    have := zb_bnd c21
    have := zb_bnd c22
    have := zb_bnd c15
    have := zb_bnd c16
    have := zb_bnd c17
    have := zb_bnd c18
    omega
  xstep
  xstep
  have e24 := mul_specZ Bls.modulus.l5 q
  have hg24 := mulHi_le Bls.modulus.l5 q
  simp only [z_l5] at e24
  simp only [z_l5] at hg24
  generalize mulLo Bls.modulus.l5 q = l24 at hs e24; generalize mulHi Bls.modulus.l5 q = g24 at hs e24 hg24; generalize (g24 != 0) = z24 at hs
  xstep
  have e25 := addW_specZ r12 l24 false
  simp only [zb_false, add_zero, zero_add] at e25
  generalize addO r12 l24 false = o25 at hs
  generalize addW r12 l24 false = w25 at hs e25; generalize addC r12 l24 false = c25 at hs e25
  xstep
  have e26 := addW_specZ si g24 c25
  generalize addO si g24 c25 = o26 at hs
  generalize addW si g24 c25 = w26 at hs e26; generalize addC si g24 c25 = c26 at hs e26
  have d26 : zb c26 = 0 := by
    clear * - e26 hg24 e25 hk ht
    have := z_bnd si
    have := z_bnd g24
    have := z_bnd q
    have := z_bnd r12
    have := z_bnd l24
    have := z_bnd w25
    have := z_bnd w26
    have := zb_bnd c26
    have := zb_bnd c25
    omega
  xstep
  have e27 := addW_specZ w25 w23 false
  simp only [zb_false, add_zero, zero_add] at e27
  generalize addO w25 w23 false = o27 at hs
  generalize addW w25 w23 false = w27 at hs e27; generalize addC w25 w23 false = c27 at hs e27
  xstep
  xstep
  xstep
  have e28 := addW_specZ s0 w26 c27
  generalize addO s0 w26 c27 = o28 at hs
  generalize addW s0 w26 c27 = w28 at hs e28; generalize addC s0 w26 c27 = c28 at hs e28
  xstep
  have e29 := addW_specZ s1 (0 : UInt64) c28
  simp only [z_zero, add_zero, zero_add] at e29
  generalize addO s1 (0 : UInt64) c28 = o29 at hs
  generalize addW s1 (0 : UInt64) c28 = w29 at hs e29; generalize addC s1 (0 : UInt64) c28 = c29 at hs e29
  have d29 : zb c29 = 0 := by
    clear * - e29 e28 e26 hg24 e25 e27 e23 hk ht
    have := z_bnd s1
    have := z_bnd s0
    have := z_bnd w26
    have := z_bnd si
    have := z_bnd g24
    have := z_bnd q
    have := z_bnd r12
    have := z_bnd l24
    have := z_bnd w25
    have := z_bnd w23
    have := z_bnd w21
    have := z_bnd w27
    have := z_bnd w28
    have := z_bnd w29
    have := zb_bnd c29
    have := zb_bnd c28
    have := zb_bnd c25
    have := zb_bnd c26
    have := zb_bnd c27
    have := zb_bnd c22
    have := zb_bnd c23
    omega
  rw [run_nil] at hs
  refine ⟨l24, q, w28, g24, w26, w7, w12, w17, w22, w27, w23, w29, c29, o29, hs.symm, ?_⟩
  have key : 2 ^ 64 * z w7 + 2 ^ 128 * z w12 + 2 ^ 192 * z w17 + 2 ^ 256 * z w22 + 2 ^ 320 * z w27 + 2 ^ 384 * z w28 + 2 ^ 448 * z w29 + 2 ^ 64 * zb (q == 1) = z r15 + 2 ^ 64 * z r8 + 2 ^ 128 * z r9 + 2 ^ 192 * z r10 + 2 ^ 256 * z r11 + 2 ^ 320 * z r12 + 2 ^ 384 * z s0 + 2 ^ 448 * z s1 + 2 ^ 384 * z si + z q * 0x1a0111ea397fe69a4b1ba7b6434bacd764774b84f38512bf6730d2a0f6b0f6241eabfffeb153ffffb9feffffffffaaab := by
    linear_combination hq + 2 ^ 64 * e3 + 2 ^ 64 * e4 + 2 ^ 64 * e5 + 2 ^ 128 * e6 + 2 ^ 64 * e7 + 2 ^ 128 * e8 + 2 ^ 128 * e9 + 2 ^ 128 * e10 + 2 ^ 192 * e11 + 2 ^ 128 * e12 + 2 ^ 192 * e13 + 2 ^ 192 * e14 + 2 ^ 192 * e15 + 2 ^ 256 * e16 + 2 ^ 192 * e17 + 2 ^ 256 * e18 + 2 ^ 256 * e19 + 2 ^ 256 * e20 + 2 ^ 320 * e21 + 2 ^ 256 * e22 + 2 ^ 320 * e23 + 2 ^ 320 * e24 + 2 ^ 320 * e25 + 2 ^ 384 * e26 + 2 ^ 320 * e27 + 2 ^ 384 * e28 + 2 ^ 448 * e29 - 2 ^ 128 * d3 - 2 ^ 192 * d6 - 2 ^ 192 * d8 - 2 ^ 256 * d11 - 2 ^ 256 * d13 - 2 ^ 320 * d16 - 2 ^ 320 * d18 - 2 ^ 384 * d21 - 2 ^ 384 * d23 - 2 ^ 448 * d26 - 2 ^ 512 * d29
  exact key

/-- step 5 of the reduction. -/
theorem noadxRed5_spec {ax bx cx dx si di r8 r9 r10 r11 r12 r13 r14 r15 s0 s1 s2 f0 f1 f2 : UInt64} {cf of : Bool} {mem : UInt64 → UInt64}
    (ht : z r14 ≤ 9223372036854775808) :
    ∃ ax' bx' cx' dx' r9' r10' r11' r12' r13' r14' : UInt64, ∃ cf' of' : Bool,
      run noadxRed5 ⟨ax, bx, cx, dx, si, di, r8, r9, r10, r11, r12, r13, r14, r15, s0, s1, s2, f0, f1, f2, cf, of, mem⟩ =
      ⟨ax', bx', cx', dx', si, di, r8, r9', r10', r11', r12', r13', r14', r15, s0, s1, s2, f0, f1, f2, cf', of', mem⟩ ∧
      2 ^ 64 * z r9' + 2 ^ 128 * z r10' + 2 ^ 192 * z r11' + 2 ^ 256 * z r12' + 2 ^ 320 * z cx' + 2 ^ 384 * z r14' + 2 ^ 64 * zb ((mulLo r8 Bls.inp) == 1) =
        z r8 + 2 ^ 64 * z r9 + 2 ^ 128 * z r10 + 2 ^ 192 * z r11 + 2 ^ 256 * z r12 + 2 ^ 320 * z cx + 2 ^ 384 * z r14 + z (mulLo r8 Bls.inp) * 0x1a0111ea397fe69a4b1ba7b6434bacd764774b84f38512bf6730d2a0f6b0f6241eabfffeb153ffffb9feffffffffaaab := by
  generalize hs : run noadxRed5 _ = s
  unfold noadxRed5 at hs
  xstep
  xstep
  have hq := quot_carry' r8
  generalize hqd : mulLo r8 Bls.inp = q at hs hq; generalize mulHi r8 Bls.inp = g1 at hs
  generalize (g1 != 0) = z1 at hs
  xstep
  xstep
  xstep
  xstep
  have e2 := mul_specZ Bls.modulus.l0 q
  have hg2 := mulHi_le Bls.modulus.l0 q
  simp only [z_l0] at e2
  simp only [z_l0] at hg2
  generalize mulLo Bls.modulus.l0 q = l2 at hs e2; generalize mulHi Bls.modulus.l0 q = g2 at hs e2 hg2 hq; generalize (g2 != 0) = z2 at hs hq
  xstep
  have e3 := addW_specZ (0 : UInt64) g2 z2
  simp only [z_zero, add_zero, zero_add] at e3
  generalize addO (0 : UInt64) g2 z2 = o3 at hs
  generalize addW (0 : UInt64) g2 z2 = w3 at hs e3; generalize addC (0 : UInt64) g2 z2 = c3 at hs e3
  have d3 : zb c3 = 0 := by
    clear * - e3 hg2 ht
    have := z_bnd g2
    have := z_bnd q
    have := z_bnd w3
    have := zb_bnd c3
    have := zb_bnd z2
    omega
  xstep
  xstep
  have e4 := mul_specZ Bls.modulus.l1 q
  have hg4 := mulHi_le Bls.modulus.l1 q
  simp only [z_l1] at e4
  simp only [z_l1] at hg4
  generalize mulLo Bls.modulus.l1 q = l4 at hs e4; generalize mulHi Bls.modulus.l1 q = g4 at hs e4 hg4; generalize (g4 != 0) = z4 at hs
  xstep
  have e5 := addW_specZ r9 l4 false
  simp only [zb_false, add_zero, zero_add] at e5
  generalize addO r9 l4 false = o5 at hs
  generalize addW r9 l4 false = w5 at hs e5; generalize addC r9 l4 false = c5 at hs e5
  xstep
  have e6 := addW_specZ g4 (0 : UInt64) c5
  simp only [z_zero, add_zero, zero_add] at e6
  generalize addO g4 (0 : UInt64) c5 = o6 at hs
  generalize addW g4 (0 : UInt64) c5 = w6 at hs e6; generalize addC g4 (0 : UInt64) c5 = c6 at hs e6
  have d6 : zb c6 = 0 := by
    clear * - e6 hg4 e5 ht
    have := z_bnd g4
    have := z_bnd q
    have := z_bnd r9
    have := z_bnd l4
    have := z_bnd w5
    have := z_bnd w6
    have := zb_bnd c6
    have := zb_bnd c5
    omega
  xstep
  have e7 := addW_specZ w5 w3 false
  simp only [zb_false, add_zero, zero_add] at e7
  generalize addO w5 w3 false = o7 at hs
  generalize addW w5 w3 false = w7 at hs e7; generalize addC w5 w3 false = c7 at hs e7
  xstep
  xstep
  have e8 := addW_specZ (0 : UInt64) w6 c7
  simp only [z_zero, add_zero, zero_add] at e8
  generalize addO (0 : UInt64) w6 c7 = o8 at hs
  generalize addW (0 : UInt64) w6 c7 = w8 at hs e8; generalize addC (0 : UInt64) w6 c7 = c8 at hs e8
  have d8 : zb c8 = 0 := by
    clear * - e8 e6 hg4 e5 e7 e3 hg2 ht
    have := z_bnd w6
    have := z_bnd g4
    have := z_bnd q
    have := z_bnd r9
    have := z_bnd l4
    have := z_bnd w5
    have := z_bnd w3
    have := z_bnd g2
    have := z_bnd w7
    have := z_bnd w8
    have := zb_bnd c8
    have := zb_bnd c5
    have := zb_bnd c6
    have := zb_bnd c7
    have := zb_bnd z2
    have := zb_bnd c3
    omega
  xstep
  xstep
  have e9 := mul_specZ Bls.modulus.l2 q
  have hg9 := mulHi_le Bls.modulus.l2 q
  simp only [z_l2] at e9
  simp only [z_l2] at hg9
  generalize mulLo Bls.modulus.l2 q = l9 at hs e9; generalize mulHi Bls.modulus.l2 q = g9 at hs e9 hg9; generalize (g9 != 0) = z9 at hs
  xstep
  have e10 := addW_specZ r10 l9 false
  simp only [zb_false, add_zero, zero_add] at e10
  generalize addO r10 l9 false = o10 at hs
  generalize addW r10 l9 false = w10 at hs e10; generalize addC r10 l9 false = c10 at hs e10
  xstep
  have e11 := addW_specZ g9 (0 : UInt64) c10
  simp only [z_zero, add_zero, zero_add] at e11
  generalize addO g9 (0 : UInt64) c10 = o11 at hs
  generalize addW g9 (0 : UInt64) c10 = w11 at hs e11; generalize addC g9 (0 : UInt64) c10 = c11 at hs e11
  have d11 : zb c11 = 0 := by
    clear * - e11 hg9 e10 ht
    have := z_bnd g9
    have := z_bnd q
    have := z_bnd r10
    have := z_bnd l9
    have := z_bnd w10
    have := z_bnd w11
    have := zb_bnd c11
    have := zb_bnd c10
    omega
  xstep
  have e12 := addW_specZ w10 w8 false
  simp only [zb_false, add_zero, zero_add] at e12
  generalize addO w10 w8 false = o12 at hs
  generalize addW w10 w8 false = w12 at hs e12; generalize addC w10 w8 false = c12 at hs e12
  xstep
  xstep
  have e13 := addW_specZ (0 : UInt64) w11 c12
  simp only [z_zero, add_zero, zero_add] at e13
  generalize addO (0 : UInt64) w11 c12 = o13 at hs
  generalize addW (0 : UInt64) w11 c12 = w13 at hs e13; generalize addC (0 : UInt64) w11 c12 = c13 at hs e13
  have d13 : zb c13 = 0 := by
    clear * - e13 e11 hg9 e10 e12 e8 e6 e7 ht
    have := z_bnd w11
    have := z_bnd g9
    have := z_bnd q
    have := z_bnd r10
    have := z_bnd l9
    have := z_bnd w10
    have := z_bnd w8
    have := z_bnd w6
    have := z_bnd g4
    have := z_bnd w5
    have := z_bnd w3
    have := z_bnd w7
    have := z_bnd w12
    have := z_bnd w13
    have := zb_bnd c13
    have := zb_bnd c10
    have := zb_bnd c11
    have := zb_bnd c12
    have := zb_bnd c5
    have := zb_bnd c6
    have := zb_bnd c7
    have := zb_bnd c8
    omega
  xstep
  xstep
  have e14 := mul_specZ Bls.modulus.l3 q
  have hg14 := mulHi_le Bls.modulus.l3 q
  simp only [z_l3] at e14
  simp only [z_l3] at hg14
  generalize mulLo Bls.modulus.l3 q = l14 at hs e14; generalize mulHi Bls.modulus.l3 q = g14 at hs e14 hg14; generalize (g14 != 0) = z14 at hs
  xstep
  have e15 := addW_specZ r11 l14 false
  simp only [zb_false, add_zero, zero_add] at e15
  generalize addO r11 l14 false = o15 at hs
  generalize addW r11 l14 false = w15 at hs e15; generalize addC r11 l14 false = c15 at hs e15
  xstep
  have e16 := addW_specZ g14 (0 : UInt64) c15
  simp only [z_zero, add_zero, zero_add] at e16
  generalize addO g14 (0 : UInt64) c15 = o16 at hs
  generalize addW g14 (0 : UInt64) c15 = w16 at hs e16; generalize addC g14 (0 : UInt64) c15 = c16 at hs e16
  have d16 : zb c16 = 0 := by
    clear * - e16 hg14 e15 ht
    have := z_bnd g14
    have := z_bnd q
    have := z_bnd r11
    have := z_bnd l14
    have := z_bnd w15
    have := z_bnd w16
    have := zb_bnd c16
    have := zb_bnd c15
    omega
  xstep
  have e17 := addW_specZ w15 w13 false
  simp only [zb_false, add_zero, zero_add] at e17
  generalize addO w15 w13 false = o17 at hs
  generalize addW w15 w13 false = w17 at hs e17; generalize addC w15 w13 false = c17 at hs e17
  xstep
  xstep
  have e18 := addW_specZ (0 : UInt64) w16 c17
  simp only [z_zero, add_zero, zero_add] at e18
  generalize addO (0 : UInt64) w16 c17 = o18 at hs
  generalize addW (0 : UInt64) w16 c17 = w18 at hs e18; generalize addC (0 : UInt64) w16 c17 = c18 at hs e18
  have d18 : zb c18 = 0 := by
    clear * - e18 e16 hg14 e15 e17 e13 e11 e12 ht
    have := z_bnd w16
    have := z_bnd g14
    have := z_bnd q
    have := z_bnd r11
    have := z_bnd l14
    have := z_bnd w15
    have := z_bnd w13
    have := z_bnd w11
    have := z_bnd g9
    have := z_bnd w10
    have := z_bnd w8
    have := z_bnd w12
    have := z_bnd w17
    have := z_bnd w18
    have := zb_bnd c18
    have := zb_bnd c15
    have := zb_bnd c16
    have := zb_bnd c17
    have := zb_bnd c10
    have := zb_bnd c11
    have := zb_bnd c12
    have := zb_bnd c13
    omega
  xstep
  xstep
  have e19 := mul_specZ Bls.modulus.l4 q
  have hg19 := mulHi_le Bls.modulus.l4 q
  simp only [z_l4] at e19
  simp only [z_l4] at hg19
  generalize mulLo Bls.modulus.l4 q = l19 at hs e19; generalize mulHi Bls.modulus.l4 q = g19 at hs e19 hg19; generalize (g19 != 0) = z19 at hs
  xstep
  have e20 := addW_specZ r12 l19 false
  simp only [zb_false, add_zero, zero_add] at e20
  generalize addO r12 l19 false = o20 at hs
  generalize addW r12 l19 false = w20 at hs e20; generalize addC r12 l19 false = c20 at hs e20
  xstep
  have e21 := addW_specZ g19 (0 : UInt64) c20
  simp only [z_zero, add_zero, zero_add] at e21
  generalize addO g19 (0 : UInt64) c20 = o21 at hs
  generalize addW g19 (0 : UInt64) c20 = w21 at hs e21; generalize addC g19 (0 : UInt64) c20 = c21 at hs e21
  have d21 : zb c21 = 0 := by
    clear * - e21 hg19 e20 ht
    have := z_bnd g19
    have := z_bnd q
    have := z_bnd r12
    have := z_bnd l19
    have := z_bnd w20
    have := z_bnd w21
    have := zb_bnd c21
    have := zb_bnd c20
    omega
  xstep
  have e22 := addW_specZ w20 w18 false
  simp only [zb_false, add_zero, zero_add] at e22
  generalize addO w20 w18 false = o22 at hs
  generalize addW w20 w18 false = w22 at hs e22; generalize addC w20 w18 false = c22 at hs e22
  xstep
  have e23 := addW_specZ cx w21 c22
  generalize addO cx w21 c22 = o23 at hs
  generalize addW cx w21 c22 = w23 at hs e23; generalize addC cx w21 c22 = c23 at hs e23
  xstep
  have e24 := addW_specZ r14 (0 : UInt64) c23
  simp only [z_zero, add_zero, zero_add] at e24
  generalize addO r14 (0 : UInt64) c23 = o24 at hs
  generalize addW r14 (0 : UInt64) c23 = w24 at hs e24; generalize addC r14 (0 : UInt64) c23 = c24 at hs e24
  have d24 : zb c24 = 0 := by
    clear * - e24 e23 e21 hg19 e20 e22 e18 ht
    have := z_bnd r14
    have := z_bnd cx
    have := z_bnd w21
    have := z_bnd g19
    have := z_bnd q
    have := z_bnd r12
    have := z_bnd l19
    have := z_bnd w20
    have := z_bnd w18
    have := z_bnd w16
    have := z_bnd w22
    have := z_bnd w23
    have := z_bnd w24
    have := zb_bnd c24
    have := zb_bnd c23
    have := zb_bnd c20
    have := zb_bnd c21
    have := zb_bnd c22
    have := zb_bnd c17
    have := zb_bnd c18
    omega
  xstep
  xstep
  have e25 := mul_specZ Bls.modulus.l5 q
  have hg25 := mulHi_le Bls.modulus.l5 q
  simp only [z_l5] at e25
  simp only [z_l5] at hg25
  generalize mulLo Bls.modulus.l5 q = l25 at hs e25; generalize mulHi Bls.modulus.l5 q = g25 at hs e25 hg25; generalize (g25 != 0) = z25 at hs
  xstep
  have e26 := addW_specZ w23 l25 false
  simp only [zb_false, add_zero, zero_add] at e26
  generalize addO w23 l25 false = o26 at hs
  generalize addW w23 l25 false = w26 at hs e26; generalize addC w23 l25 false = c26 at hs e26
  xstep
  have e27 := addW_specZ w24 g25 c26
  generalize addO w24 g25 c26 = o27 at hs
  generalize addW w24 g25 c26 = w27 at hs e27; generalize addC w24 g25 c26 = c27 at hs e27
  have d27 : zb c27 = 0 := by
    clear * - e27 e24 e23 e21 e22 hg25 e26 ht
    have := z_bnd w24
    have := z_bnd r14
    have := z_bnd cx
    have := z_bnd w21
    have := z_bnd g19
    have := z_bnd w20
    have := z_bnd w18
    have := z_bnd w22
    have := z_bnd w23
    have := z_bnd g25
    have := z_bnd q
    have := z_bnd l25
    have := z_bnd w26
    have := z_bnd w27
    have := zb_bnd c27
    have := zb_bnd c23
    have := zb_bnd c20
    have := zb_bnd c21
    have := zb_bnd c22
    have := zb_bnd c24
    have := zb_bnd c26
    omega
  rw [run_nil] at hs
  refine ⟨l25, q, w26, g25, w7, w12, w17, w22, w18, w27, c27, o27, hs.symm, ?_⟩
  have key : 2 ^ 64 * z w7 + 2 ^ 128 * z w12 + 2 ^ 192 * z w17 + 2 ^ 256 * z w22 + 2 ^ 320 * z w26 + 2 ^ 384 * z w27 + 2 ^ 64 * zb (q == 1) = z r8 + 2 ^ 64 * z r9 + 2 ^ 128 * z r10 + 2 ^ 192 * z r11 + 2 ^ 256 * z r12 + 2 ^ 320 * z cx + 2 ^ 384 * z r14 + z q * 0x1a0111ea397fe69a4b1ba7b6434bacd764774b84f38512bf6730d2a0f6b0f6241eabfffeb153ffffb9feffffffffaaab := by
    linear_combination hq + 2 ^ 64 * e3 + 2 ^ 64 * e4 + 2 ^ 64 * e5 + 2 ^ 128 * e6 + 2 ^ 64 * e7 + 2 ^ 128 * e8 + 2 ^ 128 * e9 + 2 ^ 128 * e10 + 2 ^ 192 * e11 + 2 ^ 128 * e12 + 2 ^ 192 * e13 + 2 ^ 192 * e14 + 2 ^ 192 * e15 + 2 ^ 256 * e16 + 2 ^ 192 * e17 + 2 ^ 256 * e18 + 2 ^ 256 * e19 + 2 ^ 256 * e20 + 2 ^ 320 * e21 + 2 ^ 256 * e22 + 2 ^ 320 * e23 + 2 ^ 384 * e24 + 2 ^ 320 * e25 + 2 ^ 320 * e26 + 2 ^ 384 * e27 - 2 ^ 128 * d3 - 2 ^ 192 * d6 - 2 ^ 192 * d8 - 2 ^ 256 * d11 - 2 ^ 256 * d13 - 2 ^ 320 * d16 - 2 ^ 320 * d18 - 2 ^ 384 * d21 - 2 ^ 448 * d24 - 2 ^ 448 * d27
  exact key

/-- the conditional subtraction. -/
theorem noadxFin_spec {ax bx cx dx si di r8 r9 r10 r11 r12 r13 r14 r15 s0 s1 s2 f0 f1 f2 : UInt64} {cf of : Bool} {mem : UInt64 → UInt64} :
    ∃ ax' bx' cx' dx' r8' r9' r10' r11' r12' r13' r14' r15' : UInt64, ∃ cf' of' : Bool,
      run noadxFin ⟨ax, bx, cx, dx, si, di, r8, r9, r10, r11, r12, r13, r14, r15, s0, s1, s2, f0, f1, f2, cf, of, mem⟩ =
      ⟨ax', bx', cx', dx', si, di, r8', r9', r10', r11', r12', r13', r14', r15', s0, s1, s2, f0, f1, f2, cf', of', mem⟩ ∧
      ((z r9 + 2 ^ 64 * z r10 + 2 ^ 128 * z r11 + 2 ^ 192 * z r12 + 2 ^ 256 * z cx + 2 ^ 320 * z r14 < 0x1a0111ea397fe69a4b1ba7b6434bacd764774b84f38512bf6730d2a0f6b0f6241eabfffeb153ffffb9feffffffffaaab ∧
        z r9' + 2 ^ 64 * z r10' + 2 ^ 128 * z r11' + 2 ^ 192 * z r12' + 2 ^ 256 * z cx' + 2 ^ 320 * z r14' = z r9 + 2 ^ 64 * z r10 + 2 ^ 128 * z r11 + 2 ^ 192 * z r12 + 2 ^ 256 * z cx + 2 ^ 320 * z r14) ∨
      z r9' + 2 ^ 64 * z r10' + 2 ^ 128 * z r11' + 2 ^ 192 * z r12' + 2 ^ 256 * z cx' + 2 ^ 320 * z r14' + 0x1a0111ea397fe69a4b1ba7b6434bacd764774b84f38512bf6730d2a0f6b0f6241eabfffeb153ffffb9feffffffffaaab = z r9 + 2 ^ 64 * z r10 + 2 ^ 128 * z r11 + 2 ^ 192 * z r12 + 2 ^ 256 * z cx + 2 ^ 320 * z r14) := by
  generalize hs : run noadxFin _ = s
  unfold noadxFin at hs
  xstep
  xstep
  xstep
  xstep
  xstep
  xstep
  xstep
  have e1 := subW_specZ r9 Bls.modulus.l0 false
  simp only [zb_false, z_l0, add_zero, zero_add] at e1
  generalize subO r9 Bls.modulus.l0 false = o1 at hs
  generalize subW r9 Bls.modulus.l0 false = w1 at hs e1; generalize subC r9 Bls.modulus.l0 false = c1 at hs e1
  xstep
  have e2 := subW_specZ r10 Bls.modulus.l1 c1
  simp only [z_l1] at e2
  generalize subO r10 Bls.modulus.l1 c1 = o2 at hs
  generalize subW r10 Bls.modulus.l1 c1 = w2 at hs e2; generalize subC r10 Bls.modulus.l1 c1 = c2 at hs e2
  xstep
  have e3 := subW_specZ r11 Bls.modulus.l2 c2
  simp only [z_l2] at e3
  generalize subO r11 Bls.modulus.l2 c2 = o3 at hs
  generalize subW r11 Bls.modulus.l2 c2 = w3 at hs e3; generalize subC r11 Bls.modulus.l2 c2 = c3 at hs e3
  xstep
  have e4 := subW_specZ r12 Bls.modulus.l3 c3
  simp only [z_l3] at e4
  generalize subO r12 Bls.modulus.l3 c3 = o4 at hs
  generalize subW r12 Bls.modulus.l3 c3 = w4 at hs e4; generalize subC r12 Bls.modulus.l3 c3 = c4 at hs e4
  xstep
  have e5 := subW_specZ cx Bls.modulus.l4 c4
  simp only [z_l4] at e5
  generalize subO cx Bls.modulus.l4 c4 = o5 at hs
  generalize subW cx Bls.modulus.l4 c4 = w5 at hs e5; generalize subC cx Bls.modulus.l4 c4 = c5 at hs e5
  xstep
  have e6 := subW_specZ r14 Bls.modulus.l5 c5
  simp only [z_l5] at e6
  generalize subO r14 Bls.modulus.l5 c5 = o6 at hs
  generalize subW r14 Bls.modulus.l5 c5 = w6 at hs e6; generalize subC r14 Bls.modulus.l5 c5 = c6 at hs e6
  cases c6
  · xstep
    xstep
    xstep
    xstep
    xstep
    xstep
    rw [run_nil] at hs
    refine ⟨w1, w2, w5, w3, w4, w1, w2, w3, w4, w6, w6, w5, false, o6, hs.symm, ?_⟩
    right
    simp only [zb_false] at e6
    linear_combination e1 + 2 ^ 64 * e2 + 2 ^ 128 * e3 + 2 ^ 192 * e4 + 2 ^ 256 * e5 + 2 ^ 320 * e6
  · xstep
    xstep
    xstep
    xstep
    xstep
    xstep
    rw [run_nil] at hs
    refine ⟨w1, w2, cx, w3, w4, r9, r10, r11, r12, w6, r14, w5, true, o6, hs.symm, ?_⟩
    left
    simp only [zb_true] at e6
    have key : z w1 + 2 ^ 64 * z w2 + 2 ^ 128 * z w3 + 2 ^ 192 * z w4 + 2 ^ 256 * z w5 + 2 ^ 320 * z w6 + 0x1a0111ea397fe69a4b1ba7b6434bacd764774b84f38512bf6730d2a0f6b0f6241eabfffeb153ffffb9feffffffffaaab = z r9 + 2 ^ 64 * z r10 + 2 ^ 128 * z r11 + 2 ^ 192 * z r12 + 2 ^ 256 * z cx + 2 ^ 320 * z r14 + 2 ^ 384 := by
      linear_combination e1 + 2 ^ 64 * e2 + 2 ^ 128 * e3 + 2 ^ 192 * e4 + 2 ^ 256 * e5 + 2 ^ 320 * e6
    refine ⟨?_, rfl⟩
    clear * - key
    have := z_bnd w1
    have := z_bnd w2
    have := z_bnd w3
    have := z_bnd w4
    have := z_bnd w5
    have := z_bnd w6
    omega

end Verif.X86
