import Verif.X86.Arith

/-!
# Addition, subtraction, doubling and negation: what the functions compute

Generated from the instructions: one lemma for each segment of Verif/X86/Code.lean, each executing its instructions one by
one and combining their equations.
-/

set_option exponentiation.threshold 1000
set_option maxHeartbeats 1000000
set_option linter.unusedVariables false
set_option linter.unusedSimpArgs false

namespace Verif.X86

/-- `add`. -/
theorem add_spec {ax bx cx dx si di r8 r9 r10 r11 r12 r13 r14 r15 s0 s1 s2 f0 f1 f2 : UInt64} {cf of : Bool} {mem : UInt64 → UInt64}
    {a0 a1 a2 a3 a4 a5 b0 b1 b2 b3 b4 b5 : UInt64}
    (hf1_0 : mem (f1 + 0) = a0)
    (hf1_8 : mem (f1 + 8) = a1)
    (hf1_16 : mem (f1 + 16) = a2)
    (hf1_24 : mem (f1 + 24) = a3)
    (hf1_32 : mem (f1 + 32) = a4)
    (hf1_40 : mem (f1 + 40) = a5)
    (hf2_0 : mem (f2 + 0) = b0)
    (hf2_8 : mem (f2 + 8) = b1)
    (hf2_16 : mem (f2 + 16) = b2)
    (hf2_24 : mem (f2 + 24) = b3)
    (hf2_32 : mem (f2 + 32) = b4)
    (hf2_40 : mem (f2 + 40) = b5) :
    ∃ bx' cx' dx' si' r8' r9' r10' r11' r12' r13' r14' r15' : UInt64, ∃ cf' of' : Bool,
      run add ⟨ax, bx, cx, dx, si, di, r8, r9, r10, r11, r12, r13, r14, r15, s0, s1, s2, f0, f1, f2, cf, of, mem⟩ =
      ⟨ax, bx', cx', dx', si', f0, r8', r9', r10', r11', r12', r13', r14', r15', s0, s1, s2, f0, f1, f2, cf', of', (store6 mem f0 r8' r9' r10' r11' r12' r13')⟩ ∧
      ∃ v k : ℤ, v + 2 ^ 384 * k = (z a0 + 2 ^ 64 * z a1 + 2 ^ 128 * z a2 + 2 ^ 192 * z a3 + 2 ^ 256 * z a4 + 2 ^ 320 * z a5) + (z b0 + 2 ^ 64 * z b1 + 2 ^ 128 * z b2 + 2 ^ 192 * z b3 + 2 ^ 256 * z b4 + 2 ^ 320 * z b5) ∧ 0 ≤ v ∧ v < 2 ^ 384 ∧
        ((v < 0x1a0111ea397fe69a4b1ba7b6434bacd764774b84f38512bf6730d2a0f6b0f6241eabfffeb153ffffb9feffffffffaaab ∧ z r8' + 2 ^ 64 * z r9' + 2 ^ 128 * z r10' + 2 ^ 192 * z r11' + 2 ^ 256 * z r12' + 2 ^ 320 * z r13' = v) ∨ z r8' + 2 ^ 64 * z r9' + 2 ^ 128 * z r10' + 2 ^ 192 * z r11' + 2 ^ 256 * z r12' + 2 ^ 320 * z r13' + 0x1a0111ea397fe69a4b1ba7b6434bacd764774b84f38512bf6730d2a0f6b0f6241eabfffeb153ffffb9feffffffffaaab = v) := by
  generalize hs : run add _ = s
  unfold add at hs
  xstep
  xstep
  xstep
  rw [hf1_0] at hs
  xstep
  rw [hf1_8] at hs
  xstep
  rw [hf1_16] at hs
  xstep
  rw [hf1_24] at hs
  xstep
  rw [hf1_32] at hs
  xstep
  rw [hf1_40] at hs
  xstep
  rw [hf2_0] at hs
  have e1 := addW_specZ a0 b0 false
  simp only [zb_false, add_zero, zero_add] at e1
  generalize addO a0 b0 false = o1 at hs
  generalize addW a0 b0 false = w1 at hs e1; generalize addC a0 b0 false = c1 at hs e1
  xstep
  rw [hf2_8] at hs
  have e2 := addW_specZ a1 b1 c1
  generalize addO a1 b1 c1 = o2 at hs
  generalize addW a1 b1 c1 = w2 at hs e2; generalize addC a1 b1 c1 = c2 at hs e2
  xstep
  rw [hf2_16] at hs
  have e3 := addW_specZ a2 b2 c2
  generalize addO a2 b2 c2 = o3 at hs
  generalize addW a2 b2 c2 = w3 at hs e3; generalize addC a2 b2 c2 = c3 at hs e3
  xstep
  rw [hf2_24] at hs
  have e4 := addW_specZ a3 b3 c3
  generalize addO a3 b3 c3 = o4 at hs
  generalize addW a3 b3 c3 = w4 at hs e4; generalize addC a3 b3 c3 = c4 at hs e4
  xstep
  rw [hf2_32] at hs
  have e5 := addW_specZ a4 b4 c4
  generalize addO a4 b4 c4 = o5 at hs
  generalize addW a4 b4 c4 = w5 at hs e5; generalize addC a4 b4 c4 = c5 at hs e5
  xstep
  rw [hf2_40] at hs
  have e6 := addW_specZ a5 b5 c5
  generalize addO a5 b5 c5 = o6 at hs
  generalize addW a5 b5 c5 = w6 at hs e6; generalize addC a5 b5 c5 = c6 at hs e6
  xstep
  xstep
  xstep
  xstep
  xstep
  xstep
  xstep
  xstep
  have e7 := subW_specZ w1 (0xb9feffffffffaaab : UInt64) false
  simp only [zb_false, z_c0, add_zero, zero_add] at e7
  generalize subO w1 (0xb9feffffffffaaab : UInt64) false = o7 at hs
  generalize subW w1 (0xb9feffffffffaaab : UInt64) false = w7 at hs e7; generalize subC w1 (0xb9feffffffffaaab : UInt64) false = c7 at hs e7
  xstep
  xstep
  have e8 := subW_specZ w2 (0x1eabfffeb153ffff : UInt64) c7
  simp only [z_c1] at e8
  generalize subO w2 (0x1eabfffeb153ffff : UInt64) c7 = o8 at hs
  generalize subW w2 (0x1eabfffeb153ffff : UInt64) c7 = w8 at hs e8; generalize subC w2 (0x1eabfffeb153ffff : UInt64) c7 = c8 at hs e8
  xstep
  xstep
  have e9 := subW_specZ w3 (0x6730d2a0f6b0f624 : UInt64) c8
  simp only [z_c2] at e9
  generalize subO w3 (0x6730d2a0f6b0f624 : UInt64) c8 = o9 at hs
  generalize subW w3 (0x6730d2a0f6b0f624 : UInt64) c8 = w9 at hs e9; generalize subC w3 (0x6730d2a0f6b0f624 : UInt64) c8 = c9 at hs e9
  xstep
  xstep
  have e10 := subW_specZ w4 (0x64774b84f38512bf : UInt64) c9
  simp only [z_c3] at e10
  generalize subO w4 (0x64774b84f38512bf : UInt64) c9 = o10 at hs
  generalize subW w4 (0x64774b84f38512bf : UInt64) c9 = w10 at hs e10; generalize subC w4 (0x64774b84f38512bf : UInt64) c9 = c10 at hs e10
  xstep
  xstep
  have e11 := subW_specZ w5 (0x4b1ba7b6434bacd7 : UInt64) c10
  simp only [z_c4] at e11
  generalize subO w5 (0x4b1ba7b6434bacd7 : UInt64) c10 = o11 at hs
  generalize subW w5 (0x4b1ba7b6434bacd7 : UInt64) c10 = w11 at hs e11; generalize subC w5 (0x4b1ba7b6434bacd7 : UInt64) c10 = c11 at hs e11
  xstep
  xstep
  have e12 := subW_specZ w6 (0x1a0111ea397fe69a : UInt64) c11
  simp only [z_c5] at e12
  generalize subO w6 (0x1a0111ea397fe69a : UInt64) c11 = o12 at hs
  generalize subW w6 (0x1a0111ea397fe69a : UInt64) c11 = w12 at hs e12; generalize subC w6 (0x1a0111ea397fe69a : UInt64) c11 = c12 at hs e12
  cases c12
  · xstep
    xstep
    xstep
    xstep
    xstep
    xstep
    xstep
    xstep
    xstep
    xstep
    xstep
    xstep
    xstep
    rw [run_nil] at hs
    change ⟨ax, w12, w9, w10, w11, f0, w7, w8, w9, w10, w11, w12, w7, w8, s0, s1, s2, f0, f1, f2, false, o12, (store6 mem f0 w7 w8 w9 w10 w11 w12)⟩ = s at hs
    refine ⟨w12, w9, w10, w11, w7, w8, w9, w10, w11, w12, w7, w8, false, o12, hs.symm, ?_⟩
    refine ⟨z w1 + 2 ^ 64 * z w2 + 2 ^ 128 * z w3 + 2 ^ 192 * z w4 + 2 ^ 256 * z w5 + 2 ^ 320 * z w6, zb c6, ?_, ?_, ?_, ?_⟩
    · linear_combination 2 ^ 0 * e1 + 2 ^ 64 * e2 + 2 ^ 128 * e3 + 2 ^ 192 * e4 + 2 ^ 256 * e5 + 2 ^ 320 * e6
    · clear * -
      have := z_bnd w1
      have := z_bnd w2
      have := z_bnd w3
      have := z_bnd w4
      have := z_bnd w5
      have := z_bnd w6
      omega
    · clear * -
      have := z_bnd w1
      have := z_bnd w2
      have := z_bnd w3
      have := z_bnd w4
      have := z_bnd w5
      have := z_bnd w6
      omega
    · right
      simp only [zb_false] at e12
      linear_combination 2 ^ 0 * e7 + 2 ^ 64 * e8 + 2 ^ 128 * e9 + 2 ^ 192 * e10 + 2 ^ 256 * e11 + 2 ^ 320 * e12
  · xstep
    xstep
    xstep
    xstep
    xstep
    xstep
    xstep
    xstep
    xstep
    xstep
    xstep
    xstep
    xstep
    rw [run_nil] at hs
    change ⟨ax, w12, w9, w10, w11, f0, w1, w2, w3, w4, w5, w6, w7, w8, s0, s1, s2, f0, f1, f2, true, o12, (store6 mem f0 w1 w2 w3 w4 w5 w6)⟩ = s at hs
    refine ⟨w12, w9, w10, w11, w1, w2, w3, w4, w5, w6, w7, w8, true, o12, hs.symm, ?_⟩
    refine ⟨z w1 + 2 ^ 64 * z w2 + 2 ^ 128 * z w3 + 2 ^ 192 * z w4 + 2 ^ 256 * z w5 + 2 ^ 320 * z w6, zb c6, ?_, ?_, ?_, ?_⟩
    · linear_combination 2 ^ 0 * e1 + 2 ^ 64 * e2 + 2 ^ 128 * e3 + 2 ^ 192 * e4 + 2 ^ 256 * e5 + 2 ^ 320 * e6
    · clear * -
      have := z_bnd w1
      have := z_bnd w2
      have := z_bnd w3
      have := z_bnd w4
      have := z_bnd w5
      have := z_bnd w6
      omega
    · clear * -
      have := z_bnd w1
      have := z_bnd w2
      have := z_bnd w3
      have := z_bnd w4
      have := z_bnd w5
      have := z_bnd w6
      omega
    · left
      simp only [zb_true] at e12
      have key : z w7 + 2 ^ 64 * z w8 + 2 ^ 128 * z w9 + 2 ^ 192 * z w10 + 2 ^ 256 * z w11 + 2 ^ 320 * z w12 + 0x1a0111ea397fe69a4b1ba7b6434bacd764774b84f38512bf6730d2a0f6b0f6241eabfffeb153ffffb9feffffffffaaab = z w1 + 2 ^ 64 * z w2 + 2 ^ 128 * z w3 + 2 ^ 192 * z w4 + 2 ^ 256 * z w5 + 2 ^ 320 * z w6 + 2 ^ 384 := by
        linear_combination 2 ^ 0 * e7 + 2 ^ 64 * e8 + 2 ^ 128 * e9 + 2 ^ 192 * e10 + 2 ^ 256 * e11 + 2 ^ 320 * e12
      refine ⟨?_, rfl⟩
      clear * - key
      have := z_bnd w7
      have := z_bnd w8
      have := z_bnd w9
      have := z_bnd w10
      have := z_bnd w11
      have := z_bnd w12
      omega

/-- `addAssign`. -/
theorem addAssign_spec {ax bx cx dx si di r8 r9 r10 r11 r12 r13 r14 r15 s0 s1 s2 f0 f1 f2 : UInt64} {cf of : Bool} {mem : UInt64 → UInt64}
    {a0 a1 a2 a3 a4 a5 b0 b1 b2 b3 b4 b5 : UInt64}
    (hf0_0 : mem (f0 + 0) = a0)
    (hf0_8 : mem (f0 + 8) = a1)
    (hf0_16 : mem (f0 + 16) = a2)
    (hf0_24 : mem (f0 + 24) = a3)
    (hf0_32 : mem (f0 + 32) = a4)
    (hf0_40 : mem (f0 + 40) = a5)
    (hf1_0 : mem (f1 + 0) = b0)
    (hf1_8 : mem (f1 + 8) = b1)
    (hf1_16 : mem (f1 + 16) = b2)
    (hf1_24 : mem (f1 + 24) = b3)
    (hf1_32 : mem (f1 + 32) = b4)
    (hf1_40 : mem (f1 + 40) = b5) :
    ∃ bx' cx' dx' si' r8' r9' r10' r11' r12' r13' r14' r15' : UInt64, ∃ cf' of' : Bool,
      run addAssign ⟨ax, bx, cx, dx, si, di, r8, r9, r10, r11, r12, r13, r14, r15, s0, s1, s2, f0, f1, f2, cf, of, mem⟩ =
      ⟨(0x1a0111ea397fe69a : UInt64), bx', cx', dx', si', f0, r8', r9', r10', r11', r12', r13', r14', r15', s0, s1, s2, f0, f1, f2, cf', of', (store6 mem f0 r8' r9' r10' r11' r12' r13')⟩ ∧
      ∃ v k : ℤ, v + 2 ^ 384 * k = (z a0 + 2 ^ 64 * z a1 + 2 ^ 128 * z a2 + 2 ^ 192 * z a3 + 2 ^ 256 * z a4 + 2 ^ 320 * z a5) + (z b0 + 2 ^ 64 * z b1 + 2 ^ 128 * z b2 + 2 ^ 192 * z b3 + 2 ^ 256 * z b4 + 2 ^ 320 * z b5) ∧ 0 ≤ v ∧ v < 2 ^ 384 ∧
        ((v < 0x1a0111ea397fe69a4b1ba7b6434bacd764774b84f38512bf6730d2a0f6b0f6241eabfffeb153ffffb9feffffffffaaab ∧ z r8' + 2 ^ 64 * z r9' + 2 ^ 128 * z r10' + 2 ^ 192 * z r11' + 2 ^ 256 * z r12' + 2 ^ 320 * z r13' = v) ∨ z r8' + 2 ^ 64 * z r9' + 2 ^ 128 * z r10' + 2 ^ 192 * z r11' + 2 ^ 256 * z r12' + 2 ^ 320 * z r13' + 0x1a0111ea397fe69a4b1ba7b6434bacd764774b84f38512bf6730d2a0f6b0f6241eabfffeb153ffffb9feffffffffaaab = v) := by
  generalize hs : run addAssign _ = s
  unfold addAssign at hs
  xstep
  xstep
  xstep
  rw [hf0_0] at hs
  xstep
  rw [hf0_8] at hs
  xstep
  rw [hf0_16] at hs
  xstep
  rw [hf0_24] at hs
  xstep
  rw [hf0_32] at hs
  xstep
  rw [hf0_40] at hs
  xstep
  rw [hf1_0] at hs
  have e1 := addW_specZ a0 b0 false
  simp only [zb_false, add_zero, zero_add] at e1
  generalize addO a0 b0 false = o1 at hs
  generalize addW a0 b0 false = w1 at hs e1; generalize addC a0 b0 false = c1 at hs e1
  xstep
  rw [hf1_8] at hs
  have e2 := addW_specZ a1 b1 c1
  generalize addO a1 b1 c1 = o2 at hs
  generalize addW a1 b1 c1 = w2 at hs e2; generalize addC a1 b1 c1 = c2 at hs e2
  xstep
  rw [hf1_16] at hs
  have e3 := addW_specZ a2 b2 c2
  generalize addO a2 b2 c2 = o3 at hs
  generalize addW a2 b2 c2 = w3 at hs e3; generalize addC a2 b2 c2 = c3 at hs e3
  xstep
  rw [hf1_24] at hs
  have e4 := addW_specZ a3 b3 c3
  generalize addO a3 b3 c3 = o4 at hs
  generalize addW a3 b3 c3 = w4 at hs e4; generalize addC a3 b3 c3 = c4 at hs e4
  xstep
  rw [hf1_32] at hs
  have e5 := addW_specZ a4 b4 c4
  generalize addO a4 b4 c4 = o5 at hs
  generalize addW a4 b4 c4 = w5 at hs e5; generalize addC a4 b4 c4 = c5 at hs e5
  xstep
  rw [hf1_40] at hs
  have e6 := addW_specZ a5 b5 c5
  generalize addO a5 b5 c5 = o6 at hs
  generalize addW a5 b5 c5 = w6 at hs e6; generalize addC a5 b5 c5 = c6 at hs e6
  xstep
  xstep
  xstep
  xstep
  xstep
  xstep
  xstep
  xstep
  have e7 := subW_specZ w1 (0xb9feffffffffaaab : UInt64) false
  simp only [zb_false, z_c0, add_zero, zero_add] at e7
  generalize subO w1 (0xb9feffffffffaaab : UInt64) false = o7 at hs
  generalize subW w1 (0xb9feffffffffaaab : UInt64) false = w7 at hs e7; generalize subC w1 (0xb9feffffffffaaab : UInt64) false = c7 at hs e7
  xstep
  xstep
  have e8 := subW_specZ w2 (0x1eabfffeb153ffff : UInt64) c7
  simp only [z_c1] at e8
  generalize subO w2 (0x1eabfffeb153ffff : UInt64) c7 = o8 at hs
  generalize subW w2 (0x1eabfffeb153ffff : UInt64) c7 = w8 at hs e8; generalize subC w2 (0x1eabfffeb153ffff : UInt64) c7 = c8 at hs e8
  xstep
  xstep
  have e9 := subW_specZ w3 (0x6730d2a0f6b0f624 : UInt64) c8
  simp only [z_c2] at e9
  generalize subO w3 (0x6730d2a0f6b0f624 : UInt64) c8 = o9 at hs
  generalize subW w3 (0x6730d2a0f6b0f624 : UInt64) c8 = w9 at hs e9; generalize subC w3 (0x6730d2a0f6b0f624 : UInt64) c8 = c9 at hs e9
  xstep
  xstep
  have e10 := subW_specZ w4 (0x64774b84f38512bf : UInt64) c9
  simp only [z_c3] at e10
  generalize subO w4 (0x64774b84f38512bf : UInt64) c9 = o10 at hs
  generalize subW w4 (0x64774b84f38512bf : UInt64) c9 = w10 at hs e10; generalize subC w4 (0x64774b84f38512bf : UInt64) c9 = c10 at hs e10
  xstep
  xstep
  have e11 := subW_specZ w5 (0x4b1ba7b6434bacd7 : UInt64) c10
  simp only [z_c4] at e11
  generalize subO w5 (0x4b1ba7b6434bacd7 : UInt64) c10 = o11 at hs
  generalize subW w5 (0x4b1ba7b6434bacd7 : UInt64) c10 = w11 at hs e11; generalize subC w5 (0x4b1ba7b6434bacd7 : UInt64) c10 = c11 at hs e11
  xstep
  xstep
  have e12 := subW_specZ w6 (0x1a0111ea397fe69a : UInt64) c11
  simp only [z_c5] at e12
  generalize subO w6 (0x1a0111ea397fe69a : UInt64) c11 = o12 at hs
  generalize subW w6 (0x1a0111ea397fe69a : UInt64) c11 = w12 at hs e12; generalize subC w6 (0x1a0111ea397fe69a : UInt64) c11 = c12 at hs e12
  cases c12
  · xstep
    xstep
    xstep
    xstep
    xstep
    xstep
    xstep
    xstep
    xstep
    xstep
    xstep
    xstep
    rw [run_nil] at hs
    change ⟨(0x1a0111ea397fe69a : UInt64), w12, w9, w10, w11, f0, w7, w8, w9, w10, w11, w12, w7, w8, s0, s1, s2, f0, f1, f2, false, o12, (store6 mem f0 w7 w8 w9 w10 w11 w12)⟩ = s at hs
    refine ⟨w12, w9, w10, w11, w7, w8, w9, w10, w11, w12, w7, w8, false, o12, hs.symm, ?_⟩
    refine ⟨z w1 + 2 ^ 64 * z w2 + 2 ^ 128 * z w3 + 2 ^ 192 * z w4 + 2 ^ 256 * z w5 + 2 ^ 320 * z w6, zb c6, ?_, ?_, ?_, ?_⟩
    · linear_combination 2 ^ 0 * e1 + 2 ^ 64 * e2 + 2 ^ 128 * e3 + 2 ^ 192 * e4 + 2 ^ 256 * e5 + 2 ^ 320 * e6
    · clear * -
      have := z_bnd w1
      have := z_bnd w2
      have := z_bnd w3
      have := z_bnd w4
      have := z_bnd w5
      have := z_bnd w6
      omega
    · clear * -
      have := z_bnd w1
      have := z_bnd w2
      have := z_bnd w3
      have := z_bnd w4
      have := z_bnd w5
      have := z_bnd w6
      omega
    · right
      simp only [zb_false] at e12
      linear_combination 2 ^ 0 * e7 + 2 ^ 64 * e8 + 2 ^ 128 * e9 + 2 ^ 192 * e10 + 2 ^ 256 * e11 + 2 ^ 320 * e12
  · xstep
    xstep
    xstep
    xstep
    xstep
    xstep
    xstep
    xstep
    xstep
    xstep
    xstep
    xstep
    rw [run_nil] at hs
    change ⟨(0x1a0111ea397fe69a : UInt64), w12, w9, w10, w11, f0, w1, w2, w3, w4, w5, w6, w7, w8, s0, s1, s2, f0, f1, f2, true, o12, (store6 mem f0 w1 w2 w3 w4 w5 w6)⟩ = s at hs
    refine ⟨w12, w9, w10, w11, w1, w2, w3, w4, w5, w6, w7, w8, true, o12, hs.symm, ?_⟩
    refine ⟨z w1 + 2 ^ 64 * z w2 + 2 ^ 128 * z w3 + 2 ^ 192 * z w4 + 2 ^ 256 * z w5 + 2 ^ 320 * z w6, zb c6, ?_, ?_, ?_, ?_⟩
    · linear_combination 2 ^ 0 * e1 + 2 ^ 64 * e2 + 2 ^ 128 * e3 + 2 ^ 192 * e4 + 2 ^ 256 * e5 + 2 ^ 320 * e6
    · clear * -
      have := z_bnd w1
      have := z_bnd w2
      have := z_bnd w3
      have := z_bnd w4
      have := z_bnd w5
      have := z_bnd w6
      omega
    · clear * -
      have := z_bnd w1
      have := z_bnd w2
      have := z_bnd w3
      have := z_bnd w4
      have := z_bnd w5
      have := z_bnd w6
      omega
    · left
      simp only [zb_true] at e12
      have key : z w7 + 2 ^ 64 * z w8 + 2 ^ 128 * z w9 + 2 ^ 192 * z w10 + 2 ^ 256 * z w11 + 2 ^ 320 * z w12 + 0x1a0111ea397fe69a4b1ba7b6434bacd764774b84f38512bf6730d2a0f6b0f6241eabfffeb153ffffb9feffffffffaaab = z w1 + 2 ^ 64 * z w2 + 2 ^ 128 * z w3 + 2 ^ 192 * z w4 + 2 ^ 256 * z w5 + 2 ^ 320 * z w6 + 2 ^ 384 := by
        linear_combination 2 ^ 0 * e7 + 2 ^ 64 * e8 + 2 ^ 128 * e9 + 2 ^ 192 * e10 + 2 ^ 256 * e11 + 2 ^ 320 * e12
      refine ⟨?_, rfl⟩
      clear * - key
      have := z_bnd w7
      have := z_bnd w8
      have := z_bnd w9
      have := z_bnd w10
      have := z_bnd w11
      have := z_bnd w12
      omega

/-- `ladd`. -/
theorem ladd_spec {ax bx cx dx si di r8 r9 r10 r11 r12 r13 r14 r15 s0 s1 s2 f0 f1 f2 : UInt64} {cf of : Bool} {mem : UInt64 → UInt64}
    {a0 a1 a2 a3 a4 a5 b0 b1 b2 b3 b4 b5 : UInt64}
    (hf1_0 : mem (f1 + 0) = a0)
    (hf1_8 : mem (f1 + 8) = a1)
    (hf1_16 : mem (f1 + 16) = a2)
    (hf1_24 : mem (f1 + 24) = a3)
    (hf1_32 : mem (f1 + 32) = a4)
    (hf1_40 : mem (f1 + 40) = a5)
    (hf2_0 : mem (f2 + 0) = b0)
    (hf2_8 : mem (f2 + 8) = b1)
    (hf2_16 : mem (f2 + 16) = b2)
    (hf2_24 : mem (f2 + 24) = b3)
    (hf2_32 : mem (f2 + 32) = b4)
    (hf2_40 : mem (f2 + 40) = b5) :
    ∃ r8' r9' r10' r11' r12' r13' : UInt64, ∃ cf' of' : Bool,
      run ladd ⟨ax, bx, cx, dx, si, di, r8, r9, r10, r11, r12, r13, r14, r15, s0, s1, s2, f0, f1, f2, cf, of, mem⟩ =
      ⟨ax, bx, cx, dx, f2, f0, r8', r9', r10', r11', r12', r13', r14, r15, s0, s1, s2, f0, f1, f2, cf', of', (store6 mem f0 r8' r9' r10' r11' r12' r13')⟩ ∧
      z r8' + 2 ^ 64 * z r9' + 2 ^ 128 * z r10' + 2 ^ 192 * z r11' + 2 ^ 256 * z r12' + 2 ^ 320 * z r13' + 2 ^ 384 * zb cf' =
        (z a0 + 2 ^ 64 * z a1 + 2 ^ 128 * z a2 + 2 ^ 192 * z a3 + 2 ^ 256 * z a4 + 2 ^ 320 * z a5) + (z b0 + 2 ^ 64 * z b1 + 2 ^ 128 * z b2 + 2 ^ 192 * z b3 + 2 ^ 256 * z b4 + 2 ^ 320 * z b5) := by
  generalize hs : run ladd _ = s
  unfold ladd at hs
  xstep
  xstep
  xstep
  rw [hf1_0] at hs
  xstep
  rw [hf1_8] at hs
  xstep
  rw [hf1_16] at hs
  xstep
  rw [hf1_24] at hs
  xstep
  rw [hf1_32] at hs
  xstep
  rw [hf1_40] at hs
  xstep
  rw [hf2_0] at hs
  have e1 := addW_specZ a0 b0 false
  simp only [zb_false, add_zero, zero_add] at e1
  generalize addO a0 b0 false = o1 at hs
  generalize addW a0 b0 false = w1 at hs e1; generalize addC a0 b0 false = c1 at hs e1
  xstep
  rw [hf2_8] at hs
  have e2 := addW_specZ a1 b1 c1
  generalize addO a1 b1 c1 = o2 at hs
  generalize addW a1 b1 c1 = w2 at hs e2; generalize addC a1 b1 c1 = c2 at hs e2
  xstep
  rw [hf2_16] at hs
  have e3 := addW_specZ a2 b2 c2
  generalize addO a2 b2 c2 = o3 at hs
  generalize addW a2 b2 c2 = w3 at hs e3; generalize addC a2 b2 c2 = c3 at hs e3
  xstep
  rw [hf2_24] at hs
  have e4 := addW_specZ a3 b3 c3
  generalize addO a3 b3 c3 = o4 at hs
  generalize addW a3 b3 c3 = w4 at hs e4; generalize addC a3 b3 c3 = c4 at hs e4
  xstep
  rw [hf2_32] at hs
  have e5 := addW_specZ a4 b4 c4
  generalize addO a4 b4 c4 = o5 at hs
  generalize addW a4 b4 c4 = w5 at hs e5; generalize addC a4 b4 c4 = c5 at hs e5
  xstep
  rw [hf2_40] at hs
  have e6 := addW_specZ a5 b5 c5
  generalize addO a5 b5 c5 = o6 at hs
  generalize addW a5 b5 c5 = w6 at hs e6; generalize addC a5 b5 c5 = c6 at hs e6
  xstep
  xstep
  xstep
  xstep
  xstep
  xstep
  xstep
  rw [run_nil] at hs
  change ⟨ax, bx, cx, dx, f2, f0, w1, w2, w3, w4, w5, w6, r14, r15, s0, s1, s2, f0, f1, f2, c6, o6, (store6 mem f0 w1 w2 w3 w4 w5 w6)⟩ = s at hs
  refine ⟨w1, w2, w3, w4, w5, w6, c6, o6, hs.symm, ?_⟩
  linear_combination e1 + 2 ^ 64 * e2 + 2 ^ 128 * e3 + 2 ^ 192 * e4 + 2 ^ 256 * e5 + 2 ^ 320 * e6

/-- `laddAssign`. -/
theorem laddAssign_spec {ax bx cx dx si di r8 r9 r10 r11 r12 r13 r14 r15 s0 s1 s2 f0 f1 f2 : UInt64} {cf of : Bool} {mem : UInt64 → UInt64}
    {a0 a1 a2 a3 a4 a5 b0 b1 b2 b3 b4 b5 : UInt64}
    (hf0_0 : mem (f0 + 0) = a0)
    (hf0_8 : mem (f0 + 8) = a1)
    (hf0_16 : mem (f0 + 16) = a2)
    (hf0_24 : mem (f0 + 24) = a3)
    (hf0_32 : mem (f0 + 32) = a4)
    (hf0_40 : mem (f0 + 40) = a5)
    (hf1_0 : mem (f1 + 0) = b0)
    (hf1_8 : mem (f1 + 8) = b1)
    (hf1_16 : mem (f1 + 16) = b2)
    (hf1_24 : mem (f1 + 24) = b3)
    (hf1_32 : mem (f1 + 32) = b4)
    (hf1_40 : mem (f1 + 40) = b5) :
    ∃ r8' r9' r10' r11' r12' r13' : UInt64, ∃ cf' of' : Bool,
      run laddAssign ⟨ax, bx, cx, dx, si, di, r8, r9, r10, r11, r12, r13, r14, r15, s0, s1, s2, f0, f1, f2, cf, of, mem⟩ =
      ⟨ax, bx, cx, dx, f1, f0, r8', r9', r10', r11', r12', r13', r14, r15, s0, s1, s2, f0, f1, f2, cf', of', (store6 mem f0 r8' r9' r10' r11' r12' r13')⟩ ∧
      z r8' + 2 ^ 64 * z r9' + 2 ^ 128 * z r10' + 2 ^ 192 * z r11' + 2 ^ 256 * z r12' + 2 ^ 320 * z r13' + 2 ^ 384 * zb cf' =
        (z a0 + 2 ^ 64 * z a1 + 2 ^ 128 * z a2 + 2 ^ 192 * z a3 + 2 ^ 256 * z a4 + 2 ^ 320 * z a5) + (z b0 + 2 ^ 64 * z b1 + 2 ^ 128 * z b2 + 2 ^ 192 * z b3 + 2 ^ 256 * z b4 + 2 ^ 320 * z b5) := by
  generalize hs : run laddAssign _ = s
  unfold laddAssign at hs
  xstep
  xstep
  xstep
  rw [hf0_0] at hs
  xstep
  rw [hf0_8] at hs
  xstep
  rw [hf0_16] at hs
  xstep
  rw [hf0_24] at hs
  xstep
  rw [hf0_32] at hs
  xstep
  rw [hf0_40] at hs
  xstep
  rw [hf1_0] at hs
  have e1 := addW_specZ a0 b0 false
  simp only [zb_false, add_zero, zero_add] at e1
  generalize addO a0 b0 false = o1 at hs
  generalize addW a0 b0 false = w1 at hs e1; generalize addC a0 b0 false = c1 at hs e1
  xstep
  rw [hf1_8] at hs
  have e2 := addW_specZ a1 b1 c1
  generalize addO a1 b1 c1 = o2 at hs
  generalize addW a1 b1 c1 = w2 at hs e2; generalize addC a1 b1 c1 = c2 at hs e2
  xstep
  rw [hf1_16] at hs
  have e3 := addW_specZ a2 b2 c2
  generalize addO a2 b2 c2 = o3 at hs
  generalize addW a2 b2 c2 = w3 at hs e3; generalize addC a2 b2 c2 = c3 at hs e3
  xstep
  rw [hf1_24] at hs
  have e4 := addW_specZ a3 b3 c3
  generalize addO a3 b3 c3 = o4 at hs
  generalize addW a3 b3 c3 = w4 at hs e4; generalize addC a3 b3 c3 = c4 at hs e4
  xstep
  rw [hf1_32] at hs
  have e5 := addW_specZ a4 b4 c4
  generalize addO a4 b4 c4 = o5 at hs
  generalize addW a4 b4 c4 = w5 at hs e5; generalize addC a4 b4 c4 = c5 at hs e5
  xstep
  rw [hf1_40] at hs
  have e6 := addW_specZ a5 b5 c5
  generalize addO a5 b5 c5 = o6 at hs
  generalize addW a5 b5 c5 = w6 at hs e6; generalize addC a5 b5 c5 = c6 at hs e6
  xstep
  xstep
  xstep
  xstep
  xstep
  xstep
  xstep
  rw [run_nil] at hs
  change ⟨ax, bx, cx, dx, f1, f0, w1, w2, w3, w4, w5, w6, r14, r15, s0, s1, s2, f0, f1, f2, c6, o6, (store6 mem f0 w1 w2 w3 w4 w5 w6)⟩ = s at hs
  refine ⟨w1, w2, w3, w4, w5, w6, c6, o6, hs.symm, ?_⟩
  linear_combination e1 + 2 ^ 64 * e2 + 2 ^ 128 * e3 + 2 ^ 192 * e4 + 2 ^ 256 * e5 + 2 ^ 320 * e6

/-- `sub`. -/
theorem sub_spec {ax bx cx dx si di r8 r9 r10 r11 r12 r13 r14 r15 s0 s1 s2 f0 f1 f2 : UInt64} {cf of : Bool} {mem : UInt64 → UInt64}
    {a0 a1 a2 a3 a4 a5 b0 b1 b2 b3 b4 b5 : UInt64}
    (hf1_0 : mem (f1 + 0) = a0)
    (hf1_8 : mem (f1 + 8) = a1)
    (hf1_16 : mem (f1 + 16) = a2)
    (hf1_24 : mem (f1 + 24) = a3)
    (hf1_32 : mem (f1 + 32) = a4)
    (hf1_40 : mem (f1 + 40) = a5)
    (hf2_0 : mem (f2 + 0) = b0)
    (hf2_8 : mem (f2 + 8) = b1)
    (hf2_16 : mem (f2 + 16) = b2)
    (hf2_24 : mem (f2 + 24) = b3)
    (hf2_32 : mem (f2 + 32) = b4)
    (hf2_40 : mem (f2 + 40) = b5) :
    ∃ bx' cx' dx' si' r8' r9' r10' r11' r12' r13' r14' r15' : UInt64, ∃ cf' of' : Bool,
      run sub ⟨ax, bx, cx, dx, si, di, r8, r9, r10, r11, r12, r13, r14, r15, s0, s1, s2, f0, f1, f2, cf, of, mem⟩ =
      ⟨(0 : UInt64), bx', cx', dx', si', f0, r8', r9', r10', r11', r12', r13', r14', r15', s0, s1, s2, f0, f1, f2, cf', of', (store6 mem f0 r8' r9' r10' r11' r12' r13')⟩ ∧
      ∃ v c k : ℤ, v + (z b0 + 2 ^ 64 * z b1 + 2 ^ 128 * z b2 + 2 ^ 192 * z b3 + 2 ^ 256 * z b4 + 2 ^ 320 * z b5) = (z a0 + 2 ^ 64 * z a1 + 2 ^ 128 * z a2 + 2 ^ 192 * z a3 + 2 ^ 256 * z a4 + 2 ^ 320 * z a5) + 2 ^ 384 * c ∧ 0 ≤ v ∧ v < 2 ^ 384 ∧
        ((c = 0 ∧ z r8' + 2 ^ 64 * z r9' + 2 ^ 128 * z r10' + 2 ^ 192 * z r11' + 2 ^ 256 * z r12' + 2 ^ 320 * z r13' = v) ∨ (c = 1 ∧ z r8' + 2 ^ 64 * z r9' + 2 ^ 128 * z r10' + 2 ^ 192 * z r11' + 2 ^ 256 * z r12' + 2 ^ 320 * z r13' + 2 ^ 384 * k = v + 0x1a0111ea397fe69a4b1ba7b6434bacd764774b84f38512bf6730d2a0f6b0f6241eabfffeb153ffffb9feffffffffaaab)) := by
  generalize hs : run sub _ = s
  unfold sub at hs
  xstep
  xstep
  xstep
  xstep
  rw [hf1_0] at hs
  xstep
  rw [hf1_8] at hs
  xstep
  rw [hf1_16] at hs
  xstep
  rw [hf1_24] at hs
  xstep
  rw [hf1_32] at hs
  xstep
  rw [hf1_40] at hs
  xstep
  rw [hf2_0] at hs
  have e1 := subW_specZ a0 b0 false
  simp only [zb_false, add_zero, zero_add] at e1
  generalize subO a0 b0 false = o1 at hs
  generalize subW a0 b0 false = w1 at hs e1; generalize subC a0 b0 false = c1 at hs e1
  xstep
  rw [hf2_8] at hs
  have e2 := subW_specZ a1 b1 c1
  generalize subO a1 b1 c1 = o2 at hs
  generalize subW a1 b1 c1 = w2 at hs e2; generalize subC a1 b1 c1 = c2 at hs e2
  xstep
  rw [hf2_16] at hs
  have e3 := subW_specZ a2 b2 c2
  generalize subO a2 b2 c2 = o3 at hs
  generalize subW a2 b2 c2 = w3 at hs e3; generalize subC a2 b2 c2 = c3 at hs e3
  xstep
  rw [hf2_24] at hs
  have e4 := subW_specZ a3 b3 c3
  generalize subO a3 b3 c3 = o4 at hs
  generalize subW a3 b3 c3 = w4 at hs e4; generalize subC a3 b3 c3 = c4 at hs e4
  xstep
  rw [hf2_32] at hs
  have e5 := subW_specZ a4 b4 c4
  generalize subO a4 b4 c4 = o5 at hs
  generalize subW a4 b4 c4 = w5 at hs e5; generalize subC a4 b4 c4 = c5 at hs e5
  xstep
  rw [hf2_40] at hs
  have e6 := subW_specZ a5 b5 c5
  generalize subO a5 b5 c5 = o6 at hs
  generalize subW a5 b5 c5 = w6 at hs e6; generalize subC a5 b5 c5 = c6 at hs e6
  xstep
  xstep
  xstep
  xstep
  xstep
  xstep
  cases c6
  · xstep
    xstep
    xstep
    xstep
    xstep
    xstep
    xstep
    have e7 := addW_specZ w1 (0 : UInt64) false
    simp only [z_zero, zb_false, add_zero, zero_add] at e7
    generalize addO w1 (0 : UInt64) false = o7 at hs
    generalize addW w1 (0 : UInt64) false = w7 at hs e7; generalize addC w1 (0 : UInt64) false = c7 at hs e7
    xstep
    have e8 := addW_specZ w2 (0 : UInt64) c7
    simp only [z_zero, add_zero, zero_add] at e8
    generalize addO w2 (0 : UInt64) c7 = o8 at hs
    generalize addW w2 (0 : UInt64) c7 = w8 at hs e8; generalize addC w2 (0 : UInt64) c7 = c8 at hs e8
    xstep
    have e9 := addW_specZ w3 (0 : UInt64) c8
    simp only [z_zero, add_zero, zero_add] at e9
    generalize addO w3 (0 : UInt64) c8 = o9 at hs
    generalize addW w3 (0 : UInt64) c8 = w9 at hs e9; generalize addC w3 (0 : UInt64) c8 = c9 at hs e9
    xstep
    have e10 := addW_specZ w4 (0 : UInt64) c9
    simp only [z_zero, add_zero, zero_add] at e10
    generalize addO w4 (0 : UInt64) c9 = o10 at hs
    generalize addW w4 (0 : UInt64) c9 = w10 at hs e10; generalize addC w4 (0 : UInt64) c9 = c10 at hs e10
    xstep
    have e11 := addW_specZ w5 (0 : UInt64) c10
    simp only [z_zero, add_zero, zero_add] at e11
    generalize addO w5 (0 : UInt64) c10 = o11 at hs
    generalize addW w5 (0 : UInt64) c10 = w11 at hs e11; generalize addC w5 (0 : UInt64) c10 = c11 at hs e11
    xstep
    have e12 := addW_specZ w6 (0 : UInt64) c11
    simp only [z_zero, add_zero, zero_add] at e12
    generalize addO w6 (0 : UInt64) c11 = o12 at hs
    generalize addW w6 (0 : UInt64) c11 = w12 at hs e12; generalize addC w6 (0 : UInt64) c11 = c12 at hs e12
    xstep
    xstep
    xstep
    xstep
    xstep
    xstep
    xstep
    rw [run_nil] at hs
    change ⟨(0 : UInt64), (0 : UInt64), (0 : UInt64), (0 : UInt64), (0 : UInt64), f0, w7, w8, w9, w10, w11, w12, (0 : UInt64), (0 : UInt64), s0, s1, s2, f0, f1, f2, c12, o12, (store6 mem f0 w7 w8 w9 w10 w11 w12)⟩ = s at hs
    refine ⟨(0 : UInt64), (0 : UInt64), (0 : UInt64), (0 : UInt64), w7, w8, w9, w10, w11, w12, (0 : UInt64), (0 : UInt64), c12, o12, hs.symm, ?_⟩
    simp only [zb_false] at e6
    refine ⟨z w1 + 2 ^ 64 * z w2 + 2 ^ 128 * z w3 + 2 ^ 192 * z w4 + 2 ^ 256 * z w5 + 2 ^ 320 * z w6, 0, zb c12, ?_, ?_, ?_, ?_⟩
    · linear_combination 2 ^ 0 * e1 + 2 ^ 64 * e2 + 2 ^ 128 * e3 + 2 ^ 192 * e4 + 2 ^ 256 * e5 + 2 ^ 320 * e6
    · clear * -
      have := z_bnd w1
      have := z_bnd w2
      have := z_bnd w3
      have := z_bnd w4
      have := z_bnd w5
      have := z_bnd w6
      omega
    · clear * -
      have := z_bnd w1
      have := z_bnd w2
      have := z_bnd w3
      have := z_bnd w4
      have := z_bnd w5
      have := z_bnd w6
      omega
    · left
      have key : z w7 + 2 ^ 64 * z w8 + 2 ^ 128 * z w9 + 2 ^ 192 * z w10 + 2 ^ 256 * z w11 + 2 ^ 320 * z w12 + 2 ^ 384 * zb c12 = z w1 + 2 ^ 64 * z w2 + 2 ^ 128 * z w3 + 2 ^ 192 * z w4 + 2 ^ 256 * z w5 + 2 ^ 320 * z w6 := by
        linear_combination 2 ^ 0 * e7 + 2 ^ 64 * e8 + 2 ^ 128 * e9 + 2 ^ 192 * e10 + 2 ^ 256 * e11 + 2 ^ 320 * e12
      refine ⟨rfl, ?_⟩
      clear * - key
      have := z_bnd w1
      have := z_bnd w2
      have := z_bnd w3
      have := z_bnd w4
      have := z_bnd w5
      have := z_bnd w6
      have := z_bnd w7
      have := z_bnd w8
      have := z_bnd w9
      have := z_bnd w10
      have := z_bnd w11
      have := z_bnd w12
      have := zb_bnd c12
      omega
  · xstep
    xstep
    xstep
    xstep
    xstep
    xstep
    xstep
    have e7 := addW_specZ w1 (0xb9feffffffffaaab : UInt64) false
    simp only [zb_false, z_c0, add_zero, zero_add] at e7
    generalize addO w1 (0xb9feffffffffaaab : UInt64) false = o7 at hs
    generalize addW w1 (0xb9feffffffffaaab : UInt64) false = w7 at hs e7; generalize addC w1 (0xb9feffffffffaaab : UInt64) false = c7 at hs e7
    xstep
    have e8 := addW_specZ w2 (0x1eabfffeb153ffff : UInt64) c7
    simp only [z_c1] at e8
    generalize addO w2 (0x1eabfffeb153ffff : UInt64) c7 = o8 at hs
    generalize addW w2 (0x1eabfffeb153ffff : UInt64) c7 = w8 at hs e8; generalize addC w2 (0x1eabfffeb153ffff : UInt64) c7 = c8 at hs e8
    xstep
    have e9 := addW_specZ w3 (0x6730d2a0f6b0f624 : UInt64) c8
    simp only [z_c2] at e9
    generalize addO w3 (0x6730d2a0f6b0f624 : UInt64) c8 = o9 at hs
    generalize addW w3 (0x6730d2a0f6b0f624 : UInt64) c8 = w9 at hs e9; generalize addC w3 (0x6730d2a0f6b0f624 : UInt64) c8 = c9 at hs e9
    xstep
    have e10 := addW_specZ w4 (0x64774b84f38512bf : UInt64) c9
    simp only [z_c3] at e10
    generalize addO w4 (0x64774b84f38512bf : UInt64) c9 = o10 at hs
    generalize addW w4 (0x64774b84f38512bf : UInt64) c9 = w10 at hs e10; generalize addC w4 (0x64774b84f38512bf : UInt64) c9 = c10 at hs e10
    xstep
    have e11 := addW_specZ w5 (0x4b1ba7b6434bacd7 : UInt64) c10
    simp only [z_c4] at e11
    generalize addO w5 (0x4b1ba7b6434bacd7 : UInt64) c10 = o11 at hs
    generalize addW w5 (0x4b1ba7b6434bacd7 : UInt64) c10 = w11 at hs e11; generalize addC w5 (0x4b1ba7b6434bacd7 : UInt64) c10 = c11 at hs e11
    xstep
    have e12 := addW_specZ w6 (0x1a0111ea397fe69a : UInt64) c11
    simp only [z_c5] at e12
    generalize addO w6 (0x1a0111ea397fe69a : UInt64) c11 = o12 at hs
    generalize addW w6 (0x1a0111ea397fe69a : UInt64) c11 = w12 at hs e12; generalize addC w6 (0x1a0111ea397fe69a : UInt64) c11 = c12 at hs e12
    xstep
    xstep
    xstep
    xstep
    xstep
    xstep
    xstep
    rw [run_nil] at hs
    change ⟨(0 : UInt64), (0x1a0111ea397fe69a : UInt64), (0x6730d2a0f6b0f624 : UInt64), (0x64774b84f38512bf : UInt64), (0x4b1ba7b6434bacd7 : UInt64), f0, w7, w8, w9, w10, w11, w12, (0xb9feffffffffaaab : UInt64), (0x1eabfffeb153ffff : UInt64), s0, s1, s2, f0, f1, f2, c12, o12, (store6 mem f0 w7 w8 w9 w10 w11 w12)⟩ = s at hs
    refine ⟨(0x1a0111ea397fe69a : UInt64), (0x6730d2a0f6b0f624 : UInt64), (0x64774b84f38512bf : UInt64), (0x4b1ba7b6434bacd7 : UInt64), w7, w8, w9, w10, w11, w12, (0xb9feffffffffaaab : UInt64), (0x1eabfffeb153ffff : UInt64), c12, o12, hs.symm, ?_⟩
    simp only [zb_true] at e6
    refine ⟨z w1 + 2 ^ 64 * z w2 + 2 ^ 128 * z w3 + 2 ^ 192 * z w4 + 2 ^ 256 * z w5 + 2 ^ 320 * z w6, 1, zb c12, ?_, ?_, ?_, ?_⟩
    · linear_combination 2 ^ 0 * e1 + 2 ^ 64 * e2 + 2 ^ 128 * e3 + 2 ^ 192 * e4 + 2 ^ 256 * e5 + 2 ^ 320 * e6
    · clear * -
      have := z_bnd w1
      have := z_bnd w2
      have := z_bnd w3
      have := z_bnd w4
      have := z_bnd w5
      have := z_bnd w6
      omega
    · clear * -
      have := z_bnd w1
      have := z_bnd w2
      have := z_bnd w3
      have := z_bnd w4
      have := z_bnd w5
      have := z_bnd w6
      omega
    · right
      refine ⟨rfl, ?_⟩
      linear_combination 2 ^ 0 * e7 + 2 ^ 64 * e8 + 2 ^ 128 * e9 + 2 ^ 192 * e10 + 2 ^ 256 * e11 + 2 ^ 320 * e12

/-- `subAssign`. -/
theorem subAssign_spec {ax bx cx dx si di r8 r9 r10 r11 r12 r13 r14 r15 s0 s1 s2 f0 f1 f2 : UInt64} {cf of : Bool} {mem : UInt64 → UInt64}
    {a0 a1 a2 a3 a4 a5 b0 b1 b2 b3 b4 b5 : UInt64}
    (hf0_0 : mem (f0 + 0) = a0)
    (hf0_8 : mem (f0 + 8) = a1)
    (hf0_16 : mem (f0 + 16) = a2)
    (hf0_24 : mem (f0 + 24) = a3)
    (hf0_32 : mem (f0 + 32) = a4)
    (hf0_40 : mem (f0 + 40) = a5)
    (hf1_0 : mem (f1 + 0) = b0)
    (hf1_8 : mem (f1 + 8) = b1)
    (hf1_16 : mem (f1 + 16) = b2)
    (hf1_24 : mem (f1 + 24) = b3)
    (hf1_32 : mem (f1 + 32) = b4)
    (hf1_40 : mem (f1 + 40) = b5) :
    ∃ bx' cx' dx' si' r8' r9' r10' r11' r12' r13' r14' r15' : UInt64, ∃ cf' of' : Bool,
      run subAssign ⟨ax, bx, cx, dx, si, di, r8, r9, r10, r11, r12, r13, r14, r15, s0, s1, s2, f0, f1, f2, cf, of, mem⟩ =
      ⟨(0 : UInt64), bx', cx', dx', si', f0, r8', r9', r10', r11', r12', r13', r14', r15', s0, s1, s2, f0, f1, f2, cf', of', (store6 mem f0 r8' r9' r10' r11' r12' r13')⟩ ∧
      ∃ v c k : ℤ, v + (z b0 + 2 ^ 64 * z b1 + 2 ^ 128 * z b2 + 2 ^ 192 * z b3 + 2 ^ 256 * z b4 + 2 ^ 320 * z b5) = (z a0 + 2 ^ 64 * z a1 + 2 ^ 128 * z a2 + 2 ^ 192 * z a3 + 2 ^ 256 * z a4 + 2 ^ 320 * z a5) + 2 ^ 384 * c ∧ 0 ≤ v ∧ v < 2 ^ 384 ∧
        ((c = 0 ∧ z r8' + 2 ^ 64 * z r9' + 2 ^ 128 * z r10' + 2 ^ 192 * z r11' + 2 ^ 256 * z r12' + 2 ^ 320 * z r13' = v) ∨ (c = 1 ∧ z r8' + 2 ^ 64 * z r9' + 2 ^ 128 * z r10' + 2 ^ 192 * z r11' + 2 ^ 256 * z r12' + 2 ^ 320 * z r13' + 2 ^ 384 * k = v + 0x1a0111ea397fe69a4b1ba7b6434bacd764774b84f38512bf6730d2a0f6b0f6241eabfffeb153ffffb9feffffffffaaab)) := by
  generalize hs : run subAssign _ = s
  unfold subAssign at hs
  xstep
  xstep
  xstep
  xstep
  rw [hf0_0] at hs
  xstep
  rw [hf0_8] at hs
  xstep
  rw [hf0_16] at hs
  xstep
  rw [hf0_24] at hs
  xstep
  rw [hf0_32] at hs
  xstep
  rw [hf0_40] at hs
  xstep
  rw [hf1_0] at hs
  have e1 := subW_specZ a0 b0 false
  simp only [zb_false, add_zero, zero_add] at e1
  generalize subO a0 b0 false = o1 at hs
  generalize subW a0 b0 false = w1 at hs e1; generalize subC a0 b0 false = c1 at hs e1
  xstep
  rw [hf1_8] at hs
  have e2 := subW_specZ a1 b1 c1
  generalize subO a1 b1 c1 = o2 at hs
  generalize subW a1 b1 c1 = w2 at hs e2; generalize subC a1 b1 c1 = c2 at hs e2
  xstep
  rw [hf1_16] at hs
  have e3 := subW_specZ a2 b2 c2
  generalize subO a2 b2 c2 = o3 at hs
  generalize subW a2 b2 c2 = w3 at hs e3; generalize subC a2 b2 c2 = c3 at hs e3
  xstep
  rw [hf1_24] at hs
  have e4 := subW_specZ a3 b3 c3
  generalize subO a3 b3 c3 = o4 at hs
  generalize subW a3 b3 c3 = w4 at hs e4; generalize subC a3 b3 c3 = c4 at hs e4
  xstep
  rw [hf1_32] at hs
  have e5 := subW_specZ a4 b4 c4
  generalize subO a4 b4 c4 = o5 at hs
  generalize subW a4 b4 c4 = w5 at hs e5; generalize subC a4 b4 c4 = c5 at hs e5
  xstep
  rw [hf1_40] at hs
  have e6 := subW_specZ a5 b5 c5
  generalize subO a5 b5 c5 = o6 at hs
  generalize subW a5 b5 c5 = w6 at hs e6; generalize subC a5 b5 c5 = c6 at hs e6
  xstep
  xstep
  xstep
  xstep
  xstep
  xstep
  cases c6
  · xstep
    xstep
    xstep
    xstep
    xstep
    xstep
    xstep
    have e7 := addW_specZ w1 (0 : UInt64) false
    simp only [z_zero, zb_false, add_zero, zero_add] at e7
    generalize addO w1 (0 : UInt64) false = o7 at hs
    generalize addW w1 (0 : UInt64) false = w7 at hs e7; generalize addC w1 (0 : UInt64) false = c7 at hs e7
    xstep
    have e8 := addW_specZ w2 (0 : UInt64) c7
    simp only [z_zero, add_zero, zero_add] at e8
    generalize addO w2 (0 : UInt64) c7 = o8 at hs
    generalize addW w2 (0 : UInt64) c7 = w8 at hs e8; generalize addC w2 (0 : UInt64) c7 = c8 at hs e8
    xstep
    have e9 := addW_specZ w3 (0 : UInt64) c8
    simp only [z_zero, add_zero, zero_add] at e9
    generalize addO w3 (0 : UInt64) c8 = o9 at hs
    generalize addW w3 (0 : UInt64) c8 = w9 at hs e9; generalize addC w3 (0 : UInt64) c8 = c9 at hs e9
    xstep
    have e10 := addW_specZ w4 (0 : UInt64) c9
    simp only [z_zero, add_zero, zero_add] at e10
    generalize addO w4 (0 : UInt64) c9 = o10 at hs
    generalize addW w4 (0 : UInt64) c9 = w10 at hs e10; generalize addC w4 (0 : UInt64) c9 = c10 at hs e10
    xstep
    have e11 := addW_specZ w5 (0 : UInt64) c10
    simp only [z_zero, add_zero, zero_add] at e11
    generalize addO w5 (0 : UInt64) c10 = o11 at hs
    generalize addW w5 (0 : UInt64) c10 = w11 at hs e11; generalize addC w5 (0 : UInt64) c10 = c11 at hs e11
    xstep
    have e12 := addW_specZ w6 (0 : UInt64) c11
    simp only [z_zero, add_zero, zero_add] at e12
    generalize addO w6 (0 : UInt64) c11 = o12 at hs
    generalize addW w6 (0 : UInt64) c11 = w12 at hs e12; generalize addC w6 (0 : UInt64) c11 = c12 at hs e12
    xstep
    xstep
    xstep
    xstep
    xstep
    xstep
    xstep
    rw [run_nil] at hs
    change ⟨(0 : UInt64), (0 : UInt64), (0 : UInt64), (0 : UInt64), (0 : UInt64), f0, w7, w8, w9, w10, w11, w12, (0 : UInt64), (0 : UInt64), s0, s1, s2, f0, f1, f2, c12, o12, (store6 mem f0 w7 w8 w9 w10 w11 w12)⟩ = s at hs
    refine ⟨(0 : UInt64), (0 : UInt64), (0 : UInt64), (0 : UInt64), w7, w8, w9, w10, w11, w12, (0 : UInt64), (0 : UInt64), c12, o12, hs.symm, ?_⟩
    simp only [zb_false] at e6
    refine ⟨z w1 + 2 ^ 64 * z w2 + 2 ^ 128 * z w3 + 2 ^ 192 * z w4 + 2 ^ 256 * z w5 + 2 ^ 320 * z w6, 0, zb c12, ?_, ?_, ?_, ?_⟩
    · linear_combination 2 ^ 0 * e1 + 2 ^ 64 * e2 + 2 ^ 128 * e3 + 2 ^ 192 * e4 + 2 ^ 256 * e5 + 2 ^ 320 * e6
    · clear * -
      have := z_bnd w1
      have := z_bnd w2
      have := z_bnd w3
      have := z_bnd w4
      have := z_bnd w5
      have := z_bnd w6
      omega
    · clear * -
      have := z_bnd w1
      have := z_bnd w2
      have := z_bnd w3
      have := z_bnd w4
      have := z_bnd w5
      have := z_bnd w6
      omega
    · left
      have key : z w7 + 2 ^ 64 * z w8 + 2 ^ 128 * z w9 + 2 ^ 192 * z w10 + 2 ^ 256 * z w11 + 2 ^ 320 * z w12 + 2 ^ 384 * zb c12 = z w1 + 2 ^ 64 * z w2 + 2 ^ 128 * z w3 + 2 ^ 192 * z w4 + 2 ^ 256 * z w5 + 2 ^ 320 * z w6 := by
        linear_combination 2 ^ 0 * e7 + 2 ^ 64 * e8 + 2 ^ 128 * e9 + 2 ^ 192 * e10 + 2 ^ 256 * e11 + 2 ^ 320 * e12
      refine ⟨rfl, ?_⟩
      clear * - key
      have := z_bnd w1
      have := z_bnd w2
      have := z_bnd w3
      have := z_bnd w4
      have := z_bnd w5
      have := z_bnd w6
      have := z_bnd w7
      have := z_bnd w8
      have := z_bnd w9
      have := z_bnd w10
      have := z_bnd w11
      have := z_bnd w12
      have := zb_bnd c12
      omega
  · xstep
    xstep
    xstep
    xstep
    xstep
    xstep
    xstep
    have e7 := addW_specZ w1 (0xb9feffffffffaaab : UInt64) false
    simp only [zb_false, z_c0, add_zero, zero_add] at e7
    generalize addO w1 (0xb9feffffffffaaab : UInt64) false = o7 at hs
    generalize addW w1 (0xb9feffffffffaaab : UInt64) false = w7 at hs e7; generalize addC w1 (0xb9feffffffffaaab : UInt64) false = c7 at hs e7
    xstep
    have e8 := addW_specZ w2 (0x1eabfffeb153ffff : UInt64) c7
    simp only [z_c1] at e8
    generalize addO w2 (0x1eabfffeb153ffff : UInt64) c7 = o8 at hs
    generalize addW w2 (0x1eabfffeb153ffff : UInt64) c7 = w8 at hs e8; generalize addC w2 (0x1eabfffeb153ffff : UInt64) c7 = c8 at hs e8
    xstep
    have e9 := addW_specZ w3 (0x6730d2a0f6b0f624 : UInt64) c8
    simp only [z_c2] at e9
    generalize addO w3 (0x6730d2a0f6b0f624 : UInt64) c8 = o9 at hs
    generalize addW w3 (0x6730d2a0f6b0f624 : UInt64) c8 = w9 at hs e9; generalize addC w3 (0x6730d2a0f6b0f624 : UInt64) c8 = c9 at hs e9
    xstep
    have e10 := addW_specZ w4 (0x64774b84f38512bf : UInt64) c9
    simp only [z_c3] at e10
    generalize addO w4 (0x64774b84f38512bf : UInt64) c9 = o10 at hs
    generalize addW w4 (0x64774b84f38512bf : UInt64) c9 = w10 at hs e10; generalize addC w4 (0x64774b84f38512bf : UInt64) c9 = c10 at hs e10
    xstep
    have e11 := addW_specZ w5 (0x4b1ba7b6434bacd7 : UInt64) c10
    simp only [z_c4] at e11
    generalize addO w5 (0x4b1ba7b6434bacd7 : UInt64) c10 = o11 at hs
    generalize addW w5 (0x4b1ba7b6434bacd7 : UInt64) c10 = w11 at hs e11; generalize addC w5 (0x4b1ba7b6434bacd7 : UInt64) c10 = c11 at hs e11
    xstep
    have e12 := addW_specZ w6 (0x1a0111ea397fe69a : UInt64) c11
    simp only [z_c5] at e12
    generalize addO w6 (0x1a0111ea397fe69a : UInt64) c11 = o12 at hs
    generalize addW w6 (0x1a0111ea397fe69a : UInt64) c11 = w12 at hs e12; generalize addC w6 (0x1a0111ea397fe69a : UInt64) c11 = c12 at hs e12
    xstep
    xstep
    xstep
    xstep
    xstep
    xstep
    xstep
    rw [run_nil] at hs
    change ⟨(0 : UInt64), (0x1a0111ea397fe69a : UInt64), (0x6730d2a0f6b0f624 : UInt64), (0x64774b84f38512bf : UInt64), (0x4b1ba7b6434bacd7 : UInt64), f0, w7, w8, w9, w10, w11, w12, (0xb9feffffffffaaab : UInt64), (0x1eabfffeb153ffff : UInt64), s0, s1, s2, f0, f1, f2, c12, o12, (store6 mem f0 w7 w8 w9 w10 w11 w12)⟩ = s at hs
    refine ⟨(0x1a0111ea397fe69a : UInt64), (0x6730d2a0f6b0f624 : UInt64), (0x64774b84f38512bf : UInt64), (0x4b1ba7b6434bacd7 : UInt64), w7, w8, w9, w10, w11, w12, (0xb9feffffffffaaab : UInt64), (0x1eabfffeb153ffff : UInt64), c12, o12, hs.symm, ?_⟩
    simp only [zb_true] at e6
    refine ⟨z w1 + 2 ^ 64 * z w2 + 2 ^ 128 * z w3 + 2 ^ 192 * z w4 + 2 ^ 256 * z w5 + 2 ^ 320 * z w6, 1, zb c12, ?_, ?_, ?_, ?_⟩
    · linear_combination 2 ^ 0 * e1 + 2 ^ 64 * e2 + 2 ^ 128 * e3 + 2 ^ 192 * e4 + 2 ^ 256 * e5 + 2 ^ 320 * e6
    · clear * -
      have := z_bnd w1
      have := z_bnd w2
      have := z_bnd w3
      have := z_bnd w4
      have := z_bnd w5
      have := z_bnd w6
      omega
    · clear * -
      have := z_bnd w1
      have := z_bnd w2
      have := z_bnd w3
      have := z_bnd w4
      have := z_bnd w5
      have := z_bnd w6
      omega
    · right
      refine ⟨rfl, ?_⟩
      linear_combination 2 ^ 0 * e7 + 2 ^ 64 * e8 + 2 ^ 128 * e9 + 2 ^ 192 * e10 + 2 ^ 256 * e11 + 2 ^ 320 * e12

/-- `lsubAssign`. -/
theorem lsubAssign_spec {ax bx cx dx si di r8 r9 r10 r11 r12 r13 r14 r15 s0 s1 s2 f0 f1 f2 : UInt64} {cf of : Bool} {mem : UInt64 → UInt64}
    {a0 a1 a2 a3 a4 a5 b0 b1 b2 b3 b4 b5 : UInt64}
    (hf0_0 : mem (f0 + 0) = a0)
    (hf0_8 : mem (f0 + 8) = a1)
    (hf0_16 : mem (f0 + 16) = a2)
    (hf0_24 : mem (f0 + 24) = a3)
    (hf0_32 : mem (f0 + 32) = a4)
    (hf0_40 : mem (f0 + 40) = a5)
    (hf1_0 : mem (f1 + 0) = b0)
    (hf1_8 : mem (f1 + 8) = b1)
    (hf1_16 : mem (f1 + 16) = b2)
    (hf1_24 : mem (f1 + 24) = b3)
    (hf1_32 : mem (f1 + 32) = b4)
    (hf1_40 : mem (f1 + 40) = b5) :
    ∃ r8' r9' r10' r11' r12' r13' : UInt64, ∃ cf' of' : Bool,
      run lsubAssign ⟨ax, bx, cx, dx, si, di, r8, r9, r10, r11, r12, r13, r14, r15, s0, s1, s2, f0, f1, f2, cf, of, mem⟩ =
      ⟨ax, bx, cx, dx, f1, f0, r8', r9', r10', r11', r12', r13', r14, r15, s0, s1, s2, f0, f1, f2, cf', of', (store6 mem f0 r8' r9' r10' r11' r12' r13')⟩ ∧
      z r8' + 2 ^ 64 * z r9' + 2 ^ 128 * z r10' + 2 ^ 192 * z r11' + 2 ^ 256 * z r12' + 2 ^ 320 * z r13' + (z b0 + 2 ^ 64 * z b1 + 2 ^ 128 * z b2 + 2 ^ 192 * z b3 + 2 ^ 256 * z b4 + 2 ^ 320 * z b5) =
        (z a0 + 2 ^ 64 * z a1 + 2 ^ 128 * z a2 + 2 ^ 192 * z a3 + 2 ^ 256 * z a4 + 2 ^ 320 * z a5) + 2 ^ 384 * zb cf' := by
  generalize hs : run lsubAssign _ = s
  unfold lsubAssign at hs
  xstep
  xstep
  xstep
  rw [hf0_0] at hs
  xstep
  rw [hf0_8] at hs
  xstep
  rw [hf0_16] at hs
  xstep
  rw [hf0_24] at hs
  xstep
  rw [hf0_32] at hs
  xstep
  rw [hf0_40] at hs
  xstep
  rw [hf1_0] at hs
  have e1 := subW_specZ a0 b0 false
  simp only [zb_false, add_zero, zero_add] at e1
  generalize subO a0 b0 false = o1 at hs
  generalize subW a0 b0 false = w1 at hs e1; generalize subC a0 b0 false = c1 at hs e1
  xstep
  rw [hf1_8] at hs
  have e2 := subW_specZ a1 b1 c1
  generalize subO a1 b1 c1 = o2 at hs
  generalize subW a1 b1 c1 = w2 at hs e2; generalize subC a1 b1 c1 = c2 at hs e2
  xstep
  rw [hf1_16] at hs
  have e3 := subW_specZ a2 b2 c2
  generalize subO a2 b2 c2 = o3 at hs
  generalize subW a2 b2 c2 = w3 at hs e3; generalize subC a2 b2 c2 = c3 at hs e3
  xstep
  rw [hf1_24] at hs
  have e4 := subW_specZ a3 b3 c3
  generalize subO a3 b3 c3 = o4 at hs
  generalize subW a3 b3 c3 = w4 at hs e4; generalize subC a3 b3 c3 = c4 at hs e4
  xstep
  rw [hf1_32] at hs
  have e5 := subW_specZ a4 b4 c4
  generalize subO a4 b4 c4 = o5 at hs
  generalize subW a4 b4 c4 = w5 at hs e5; generalize subC a4 b4 c4 = c5 at hs e5
  xstep
  rw [hf1_40] at hs
  have e6 := subW_specZ a5 b5 c5
  generalize subO a5 b5 c5 = o6 at hs
  generalize subW a5 b5 c5 = w6 at hs e6; generalize subC a5 b5 c5 = c6 at hs e6
  xstep
  xstep
  xstep
  xstep
  xstep
  xstep
  xstep
  rw [run_nil] at hs
  change ⟨ax, bx, cx, dx, f1, f0, w1, w2, w3, w4, w5, w6, r14, r15, s0, s1, s2, f0, f1, f2, c6, o6, (store6 mem f0 w1 w2 w3 w4 w5 w6)⟩ = s at hs
  refine ⟨w1, w2, w3, w4, w5, w6, c6, o6, hs.symm, ?_⟩
  linear_combination e1 + 2 ^ 64 * e2 + 2 ^ 128 * e3 + 2 ^ 192 * e4 + 2 ^ 256 * e5 + 2 ^ 320 * e6

/-- `double`. -/
theorem double_spec {ax bx cx dx si di r8 r9 r10 r11 r12 r13 r14 r15 s0 s1 s2 f0 f1 f2 : UInt64} {cf of : Bool} {mem : UInt64 → UInt64}
    {a0 a1 a2 a3 a4 a5 : UInt64}
    (hf1_0 : mem (f1 + 0) = a0)
    (hf1_8 : mem (f1 + 8) = a1)
    (hf1_16 : mem (f1 + 16) = a2)
    (hf1_24 : mem (f1 + 24) = a3)
    (hf1_32 : mem (f1 + 32) = a4)
    (hf1_40 : mem (f1 + 40) = a5) :
    ∃ bx' cx' dx' si' r8' r9' r10' r11' r12' r13' r14' r15' : UInt64, ∃ cf' of' : Bool,
      run double ⟨ax, bx, cx, dx, si, di, r8, r9, r10, r11, r12, r13, r14, r15, s0, s1, s2, f0, f1, f2, cf, of, mem⟩ =
      ⟨ax, bx', cx', dx', si', f0, r8', r9', r10', r11', r12', r13', r14', r15', s0, s1, s2, f0, f1, f2, cf', of', (store6 mem f0 r8' r9' r10' r11' r12' r13')⟩ ∧
      ∃ v k : ℤ, v + 2 ^ 384 * k = (z a0 + 2 ^ 64 * z a1 + 2 ^ 128 * z a2 + 2 ^ 192 * z a3 + 2 ^ 256 * z a4 + 2 ^ 320 * z a5) + (z a0 + 2 ^ 64 * z a1 + 2 ^ 128 * z a2 + 2 ^ 192 * z a3 + 2 ^ 256 * z a4 + 2 ^ 320 * z a5) ∧ 0 ≤ v ∧ v < 2 ^ 384 ∧
        ((v < 0x1a0111ea397fe69a4b1ba7b6434bacd764774b84f38512bf6730d2a0f6b0f6241eabfffeb153ffffb9feffffffffaaab ∧ z r8' + 2 ^ 64 * z r9' + 2 ^ 128 * z r10' + 2 ^ 192 * z r11' + 2 ^ 256 * z r12' + 2 ^ 320 * z r13' = v) ∨ z r8' + 2 ^ 64 * z r9' + 2 ^ 128 * z r10' + 2 ^ 192 * z r11' + 2 ^ 256 * z r12' + 2 ^ 320 * z r13' + 0x1a0111ea397fe69a4b1ba7b6434bacd764774b84f38512bf6730d2a0f6b0f6241eabfffeb153ffffb9feffffffffaaab = v) := by
  generalize hs : run double _ = s
  unfold double at hs
  xstep
  xstep
  rw [hf1_0] at hs
  xstep
  rw [hf1_8] at hs
  xstep
  rw [hf1_16] at hs
  xstep
  rw [hf1_24] at hs
  xstep
  rw [hf1_32] at hs
  xstep
  rw [hf1_40] at hs
  xstep
  have e1 := addW_specZ a0 a0 false
  simp only [zb_false, add_zero, zero_add] at e1
  generalize addO a0 a0 false = o1 at hs
  generalize addW a0 a0 false = w1 at hs e1; generalize addC a0 a0 false = c1 at hs e1
  xstep
  have e2 := addW_specZ a1 a1 c1
  generalize addO a1 a1 c1 = o2 at hs
  generalize addW a1 a1 c1 = w2 at hs e2; generalize addC a1 a1 c1 = c2 at hs e2
  xstep
  have e3 := addW_specZ a2 a2 c2
  generalize addO a2 a2 c2 = o3 at hs
  generalize addW a2 a2 c2 = w3 at hs e3; generalize addC a2 a2 c2 = c3 at hs e3
  xstep
  have e4 := addW_specZ a3 a3 c3
  generalize addO a3 a3 c3 = o4 at hs
  generalize addW a3 a3 c3 = w4 at hs e4; generalize addC a3 a3 c3 = c4 at hs e4
  xstep
  have e5 := addW_specZ a4 a4 c4
  generalize addO a4 a4 c4 = o5 at hs
  generalize addW a4 a4 c4 = w5 at hs e5; generalize addC a4 a4 c4 = c5 at hs e5
  xstep
  have e6 := addW_specZ a5 a5 c5
  generalize addO a5 a5 c5 = o6 at hs
  generalize addW a5 a5 c5 = w6 at hs e6; generalize addC a5 a5 c5 = c6 at hs e6
  xstep
  xstep
  xstep
  xstep
  xstep
  xstep
  xstep
  xstep
  have e7 := subW_specZ w1 (0xb9feffffffffaaab : UInt64) false
  simp only [zb_false, z_c0, add_zero, zero_add] at e7
  generalize subO w1 (0xb9feffffffffaaab : UInt64) false = o7 at hs
  generalize subW w1 (0xb9feffffffffaaab : UInt64) false = w7 at hs e7; generalize subC w1 (0xb9feffffffffaaab : UInt64) false = c7 at hs e7
  xstep
  xstep
  have e8 := subW_specZ w2 (0x1eabfffeb153ffff : UInt64) c7
  simp only [z_c1] at e8
  generalize subO w2 (0x1eabfffeb153ffff : UInt64) c7 = o8 at hs
  generalize subW w2 (0x1eabfffeb153ffff : UInt64) c7 = w8 at hs e8; generalize subC w2 (0x1eabfffeb153ffff : UInt64) c7 = c8 at hs e8
  xstep
  xstep
  have e9 := subW_specZ w3 (0x6730d2a0f6b0f624 : UInt64) c8
  simp only [z_c2] at e9
  generalize subO w3 (0x6730d2a0f6b0f624 : UInt64) c8 = o9 at hs
  generalize subW w3 (0x6730d2a0f6b0f624 : UInt64) c8 = w9 at hs e9; generalize subC w3 (0x6730d2a0f6b0f624 : UInt64) c8 = c9 at hs e9
  xstep
  xstep
  have e10 := subW_specZ w4 (0x64774b84f38512bf : UInt64) c9
  simp only [z_c3] at e10
  generalize subO w4 (0x64774b84f38512bf : UInt64) c9 = o10 at hs
  generalize subW w4 (0x64774b84f38512bf : UInt64) c9 = w10 at hs e10; generalize subC w4 (0x64774b84f38512bf : UInt64) c9 = c10 at hs e10
  xstep
  xstep
  have e11 := subW_specZ w5 (0x4b1ba7b6434bacd7 : UInt64) c10
  simp only [z_c4] at e11
  generalize subO w5 (0x4b1ba7b6434bacd7 : UInt64) c10 = o11 at hs
  generalize subW w5 (0x4b1ba7b6434bacd7 : UInt64) c10 = w11 at hs e11; generalize subC w5 (0x4b1ba7b6434bacd7 : UInt64) c10 = c11 at hs e11
  xstep
  xstep
  have e12 := subW_specZ w6 (0x1a0111ea397fe69a : UInt64) c11
  simp only [z_c5] at e12
  generalize subO w6 (0x1a0111ea397fe69a : UInt64) c11 = o12 at hs
  generalize subW w6 (0x1a0111ea397fe69a : UInt64) c11 = w12 at hs e12; generalize subC w6 (0x1a0111ea397fe69a : UInt64) c11 = c12 at hs e12
  cases c12
  · xstep
    xstep
    xstep
    xstep
    xstep
    xstep
    xstep
    xstep
    xstep
    xstep
    xstep
    xstep
    xstep
    rw [run_nil] at hs
    change ⟨ax, w12, w9, w10, w11, f0, w7, w8, w9, w10, w11, w12, w7, w8, s0, s1, s2, f0, f1, f2, false, o12, (store6 mem f0 w7 w8 w9 w10 w11 w12)⟩ = s at hs
    refine ⟨w12, w9, w10, w11, w7, w8, w9, w10, w11, w12, w7, w8, false, o12, hs.symm, ?_⟩
    refine ⟨z w1 + 2 ^ 64 * z w2 + 2 ^ 128 * z w3 + 2 ^ 192 * z w4 + 2 ^ 256 * z w5 + 2 ^ 320 * z w6, zb c6, ?_, ?_, ?_, ?_⟩
    · linear_combination 2 ^ 0 * e1 + 2 ^ 64 * e2 + 2 ^ 128 * e3 + 2 ^ 192 * e4 + 2 ^ 256 * e5 + 2 ^ 320 * e6
    · clear * -
      have := z_bnd w1
      have := z_bnd w2
      have := z_bnd w3
      have := z_bnd w4
      have := z_bnd w5
      have := z_bnd w6
      omega
    · clear * -
      have := z_bnd w1
      have := z_bnd w2
      have := z_bnd w3
      have := z_bnd w4
      have := z_bnd w5
      have := z_bnd w6
      omega
    · right
      simp only [zb_false] at e12
      linear_combination 2 ^ 0 * e7 + 2 ^ 64 * e8 + 2 ^ 128 * e9 + 2 ^ 192 * e10 + 2 ^ 256 * e11 + 2 ^ 320 * e12
  · xstep
    xstep
    xstep
    xstep
    xstep
    xstep
    xstep
    xstep
    xstep
    xstep
    xstep
    xstep
    xstep
    rw [run_nil] at hs
    change ⟨ax, w12, w9, w10, w11, f0, w1, w2, w3, w4, w5, w6, w7, w8, s0, s1, s2, f0, f1, f2, true, o12, (store6 mem f0 w1 w2 w3 w4 w5 w6)⟩ = s at hs
    refine ⟨w12, w9, w10, w11, w1, w2, w3, w4, w5, w6, w7, w8, true, o12, hs.symm, ?_⟩
    refine ⟨z w1 + 2 ^ 64 * z w2 + 2 ^ 128 * z w3 + 2 ^ 192 * z w4 + 2 ^ 256 * z w5 + 2 ^ 320 * z w6, zb c6, ?_, ?_, ?_, ?_⟩
    · linear_combination 2 ^ 0 * e1 + 2 ^ 64 * e2 + 2 ^ 128 * e3 + 2 ^ 192 * e4 + 2 ^ 256 * e5 + 2 ^ 320 * e6
    · clear * -
      have := z_bnd w1
      have := z_bnd w2
      have := z_bnd w3
      have := z_bnd w4
      have := z_bnd w5
      have := z_bnd w6
      omega
    · clear * -
      have := z_bnd w1
      have := z_bnd w2
      have := z_bnd w3
      have := z_bnd w4
      have := z_bnd w5
      have := z_bnd w6
      omega
    · left
      simp only [zb_true] at e12
      have key : z w7 + 2 ^ 64 * z w8 + 2 ^ 128 * z w9 + 2 ^ 192 * z w10 + 2 ^ 256 * z w11 + 2 ^ 320 * z w12 + 0x1a0111ea397fe69a4b1ba7b6434bacd764774b84f38512bf6730d2a0f6b0f6241eabfffeb153ffffb9feffffffffaaab = z w1 + 2 ^ 64 * z w2 + 2 ^ 128 * z w3 + 2 ^ 192 * z w4 + 2 ^ 256 * z w5 + 2 ^ 320 * z w6 + 2 ^ 384 := by
        linear_combination 2 ^ 0 * e7 + 2 ^ 64 * e8 + 2 ^ 128 * e9 + 2 ^ 192 * e10 + 2 ^ 256 * e11 + 2 ^ 320 * e12
      refine ⟨?_, rfl⟩
      clear * - key
      have := z_bnd w7
      have := z_bnd w8
      have := z_bnd w9
      have := z_bnd w10
      have := z_bnd w11
      have := z_bnd w12
      omega

/-- `doubleAssign`. -/
theorem doubleAssign_spec {ax bx cx dx si di r8 r9 r10 r11 r12 r13 r14 r15 s0 s1 s2 f0 f1 f2 : UInt64} {cf of : Bool} {mem : UInt64 → UInt64}
    {a0 a1 a2 a3 a4 a5 : UInt64}
    (hf0_0 : mem (f0 + 0) = a0)
    (hf0_8 : mem (f0 + 8) = a1)
    (hf0_16 : mem (f0 + 16) = a2)
    (hf0_24 : mem (f0 + 24) = a3)
    (hf0_32 : mem (f0 + 32) = a4)
    (hf0_40 : mem (f0 + 40) = a5) :
    ∃ bx' cx' dx' si' r8' r9' r10' r11' r12' r13' r14' r15' : UInt64, ∃ cf' of' : Bool,
      run doubleAssign ⟨ax, bx, cx, dx, si, di, r8, r9, r10, r11, r12, r13, r14, r15, s0, s1, s2, f0, f1, f2, cf, of, mem⟩ =
      ⟨(0x1a0111ea397fe69a : UInt64), bx', cx', dx', si', f0, r8', r9', r10', r11', r12', r13', r14', r15', s0, s1, s2, f0, f1, f2, cf', of', (store6 mem f0 r8' r9' r10' r11' r12' r13')⟩ ∧
      ∃ v k : ℤ, v + 2 ^ 384 * k = (z a0 + 2 ^ 64 * z a1 + 2 ^ 128 * z a2 + 2 ^ 192 * z a3 + 2 ^ 256 * z a4 + 2 ^ 320 * z a5) + (z a0 + 2 ^ 64 * z a1 + 2 ^ 128 * z a2 + 2 ^ 192 * z a3 + 2 ^ 256 * z a4 + 2 ^ 320 * z a5) ∧ 0 ≤ v ∧ v < 2 ^ 384 ∧
        ((v < 0x1a0111ea397fe69a4b1ba7b6434bacd764774b84f38512bf6730d2a0f6b0f6241eabfffeb153ffffb9feffffffffaaab ∧ z r8' + 2 ^ 64 * z r9' + 2 ^ 128 * z r10' + 2 ^ 192 * z r11' + 2 ^ 256 * z r12' + 2 ^ 320 * z r13' = v) ∨ z r8' + 2 ^ 64 * z r9' + 2 ^ 128 * z r10' + 2 ^ 192 * z r11' + 2 ^ 256 * z r12' + 2 ^ 320 * z r13' + 0x1a0111ea397fe69a4b1ba7b6434bacd764774b84f38512bf6730d2a0f6b0f6241eabfffeb153ffffb9feffffffffaaab = v) := by
  generalize hs : run doubleAssign _ = s
  unfold doubleAssign at hs
  xstep
  xstep
  rw [hf0_0] at hs
  xstep
  rw [hf0_8] at hs
  xstep
  rw [hf0_16] at hs
  xstep
  rw [hf0_24] at hs
  xstep
  rw [hf0_32] at hs
  xstep
  rw [hf0_40] at hs
  xstep
  have e1 := addW_specZ a0 a0 false
  simp only [zb_false, add_zero, zero_add] at e1
  generalize addO a0 a0 false = o1 at hs
  generalize addW a0 a0 false = w1 at hs e1; generalize addC a0 a0 false = c1 at hs e1
  xstep
  have e2 := addW_specZ a1 a1 c1
  generalize addO a1 a1 c1 = o2 at hs
  generalize addW a1 a1 c1 = w2 at hs e2; generalize addC a1 a1 c1 = c2 at hs e2
  xstep
  have e3 := addW_specZ a2 a2 c2
  generalize addO a2 a2 c2 = o3 at hs
  generalize addW a2 a2 c2 = w3 at hs e3; generalize addC a2 a2 c2 = c3 at hs e3
  xstep
  have e4 := addW_specZ a3 a3 c3
  generalize addO a3 a3 c3 = o4 at hs
  generalize addW a3 a3 c3 = w4 at hs e4; generalize addC a3 a3 c3 = c4 at hs e4
  xstep
  have e5 := addW_specZ a4 a4 c4
  generalize addO a4 a4 c4 = o5 at hs
  generalize addW a4 a4 c4 = w5 at hs e5; generalize addC a4 a4 c4 = c5 at hs e5
  xstep
  have e6 := addW_specZ a5 a5 c5
  generalize addO a5 a5 c5 = o6 at hs
  generalize addW a5 a5 c5 = w6 at hs e6; generalize addC a5 a5 c5 = c6 at hs e6
  xstep
  xstep
  xstep
  xstep
  xstep
  xstep
  xstep
  xstep
  have e7 := subW_specZ w1 (0xb9feffffffffaaab : UInt64) false
  simp only [zb_false, z_c0, add_zero, zero_add] at e7
  generalize subO w1 (0xb9feffffffffaaab : UInt64) false = o7 at hs
  generalize subW w1 (0xb9feffffffffaaab : UInt64) false = w7 at hs e7; generalize subC w1 (0xb9feffffffffaaab : UInt64) false = c7 at hs e7
  xstep
  xstep
  have e8 := subW_specZ w2 (0x1eabfffeb153ffff : UInt64) c7
  simp only [z_c1] at e8
  generalize subO w2 (0x1eabfffeb153ffff : UInt64) c7 = o8 at hs
  generalize subW w2 (0x1eabfffeb153ffff : UInt64) c7 = w8 at hs e8; generalize subC w2 (0x1eabfffeb153ffff : UInt64) c7 = c8 at hs e8
  xstep
  xstep
  have e9 := subW_specZ w3 (0x6730d2a0f6b0f624 : UInt64) c8
  simp only [z_c2] at e9
  generalize subO w3 (0x6730d2a0f6b0f624 : UInt64) c8 = o9 at hs
  generalize subW w3 (0x6730d2a0f6b0f624 : UInt64) c8 = w9 at hs e9; generalize subC w3 (0x6730d2a0f6b0f624 : UInt64) c8 = c9 at hs e9
  xstep
  xstep
  have e10 := subW_specZ w4 (0x64774b84f38512bf : UInt64) c9
  simp only [z_c3] at e10
  generalize subO w4 (0x64774b84f38512bf : UInt64) c9 = o10 at hs
  generalize subW w4 (0x64774b84f38512bf : UInt64) c9 = w10 at hs e10; generalize subC w4 (0x64774b84f38512bf : UInt64) c9 = c10 at hs e10
  xstep
  xstep
  have e11 := subW_specZ w5 (0x4b1ba7b6434bacd7 : UInt64) c10
  simp only [z_c4] at e11
  generalize subO w5 (0x4b1ba7b6434bacd7 : UInt64) c10 = o11 at hs
  generalize subW w5 (0x4b1ba7b6434bacd7 : UInt64) c10 = w11 at hs e11; generalize subC w5 (0x4b1ba7b6434bacd7 : UInt64) c10 = c11 at hs e11
  xstep
  xstep
  have e12 := subW_specZ w6 (0x1a0111ea397fe69a : UInt64) c11
  simp only [z_c5] at e12
  generalize subO w6 (0x1a0111ea397fe69a : UInt64) c11 = o12 at hs
  generalize subW w6 (0x1a0111ea397fe69a : UInt64) c11 = w12 at hs e12; generalize subC w6 (0x1a0111ea397fe69a : UInt64) c11 = c12 at hs e12
  cases c12
  · xstep
    xstep
    xstep
    xstep
    xstep
    xstep
    xstep
    xstep
    xstep
    xstep
    xstep
    xstep
    rw [run_nil] at hs
    change ⟨(0x1a0111ea397fe69a : UInt64), w12, w9, w10, w11, f0, w7, w8, w9, w10, w11, w12, w7, w8, s0, s1, s2, f0, f1, f2, false, o12, (store6 mem f0 w7 w8 w9 w10 w11 w12)⟩ = s at hs
    refine ⟨w12, w9, w10, w11, w7, w8, w9, w10, w11, w12, w7, w8, false, o12, hs.symm, ?_⟩
    refine ⟨z w1 + 2 ^ 64 * z w2 + 2 ^ 128 * z w3 + 2 ^ 192 * z w4 + 2 ^ 256 * z w5 + 2 ^ 320 * z w6, zb c6, ?_, ?_, ?_, ?_⟩
    · linear_combination 2 ^ 0 * e1 + 2 ^ 64 * e2 + 2 ^ 128 * e3 + 2 ^ 192 * e4 + 2 ^ 256 * e5 + 2 ^ 320 * e6
    · clear * -
      have := z_bnd w1
      have := z_bnd w2
      have := z_bnd w3
      have := z_bnd w4
      have := z_bnd w5
      have := z_bnd w6
      omega
    · clear * -
      have := z_bnd w1
      have := z_bnd w2
      have := z_bnd w3
      have := z_bnd w4
      have := z_bnd w5
      have := z_bnd w6
      omega
    · right
      simp only [zb_false] at e12
      linear_combination 2 ^ 0 * e7 + 2 ^ 64 * e8 + 2 ^ 128 * e9 + 2 ^ 192 * e10 + 2 ^ 256 * e11 + 2 ^ 320 * e12
  · xstep
    xstep
    xstep
    xstep
    xstep
    xstep
    xstep
    xstep
    xstep
    xstep
    xstep
    xstep
    rw [run_nil] at hs
    change ⟨(0x1a0111ea397fe69a : UInt64), w12, w9, w10, w11, f0, w1, w2, w3, w4, w5, w6, w7, w8, s0, s1, s2, f0, f1, f2, true, o12, (store6 mem f0 w1 w2 w3 w4 w5 w6)⟩ = s at hs
    refine ⟨w12, w9, w10, w11, w1, w2, w3, w4, w5, w6, w7, w8, true, o12, hs.symm, ?_⟩
    refine ⟨z w1 + 2 ^ 64 * z w2 + 2 ^ 128 * z w3 + 2 ^ 192 * z w4 + 2 ^ 256 * z w5 + 2 ^ 320 * z w6, zb c6, ?_, ?_, ?_, ?_⟩
    · linear_combination 2 ^ 0 * e1 + 2 ^ 64 * e2 + 2 ^ 128 * e3 + 2 ^ 192 * e4 + 2 ^ 256 * e5 + 2 ^ 320 * e6
    · clear * -
      have := z_bnd w1
      have := z_bnd w2
      have := z_bnd w3
      have := z_bnd w4
      have := z_bnd w5
      have := z_bnd w6
      omega
    · clear * -
      have := z_bnd w1
      have := z_bnd w2
      have := z_bnd w3
      have := z_bnd w4
      have := z_bnd w5
      have := z_bnd w6
      omega
    · left
      simp only [zb_true] at e12
      have key : z w7 + 2 ^ 64 * z w8 + 2 ^ 128 * z w9 + 2 ^ 192 * z w10 + 2 ^ 256 * z w11 + 2 ^ 320 * z w12 + 0x1a0111ea397fe69a4b1ba7b6434bacd764774b84f38512bf6730d2a0f6b0f6241eabfffeb153ffffb9feffffffffaaab = z w1 + 2 ^ 64 * z w2 + 2 ^ 128 * z w3 + 2 ^ 192 * z w4 + 2 ^ 256 * z w5 + 2 ^ 320 * z w6 + 2 ^ 384 := by
        linear_combination 2 ^ 0 * e7 + 2 ^ 64 * e8 + 2 ^ 128 * e9 + 2 ^ 192 * e10 + 2 ^ 256 * e11 + 2 ^ 320 * e12
      refine ⟨?_, rfl⟩
      clear * - key
      have := z_bnd w7
      have := z_bnd w8
      have := z_bnd w9
      have := z_bnd w10
      have := z_bnd w11
      have := z_bnd w12
      omega

/-- `ldouble`. -/
theorem ldouble_spec {ax bx cx dx si di r8 r9 r10 r11 r12 r13 r14 r15 s0 s1 s2 f0 f1 f2 : UInt64} {cf of : Bool} {mem : UInt64 → UInt64}
    {a0 a1 a2 a3 a4 a5 : UInt64}
    (hf1_0 : mem (f1 + 0) = a0)
    (hf1_8 : mem (f1 + 8) = a1)
    (hf1_16 : mem (f1 + 16) = a2)
    (hf1_24 : mem (f1 + 24) = a3)
    (hf1_32 : mem (f1 + 32) = a4)
    (hf1_40 : mem (f1 + 40) = a5) :
    ∃ r8' r9' r10' r11' r12' r13' : UInt64, ∃ cf' of' : Bool,
      run ldouble ⟨ax, bx, cx, dx, si, di, r8, r9, r10, r11, r12, r13, r14, r15, s0, s1, s2, f0, f1, f2, cf, of, mem⟩ =
      ⟨ax, bx, cx, dx, si, f0, r8', r9', r10', r11', r12', r13', r14, r15, s0, s1, s2, f0, f1, f2, cf', of', (store6 mem f0 r8' r9' r10' r11' r12' r13')⟩ ∧
      z r8' + 2 ^ 64 * z r9' + 2 ^ 128 * z r10' + 2 ^ 192 * z r11' + 2 ^ 256 * z r12' + 2 ^ 320 * z r13' + 2 ^ 384 * zb cf' =
        (z a0 + 2 ^ 64 * z a1 + 2 ^ 128 * z a2 + 2 ^ 192 * z a3 + 2 ^ 256 * z a4 + 2 ^ 320 * z a5) + (z a0 + 2 ^ 64 * z a1 + 2 ^ 128 * z a2 + 2 ^ 192 * z a3 + 2 ^ 256 * z a4 + 2 ^ 320 * z a5) := by
  generalize hs : run ldouble _ = s
  unfold ldouble at hs
  xstep
  xstep
  rw [hf1_0] at hs
  xstep
  rw [hf1_8] at hs
  xstep
  rw [hf1_16] at hs
  xstep
  rw [hf1_24] at hs
  xstep
  rw [hf1_32] at hs
  xstep
  rw [hf1_40] at hs
  xstep
  have e1 := addW_specZ a0 a0 false
  simp only [zb_false, add_zero, zero_add] at e1
  generalize addO a0 a0 false = o1 at hs
  generalize addW a0 a0 false = w1 at hs e1; generalize addC a0 a0 false = c1 at hs e1
  xstep
  have e2 := addW_specZ a1 a1 c1
  generalize addO a1 a1 c1 = o2 at hs
  generalize addW a1 a1 c1 = w2 at hs e2; generalize addC a1 a1 c1 = c2 at hs e2
  xstep
  have e3 := addW_specZ a2 a2 c2
  generalize addO a2 a2 c2 = o3 at hs
  generalize addW a2 a2 c2 = w3 at hs e3; generalize addC a2 a2 c2 = c3 at hs e3
  xstep
  have e4 := addW_specZ a3 a3 c3
  generalize addO a3 a3 c3 = o4 at hs
  generalize addW a3 a3 c3 = w4 at hs e4; generalize addC a3 a3 c3 = c4 at hs e4
  xstep
  have e5 := addW_specZ a4 a4 c4
  generalize addO a4 a4 c4 = o5 at hs
  generalize addW a4 a4 c4 = w5 at hs e5; generalize addC a4 a4 c4 = c5 at hs e5
  xstep
  have e6 := addW_specZ a5 a5 c5
  generalize addO a5 a5 c5 = o6 at hs
  generalize addW a5 a5 c5 = w6 at hs e6; generalize addC a5 a5 c5 = c6 at hs e6
  xstep
  xstep
  xstep
  xstep
  xstep
  xstep
  xstep
  rw [run_nil] at hs
  change ⟨ax, bx, cx, dx, si, f0, w1, w2, w3, w4, w5, w6, r14, r15, s0, s1, s2, f0, f1, f2, c6, o6, (store6 mem f0 w1 w2 w3 w4 w5 w6)⟩ = s at hs
  refine ⟨w1, w2, w3, w4, w5, w6, c6, o6, hs.symm, ?_⟩
  linear_combination e1 + 2 ^ 64 * e2 + 2 ^ 128 * e3 + 2 ^ 192 * e4 + 2 ^ 256 * e5 + 2 ^ 320 * e6

/-- `_neg`. -/
theorem neg_spec {ax bx cx dx si di r8 r9 r10 r11 r12 r13 r14 r15 s0 s1 s2 f0 f1 f2 : UInt64} {cf of : Bool} {mem : UInt64 → UInt64}
    {a0 a1 a2 a3 a4 a5 : UInt64}
    (hf1_0 : mem (f1 + 0) = a0)
    (hf1_8 : mem (f1 + 8) = a1)
    (hf1_16 : mem (f1 + 16) = a2)
    (hf1_24 : mem (f1 + 24) = a3)
    (hf1_32 : mem (f1 + 32) = a4)
    (hf1_40 : mem (f1 + 40) = a5) :
    ∃ r8' r9' r10' r11' r12' r13' : UInt64, ∃ cf' of' : Bool,
      run neg ⟨ax, bx, cx, dx, si, di, r8, r9, r10, r11, r12, r13, r14, r15, s0, s1, s2, f0, f1, f2, cf, of, mem⟩ =
      ⟨ax, bx, cx, dx, si, f0, r8', r9', r10', r11', r12', r13', r14, r15, s0, s1, s2, f0, f1, f2, cf', of', (store6 mem f0 r8' r9' r10' r11' r12' r13')⟩ ∧
      z r8' + 2 ^ 64 * z r9' + 2 ^ 128 * z r10' + 2 ^ 192 * z r11' + 2 ^ 256 * z r12' + 2 ^ 320 * z r13' + (z a0 + 2 ^ 64 * z a1 + 2 ^ 128 * z a2 + 2 ^ 192 * z a3 + 2 ^ 256 * z a4 + 2 ^ 320 * z a5) =
        0x1a0111ea397fe69a4b1ba7b6434bacd764774b84f38512bf6730d2a0f6b0f6241eabfffeb153ffffb9feffffffffaaab + 2 ^ 384 * zb cf' := by
  generalize hs : run neg _ = s
  unfold neg at hs
  xstep
  xstep
  xstep
  xstep
  xstep
  xstep
  xstep
  xstep
  rw [hf1_0] at hs
  have e1 := subW_specZ (0xb9feffffffffaaab : UInt64) a0 false
  simp only [zb_false, z_c0, add_zero, zero_add] at e1
  generalize subO (0xb9feffffffffaaab : UInt64) a0 false = o1 at hs
  generalize subW (0xb9feffffffffaaab : UInt64) a0 false = w1 at hs e1; generalize subC (0xb9feffffffffaaab : UInt64) a0 false = c1 at hs e1
  xstep
  rw [hf1_8] at hs
  have e2 := subW_specZ (0x1eabfffeb153ffff : UInt64) a1 c1
  simp only [z_c1] at e2
  generalize subO (0x1eabfffeb153ffff : UInt64) a1 c1 = o2 at hs
  generalize subW (0x1eabfffeb153ffff : UInt64) a1 c1 = w2 at hs e2; generalize subC (0x1eabfffeb153ffff : UInt64) a1 c1 = c2 at hs e2
  xstep
  rw [hf1_16] at hs
  have e3 := subW_specZ (0x6730d2a0f6b0f624 : UInt64) a2 c2
  simp only [z_c2] at e3
  generalize subO (0x6730d2a0f6b0f624 : UInt64) a2 c2 = o3 at hs
  generalize subW (0x6730d2a0f6b0f624 : UInt64) a2 c2 = w3 at hs e3; generalize subC (0x6730d2a0f6b0f624 : UInt64) a2 c2 = c3 at hs e3
  xstep
  rw [hf1_24] at hs
  have e4 := subW_specZ (0x64774b84f38512bf : UInt64) a3 c3
  simp only [z_c3] at e4
  generalize subO (0x64774b84f38512bf : UInt64) a3 c3 = o4 at hs
  generalize subW (0x64774b84f38512bf : UInt64) a3 c3 = w4 at hs e4; generalize subC (0x64774b84f38512bf : UInt64) a3 c3 = c4 at hs e4
  xstep
  rw [hf1_32] at hs
  have e5 := subW_specZ (0x4b1ba7b6434bacd7 : UInt64) a4 c4
  simp only [z_c4] at e5
  generalize subO (0x4b1ba7b6434bacd7 : UInt64) a4 c4 = o5 at hs
  generalize subW (0x4b1ba7b6434bacd7 : UInt64) a4 c4 = w5 at hs e5; generalize subC (0x4b1ba7b6434bacd7 : UInt64) a4 c4 = c5 at hs e5
  xstep
  rw [hf1_40] at hs
  have e6 := subW_specZ (0x1a0111ea397fe69a : UInt64) a5 c5
  simp only [z_c5] at e6
  generalize subO (0x1a0111ea397fe69a : UInt64) a5 c5 = o6 at hs
  generalize subW (0x1a0111ea397fe69a : UInt64) a5 c5 = w6 at hs e6; generalize subC (0x1a0111ea397fe69a : UInt64) a5 c5 = c6 at hs e6
  xstep
  xstep
  xstep
  xstep
  xstep
  xstep
  xstep
  rw [run_nil] at hs
  change ⟨ax, bx, cx, dx, si, f0, w1, w2, w3, w4, w5, w6, r14, r15, s0, s1, s2, f0, f1, f2, c6, o6, (store6 mem f0 w1 w2 w3 w4 w5 w6)⟩ = s at hs
  refine ⟨w1, w2, w3, w4, w5, w6, c6, o6, hs.symm, ?_⟩
  linear_combination e1 + 2 ^ 64 * e2 + 2 ^ 128 * e3 + 2 ^ 192 * e4 + 2 ^ 256 * e5 + 2 ^ 320 * e6

end Verif.X86
