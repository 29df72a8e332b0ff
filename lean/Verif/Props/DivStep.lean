import Verif.Pasta.DivStep
import Verif.Pasta.DivStepSpec
import Verif.Props.Pasta

/-!
# C112: the division steps of pasta_fp.go and pasta_fq.go
-/

set_option exponentiation.threshold 512

namespace Verif.Props
open Verif.Pasta Verif.Pasta.DivStepSpec

/-- C112: for an odd second argument, numbers of at most 318 bits and a counter away from the ends of its range, the words computed by
`DivStep` are those of one division step, in both fields; the last two are canonical Montgomery words. -/
theorem C112_step (M : Md) (m : ℕ) (hM : IsField M m) (d : UInt64) (f g : W5) (v r : Limbs) (x y : ZMod m)
    (hv : IsMont m v x) (hr : IsMont m r y) (hd : - 2 ^ 63 < s64 d ∧ s64 d < 2 ^ 63 - 1) (hf : f.tc % 2 = 1)
    (hfr : - 2 ^ 318 ≤ f.tc ∧ f.tc < 2 ^ 318) (hgr : - 2 ^ 318 ≤ g.tc ∧ g.tc < 2 ^ 318) :
    s64 (divStepLocal M d f g v r).o1 = (step (⟨s64 d, f.tc, g.tc, x, y⟩ : St m)).δ ∧
    (divStepLocal M d f g v r).o2.tc = (step (⟨s64 d, f.tc, g.tc, x, y⟩ : St m)).f ∧
    (divStepLocal M d f g v r).o3.tc = (step (⟨s64 d, f.tc, g.tc, x, y⟩ : St m)).g ∧
    IsMont m (divStepLocal M d f g v r).o4 (step (⟨s64 d, f.tc, g.tc, x, y⟩ : St m)).v ∧
    IsMont m (divStepLocal M d f g v r).o5 (step (⟨s64 d, f.tc, g.tc, x, y⟩ : St m)).r := by
  obtain ⟨h1, h2⟩ := divStep_ints M d f g v r hd hf hfr hgr
  have hm0 : 0 < m := (isField_prime hM).out.pos
  unfold step
  dsimp only
  by_cases h : 0 < s64 d ∧ g.tc % 2 = 1
  · obtain ⟨-, a1, a2, a3, a4, a5⟩ := h1 h
    rw [if_pos h, a1, a2, a3, a4, a5]
    refine ⟨rfl, rfl, rfl, ?_, ?_⟩
    · have := (C54_ring M m hM r r y y hr hr).1
      rwa [← two_mul] at this
    · have := (C54_ring M m hM _ r _ y (C54_ring M m hM v v x x hv hv).2.2.1 hr).1
      rwa [neg_add_eq_sub] at this
  · obtain ⟨-, a1, a2, a3, a4, a5⟩ := h2 h
    rw [if_neg h, a1, a2, a3, a4, a5]
    refine ⟨rfl, rfl, rfl, ?_, ?_⟩
    · have := (C54_ring M m hM v v x x hv hv).1
      rwa [← two_mul] at this
    · by_cases hg : g.tc % 2 = 1
      · rw [if_pos hg, hg]
        show IsMont m _ (y + ((1 : ℤ) : ZMod m) * x)
        rw [Int.cast_one, one_mul]
        exact (C54_ring M m hM r v y x hr hv).1
      · rw [if_neg hg, show g.tc % 2 = 0 by omega]
        show IsMont m _ (y + ((0 : ℤ) : ZMod m) * x)
        rw [Int.cast_zero, zero_mul]
        have hz : IsMont m (⟨0, 0, 0, 0⟩ : Limbs) 0 := ⟨hm0, by rw [zero_mul]; exact Nat.cast_zero⟩
        exact (C54_ring M m hM r _ y 0 hr hz).1

/-- numbers meet the hypotheses: the step `(1, 7, 5)` gives `(0, 5, -1)`. -/
example : s64 1 = 1 ∧ (⟨⟨7, 0, 0, 0⟩, 0⟩ : W5).tc = 7 ∧ (⟨⟨5, 0, 0, 0⟩, 0⟩ : W5).tc = 5 ∧
    s64 (divStepLocal Fp 1 ⟨⟨7, 0, 0, 0⟩, 0⟩ ⟨⟨5, 0, 0, 0⟩, 0⟩ ⟨0, 0, 0, 0⟩ Fp.one).o1 = 0 ∧
    (divStepLocal Fp 1 ⟨⟨7, 0, 0, 0⟩, 0⟩ ⟨⟨5, 0, 0, 0⟩, 0⟩ ⟨0, 0, 0, 0⟩ Fp.one).o2.tc = 5 ∧
    (divStepLocal Fp 1 ⟨⟨7, 0, 0, 0⟩, 0⟩ ⟨⟨5, 0, 0, 0⟩, 0⟩ ⟨0, 0, 0, 0⟩ Fp.one).o3.tc = -1 := by decide +kernel

/-! ## the steps together -/

/-- the loop the steps are for: from `(1, m, a, 0, 1)`, every step on the results of the one before. -/
def divSteps (M : Md) (g : W5) : ℕ → DivOut
  | 0 => ⟨1, ⟨⟨M.m0, M.m1, 0, M.m3⟩, 0⟩, g, ⟨0, 0, 0, 0⟩, M.one⟩
  | n + 1 => let s := divSteps M g n; divStepLocal M s.o1 s.o2 s.o3 s.o4 s.o5

/-- what holds after `n` steps from `(1, m, a, 0, 1)`. -/
structure StInv (m a n : ℕ) (s : St m) : Prop where
  δ : - (n + 1 : ℤ) ≤ s.δ ∧ s.δ ≤ n + 1
  odd : s.f % 2 = 1
  f : - (m : ℤ) ≤ s.f ∧ s.f ≤ m
  g : - (m : ℤ) ≤ s.g ∧ s.g ≤ m
  cop : IsCoprime s.f s.g
  v : (a : ZMod m) * s.v = 2 ^ n * (s.f : ZMod m)
  r : (a : ZMod m) * s.r = 2 ^ n * (s.g : ZMod m)

theorem stInv_step {m a n : ℕ} {s : St m} (h : StInv m a n s) : StInv m a (n + 1) (step s) := by
  obtain ⟨hδ, ho, hf, hg, hc, hv, hr⟩ := h
  unfold DivStepSpec.step
  split
  · rename_i hs
    have h2 : s.g - s.f = 2 * ((s.g - s.f) / 2) := by omega
    refine ⟨by dsimp only; push_cast; omega, hs.2, hg, by dsimp only; omega, ?_, ?_, ?_⟩
    · have h1 : IsCoprime s.g (s.g - s.f) := by
        have : IsCoprime s.g (-s.f + 1 * s.g) := (hc.symm.neg_right).add_mul_right_right 1
        rwa [one_mul, neg_add_eq_sub] at this
      rw [h2] at h1
      exact h1.of_mul_right_right
    · show (a : ZMod m) * (2 * s.r) = 2 ^ (n + 1) * (s.g : ZMod m)
      linear_combination 2 * hr
    · show (a : ZMod m) * (s.r - s.v) = 2 ^ (n + 1) * (((s.g - s.f) / 2 : ℤ) : ZMod m)
      have h3 : (s.g : ZMod m) - s.f = 2 * (((s.g - s.f) / 2 : ℤ) : ZMod m) := by
        rw [← Int.cast_sub]; conv_lhs => rw [h2]
        push_cast; rfl
      linear_combination hr - hv + 2 ^ n * h3
  · have h0 : s.g % 2 = 0 ∨ s.g % 2 = 1 := by omega
    obtain ⟨k, hk⟩ : ∃ k, s.g % 2 = k := ⟨_, rfl⟩
    rw [hk] at h0 ⊢
    have h2 : s.g + k * s.f = 2 * ((s.g + k * s.f) / 2) := by rcases h0 with rfl | rfl <;> omega
    refine ⟨by dsimp only; push_cast; omega, ho, hf, ?_, ?_, ?_, ?_⟩
    · dsimp only; rcases h0 with rfl | rfl <;> omega
    · have h1 : IsCoprime s.f (s.g + k * s.f) := hc.add_mul_right_right k
      rw [h2] at h1
      exact h1.of_mul_right_right
    · show (a : ZMod m) * (2 * s.v) = 2 ^ (n + 1) * (s.f : ZMod m)
      linear_combination 2 * hv
    · show (a : ZMod m) * (s.r + k * s.v) = 2 ^ (n + 1) * (((s.g + k * s.f) / 2 : ℤ) : ZMod m)
      have h3 : (s.g : ZMod m) + k * s.f = 2 * (((s.g + k * s.f) / 2 : ℤ) : ZMod m) := by
        rw [← Int.cast_mul, ← Int.cast_add]; conv_lhs => rw [h2]
        push_cast; rfl
      linear_combination hr + k * hv + 2 ^ n * h3

theorem stInv_init {m a : ℕ} (hm : m % 2 = 1) (ha : a < m) (hc : IsCoprime (m : ℤ) a) : StInv m a 0 (init m a) := by
  refine ⟨by simp [DivStepSpec.init], by simp only [DivStepSpec.init]; omega, by simp only [DivStepSpec.init]; omega,
    by simp only [DivStepSpec.init]; omega, hc, ?_, ?_⟩
  · simp [DivStepSpec.init]
  · simp [DivStepSpec.init]

theorem stInv_steps {m a : ℕ} (hm : m % 2 = 1) (ha : a < m) (hc : IsCoprime (m : ℤ) a) (n : ℕ) : StInv m a n (steps n (init m a)) := by
  induction n with
  | zero => exact stInv_init hm ha hc
  | succ n ih => exact stInv_step ih

theorem isField_facts {M : Md} {m : ℕ} (hM : IsField M m) : m % 2 = 1 ∧ m < 2 ^ 255 ∧ (⟨⟨M.m0, M.m1, 0, M.m3⟩, 0⟩ : W5).tc = m ∧
    IsMont m M.one 1 := by
  rcases hM with ⟨rfl, rfl⟩ | ⟨rfl, rfl⟩
  · refine ⟨by decide, by decide, by decide +kernel, by decide +kernel, ?_⟩
    rw [one_mul, FpM.ok.one, FpM.m]
    exact (ZMod.natCast_mod (2 ^ 256) c.p).trans (Nat.cast_pow _ _)
  · refine ⟨by decide, by decide, by decide +kernel, by decide +kernel, ?_⟩
    rw [one_mul, FqM.ok.one, FqM.m]
    exact (ZMod.natCast_mod (2 ^ 256) c.n).trans (Nat.cast_pow _ _)

theorem isField_coprime {M : Md} {m a : ℕ} (hM : IsField M m) (h0 : 0 < a) (ha : a < m) : IsCoprime (m : ℤ) a := by
  have hp := (isField_prime hM).out
  rw [Nat.isCoprime_iff_coprime]
  exact (Nat.Prime.coprime_iff_not_dvd hp).mpr (fun h => absurd (Nat.le_of_dvd h0 h) (by omega))

/-- C112: the loop follows the specification for as long as the counter cannot overflow (2^62 steps; the inversion takes 738). -/
theorem C112_loop (M : Md) (m : ℕ) (hM : IsField M m) (g : W5) (a : ℕ) (hg : g.tc = a) (h0 : 0 < a) (ha : a < m) (n : ℕ) (hn : n ≤ 2 ^ 62) :
    s64 (divSteps M g n).o1 = (steps n (init m a)).δ ∧ (divSteps M g n).o2.tc = (steps n (init m a)).f ∧
    (divSteps M g n).o3.tc = (steps n (init m a)).g ∧ IsMont m (divSteps M g n).o4 (steps n (init m a)).v ∧
    IsMont m (divSteps M g n).o5 (steps n (init m a)).r := by
  obtain ⟨hodd, hlt, hW, hone⟩ := isField_facts hM
  have hm0 : 0 < m := (isField_prime hM).out.pos
  induction n with
  | zero => exact ⟨by show s64 1 = 1; decide, hW, hg, ⟨hm0, by show ((0 : ℕ) : ZMod m) = 0 * _; rw [zero_mul, Nat.cast_zero]⟩, hone⟩
  | succ n ih =>
    obtain ⟨e1, e2, e3, e4, e5⟩ := ih (by omega)
    have I := stInv_steps hodd ha (isField_coprime hM h0 ha) n
    have hI1 := I.δ; have hI2 := I.odd; have hI3 := I.f; have hI4 := I.g
    have := C112_step M m hM (divSteps M g n).o1 (divSteps M g n).o2 (divSteps M g n).o3 (divSteps M g n).o4 (divSteps M g n).o5
      (steps n (init m a)).v (steps n (init m a)).r e4 e5 (by rw [e1]; omega) (by rw [e2]; exact hI2) (by rw [e2]; omega) (by rw [e3]; omega)
    rw [e1, e2, e3] at this
    exact this

/-- the number of steps in the comment at pasta_fp.go:1471. -/
def divIterations (m : ℕ) : ℕ :=
  if Nat.log2 m + 1 < 46 then (49 * (Nat.log2 m + 1) + 80) / 17 else (49 * (Nat.log2 m + 1) + 57) / 17

theorem precomp_aux {m b e k w : ℕ} (h1 : powMod b e m = k) (h2 : k * 2 ^ 256 % m = w) : (w : ZMod m) = (b : ZMod m) ^ e * 2 ^ 256 := by
  rw [← h2, ZMod.natCast_mod, ← h1, Nat.cast_mul, powMod_cast, Nat.cast_pow, Nat.cast_ofNat]

/-- C112: the words of `DivStepPreComp` are the documented power of `(m - 1)/2` in Montgomery form. -/
theorem C112_precomp :
    IsMont c.p fpPreComp (((c.p - 1) / 2 : ℕ) ^ divIterations c.p) ∧ IsMont c.n fqPreComp (((c.n - 1) / 2 : ℕ) ^ divIterations c.n) ∧
      divIterations c.p = 738 ∧ divIterations c.n = 738 := by
  refine ⟨⟨by decide +kernel, precomp_aux rfl (by decide +kernel)⟩, ⟨by decide +kernel, precomp_aux rfl (by decide +kernel)⟩,
    by decide +kernel, by decide +kernel⟩

/-- the precomputed words of each field. -/
def IsPreComp (M : Md) (w : Limbs) : Prop := (M = Fp ∧ w = fpPreComp) ∨ (M = Fq ∧ w = fqPreComp)

theorem Fp_ne_Fq : Fp ≠ Fq := fun h => absurd (congrArg Md.m0 h) (by decide)

theorem preComp_mont {M : Md} {m : ℕ} (hM : IsField M m) {w : Limbs} (hw : IsPreComp M w) :
    IsMont m w (((m - 1) / 2 : ℕ) ^ 738) := by
  obtain ⟨h1, h2, h3, h4⟩ := C112_precomp
  rw [h3] at h1
  rw [h4] at h2
  rcases hM with ⟨rfl, rfl⟩ | ⟨rfl, rfl⟩
  · rcases hw with ⟨-, rfl⟩ | ⟨h, -⟩
    · exact h1
    · exact absurd h Fp_ne_Fq
  · rcases hw with ⟨h, -⟩ | ⟨-, rfl⟩
    · exact absurd h.symm Fp_ne_Fq
    · exact h2

/-- C112, the use of the steps as far as it is proved: whenever the 738 steps have brought the third number to 0, the second is 1 or -1 and
the fourth result, with that sign and multiplied by the precomputed words, is the inverse of `a` in Montgomery form.  Missing: that 738
steps always suffice (theorem 11.2 of Bernstein and Yang). -/
theorem C112_inverse_partial (M : Md) (m : ℕ) (hM : IsField M m) (w : Limbs) (hw : IsPreComp M w) (g : W5) (a : ℕ) (hg : g.tc = a)
    (h0 : 0 < a) (ha : a < m) (hz : (divSteps M g 738).o3.tc = 0) :
    ((divSteps M g 738).o2.tc = 1 ∧ IsMont m (mul M w (divSteps M g 738).o4) (a : ZMod m)⁻¹) ∨
    ((divSteps M g 738).o2.tc = -1 ∧ IsMont m (mul M w (opp M (divSteps M g 738).o4)) (a : ZMod m)⁻¹) := by
  obtain ⟨hodd, -, -, -⟩ := isField_facts hM
  have hp := isField_prime hM
  obtain ⟨e1, e2, e3, e4, e5⟩ := C112_loop M m hM g a hg h0 ha 738 (by decide)
  have I := stInv_steps hodd ha (isField_coprime hM h0 ha) 738
  have hW := preComp_mont hM hw
  rw [e3] at hz
  have hcop := I.cop
  rw [hz, isCoprime_zero_right, Int.isUnit_iff] at hcop
  have hv := I.v
  have hhalf : (2 : ZMod m) * (((m - 1) / 2 : ℕ) : ZMod m) = -1 := by
    have : 2 * ((m - 1) / 2) + 1 = m := by omega
    have h2 := congrArg (Nat.cast : ℕ → ZMod m) this
    rw [ZMod.natCast_self] at h2
    push_cast at h2
    exact eq_neg_of_add_eq_zero_left h2
  have hpow : (((m - 1) / 2 : ℕ) : ZMod m) ^ 738 * 2 ^ 738 = 1 := by
    rw [← mul_pow, mul_comm, hhalf, Even.neg_one_pow (by decide)]
  have hinv : ∀ x : ZMod m, (a : ZMod m) * x = 2 ^ 738 → (((m - 1) / 2 : ℕ) : ZMod m) ^ 738 * x = (a : ZMod m)⁻¹ := by
    intro x hx
    refine eq_inv_of_mul_eq_one_left ?_
    rw [mul_assoc, mul_comm x, hx, hpow]
  rcases hcop with h | h
  · refine .inl ⟨by rw [e2, h], ?_⟩
    rw [h, Int.cast_one, mul_one] at hv
    rw [← hinv _ hv]
    exact (C54_ring M m hM w _ _ _ hW e4).2.2.2.1
  · refine .inr ⟨by rw [e2, h], ?_⟩
    rw [h, Int.cast_neg, Int.cast_one, mul_neg, mul_one] at hv
    have hv' : (a : ZMod m) * -(steps 738 (init m a)).v = 2 ^ 738 := by rw [mul_neg, hv, neg_neg]
    rw [← hinv _ hv']
    exact (C54_ring M m hM w _ _ _ hW (C54_ring M m hM _ _ _ _ e4 e4).2.2.1).2.2.2.1

/-- the loop does reach 0 on concrete numbers of both fields, of different sizes. -/
example : (divSteps Fp ⟨⟨3, 0, 0, 0⟩, 0⟩ 738).o3.tc = 0 ∧
    (divSteps Fp ⟨⟨0x0123456789abcdef, 0xfedcba9876543210, 0x5555555555555555, 0x3fffffffffffffff⟩, 0⟩ 738).o3.tc = 0 ∧
    (divSteps Fq ⟨⟨0x0123456789abcdef, 0xfedcba9876543210, 0x5555555555555555, 0x3fffffffffffffff⟩, 0⟩ 738).o3.tc = 0 := by
  decide +kernel

/-! ## what is false -/

/-- C112 is false: of the five results only the counter reaches the caller, the four arrays and the array of `DivStepPreComp` are
passed by value. -/
theorem C112_false : (∀ M old d f g v r, (divStepCall M old d f g v r).o2 = old.o2 ∧ (divStepCall M old d f g v r).o3 = old.o3 ∧
      (divStepCall M old d f g v r).o4 = old.o4 ∧ (divStepCall M old d f g v r).o5 = old.o5) ∧
    (∀ w out, preCompCall w out = out) ∧
    (divStepCall Fp ⟨0, zero5, zero5, ⟨0, 0, 0, 0⟩, ⟨0, 0, 0, 0⟩⟩ 1 ⟨⟨7, 0, 0, 0⟩, 0⟩ ⟨⟨5, 0, 0, 0⟩, 0⟩ ⟨0, 0, 0, 0⟩ Fp.one).o2.tc ≠
      (step (⟨1, 7, 5, 0, 1⟩ : St c.p)).f ∧
    preCompCall fpPreComp ⟨0, 0, 0, 0⟩ ≠ fpPreComp :=
  ⟨fun _ _ _ _ _ _ _ => ⟨rfl, rfl, rfl, rfl⟩, fun _ _ => rfl, by decide +kernel, by decide⟩

/-- C112: the conditions that the comment at pasta_fp.go:1485-1513 leaves out are needed.  With an even second argument the third result
is wrong (`f = 2`, `g = 3`); the least counter is taken for a positive one; and the difference of two numbers of 320 bits wraps. -/
theorem C112_false_documented :
    (divStepLocal Fp 1 ⟨⟨2, 0, 0, 0⟩, 0⟩ ⟨⟨3, 0, 0, 0⟩, 0⟩ ⟨0, 0, 0, 0⟩ Fp.one).o3.tc ≠ (3 - 2) / 2 ∧
    (s64 0x8000000000000000 < 0 ∧
      (divStepLocal Fp 0x8000000000000000 ⟨⟨1, 0, 0, 0⟩, 0⟩ ⟨⟨3, 0, 0, 0⟩, 0⟩ ⟨0, 0, 0, 0⟩ Fp.one).o2.tc ≠ 1) ∧
    (∃ f g : W5, f.tc % 2 = 1 ∧ (divStepLocal Fp 1 f g ⟨0, 0, 0, 0⟩ Fp.one).o3.tc ≠ (g.tc - f.tc) / 2 ∧ g.tc % 2 = 1) :=
  ⟨by decide +kernel, ⟨by decide, by decide +kernel⟩, ⟨⟨1, 0, 0, 0⟩, 0x8000000000000000⟩,
    ⟨⟨0xffffffffffffffff, 0xffffffffffffffff, 0xffffffffffffffff, 0xffffffffffffffff⟩, 0x7fffffffffffffff⟩,
    by decide +kernel, by decide +kernel, by decide +kernel⟩

end Verif.Props
