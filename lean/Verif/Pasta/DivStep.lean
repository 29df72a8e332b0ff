import Verif.Pasta.Helpers
import Verif.Pasta.FieldLemmas

/-!
# `FiatPastaFpDivStep` and `FiatPastaFqDivStep`: model of pasta/pasta_fp.go:1478-1703 and pasta/pasta_fq.go:1474-1699

The two functions differ in the constants only (checked by a script).  The body repeats the straight-line code of `Add` and `Opp`, which is
modelled by the same definitions; statements are grouped by the value they compute.
-/

set_option exponentiation.threshold 512

namespace Verif.Pasta

/-- `CmovznzU64` on five words (pasta_fp.go:1601-1605, 1611-1615, 1647-1651). -/
def cmov5 (c : UInt8) (a b : W5) : W5 := ⟨selectZnz c a.lo b.lo, cmov c a.l4 b.l4⟩

/-- `^` on five words. -/
def notRow (a : W5) : W5 := ⟨⟨~~~a.lo.l0, ~~~a.lo.l1, ~~~a.lo.l2, ~~~a.lo.l3⟩, ~~~a.l4⟩

/-- five zero words. -/
def zero5 : W5 := ⟨⟨0, 0, 0, 0⟩, 0⟩

/-- one word of the shift by one bit (pasta_fp.go:1671-1674). -/
def shr1 (x y : UInt64) : UInt64 := (x >>> 1) ||| ((y <<< 63) &&& (0xffffffffffffffff : UInt64))

/-- pasta_fp.go:1671-1675: the arithmetic shift by one bit. -/
def sarRow (a : W5) : W5 :=
  ⟨⟨shr1 a.lo.l0 a.lo.l1, shr1 a.lo.l1 a.lo.l2, shr1 a.lo.l2 a.lo.l3, shr1 a.lo.l3 a.l4⟩, (a.l4 &&& (0x8000000000000000 : UInt64)) ||| (a.l4 >>> 1)⟩

/-- what a division step computes. -/
structure DivOut where
  o1 : UInt64
  o2 : W5
  o3 : W5
  o4 : Limbs
  o5 : Limbs

/-- pasta_fp.go:1597-1598 `x3`: whether to swap. -/
def divSwap (arg1 : UInt64) (arg3 : W5) : UInt8 :=
  ((addCarry 0 (~~~arg1) 1).1 >>> 63).toUInt8 &&& (arg3.lo.l0 &&& 1).toUInt8

/-- pasta_fp.go:1597-1683, pasta_fq.go:1593-1679: the words computed by `DivStep`. -/
def divStepLocal (M : Md) (arg1 : UInt64) (arg2 arg3 : W5) (arg4 arg5 : Limbs) : DivOut :=
  let x3 := divSwap arg1 arg3
  let x4 := (addCarry 0 (~~~arg1) 1).1
  let x6 := cmov x3 arg1 x4
  let x7 := cmov5 x3 arg2 arg3
  let x12 := (addRow ⟨⟨1, 0, 0, 0⟩, 0⟩ (notRow arg2)).1
  let x22 := cmov5 x3 arg3 x12
  let x27 := selectZnz x3 arg4 arg5
  let x62 := opp M arg4
  let x70 := selectZnz x3 arg5 x62
  let x74 := (x22.lo.l0 &&& 1).toUInt8
  let x75 := cmov5 x74 zero5 x7
  let x80 := (addRow x22 x75).1
  let x90 := selectZnz x74 ⟨0, 0, 0, 0⟩ x27
  ⟨(addCarry 0 x6 1).1, x7, sarRow x80, add M x27 x27, add M x70 x90⟩

/-- pasta_fp.go:1514 `DivStep(out1 *uint64, out2, out3 [5]uint64, out4, out5 [4]uint64, ...)`: the caller's variables after the call; only the
first is given by a pointer. -/
def divStepCall (M : Md) (old : DivOut) (arg1 : UInt64) (arg2 arg3 : W5) (arg4 arg5 : Limbs) : DivOut :=
  let x := divStepLocal M arg1 arg2 arg3 arg4 arg5
  ⟨x.o1, byValue old.o2 x.o2, byValue old.o3 x.o3, byValue old.o4 x.o4, byValue old.o5 x.o5⟩

/-- pasta_fp.go:1478-1483: the words of `FiatPastaFpDivStepPreComp`. -/
def fpPreComp : Limbs := ⟨0xeb9f9ebd71876582, 0x61d4a765274d339b, 0x4bf06d486f0671ed, 0x278227fb0b195a26⟩

/-- pasta_fq.go:1474-1479: the words of `FiatPastaFqDivStepPreComp`. -/
def fqPreComp : Limbs := ⟨0xe6083b32dccd2992, 0x624453584f3bdab6, 0xba6367a9c5d2c08e, 0x1468dbacb19ab3af⟩

/-- pasta_fp.go:1478, pasta_fq.go:1474 `DivStepPreComp(out1 [4]uint64)`: the caller's array after the call. -/
def preCompCall (words out : Limbs) : Limbs := byValue out words

/-! ## values -/

/-- a word as a two's complement number. -/
def s64 (x : UInt64) : ℤ := if x.toNat < 2 ^ 63 then x.toNat else x.toNat - 2 ^ 64

/-- five words as a two's complement number. -/
def W5.tc (a : W5) : ℤ := if a.l4.toNat < 2 ^ 63 then a.val else a.val - 2 ^ 320

theorem low_bit (x : UInt64) : (x &&& 1).toUInt8.toNat = x.toNat % 2 := by
  have h : (x &&& 1).toNat = x.toNat % 2 := by
    rw [UInt64.toNat_and]
    exact Nat.and_one_is_mod _
  show (x &&& 1).toNat.toUInt8.toNat = _
  rw [h]
  simp
  omega

theorem neg_word (d : UInt64) : (addCarry 0 (~~~d) 1).1.toNat = (2 ^ 64 - d.toNat) % 2 ^ 64 := by
  obtain ⟨s, c⟩ := addCarry_spec 0 (~~~d) 1 (by decide)
  have h1 : (~~~d).toNat = 2 ^ 64 - 1 - d.toNat := by simp
  have h2 : (1 : UInt64).toNat = 1 := rfl
  have h3 : (0 : UInt8).toNat = 0 := rfl
  rw [h1, h2, h3] at s
  have := d.toNat_lt
  have := (addCarry 0 (~~~d) 1).1.toNat_lt
  omega

theorem top_bit (x : UInt64) : (x >>> 63).toUInt8.toNat = x.toNat / 2 ^ 63 := by
  have h : (x >>> 63).toNat = x.toNat / 2 ^ 63 := by
    rw [UInt64.toNat_shiftRight]
    simp [Nat.shiftRight_eq_div_pow]
  show (x >>> 63).toNat.toUInt8.toNat = _
  rw [h]
  have := x.toNat_lt
  simp
  omega

theorem and_bits {a b : UInt8} (ha : a.toNat ≤ 1) (hb : b.toNat ≤ 1) : (a &&& b).toNat = a.toNat * b.toNat := by
  have h1 : a = 0 ∨ a = 1 := by
    have : a.toNat = 0 ∨ a.toNat = 1 := by omega
    rcases this with h | h
    · left; exact UInt8.toNat_inj.mp h
    · right; exact UInt8.toNat_inj.mp h
  have h2 : b = 0 ∨ b = 1 := by
    have : b.toNat = 0 ∨ b.toNat = 1 := by omega
    rcases this with h | h
    · left; exact UInt8.toNat_inj.mp h
    · right; exact UInt8.toNat_inj.mp h
  rcases h1 with rfl | rfl <;> rcases h2 with rfl | rfl <;> rfl

theorem divSwap_val (d : UInt64) (g : W5) :
    (divSwap d g).toNat = ((2 ^ 64 - d.toNat) % 2 ^ 64 / 2 ^ 63) * (g.lo.l0.toNat % 2) := by
  unfold divSwap
  have h1 := top_bit (addCarry 0 (~~~d) 1).1
  have h2 := low_bit g.lo.l0
  have := (addCarry 0 (~~~d) 1).1.toNat_lt
  rw [and_bits (by rw [h1]; omega) (by rw [h2]; omega), h1, h2, neg_word]

theorem shr1_val (x y : UInt64) : (shr1 x y).toNat = x.toNat / 2 + 2 ^ 63 * (y.toNat % 2) := by
  unfold shr1
  have h0 : (y <<< 63) &&& (0xffffffffffffffff : UInt64) = y <<< 63 := by
    apply UInt64.toBitVec_inj.mp
    rw [UInt64.toBitVec_and]
    exact BitVec.and_allOnes
  rw [h0, UInt64.toNat_or]
  have h1 : (x >>> 1).toNat = x.toNat / 2 := by
    rw [UInt64.toNat_shiftRight]
    simp [Nat.shiftRight_eq_div_pow]
  have h2 : (y <<< 63).toNat = (y.toNat % 2) <<< 63 := by
    rw [UInt64.toNat_shiftLeft]
    simp [Nat.shiftLeft_eq]
    omega
  rw [h1, h2, Nat.or_comm, ← Nat.shiftLeft_add_eq_or_of_lt (by have := x.toNat_lt; omega), Nat.shiftLeft_eq]
  omega

theorem sar_top (x : UInt64) : ((x &&& (0x8000000000000000 : UInt64)) ||| (x >>> 1)).toNat = x.toNat / 2 + 2 ^ 63 * (x.toNat / 2 ^ 63) := by
  rw [UInt64.toNat_or, UInt64.toNat_and]
  have hx := x.toNat_lt
  have h1 : (x >>> 1).toNat = x.toNat / 2 := by
    rw [UInt64.toNat_shiftRight]
    simp [Nat.shiftRight_eq_div_pow]
  have h2 : x.toNat &&& (0x8000000000000000 : UInt64).toNat = (x.toNat / 2 ^ 63) <<< 63 := by
    show x.toNat &&& 2 ^ 63 = _
    apply Nat.eq_of_testBit_eq
    intro i
    rw [Nat.testBit_and, Nat.testBit_two_pow, Nat.testBit_shiftLeft, Nat.testBit_div_two_pow]
    rcases lt_trichotomy i 63 with h | rfl | h
    · simp [show 63 ≠ i by omega, show ¬ 63 ≤ i by omega]
    · simp
    · rw [show i - 63 + 63 = i by omega, Nat.testBit_lt_two_pow (lt_of_lt_of_le hx (Nat.pow_le_pow_right (by decide) (by omega)))]
      simp
  rw [h1, h2, ← Nat.shiftLeft_add_eq_or_of_lt (by omega), Nat.shiftLeft_eq]
  omega

/-- the shift is the floor of the half. -/
theorem sarRow_tc (a : W5) : (sarRow a).tc = a.tc / 2 := by
  unfold W5.tc W5.val Limbs.val sarRow
  dsimp only
  rw [shr1_val, shr1_val, shr1_val, shr1_val, sar_top]
  have := a.lo.l0.toNat_lt; have := a.lo.l1.toNat_lt; have := a.lo.l2.toNat_lt; have := a.lo.l3.toNat_lt; have := a.l4.toNat_lt
  split <;> split <;> push_cast <;> omega

theorem tc_mod (a : W5) : (a.tc - a.val) % 2 ^ 320 = 0 ∧ - 2 ^ 319 ≤ a.tc ∧ a.tc < 2 ^ 319 := by
  unfold W5.tc W5.val Limbs.val
  have := a.lo.l0.toNat_lt; have := a.lo.l1.toNat_lt; have := a.lo.l2.toNat_lt; have := a.lo.l3.toNat_lt; have := a.l4.toNat_lt
  split <;> push_cast <;> omega

theorem tc_eq {a : W5} {x : ℤ} (h : (x - a.val) % 2 ^ 320 = 0) (h1 : - 2 ^ 319 ≤ x) (h2 : x < 2 ^ 319) : a.tc = x := by
  obtain ⟨g, g1, g2⟩ := tc_mod a
  omega

theorem tc_parity (a : W5) : a.tc % 2 = (a.lo.l0.toNat % 2 : ℕ) := by
  unfold W5.tc W5.val Limbs.val
  split <;> push_cast <;> omega

theorem W5.val_lt (a : W5) : a.val < 2 ^ 320 := by
  unfold W5.val
  have := a.lo.val_lt; have := a.l4.toNat_lt
  omega

theorem notRow_val (a : W5) : (notRow a).val = 2 ^ 320 - 1 - a.val := by
  unfold W5.val Limbs.val notRow
  dsimp only
  have := a.lo.l0.toNat_lt; have := a.lo.l1.toNat_lt; have := a.lo.l2.toNat_lt; have := a.lo.l3.toNat_lt; have := a.l4.toNat_lt
  have hn : ∀ x : UInt64, (~~~x).toNat = 2 ^ 64 - 1 - x.toNat := fun x => by simp
  rw [hn, hn, hn, hn, hn]
  omega

/-- the words of `0 - a`. -/
theorem neg_row (a : W5) : (((addRow ⟨⟨1, 0, 0, 0⟩, 0⟩ (notRow a)).1.val : ℤ) + a.val) % 2 ^ 320 = 0 := by
  obtain ⟨s, c⟩ := addRow_spec ⟨⟨1, 0, 0, 0⟩, 0⟩ (notRow a)
  rw [notRow_val, show (⟨⟨1, 0, 0, 0⟩, 0⟩ : W5).val = 1 by decide] at s
  have := a.val_lt
  omega

theorem selectZnz_bit (c : UInt8) (hc : c.toNat ≤ 1) (a b : Limbs) : selectZnz c a b = if c.toNat = 0 then a else b := by
  unfold selectZnz
  simp only [cmov_spec c hc]
  split <;> rfl

theorem cmov5_bit (c : UInt8) (hc : c.toNat ≤ 1) (a b : W5) : cmov5 c a b = if c.toNat = 0 then a else b := by
  unfold cmov5
  rw [selectZnz_bit c hc, cmov_spec c hc]
  split <;> rfl

theorem low_parity (a : W5) : a.lo.l0.toNat % 2 = a.val % 2 := by
  unfold W5.val Limbs.val
  omega

theorem inc_word (x : UInt64) : (addCarry 0 x 1).1.toNat = (x.toNat + 1) % 2 ^ 64 := by
  obtain ⟨s, c⟩ := addCarry_spec 0 x 1 (by decide)
  have h2 : (1 : UInt64).toNat = 1 := rfl
  have h3 : (0 : UInt8).toNat = 0 := rfl
  rw [h2, h3] at s
  have := x.toNat_lt
  have := (addCarry 0 x 1).1.toNat_lt
  omega

/-- the integer part of a division step: the counter and the two numbers. -/
theorem divStep_ints (M : Md) (d : UInt64) (f g : W5) (v r : Limbs) (hd : - 2 ^ 63 < s64 d ∧ s64 d < 2 ^ 63 - 1) (hf : f.tc % 2 = 1)
    (hfr : - 2 ^ 318 ≤ f.tc ∧ f.tc < 2 ^ 318) (hgr : - 2 ^ 318 ≤ g.tc ∧ g.tc < 2 ^ 318) :
    (0 < s64 d ∧ g.tc % 2 = 1 → divSwap d g = 1 ∧ s64 (divStepLocal M d f g v r).o1 = 1 - s64 d ∧
      (divStepLocal M d f g v r).o2.tc = g.tc ∧ (divStepLocal M d f g v r).o3.tc = (g.tc - f.tc) / 2 ∧
      (divStepLocal M d f g v r).o4 = add M r r ∧ (divStepLocal M d f g v r).o5 = add M (opp M v) r) ∧
    (¬ (0 < s64 d ∧ g.tc % 2 = 1) → divSwap d g = 0 ∧ s64 (divStepLocal M d f g v r).o1 = 1 + s64 d ∧
      (divStepLocal M d f g v r).o2.tc = f.tc ∧ (divStepLocal M d f g v r).o3.tc = (g.tc + (g.tc % 2) * f.tc) / 2 ∧
      (divStepLocal M d f g v r).o4 = add M v v ∧
      (divStepLocal M d f g v r).o5 = add M r (if g.tc % 2 = 1 then v else ⟨0, 0, 0, 0⟩)) := by
  have hs := divSwap_val d g
  have hgp := tc_parity g
  have hfp := tc_parity f
  have hdl := d.toNat_lt
  obtain ⟨mf, -, -⟩ := tc_mod f
  obtain ⟨mg, -, -⟩ := tc_mod g
  have hng := neg_row f
  constructor
  · rintro ⟨h1, h2⟩
    have hsw : divSwap d g = 1 := by
      apply UInt8.toNat_inj.mp
      rw [hs]
      have e1 : g.lo.l0.toNat % 2 = 1 := by omega
      have e2 : (2 ^ 64 - d.toNat) % 2 ^ 64 / 2 ^ 63 = 1 := by
        unfold s64 at h1
        split at h1 <;> omega
      rw [e1, e2]; rfl
    have hb : (1 : UInt8).toNat = 1 := rfl
    refine ⟨hsw, ?_, ?_, ?_, ?_, ?_⟩
    · unfold divStepLocal
      dsimp only
      rw [hsw, cmov_one]
      unfold s64 at h1 hd ⊢
      rw [inc_word, neg_word]
      split at h1 <;> split <;> omega
    · unfold divStepLocal
      dsimp only
      rw [hsw, cmov5_bit 1 (by decide), if_neg (by decide)]
    · unfold divStepLocal
      dsimp only
      rw [hsw]
      simp only [cmov5_bit 1 (by decide)]
      rw [if_neg (by decide), if_neg (by decide), sarRow_tc]
      generalize (addRow ⟨⟨1, 0, 0, 0⟩, 0⟩ (notRow f)).1 = nf at *
      have hlb := low_bit nf.lo.l0
      have hlp := low_parity nf
      have hlf := low_parity f
      rw [cmov5_bit _ (by omega), if_neg (by omega)]
      obtain ⟨s, c⟩ := addRow_spec nf g
      rw [tc_eq (x := g.tc - f.tc) (by omega) (by omega) (by omega)]
    · unfold divStepLocal
      dsimp only
      rw [hsw, selectZnz_bit 1 (by decide), if_neg (by decide)]
    · unfold divStepLocal
      dsimp only
      rw [hsw]
      simp only [cmov5_bit 1 (by decide), selectZnz_bit 1 (by decide)]
      rw [if_neg (by decide), if_neg (by decide), if_neg (by decide)]
      generalize (addRow ⟨⟨1, 0, 0, 0⟩, 0⟩ (notRow f)).1 = nf at *
      have hlb := low_bit nf.lo.l0
      have hlp := low_parity nf
      have hlf := low_parity f
      rw [selectZnz_bit _ (by omega), if_neg (by omega)]
  · intro h
    have hsw : divSwap d g = 0 := by
      apply UInt8.toNat_inj.mp
      rw [hs]
      by_cases e1 : g.lo.l0.toNat % 2 = 1
      · have e2 : (2 ^ 64 - d.toNat) % 2 ^ 64 / 2 ^ 63 = 0 := by
          have h1 : ¬ 0 < s64 d := fun h1 => h ⟨h1, by omega⟩
          unfold s64 at h1 hd
          split at h1 <;> omega
        rw [e2, Nat.zero_mul]; rfl
      · rw [show g.lo.l0.toNat % 2 = 0 by omega, Nat.mul_zero]; rfl
    have hlb := low_bit g.lo.l0
    refine ⟨hsw, ?_, ?_, ?_, ?_, ?_⟩
    · unfold divStepLocal
      dsimp only
      rw [hsw, cmov_zero]
      unfold s64 at hd ⊢
      rw [inc_word]
      split at hd <;> split <;> omega
    · unfold divStepLocal
      dsimp only
      rw [hsw, cmov5_bit 0 (by decide), if_pos (by decide)]
    · unfold divStepLocal
      dsimp only
      rw [hsw]
      simp only [cmov5_bit 0 (by decide)]
      rw [if_pos (by decide), if_pos (by decide), sarRow_tc, cmov5_bit _ (by omega)]
      by_cases hg : g.tc % 2 = 1
      · rw [if_neg (by omega), hg]
        obtain ⟨s, c⟩ := addRow_spec g f
        rw [tc_eq (x := g.tc + 1 * f.tc) (by omega) (by omega) (by omega)]
      · rw [if_pos (by omega), show g.tc % 2 = 0 by omega]
        obtain ⟨s, c⟩ := addRow_spec g zero5
        rw [show zero5.val = 0 by decide] at s
        rw [tc_eq (x := g.tc + 0 * f.tc) (by omega) (by omega) (by omega)]
    · unfold divStepLocal
      dsimp only
      rw [hsw, selectZnz_bit 0 (by decide), if_pos (by decide)]
    · unfold divStepLocal
      dsimp only
      rw [hsw]
      simp only [cmov5_bit 0 (by decide), selectZnz_bit 0 (by decide)]
      rw [if_pos (by decide), if_pos (by decide), if_pos (by decide), selectZnz_bit _ (by omega)]
      by_cases hg : g.tc % 2 = 1
      · rw [if_neg (by omega), if_pos hg]
      · rw [if_pos (by omega), if_neg hg]

end Verif.Pasta
