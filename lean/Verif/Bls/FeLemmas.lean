import Verif.Bls.Fe
import Verif.Primes.BlsQ
import Mathlib.Tactic.LinearCombination
import Mathlib.Tactic.Ring
import Mathlib.Tactic.IntervalCases

/-!
# Lemmas about the words of bls12_381/bls/arithmetic_fallback.go
-/

namespace Verif.Bls

/-- the base field modulus. -/
def Q : ℕ := 0x1a0111ea397fe69a4b1ba7b6434bacd764774b84f38512bf6730d2a0f6b0f6241eabfffeb153ffffb9feffffffffaaab

theorem Q_eq : Q = 0x1a0111ea397fe69a4b1ba7b6434bacd764774b84f38512bf6730d2a0f6b0f6241eabfffeb153ffffb9feffffffffaaab := rfl

theorem prime_Q : Nat.Prime Q := prime_blsQ

instance : Fact (Nat.Prime Q) := ⟨prime_Q⟩

namespace Fe

/-- the integer the six words stand for. -/
def val (a : Fe) : ℕ :=
  a.l0.toNat + 2 ^ 64 * a.l1.toNat + 2 ^ 128 * a.l2.toNat + 2 ^ 192 * a.l3.toNat +
    2 ^ 256 * a.l4.toNat + 2 ^ 320 * a.l5.toNat

theorem lt64 (x : UInt64) : x.toNat < 18446744073709551616 := x.toNat_lt

theorem val_lt (a : Fe) : a.val < 2 ^ 384 := by
  have h0 := lt64 a.l0
  have h1 := lt64 a.l1
  have h2 := lt64 a.l2
  have h3 := lt64 a.l3
  have h4 := lt64 a.l4
  have h5 := lt64 a.l5
  unfold val; omega

theorem val_inj {a b : Fe} (h : a.val = b.val) : a = b := by
  have h0 := lt64 a.l0
  have h1 := lt64 a.l1
  have h2 := lt64 a.l2
  have h3 := lt64 a.l3
  have h4 := lt64 a.l4
  have h5 := lt64 a.l5
  have k0 := lt64 b.l0
  have k1 := lt64 b.l1
  have k2 := lt64 b.l2
  have k3 := lt64 b.l3
  have k4 := lt64 b.l4
  have k5 := lt64 b.l5
  unfold val at h
  obtain ⟨a0, a1, a2, a3, a4, a5⟩ := a
  obtain ⟨b0, b1, b2, b3, b4, b5⟩ := b
  simp only [Fe.mk.injEq, ← UInt64.toNat_inj] at *
  omega

theorem add64_spec (x y c : UInt64) (hc : c.toNat ≤ 1) :
    (add64 x y c).1.toNat + 18446744073709551616 * (add64 x y c).2.toNat = x.toNat + y.toNat + c.toNat ∧
      (add64 x y c).2.toNat ≤ 1 := by
  have hx := lt64 x
  have hy := lt64 y
  unfold add64
  simp only [UInt64.toNat_add]
  split <;> simp <;> omega

theorem sub64_spec (x y b : UInt64) (hb : b.toNat ≤ 1) :
    (sub64 x y b).1.toNat + y.toNat + b.toNat = x.toNat + 18446744073709551616 * (sub64 x y b).2.toNat ∧
      (sub64 x y b).2.toNat ≤ 1 := by
  have hx := lt64 x
  have hy := lt64 y
  unfold sub64
  simp only [UInt64.toNat_sub]
  split <;> simp <;> omega

theorem mul64_spec (x y : UInt64) :
    (mul64 x y).2.toNat + 18446744073709551616 * (mul64 x y).1.toNat = x.toNat * y.toNat := by
  have hx := lt64 x
  have hy := lt64 y
  have h : x.toNat * y.toNat < 18446744073709551616 * 18446744073709551616 :=
    Nat.mul_lt_mul'' hx hy
  unfold mul64
  simp only [UInt64.toNat_mul, UInt64.toNat_ofNat']
  generalize x.toNat * y.toNat = p at h ⊢
  have : p / 2 ^ 64 < 2 ^ 64 := by omega
  rw [Nat.mod_eq_of_lt this]
  omega

theorem prod_le (x y : UInt64) :
    x.toNat * y.toNat ≤ 18446744073709551615 * 18446744073709551615 :=
  Nat.mul_le_mul (by have := lt64 x; omega) (by have := lt64 y; omega)

theorem zero_le_one : (0 : UInt64).toNat ≤ 1 := by simp

theorem madd0_spec (a b c : UInt64) : (madd0 a b c).toNat = (a.toNat * b.toNat + c.toNat) / 18446744073709551616 := by
  have h1 := mul64_spec a b
  have hp := prod_le a b
  unfold madd0
  simp only
  generalize mul64 a b = p at h1 ⊢
  obtain ⟨h2, h3⟩ := add64_spec p.2 c 0 zero_le_one
  generalize add64 p.2 c 0 = s at h2 h3 ⊢
  obtain ⟨h4, h5⟩ := add64_spec p.1 0 s.2 h3
  generalize add64 p.1 0 s.2 = r at h4 h5 ⊢
  have := lt64 c
  have := lt64 s.1
  have := lt64 r.1
  generalize a.toNat * b.toNat = pp at *
  simp only [UInt64.toNat_zero] at *
  omega

theorem madd1_spec (a b c : UInt64) :
    (madd1 a b c).2.toNat + 18446744073709551616 * (madd1 a b c).1.toNat = a.toNat * b.toNat + c.toNat := by
  have h1 := mul64_spec a b
  have hp := prod_le a b
  unfold madd1
  simp only
  generalize mul64 a b = p at h1 ⊢
  obtain ⟨h2, h3⟩ := add64_spec p.2 c 0 zero_le_one
  generalize add64 p.2 c 0 = s at h2 h3 ⊢
  obtain ⟨h4, h5⟩ := add64_spec p.1 0 s.2 h3
  generalize add64 p.1 0 s.2 = r at h4 h5 ⊢
  have := lt64 c
  have := lt64 s.1
  have := lt64 r.1
  generalize a.toNat * b.toNat = pp at *
  simp only [UInt64.toNat_zero] at *
  omega

theorem madd2_spec (a b c d : UInt64) :
    (madd2 a b c d).2.toNat + 18446744073709551616 * (madd2 a b c d).1.toNat =
      a.toNat * b.toNat + c.toNat + d.toNat := by
  have h1 := mul64_spec a b
  have hp := prod_le a b
  unfold madd2
  simp only
  generalize mul64 a b = p at h1 ⊢
  obtain ⟨h2, h3⟩ := add64_spec c d 0 zero_le_one
  generalize add64 c d 0 = e at h2 h3 ⊢
  obtain ⟨h4, h5⟩ := add64_spec p.1 0 e.2 h3
  generalize add64 p.1 0 e.2 = hi at h4 h5 ⊢
  obtain ⟨h6, h7⟩ := add64_spec p.2 e.1 0 zero_le_one
  generalize add64 p.2 e.1 0 = s at h6 h7 ⊢
  obtain ⟨h8, h9⟩ := add64_spec hi.1 0 s.2 h7
  generalize add64 hi.1 0 s.2 = r at h8 h9 ⊢
  have := lt64 c
  have := lt64 d
  have := lt64 e.1
  have := lt64 s.1
  have := lt64 r.1
  have := lt64 hi.1
  generalize a.toNat * b.toNat = pp at *
  simp only [UInt64.toNat_zero] at *
  omega

theorem madd3_spec (a b c d e : UInt64)
    (h : a.toNat * b.toNat + c.toNat + d.toNat + 18446744073709551616 * e.toNat <
      18446744073709551616 * 18446744073709551616) :
    (madd3 a b c d e).2.toNat + 18446744073709551616 * (madd3 a b c d e).1.toNat =
      a.toNat * b.toNat + c.toNat + d.toNat + 18446744073709551616 * e.toNat := by
  have h1 := mul64_spec a b
  have hp := prod_le a b
  unfold madd3
  simp only
  generalize mul64 a b = p at h1 ⊢
  obtain ⟨h2, h3⟩ := add64_spec c d 0 zero_le_one
  generalize add64 c d 0 = f at h2 h3 ⊢
  obtain ⟨h4, h5⟩ := add64_spec p.1 0 f.2 h3
  generalize add64 p.1 0 f.2 = hi at h4 h5 ⊢
  obtain ⟨h6, h7⟩ := add64_spec p.2 f.1 0 zero_le_one
  generalize add64 p.2 f.1 0 = s at h6 h7 ⊢
  obtain ⟨h8, h9⟩ := add64_spec hi.1 e s.2 h7
  generalize add64 hi.1 e s.2 = r at h8 h9 ⊢
  have := lt64 c
  have := lt64 d
  have := lt64 e
  have := lt64 f.1
  have := lt64 s.1
  have := lt64 r.1
  have := lt64 hi.1
  generalize a.toNat * b.toNat = pp at *
  simp only [UInt64.toNat_zero] at *
  omega

theorem ladd_val (x y : Fe) : (ladd x y).val = (x.val + y.val) % 2 ^ 384 := by
  unfold ladd
  simp only
  obtain ⟨h0, k0⟩ := add64_spec x.l0 y.l0 0 zero_le_one
  generalize add64 x.l0 y.l0 0 = s0 at *
  obtain ⟨h1, k1⟩ := add64_spec x.l1 y.l1 s0.2 k0
  generalize add64 x.l1 y.l1 s0.2 = s1 at *
  obtain ⟨h2, k2⟩ := add64_spec x.l2 y.l2 s1.2 k1
  generalize add64 x.l2 y.l2 s1.2 = s2 at *
  obtain ⟨h3, k3⟩ := add64_spec x.l3 y.l3 s2.2 k2
  generalize add64 x.l3 y.l3 s2.2 = s3 at *
  obtain ⟨h4, k4⟩ := add64_spec x.l4 y.l4 s3.2 k3
  generalize add64 x.l4 y.l4 s3.2 = s4 at *
  obtain ⟨h5, k5⟩ := add64_spec x.l5 y.l5 s4.2 k4
  generalize add64 x.l5 y.l5 s4.2 = s5 at *
  have hz := val_lt ⟨s0.1, s1.1, s2.1, s3.1, s4.1, s5.1⟩
  simp only [val, UInt64.toNat_zero] at *
  omega

theorem subB_val (x y : Fe) :
    (subB x y).1.val + y.val = x.val + 2 ^ 384 * (subB x y).2.toNat ∧ (subB x y).2.toNat ≤ 1 := by
  unfold subB
  simp only
  obtain ⟨h0, k0⟩ := sub64_spec x.l0 y.l0 0 zero_le_one
  generalize sub64 x.l0 y.l0 0 = s0 at *
  obtain ⟨h1, k1⟩ := sub64_spec x.l1 y.l1 s0.2 k0
  generalize sub64 x.l1 y.l1 s0.2 = s1 at *
  obtain ⟨h2, k2⟩ := sub64_spec x.l2 y.l2 s1.2 k1
  generalize sub64 x.l2 y.l2 s1.2 = s2 at *
  obtain ⟨h3, k3⟩ := sub64_spec x.l3 y.l3 s2.2 k2
  generalize sub64 x.l3 y.l3 s2.2 = s3 at *
  obtain ⟨h4, k4⟩ := sub64_spec x.l4 y.l4 s3.2 k3
  generalize sub64 x.l4 y.l4 s3.2 = s4 at *
  obtain ⟨h5, k5⟩ := sub64_spec x.l5 y.l5 s4.2 k4
  generalize sub64 x.l5 y.l5 s4.2 = s5 at *
  refine ⟨?_, k5⟩
  simp only [val, UInt64.toNat_zero] at *
  omega

theorem lsub_val {x y : Fe} (h : y.val ≤ x.val) : (lsub x y).val = x.val - y.val := by
  obtain ⟨h1, h2⟩ := subB_val x y
  have hx := val_lt x
  have hz := val_lt (subB x y).1
  unfold lsub
  omega

theorem modulus_val : modulus.val = Q := by decide +kernel

theorem below_iff (z : Fe) : below z = true ↔ z.val < Q := by
  have h0 := lt64 z.l0
  have h1 := lt64 z.l1
  have h2 := lt64 z.l2
  have h3 := lt64 z.l3
  have h4 := lt64 z.l4
  have h5 := lt64 z.l5
  rw [Q_eq]
  simp only [below, val, Bool.or_eq_true, Bool.and_eq_true, decide_eq_true_eq, beq_iff_eq,
    UInt64.lt_iff_toNat_lt, ← UInt64.toNat_inj, UInt64.reduceToNat]
  omega

theorem reduce_val (z : Fe) (h : z.val < 2 * Q) : (reduce z).val = z.val % Q := by
  unfold reduce
  by_cases hb : z.val < Q
  · rw [(below_iff z).mpr hb, Nat.mod_eq_of_lt hb]; rfl
  · have : below z = false := by
      rw [Bool.eq_false_iff, ne_eq, below_iff]; exact hb
    rw [this]
    simp only [Bool.not_false, if_true]
    rw [lsub_val (by rw [modulus_val]; omega), modulus_val, Nat.mod_eq_sub_mod (by omega),
      Nat.mod_eq_of_lt (by omega)]

theorem isZero_iff (a : Fe) : isZero a = true ↔ a.val = 0 := by
  unfold isZero
  simp only [beq_iff_eq, UInt64.or_eq_zero_iff]
  simp only [val, ← UInt64.toNat_inj, UInt64.toNat_zero]
  omega

theorem equal_iff (a b : Fe) : equal a b = true ↔ a = b := by
  obtain ⟨a0, a1, a2, a3, a4, a5⟩ := a
  obtain ⟨b0, b1, b2, b3, b4, b5⟩ := b
  simp only [equal, Bool.and_eq_true, beq_iff_eq, Fe.mk.injEq]
  constructor
  · rintro ⟨⟨⟨⟨⟨h, h1⟩, h2⟩, h3⟩, h4⟩, h5⟩
    exact ⟨h.symm, h1.symm, h2.symm, h3.symm, h4.symm, h5.symm⟩
  · rintro ⟨h, h1, h2, h3, h4, h5⟩
    exact ⟨⟨⟨⟨⟨h.symm, h1.symm⟩, h2.symm⟩, h3.symm⟩, h4.symm⟩, h5.symm⟩

theorem cmpWord_eq (a b : UInt64) (M x y : ℕ) (hx : x < M) (hy : y < M) (r : Int)
    (hr : r = if x > y then 1 else if x < y then -1 else 0) :
    cmpWord a b r = if x + M * a.toNat > y + M * b.toNat then 1
      else if x + M * a.toNat < y + M * b.toNat then -1 else 0 := by
  unfold cmpWord
  simp only [GT.gt, UInt64.lt_iff_toNat_lt] at *
  rcases Nat.lt_trichotomy a.toNat b.toNat with h | h | h
  · have : M * (a.toNat + 1) ≤ M * b.toNat := Nat.mul_le_mul_left M h
    rw [Nat.mul_add] at this
    rw [if_neg (by omega), if_pos h, if_neg (by omega), if_pos (by omega)]
  · rw [h, if_neg (by omega), if_neg (by omega), hr]
    simp
  · have : M * (b.toNat + 1) ≤ M * a.toNat := Nat.mul_le_mul_left M h
    rw [Nat.mul_add] at this
    rw [if_pos h, if_pos (by omega)]

theorem cmp_eq (a b : Fe) : cmp a b = if a.val > b.val then 1 else if a.val < b.val then -1 else 0 := by
  have h0 := lt64 a.l0
  have h1 := lt64 a.l1
  have h2 := lt64 a.l2
  have h3 := lt64 a.l3
  have h4 := lt64 a.l4
  have k0 := lt64 b.l0
  have k1 := lt64 b.l1
  have k2 := lt64 b.l2
  have k3 := lt64 b.l3
  have k4 := lt64 b.l4
  unfold cmp val
  refine cmpWord_eq _ _ (2 ^ 320) _ _ (by omega) (by omega) _ ?_
  refine cmpWord_eq _ _ (2 ^ 256) _ _ (by omega) (by omega) _ ?_
  refine cmpWord_eq _ _ (2 ^ 192) _ _ (by omega) (by omega) _ ?_
  refine cmpWord_eq _ _ (2 ^ 128) _ _ (by omega) (by omega) _ ?_
  refine cmpWord_eq _ _ (2 ^ 64) _ _ (by omega) (by omega) _ ?_
  have := cmpWord_eq a.l0 b.l0 1 0 0 (by omega) (by omega) 0 rfl
  simpa using this

theorem isEven_iff (a : Fe) : isEven a = true ↔ a.val % 2 = 0 := by
  unfold isEven
  simp only [beq_iff_eq, ← UInt64.toNat_inj, UInt64.toNat_and, UInt64.toNat_zero, UInt64.toNat_one]
  rw [Nat.and_one_is_mod]
  simp only [val]
  omega

end Fe

end Verif.Bls
