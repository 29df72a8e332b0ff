import Mathlib.Tactic.Ring
import Mathlib.Tactic.Linarith
import Mathlib.Data.Nat.ModEq
import Verif.Pasta.Field

/-!
# Lemmas on the Pasta word arithmetic: Montgomery arithmetic modulo the two primes
-/

namespace Verif.Pasta

theorem addCarry_spec (c : UInt8) (a b : UInt64) (hc : c.toNat ≤ 1) :
    (addCarry c a b).1.toNat + 2 ^ 64 * (addCarry c a b).2.toNat = a.toNat + b.toNat + c.toNat ∧
      (addCarry c a b).2.toNat ≤ 1 := by
  unfold addCarry; dsimp only
  have ha := a.toNat_lt; have hb := b.toNat_lt
  have e1 : (b + c.toUInt64).toNat = (b.toNat + c.toNat) % 2 ^ 64 := by
    rw [UInt64.toNat_add, UInt8.toNat_toUInt64]
  have e2 : (a + (b + c.toUInt64)).toNat = (a.toNat + (b.toNat + c.toNat) % 2 ^ 64) % 2 ^ 64 := by
    rw [UInt64.toNat_add, e1]
  split <;> rename_i h <;>
    simp only [gt_iff_lt, UInt64.lt_iff_toNat_lt, e1, e2] at h <;> rw [e2]
  · refine ⟨?_, by decide⟩
    show _ + 2 ^ 64 * 1 = _
    omega
  · refine ⟨?_, by decide⟩
    show _ + 2 ^ 64 * 0 = _
    omega

theorem subBorrow_spec (c : UInt8) (a b : UInt64) (hc : c.toNat ≤ 1) :
    (subBorrow c a b).1.toNat + b.toNat + c.toNat = a.toNat + 2 ^ 64 * (subBorrow c a b).2.toNat ∧
      (subBorrow c a b).2.toNat ≤ 1 := by
  unfold subBorrow; dsimp only
  have ha := a.toNat_lt; have hb := b.toNat_lt
  have e1 : (b + c.toUInt64).toNat = (b.toNat + c.toNat) % 2 ^ 64 := by
    rw [UInt64.toNat_add, UInt8.toNat_toUInt64]
  have e2 : (a - (b + c.toUInt64)).toNat =
      (2 ^ 64 - (b.toNat + c.toNat) % 2 ^ 64 + a.toNat) % 2 ^ 64 := by
    rw [UInt64.toNat_sub, e1]
  split <;> rename_i h <;>
    simp only [gt_iff_lt, UInt64.lt_iff_toNat_lt, e1, e2] at h <;> rw [e2]
  · refine ⟨?_, by decide⟩
    show _ = _ + 2 ^ 64 * 1
    omega
  · refine ⟨?_, by decide⟩
    show _ = _ + 2 ^ 64 * 0
    omega

theorem mulX_spec (a b : UInt64) :
    (mulX a b).1.toNat + 2 ^ 64 * (mulX a b).2.toNat = a.toNat * b.toNat := by
  unfold mulX; dsimp only
  have ha := a.toNat_lt; have hb := b.toNat_lt
  have lo (x : UInt64) : x.toUInt32.toUInt64.toNat = x.toNat % 2 ^ 32 := by
    rw [UInt32.toNat_toUInt64, UInt64.toNat_toUInt32]
  have hi (x : UInt64) : (x >>> 32).toNat = x.toNat / 2 ^ 32 := by
    rw [UInt64.toNat_shiftRight, show (32 : UInt64).toNat % 64 = 32 from rfl, Nat.shiftRight_eq_div_pow]
  simp only [UInt64.toNat_add, UInt64.toNat_mul, lo, hi]
  generalize a.toNat = x at *
  generalize b.toNat = y at *
  have hx : x = 2 ^ 32 * (x / 2 ^ 32) + x % 2 ^ 32 := by omega
  have hy : y = 2 ^ 32 * (y / 2 ^ 32) + y % 2 ^ 32 := by omega
  have e0 : x / 2 ^ 32 % 2 ^ 32 = x / 2 ^ 32 := by omega
  have e1 : y / 2 ^ 32 % 2 ^ 32 = y / 2 ^ 32 := by omega
  rw [e0, e1]
  have b1 : x / 2 ^ 32 ≤ 2 ^ 32 - 1 := by omega
  have b2 : y / 2 ^ 32 ≤ 2 ^ 32 - 1 := by omega
  have b3 : x % 2 ^ 32 ≤ 2 ^ 32 - 1 := by omega
  have b4 : y % 2 ^ 32 ≤ 2 ^ 32 - 1 := by omega
  have exy : x * y = 2 ^ 64 * (x / 2 ^ 32 * (y / 2 ^ 32)) + 2 ^ 32 * (x / 2 ^ 32 * (y % 2 ^ 32)) +
      2 ^ 32 * (y / 2 ^ 32 * (x % 2 ^ 32)) + x % 2 ^ 32 * (y % 2 ^ 32) := by
    conv_lhs => rw [hx, hy]
    ring
  rw [exy]
  generalize x / 2 ^ 32 = xh at *
  generalize y / 2 ^ 32 = yh at *
  generalize x % 2 ^ 32 = xl at *
  generalize y % 2 ^ 32 = yl at *
  have p1 := Nat.mul_le_mul b1 b2
  have p2 := Nat.mul_le_mul b1 b4
  have p3 := Nat.mul_le_mul b2 b3
  have p4 := Nat.mul_le_mul b3 b4
  generalize xh * yh = A at *
  generalize xh * yl = B at *
  generalize yh * xl = C at *
  generalize xl * yl = D at *
  omega

theorem cmov_zero (a b : UInt64) : cmov 0 a b = a := by
  unfold cmov; dsimp only
  have : ((0 : UInt8) - 0).toInt8.toInt64.toUInt64 &&& 0xffffffffffffffff = (0 : UInt64) := by decide
  rw [this]
  apply UInt64.toBitVec_inj.mp; simp

theorem cmov_one (a b : UInt64) : cmov 1 a b = b := by
  unfold cmov; dsimp only
  have : ((0 : UInt8) - 1).toInt8.toInt64.toUInt64 &&& 0xffffffffffffffff = (-1 : UInt64) := by decide
  rw [this]
  apply UInt64.toBitVec_inj.mp; simp

theorem cmov_spec (c : UInt8) (hc : c.toNat ≤ 1) (a b : UInt64) : cmov c a b = if c.toNat = 0 then a else b := by
  have : c = 0 ∨ c = 1 := by
    have : c.toNat = 0 ∨ c.toNat = 1 := by omega
    rcases this with h | h
    · left; exact UInt8.toNat_inj.mp h
    · right; exact UInt8.toNat_inj.mp h
  rcases this with rfl | rfl
  · simp [cmov_zero]
  · simp [cmov_one]

/-- the number held by four words. -/
def Limbs.val (a : Limbs) : Nat :=
  a.l0.toNat + 2 ^ 64 * a.l1.toNat + 2 ^ 128 * a.l2.toNat + 2 ^ 192 * a.l3.toNat

def W5.val (a : W5) : Nat := a.lo.val + 2 ^ 256 * a.l4.toNat

/-- the modulus. -/
def Md.m (M : Md) : Nat := M.m0.toNat + 2 ^ 64 * M.m1.toNat + 2 ^ 192 * M.m3.toNat

theorem Limbs.val_lt (a : Limbs) : a.val < 2 ^ 256 := by
  unfold Limbs.val
  have := a.l0.toNat_lt; have := a.l1.toNat_lt; have := a.l2.toNat_lt; have := a.l3.toNat_lt
  omega

theorem Limbs.ext_val {a b : Limbs} (h : a.val = b.val) : a = b := by
  obtain ⟨a0, a1, a2, a3⟩ := a
  obtain ⟨b0, b1, b2, b3⟩ := b
  simp only [Limbs.val] at h
  have := a0.toNat_lt; have := a1.toNat_lt; have := a2.toNat_lt; have := a3.toNat_lt
  have := b0.toNat_lt; have := b1.toNat_lt; have := b2.toNat_lt; have := b3.toNat_lt
  have e0 : a0.toNat = b0.toNat := by omega
  have e1 : a1.toNat = b1.toNat := by omega
  have e2 : a2.toNat = b2.toNat := by omega
  have e3 : a3.toNat = b3.toNat := by omega
  rw [UInt64.toNat_inj.mp e0, UInt64.toNat_inj.mp e1, UInt64.toNat_inj.mp e2, UInt64.toNat_inj.mp e3]

theorem toUInt64_add_toNat (c : UInt8) (x : UInt64) (h : c.toNat + x.toNat < 2 ^ 64) :
    (c.toUInt64 + x).toNat = c.toNat + x.toNat := by
  rw [UInt64.toNat_add, UInt8.toNat_toUInt64, Nat.mod_eq_of_lt h]

theorem mulX_hi_lt (a b : UInt64) (hb : 0 < b.toNat) : (mulX a b).2.toNat < b.toNat := by
  have h := mulX_spec a b
  have ha := a.toNat_lt
  have : a.toNat * b.toNat < 2 ^ 64 * b.toNat := Nat.mul_lt_mul_of_pos_right ha hb
  omega

theorem mulX_hi_le (a b : UInt64) : (mulX a b).2.toNat ≤ 2 ^ 64 - 2 := by
  have h := mulX_spec a b
  have ha := a.toNat_lt; have hb := b.toNat_lt
  have : a.toNat * b.toNat ≤ (2 ^ 64 - 1) * (2 ^ 64 - 1) := Nat.mul_le_mul (by omega) (by omega)
  omega

theorem mul_val_expand (x : Nat) (b : Limbs) : x * b.val = x * b.l0.toNat + 2 ^ 64 * (x * b.l1.toNat) +
    2 ^ 128 * (x * b.l2.toNat) + 2 ^ 192 * (x * b.l3.toNat) := by
  unfold Limbs.val; ring

theorem mul_m_expand (M : Md) (x : Nat) : x * M.m = x * M.m0.toNat + 2 ^ 64 * (x * M.m1.toNat) +
    2 ^ 192 * (x * M.m3.toNat) := by
  unfold Md.m; ring

theorem mulRow4_spec (x : UInt64) (b : Limbs) :
    (mulRow4 x b).1.val + 2 ^ 256 * ((mulRow4 x b).2.1.toNat + (mulRow4 x b).2.2.toNat) = x.toNat * b.val ∧
      (mulRow4 x b).2.1.toNat ≤ 1 ∧ (mulRow4 x b).2.2.toNat ≤ 2 ^ 64 - 2 := by
  unfold mulRow4; dsimp only
  rw [mul_val_expand]
  have h3 := mulX_spec x b.l3
  have h2 := mulX_spec x b.l2
  have h1 := mulX_spec x b.l1
  have h0 := mulX_spec x b.l0
  have g3 := mulX_hi_le x b.l3
  generalize mulX x b.l3 = p3 at *
  generalize mulX x b.l2 = p2 at *
  generalize mulX x b.l1 = p1 at *
  generalize mulX x b.l0 = p0 at *
  obtain ⟨s1, c1⟩ := addCarry_spec 0 p0.2 p1.1 (by decide)
  generalize addCarry 0 p0.2 p1.1 = t1 at *
  obtain ⟨s2, c2⟩ := addCarry_spec t1.2 p1.2 p2.1 c1
  generalize addCarry t1.2 p1.2 p2.1 = t2 at *
  obtain ⟨s3, c3⟩ := addCarry_spec t2.2 p2.2 p3.1 c2
  generalize addCarry t2.2 p2.2 p3.1 = t3 at *
  simp only [UInt8.toNat_zero] at s1
  unfold Limbs.val; dsimp only
  refine ⟨by omega, c3, g3⟩

theorem mulRow_spec (x : UInt64) (b : Limbs) : (mulRow x b).val = x.toNat * b.val := by
  obtain ⟨h, hc, hh⟩ := mulRow4_spec x b
  rw [← h]
  show (mulRow4 x b).1.val + 2 ^ 256 * ((mulRow4 x b).2.1.toUInt64 + (mulRow4 x b).2.2).toNat = _
  rw [toUInt64_add_toNat _ _ (by omega)]

/-- what the constants have to satisfy. -/
structure Md.Ok (M : Md) : Prop where
  ninv : (M.m0.toNat * M.ninv.toNat + 1) % 2 ^ 64 = 0
  m1 : 0 < M.m1.toNat
  m1' : M.m1.toNat < 2 ^ 63
  m3 : M.m3.toNat = 2 ^ 62
  r2 : M.r2.val = 2 ^ 512 % M.m
  one : M.one.val = 2 ^ 256 % M.m

theorem Fp_ok : Fp.Ok := by constructor <;> decide +kernel
theorem Fq_ok : Fq.Ok := by constructor <;> decide +kernel

variable {M : Md}

theorem Md.Ok.m_lt (h : M.Ok) : M.m < 2 ^ 255 := by
  unfold Md.m; rw [h.m3]
  have := M.m0.toNat_lt; have := M.m1.toNat_lt
  omega

theorem Md.Ok.m_pos (h : M.Ok) : 2 ^ 254 ≤ M.m := by
  unfold Md.m; rw [h.m3]; omega

/-- the multiplier chosen by a reduction clears the low word. -/
theorem low_zero (h : M.Ok) (t : UInt64) :
    ∃ k, t.toNat + (mulX (mulX t M.ninv).1 M.m0).1.toNat = 2 ^ 64 * k := by
  have hm := mulX_spec t M.ninv
  have hq := mulX_spec (mulX t M.ninv).1 M.m0
  generalize mulX (mulX t M.ninv).1 M.m0 = q at *
  generalize mulX t M.ninv = m at *
  have : (t.toNat + q.1.toNat) % 2 ^ 64 = 0 := by
    have e1 : q.1.toNat ≡ m.1.toNat * M.m0.toNat [MOD 2 ^ 64] := by
      rw [← hq]; unfold Nat.ModEq; omega
    have e2 : m.1.toNat ≡ t.toNat * M.ninv.toNat [MOD 2 ^ 64] := by
      rw [← hm]; unfold Nat.ModEq; omega
    have e3 : t.toNat + q.1.toNat ≡ t.toNat * (M.m0.toNat * M.ninv.toNat + 1) [MOD 2 ^ 64] := by
      calc t.toNat + q.1.toNat ≡ t.toNat + t.toNat * M.ninv.toNat * M.m0.toNat [MOD 2 ^ 64] :=
            (e1.trans (e2.mul_right _)).add_left _
        _ = t.toNat * (M.m0.toNat * M.ninv.toNat + 1) := by ring
    have e4 : t.toNat * (M.m0.toNat * M.ninv.toNat + 1) ≡ t.toNat * 0 [MOD 2 ^ 64] :=
      Nat.ModEq.mul_left _ h.ninv
    exact e3.trans e4
  exact ⟨(t.toNat + q.1.toNat) / 2 ^ 64, by omega⟩

theorem redRow4_spec (h : M.Ok) (t : Limbs) : ∃ k, k < 2 ^ 64 ∧
    2 ^ 64 * ((redRow4 M t).1.toNat + 2 ^ 64 * (redRow4 M t).2.1.toNat + 2 ^ 128 * (redRow4 M t).2.2.1.toNat +
      2 ^ 192 * ((redRow4 M t).2.2.2.1.toNat + (redRow4 M t).2.2.2.2.toNat)) = t.val + k * M.m ∧
    (redRow4 M t).2.2.2.1.toNat ≤ 1 ∧ (redRow4 M t).2.2.2.2.toNat < 2 ^ 62 := by
  refine ⟨(mulX t.l0 M.ninv).1.toNat, UInt64.toNat_lt _, ?_⟩
  unfold redRow4; dsimp only
  obtain ⟨k, hk⟩ := low_zero h t.l0
  rw [mul_m_expand]
  generalize (mulX t.l0 M.ninv).1 = m at *
  have h3 := mulX_spec m M.m3
  have h1 := mulX_spec m M.m1
  have h0 := mulX_spec m M.m0
  have g3 := mulX_hi_lt m M.m3 (by rw [h.m3]; decide)
  have g1 := mulX_hi_lt m M.m1 h.m1
  have hm1 := h.m1'
  rw [h.m3] at g3
  have := m.toNat_lt
  generalize mulX m M.m3 = q3 at *
  generalize mulX m M.m1 = q1 at *
  generalize mulX m M.m0 = q0 at *
  obtain ⟨s, c⟩ := addCarry_spec 0 q0.2 q1.1 (by decide)
  generalize addCarry 0 q0.2 q1.1 = r at *
  have e30 := toUInt64_add_toNat r.2 q1.2 (by omega)
  generalize r.2.toUInt64 + q1.2 = x30 at *
  obtain ⟨s0, c0⟩ := addCarry_spec 0 t.l0 q0.1 (by decide)
  generalize addCarry 0 t.l0 q0.1 = r0 at *
  obtain ⟨s1, c1⟩ := addCarry_spec r0.2 t.l1 r.1 c0
  generalize addCarry r0.2 t.l1 r.1 = r1 at *
  obtain ⟨s2, c2⟩ := addCarry_spec r1.2 t.l2 x30 c1
  generalize addCarry r1.2 t.l2 x30 = r2 at *
  obtain ⟨s3, c3⟩ := addCarry_spec r2.2 t.l3 q3.1 c2
  generalize addCarry r2.2 t.l3 q3.1 = r3 at *
  simp only [UInt8.toNat_zero] at s s0
  have := r0.1.toNat_lt
  unfold Limbs.val
  refine ⟨by omega, c3, g3⟩

theorem redRow_spec (h : M.Ok) (t : W5) : ∃ k, k < 2 ^ 64 ∧
    2 ^ 64 * ((redRow M t).1.val + 2 ^ 256 * (redRow M t).2.toNat) = t.val + k * M.m ∧ (redRow M t).2.toNat ≤ 1 := by
  obtain ⟨k, hk, e, c, g⟩ := redRow4_spec h t.lo
  refine ⟨k, hk, ?_⟩
  have hr : redRow M t = (⟨(redRow4 M t.lo).1, (redRow4 M t.lo).2.1, (redRow4 M t.lo).2.2.1,
      (addCarry (redRow4 M t.lo).2.2.2.1 t.l4 (redRow4 M t.lo).2.2.2.2).1⟩,
      (addCarry (redRow4 M t.lo).2.2.2.1 t.l4 (redRow4 M t.lo).2.2.2.2).2) := rfl
  rw [hr]
  generalize redRow4 M t.lo = r at *
  obtain ⟨s, c'⟩ := addCarry_spec r.2.2.2.1 t.l4 r.2.2.2.2 c
  generalize addCarry r.2.2.2.1 t.l4 r.2.2.2.2 = u at *
  unfold W5.val
  generalize t.lo.val = T at *
  unfold Limbs.val
  dsimp only
  refine ⟨?_, c'⟩
  generalize k * M.m = K at *
  omega

theorem addRow_spec (a b : W5) : (addRow a b).1.val + 2 ^ 320 * (addRow a b).2.toNat = a.val + b.val ∧
    (addRow a b).2.toNat ≤ 1 := by
  unfold addRow; dsimp only
  obtain ⟨s0, c0⟩ := addCarry_spec 0 a.lo.l0 b.lo.l0 (by decide)
  generalize addCarry 0 a.lo.l0 b.lo.l0 = r0 at *
  obtain ⟨s1, c1⟩ := addCarry_spec r0.2 a.lo.l1 b.lo.l1 c0
  generalize addCarry r0.2 a.lo.l1 b.lo.l1 = r1 at *
  obtain ⟨s2, c2⟩ := addCarry_spec r1.2 a.lo.l2 b.lo.l2 c1
  generalize addCarry r1.2 a.lo.l2 b.lo.l2 = r2 at *
  obtain ⟨s3, c3⟩ := addCarry_spec r2.2 a.lo.l3 b.lo.l3 c2
  generalize addCarry r2.2 a.lo.l3 b.lo.l3 = r3 at *
  obtain ⟨s4, c4⟩ := addCarry_spec r3.2 a.l4 b.l4 c3
  generalize addCarry r3.2 a.l4 b.l4 = r4 at *
  simp only [UInt8.toNat_zero] at s0
  unfold W5.val Limbs.val; dsimp only
  refine ⟨by omega, c4⟩

theorem mulStep_spec (h : M.Ok) (acc : W5) (x : UInt64) (b : Limbs) : ∃ k, k < 2 ^ 64 ∧
    2 ^ 64 * (mulStep M acc x b).val = acc.val + x.toNat * b.val + k * M.m := by
  unfold mulStep; dsimp only
  obtain ⟨s, c⟩ := addRow_spec acc (mulRow x b)
  rw [mulRow_spec] at s
  generalize addRow acc (mulRow x b) = t at *
  obtain ⟨k, hk, e, c'⟩ := redRow_spec h t.1
  generalize redRow M t.1 = r at *
  refine ⟨k, hk, ?_⟩
  have e2 : (r.2.toUInt64 + t.2.toUInt64).toNat = r.2.toNat + t.2.toNat := by
    rw [UInt64.toNat_add, UInt8.toNat_toUInt64, UInt8.toNat_toUInt64, Nat.mod_eq_of_lt (by omega)]
  show 2 ^ 64 * (r.1.val + 2 ^ 256 * (r.2.toUInt64 + t.2.toUInt64).toNat) = _
  rw [e2]
  generalize k * M.m = K at *
  generalize x.toNat * b.val = X at *
  generalize t.1.val = T at *
  omega

theorem condSub_spec (h : M.Ok) (t : W5) (ht : t.val < 2 * M.m) :
    (condSub M t).val = t.val % M.m := by
  unfold condSub; dsimp only
  have hm := h.m_lt
  obtain ⟨s0, c0⟩ := subBorrow_spec 0 t.lo.l0 M.m0 (by decide)
  generalize subBorrow 0 t.lo.l0 M.m0 = r0 at *
  obtain ⟨s1, c1⟩ := subBorrow_spec r0.2 t.lo.l1 M.m1 c0
  generalize subBorrow r0.2 t.lo.l1 M.m1 = r1 at *
  obtain ⟨s2, c2⟩ := subBorrow_spec r1.2 t.lo.l2 0 c1
  generalize subBorrow r1.2 t.lo.l2 0 = r2 at *
  obtain ⟨s3, c3⟩ := subBorrow_spec r2.2 t.lo.l3 M.m3 c2
  generalize subBorrow r2.2 t.lo.l3 M.m3 = r3 at *
  obtain ⟨s4, c4⟩ := subBorrow_spec r3.2 t.l4 0 c3
  generalize subBorrow r3.2 t.l4 0 = r4 at *
  simp only [cmov_spec _ c4]
  simp only [UInt8.toNat_zero, UInt64.toNat_zero] at s0 s2 s4
  have := r0.1.toNat_lt; have := r1.1.toNat_lt; have := r2.1.toNat_lt; have := r3.1.toNat_lt
  have := t.lo.l0.toNat_lt; have := t.lo.l1.toNat_lt; have := t.lo.l2.toNat_lt; have := t.lo.l3.toNat_lt
  have hv : t.val = t.lo.l0.toNat + 2 ^ 64 * t.lo.l1.toNat + 2 ^ 128 * t.lo.l2.toNat + 2 ^ 192 * t.lo.l3.toNat +
    2 ^ 256 * t.l4.toNat := rfl
  have hmm : M.m = M.m0.toNat + 2 ^ 64 * M.m1.toNat + 2 ^ 192 * M.m3.toNat := rfl
  have h4 := r4.1.toNat_lt
  by_cases hb : r4.2.toNat = 0
  · simp only [hb, if_true, Limbs.val]
    rw [hb] at s4
    have : t.val = M.m + (r0.1.toNat + 2 ^ 64 * r1.1.toNat + 2 ^ 128 * r2.1.toNat + 2 ^ 192 * r3.1.toNat) := by
      omega
    rw [Nat.mod_eq_sub_mod (by omega), Nat.mod_eq_of_lt (by omega)]
    omega
  · simp only [hb, if_false]
    have hb1 : r4.2.toNat = 1 := by omega
    rw [hb1] at s4
    have : t.val < M.m := by omega
    rw [Nat.mod_eq_of_lt this]
    have : t.l4.toNat = 0 := by omega
    unfold Limbs.val; dsimp only
    omega

/-- the Montgomery product: correct as soon as the product is below `2^256 m`, so for one reduced argument. -/
theorem mul_spec (h : M.Ok) (a b : Limbs) (hab : a.val * b.val < 2 ^ 256 * M.m) :
    (mul M a b).val < M.m ∧ (mul M a b).val * 2 ^ 256 ≡ a.val * b.val [MOD M.m] := by
  have hmp := h.m_pos
  unfold mul; dsimp only
  obtain ⟨k0, hk0, e0, c0⟩ := redRow_spec h (mulRow a.l0 b)
  rw [mulRow_spec] at e0
  generalize redRow M (mulRow a.l0 b) = r0 at *
  have ea0 : (⟨r0.1, r0.2.toUInt64⟩ : W5).val = r0.1.val + 2 ^ 256 * r0.2.toNat := by
    unfold W5.val; rw [UInt8.toNat_toUInt64]
  rw [← ea0] at e0
  generalize (⟨r0.1, r0.2.toUInt64⟩ : W5) = a0 at *
  obtain ⟨k1, hk1, e1⟩ := mulStep_spec h a0 a.l1 b
  generalize mulStep M a0 a.l1 b = a1 at *
  obtain ⟨k2, hk2, e2⟩ := mulStep_spec h a1 a.l2 b
  generalize mulStep M a1 a.l2 b = a2 at *
  obtain ⟨k3, hk3, e3⟩ := mulStep_spec h a2 a.l3 b
  generalize mulStep M a2 a.l3 b = a3 at *
  have key : 2 ^ 256 * a3.val = a.val * b.val + (k0 + 2 ^ 64 * k1 + 2 ^ 128 * k2 + 2 ^ 192 * k3) * M.m := by
    have ev : a.val * b.val = a.l0.toNat * b.val + 2 ^ 64 * (a.l1.toNat * b.val) + 2 ^ 128 * (a.l2.toNat * b.val) +
        2 ^ 192 * (a.l3.toNat * b.val) := by
      conv_lhs => rw [Limbs.val]
      ring
    rw [ev, Nat.add_mul, Nat.add_mul, Nat.add_mul, Nat.mul_assoc, Nat.mul_assoc, Nat.mul_assoc]
    generalize k0 * M.m = K0 at *
    generalize k1 * M.m = K1 at *
    generalize k2 * M.m = K2 at *
    generalize k3 * M.m = K3 at *
    generalize a.l0.toNat * b.val = X0 at *
    generalize a.l1.toNat * b.val = X1 at *
    generalize a.l2.toNat * b.val = X2 at *
    generalize a.l3.toNat * b.val = X3 at *
    omega
  have hK : k0 + 2 ^ 64 * k1 + 2 ^ 128 * k2 + 2 ^ 192 * k3 < 2 ^ 256 := by omega
  generalize k0 + 2 ^ 64 * k1 + 2 ^ 128 * k2 + 2 ^ 192 * k3 = K at *
  have hlt : a3.val < 2 * M.m := by
    have : K * M.m ≤ 2 ^ 256 * M.m := Nat.mul_le_mul_right _ hK.le
    generalize K * M.m = KM at *
    generalize a.val * b.val = AB at *
    omega
  rw [condSub_spec h a3 hlt]
  refine ⟨Nat.mod_lt _ (by omega), ?_⟩
  calc a3.val % M.m * 2 ^ 256 ≡ a3.val * 2 ^ 256 [MOD M.m] := (Nat.mod_modEq _ _).mul_right _
    _ = a.val * b.val + K * M.m := by rw [← key, Nat.mul_comm]
    _ ≡ a.val * b.val [MOD M.m] := by unfold Nat.ModEq; rw [Nat.add_mul_mod_self_right]

theorem add_spec (h : M.Ok) (a b : Limbs) (hab : a.val + b.val < 2 * M.m) :
    (add M a b).val = (a.val + b.val) % M.m := by
  unfold add; dsimp only
  obtain ⟨s0, c0⟩ := addCarry_spec 0 a.l0 b.l0 (by decide)
  generalize addCarry 0 a.l0 b.l0 = r0 at *
  obtain ⟨s1, c1⟩ := addCarry_spec r0.2 a.l1 b.l1 c0
  generalize addCarry r0.2 a.l1 b.l1 = r1 at *
  obtain ⟨s2, c2⟩ := addCarry_spec r1.2 a.l2 b.l2 c1
  generalize addCarry r1.2 a.l2 b.l2 = r2 at *
  obtain ⟨s3, c3⟩ := addCarry_spec r2.2 a.l3 b.l3 c2
  generalize addCarry r2.2 a.l3 b.l3 = r3 at *
  simp only [UInt8.toNat_zero] at s0
  have e : (⟨⟨r0.1, r1.1, r2.1, r3.1⟩, r3.2.toUInt64⟩ : W5).val = a.val + b.val := by
    unfold W5.val; rw [UInt8.toNat_toUInt64]
    unfold Limbs.val; dsimp only
    omega
  rw [condSub_spec h _ (by rw [e]; exact hab), e]

/-- four-word addition. -/
theorem add4 {a0 a1 a2 a3 b0 b1 b2 b3 : UInt64} {u0 u1 u2 u3 : UInt64 × UInt8}
    (h0 : u0 = addCarry 0 a0 b0) (h1 : u1 = addCarry u0.2 a1 b1) (h2 : u2 = addCarry u1.2 a2 b2)
    (h3 : u3 = addCarry u2.2 a3 b3) :
    (⟨u0.1, u1.1, u2.1, u3.1⟩ : Limbs).val + 2 ^ 256 * u3.2.toNat =
      (⟨a0, a1, a2, a3⟩ : Limbs).val + (⟨b0, b1, b2, b3⟩ : Limbs).val ∧ u3.2.toNat ≤ 1 := by
  obtain ⟨t0, d0⟩ := addCarry_spec 0 a0 b0 (by decide)
  rw [← h0] at t0 d0
  obtain ⟨t1, d1⟩ := addCarry_spec u0.2 a1 b1 d0
  rw [← h1] at t1 d1
  obtain ⟨t2, d2⟩ := addCarry_spec u1.2 a2 b2 d1
  rw [← h2] at t2 d2
  obtain ⟨t3, d3⟩ := addCarry_spec u2.2 a3 b3 d2
  rw [← h3] at t3 d3
  clear h0 h1 h2 h3
  simp only [UInt8.toNat_zero] at t0
  refine ⟨?_, d3⟩
  unfold Limbs.val; dsimp only
  omega

/-- four-word subtraction. -/
theorem sub4 {a0 a1 a2 a3 b0 b1 b2 b3 : UInt64} {u0 u1 u2 u3 : UInt64 × UInt8}
    (h0 : u0 = subBorrow 0 a0 b0) (h1 : u1 = subBorrow u0.2 a1 b1) (h2 : u2 = subBorrow u1.2 a2 b2)
    (h3 : u3 = subBorrow u2.2 a3 b3) :
    (⟨u0.1, u1.1, u2.1, u3.1⟩ : Limbs).val + (⟨b0, b1, b2, b3⟩ : Limbs).val =
      (⟨a0, a1, a2, a3⟩ : Limbs).val + 2 ^ 256 * u3.2.toNat ∧ u3.2.toNat ≤ 1 := by
  obtain ⟨t0, d0⟩ := subBorrow_spec 0 a0 b0 (by decide)
  rw [← h0] at t0 d0
  obtain ⟨t1, d1⟩ := subBorrow_spec u0.2 a1 b1 d0
  rw [← h1] at t1 d1
  obtain ⟨t2, d2⟩ := subBorrow_spec u1.2 a2 b2 d1
  rw [← h2] at t2 d2
  obtain ⟨t3, d3⟩ := subBorrow_spec u2.2 a3 b3 d2
  rw [← h3] at t3 d3
  clear h0 h1 h2 h3
  simp only [UInt8.toNat_zero] at t0
  refine ⟨?_, d3⟩
  unfold Limbs.val; dsimp only
  omega

theorem and_zero64 (z : UInt64) : (0 : UInt64) &&& z = 0 := by
  apply UInt64.toBitVec_inj.mp; simp

theorem and_ones64 (z : UInt64) : (0xffffffffffffffff : UInt64) &&& z = z := by
  rw [show (0xffffffffffffffff : UInt64) = -1 by decide]
  apply UInt64.toBitVec_inj.mp; simp

theorem sub_spec (h : M.Ok) (a b : Limbs) (ha : a.val < M.m) (hb : b.val < M.m) :
    (sub M a b).val = (a.val + (M.m - b.val)) % M.m := by
  unfold sub; dsimp only
  have hm := h.m_lt
  obtain ⟨s, c⟩ := sub4 (a0 := a.l0) (b0 := b.l0) (a1 := a.l1) (b1 := b.l1) (a2 := a.l2) (b2 := b.l2)
    (a3 := a.l3) (b3 := b.l3) rfl rfl rfl rfl
  generalize subBorrow 0 a.l0 b.l0 = r0 at *
  generalize subBorrow r0.2 a.l1 b.l1 = r1 at *
  generalize subBorrow r1.2 a.l2 b.l2 = r2 at *
  generalize subBorrow r2.2 a.l3 b.l3 = r3 at *
  change _ + b.val = a.val + _ at s
  rw [cmov_spec _ c]
  by_cases hbw : r3.2.toNat = 0
  · simp only [hbw, if_true, and_zero64]
    obtain ⟨t, d⟩ := add4 (a0 := r0.1) (b0 := 0) (a1 := r1.1) (b1 := 0) (a2 := r2.1) (b2 := 0)
      (a3 := r3.1) (b3 := 0) rfl rfl rfl rfl
    generalize addCarry 0 r0.1 0 = u0 at *
    generalize addCarry u0.2 r1.1 0 = u1 at *
    generalize addCarry u1.2 r2.1 0 = u2 at *
    generalize addCarry u2.2 r3.1 0 = u3 at *
    rw [hbw] at s
    have hz : (⟨0, 0, 0, 0⟩ : Limbs).val = 0 := by decide
    rw [hz] at t
    generalize (⟨u0.1, u1.1, u2.1, u3.1⟩ : Limbs) = u at *
    generalize (⟨r0.1, r1.1, r2.1, r3.1⟩ : Limbs) = r at *
    rw [show a.val + (M.m - b.val) = M.m + u.val by omega, Nat.add_mod_left, Nat.mod_eq_of_lt (by omega)]
  · have hb1 : r3.2.toNat = 1 := by omega
    simp only [hbw, if_false, and_ones64]
    obtain ⟨t, d⟩ := add4 (a0 := r0.1) (b0 := M.m0) (a1 := r1.1) (b1 := M.m1) (a2 := r2.1) (b2 := 0)
      (a3 := r3.1) (b3 := M.m3) rfl rfl rfl rfl
    generalize addCarry 0 r0.1 M.m0 = u0 at *
    generalize addCarry u0.2 r1.1 M.m1 = u1 at *
    generalize addCarry u1.2 r2.1 0 = u2 at *
    generalize addCarry u2.2 r3.1 M.m3 = u3 at *
    rw [hb1] at s
    have hz : (⟨M.m0, M.m1, 0, M.m3⟩ : Limbs).val = M.m := by
      unfold Limbs.val Md.m; dsimp only; rw [UInt64.toNat_zero]; omega
    rw [hz] at t
    have hu := Limbs.val_lt ⟨u0.1, u1.1, u2.1, u3.1⟩
    have hr := Limbs.val_lt ⟨r0.1, r1.1, r2.1, r3.1⟩
    generalize (⟨u0.1, u1.1, u2.1, u3.1⟩ : Limbs) = u at *
    generalize (⟨r0.1, r1.1, r2.1, r3.1⟩ : Limbs) = r at *
    rw [show a.val + (M.m - b.val) = u.val by omega, Nat.mod_eq_of_lt (by omega)]

theorem fromRow0_spec (h : M.Ok) (a0 a1 : UInt64) : ∃ k, k < 2 ^ 64 ∧
    2 ^ 64 * (fromRow0 M a0 a1).val = a0.toNat + 2 ^ 64 * a1.toNat + k * M.m := by
  refine ⟨(mulX a0 M.ninv).1.toNat, UInt64.toNat_lt _, ?_⟩
  unfold fromRow0; dsimp only
  obtain ⟨k, hk⟩ := low_zero h a0
  rw [mul_m_expand]
  generalize (mulX a0 M.ninv).1 = m at *
  have h3 := mulX_spec m M.m3
  have h1 := mulX_spec m M.m1
  have h0 := mulX_spec m M.m0
  have g1 := mulX_hi_lt m M.m1 h.m1
  have hm1 := h.m1'
  have := m.toNat_lt
  generalize mulX m M.m3 = q3 at *
  generalize mulX m M.m1 = q1 at *
  generalize mulX m M.m0 = q0 at *
  obtain ⟨s, c⟩ := addCarry_spec 0 q0.2 q1.1 (by decide)
  generalize addCarry 0 q0.2 q1.1 = r at *
  have e1 := toUInt64_add_toNat r.2 q1.2 (by omega)
  generalize r.2.toUInt64 + q1.2 = x1 at *
  obtain ⟨s0, c0⟩ := addCarry_spec 0 a0 q0.1 (by decide)
  generalize addCarry 0 a0 q0.1 = r0 at *
  obtain ⟨s1, c1⟩ := addCarry_spec r0.2 0 r.1 c0
  generalize addCarry r0.2 0 r.1 = r1 at *
  have e2 := toUInt64_add_toNat r1.2 x1 (by omega)
  generalize r1.2.toUInt64 + x1 = x2 at *
  obtain ⟨s2, c2⟩ := addCarry_spec 0 r1.1 a1 (by decide)
  generalize addCarry 0 r1.1 a1 = r2 at *
  have e3 := toUInt64_add_toNat r2.2 x2 (by omega)
  generalize r2.2.toUInt64 + x2 = x3 at *
  simp only [UInt8.toNat_zero, UInt64.toNat_zero] at s s0 s1 s2
  have := r0.1.toNat_lt
  unfold Limbs.val; dsimp only
  omega

/-- the number held by the outputs of `redRow4`. -/
def accVal (r : UInt64 × UInt64 × UInt64 × UInt8 × UInt64) : Nat :=
  r.1.toNat + 2 ^ 64 * r.2.1.toNat + 2 ^ 128 * r.2.2.1.toNat + 2 ^ 192 * (r.2.2.2.1.toNat + r.2.2.2.2.toNat)

theorem fromAdd_spec (r : UInt64 × UInt64 × UInt64 × UInt8 × UInt64) (hc : r.2.2.2.1.toNat ≤ 1)
    (hh : r.2.2.2.2.toNat < 2 ^ 62) (x : UInt64) : (fromAdd r x).val = accVal r + x.toNat := by
  unfold fromAdd accVal; dsimp only
  obtain ⟨s0, c0⟩ := addCarry_spec 0 r.1 x (by decide)
  generalize addCarry 0 r.1 x = r0 at *
  obtain ⟨s1, c1⟩ := addCarry_spec r0.2 r.2.1 0 c0
  generalize addCarry r0.2 r.2.1 0 = r1 at *
  obtain ⟨s2, c2⟩ := addCarry_spec r1.2 r.2.2.1 0 c1
  generalize addCarry r1.2 r.2.2.1 0 = r2 at *
  have e1 := toUInt64_add_toNat r.2.2.2.1 r.2.2.2.2 (by omega)
  generalize r.2.2.2.1.toUInt64 + r.2.2.2.2 = x1 at *
  have e2 := toUInt64_add_toNat r2.2 x1 (by omega)
  generalize r2.2.toUInt64 + x1 = x2 at *
  simp only [UInt8.toNat_zero, UInt64.toNat_zero] at s0 s1 s2
  unfold Limbs.val; dsimp only
  omega

/-- leaving the Montgomery domain: correct for every 256-bit argument. -/
theorem fromMont_spec (h : M.Ok) (a : Limbs) :
    (fromMont M a).val < M.m ∧ (fromMont M a).val * 2 ^ 256 ≡ a.val [MOD M.m] := by
  have hmp := h.m_pos
  have hml := h.m_lt
  unfold fromMont; dsimp only
  obtain ⟨k0, hk0, e0⟩ := fromRow0_spec h a.l0 a.l1
  generalize fromRow0 M a.l0 a.l1 = t0 at *
  obtain ⟨k1, hk1, e1, c1, g1⟩ := redRow4_spec h t0
  generalize redRow4 M t0 = r1 at *
  have f1 := fromAdd_spec r1 c1 g1 a.l2
  generalize fromAdd r1 a.l2 = t1 at *
  obtain ⟨k2, hk2, e2, c2, g2⟩ := redRow4_spec h t1
  generalize redRow4 M t1 = r2 at *
  have f2 := fromAdd_spec r2 c2 g2 a.l3
  generalize fromAdd r2 a.l3 = t2 at *
  obtain ⟨k3, hk3, e3, c3, g3⟩ := redRow4_spec h t2
  generalize redRow4 M t2 = r3 at *
  have e4 := toUInt64_add_toNat r3.2.2.2.1 r3.2.2.2.2 (by omega)
  generalize r3.2.2.2.1.toUInt64 + r3.2.2.2.2 = x at *
  have ev : (⟨⟨r3.1, r3.2.1, r3.2.2.1, x⟩, 0⟩ : W5).val = accVal r3 := by
    unfold W5.val Limbs.val accVal; dsimp only
    rw [UInt64.toNat_zero]; omega
  change 2 ^ 64 * accVal r1 = _ at e1
  change 2 ^ 64 * accVal r2 = _ at e2
  change 2 ^ 64 * accVal r3 = _ at e3
  generalize (⟨⟨r3.1, r3.2.1, r3.2.2.1, x⟩, 0⟩ : W5) = w at *
  have key : 2 ^ 256 * w.val = a.val + (k0 + 2 ^ 64 * k1 + 2 ^ 128 * k2 + 2 ^ 192 * k3) * M.m := by
    have hav : a.val = a.l0.toNat + 2 ^ 64 * a.l1.toNat + 2 ^ 128 * a.l2.toNat + 2 ^ 192 * a.l3.toNat := rfl
    rw [hav, Nat.add_mul, Nat.add_mul, Nat.add_mul, Nat.mul_assoc, Nat.mul_assoc, Nat.mul_assoc]
    generalize k0 * M.m = K0 at *
    generalize k1 * M.m = K1 at *
    generalize k2 * M.m = K2 at *
    generalize k3 * M.m = K3 at *
    omega
  have hK : k0 + 2 ^ 64 * k1 + 2 ^ 128 * k2 + 2 ^ 192 * k3 < 2 ^ 256 := by omega
  generalize k0 + 2 ^ 64 * k1 + 2 ^ 128 * k2 + 2 ^ 192 * k3 = K at *
  have ha := a.val_lt
  have hlt : w.val < 2 * M.m := by
    have : K * M.m ≤ 2 ^ 256 * M.m := Nat.mul_le_mul_right _ hK.le
    generalize K * M.m = KM at *
    omega
  rw [condSub_spec h w hlt]
  refine ⟨Nat.mod_lt _ (by omega), ?_⟩
  calc w.val % M.m * 2 ^ 256 ≡ w.val * 2 ^ 256 [MOD M.m] := (Nat.mod_modEq _ _).mul_right _
    _ = a.val + K * M.m := by rw [← key, Nat.mul_comm]
    _ ≡ a.val [MOD M.m] := by unfold Nat.ModEq; rw [Nat.add_mul_mod_self_right]

theorem toStep_spec (h : M.Ok) (acc : Limbs) (x : UInt64) (hacc : acc.val ≤ M.r2.val + M.m) :
    ∃ k, k < 2 ^ 64 ∧ 2 ^ 64 * (toStep M acc x).val = acc.val + x.toNat * M.r2.val + k * M.m ∧
      (toStep M acc x).val ≤ M.r2.val + M.m := by
  have hml := h.m_lt
  have hr2 : M.r2.val < M.m := by rw [h.r2]; exact Nat.mod_lt _ (by have := h.m_pos; omega)
  unfold toStep; dsimp only
  obtain ⟨em, cm, gm⟩ := mulRow4_spec x M.r2
  generalize mulRow4 x M.r2 = t at *
  obtain ⟨s0, c0⟩ := addCarry_spec 0 acc.l0 t.1.l0 (by decide)
  generalize addCarry 0 acc.l0 t.1.l0 = r0 at *
  obtain ⟨s1, c1⟩ := addCarry_spec r0.2 acc.l1 t.1.l1 c0
  generalize addCarry r0.2 acc.l1 t.1.l1 = r1 at *
  obtain ⟨s2, c2⟩ := addCarry_spec r1.2 acc.l2 t.1.l2 c1
  generalize addCarry r1.2 acc.l2 t.1.l2 = r2 at *
  obtain ⟨s3, c3⟩ := addCarry_spec r2.2 acc.l3 t.1.l3 c2
  generalize addCarry r2.2 acc.l3 t.1.l3 = r3 at *
  simp only [UInt8.toNat_zero] at s0
  have es : (⟨r0.1, r1.1, r2.1, r3.1⟩ : Limbs).val + 2 ^ 256 * r3.2.toNat = acc.val + t.1.val := by
    unfold Limbs.val; dsimp only; omega
  generalize (⟨r0.1, r1.1, r2.1, r3.1⟩ : Limbs) = u at *
  obtain ⟨k, hk, e, cr, gr⟩ := redRow4_spec h u
  generalize redRow4 M u = r at *
  change 2 ^ 64 * accVal r = _ at e
  refine ⟨k, hk, ?_⟩
  have hx := x.toNat_lt
  have hxr : x.toNat * M.r2.val ≤ (2 ^ 64 - 1) * M.r2.val := Nat.mul_le_mul_right _ (by omega)
  have hkm : k * M.m ≤ (2 ^ 64 - 1) * M.m := Nat.mul_le_mul_right _ (by omega)
  have hA : accVal r = r.1.toNat + 2 ^ 64 * r.2.1.toNat + 2 ^ 128 * r.2.2.1.toNat +
    2 ^ 192 * (r.2.2.2.1.toNat + r.2.2.2.2.toNat) := rfl
  generalize x.toNat * M.r2.val = X at *
  generalize k * M.m = K at *
  -- the exact value of the new accumulator
  have tot : 2 ^ 64 * (accVal r + 2 ^ 192 * (r3.2.toNat + (t.2.1.toNat + t.2.2.toNat))) = acc.val + X + K := by omega
  have e1 := toUInt64_add_toNat t.2.1 t.2.2 (by omega)
  generalize t.2.1.toUInt64 + t.2.2 = y1 at *
  have e2 := toUInt64_add_toNat r3.2 y1 (by omega)
  generalize r3.2.toUInt64 + y1 = y2 at *
  have e3 := toUInt64_add_toNat r.2.2.2.1 y2 (by omega)
  generalize r.2.2.2.1.toUInt64 + y2 = y3 at *
  have e4 : (y3 + r.2.2.2.2).toNat = y3.toNat + r.2.2.2.2.toNat := by
    rw [UInt64.toNat_add, Nat.mod_eq_of_lt (by omega)]
  generalize y3 + r.2.2.2.2 = y4 at *
  have ev : (⟨r.1, r.2.1, r.2.2.1, y4⟩ : Limbs).val =
      accVal r + 2 ^ 192 * (r3.2.toNat + (t.2.1.toNat + t.2.2.toNat)) := by
    unfold Limbs.val; dsimp only; omega
  rw [ev]
  constructor
  · exact tot
  · omega

/-- entering the Montgomery domain: correct for every 256-bit argument. -/
theorem toMont_spec (h : M.Ok) (a : Limbs) :
    (toMont M a).val < M.m ∧ (toMont M a).val ≡ a.val * 2 ^ 256 [MOD M.m] := by
  have hmp := h.m_pos
  have hml := h.m_lt
  have hr2 : M.r2.val < M.m := by rw [h.r2]; exact Nat.mod_lt _ (by omega)
  have hz : (⟨0, 0, 0, 0⟩ : Limbs).val = 0 := by decide
  have h0 : toMont M a = condSub M ⟨toStep M (toStep M (toStep M (⟨(redRow4 M (mulRow4 a.l0 M.r2).1).1,
    (redRow4 M (mulRow4 a.l0 M.r2).1).2.1, (redRow4 M (mulRow4 a.l0 M.r2).1).2.2.1,
    ((redRow4 M (mulRow4 a.l0 M.r2).1).2.2.2.1.toUInt64 +
      ((mulRow4 a.l0 M.r2).2.1.toUInt64 + (mulRow4 a.l0 M.r2).2.2)) +
      (redRow4 M (mulRow4 a.l0 M.r2).1).2.2.2.2⟩) a.l1) a.l2) a.l3, 0⟩ := rfl
  rw [h0]
  obtain ⟨em, cm, gm⟩ := mulRow4_spec a.l0 M.r2
  generalize mulRow4 a.l0 M.r2 = t at *
  obtain ⟨k0, hk0, e0, c0, g0⟩ := redRow4_spec h t.1
  generalize redRow4 M t.1 = r at *
  change 2 ^ 64 * accVal r = _ at e0
  have hA : accVal r = r.1.toNat + 2 ^ 64 * r.2.1.toNat + 2 ^ 128 * r.2.2.1.toNat +
    2 ^ 192 * (r.2.2.2.1.toNat + r.2.2.2.2.toNat) := rfl
  have q0 : 2 ^ 64 * (⟨r.1, r.2.1, r.2.2.1, (r.2.2.2.1.toUInt64 + (t.2.1.toUInt64 + t.2.2)) + r.2.2.2.2⟩ : Limbs).val =
      a.l0.toNat * M.r2.val + k0 * M.m ∧
      (⟨r.1, r.2.1, r.2.2.1, (r.2.2.2.1.toUInt64 + (t.2.1.toUInt64 + t.2.2)) + r.2.2.2.2⟩ : Limbs).val ≤
        M.r2.val + M.m := by
    have hx := a.l0.toNat_lt
    have hxr : a.l0.toNat * M.r2.val ≤ (2 ^ 64 - 1) * M.r2.val := Nat.mul_le_mul_right _ (by omega)
    have hkm : k0 * M.m ≤ (2 ^ 64 - 1) * M.m := Nat.mul_le_mul_right _ (by omega)
    generalize a.l0.toNat * M.r2.val = X at *
    generalize k0 * M.m = K at *
    have tot : 2 ^ 64 * (accVal r + 2 ^ 192 * (t.2.1.toNat + t.2.2.toNat)) = X + K := by omega
    have e1 := toUInt64_add_toNat t.2.1 t.2.2 (by omega)
    generalize t.2.1.toUInt64 + t.2.2 = y1 at *
    have e3 := toUInt64_add_toNat r.2.2.2.1 y1 (by omega)
    generalize r.2.2.2.1.toUInt64 + y1 = y3 at *
    have e4 : (y3 + r.2.2.2.2).toNat = y3.toNat + r.2.2.2.2.toNat := by
      rw [UInt64.toNat_add, Nat.mod_eq_of_lt (by omega)]
    generalize y3 + r.2.2.2.2 = y4 at *
    have ev : (⟨r.1, r.2.1, r.2.2.1, y4⟩ : Limbs).val = accVal r + 2 ^ 192 * (t.2.1.toNat + t.2.2.toNat) := by
      unfold Limbs.val; dsimp only; omega
    rw [ev]
    constructor
    · exact tot
    · omega
  obtain ⟨q0, b0⟩ := q0
  generalize (⟨r.1, r.2.1, r.2.2.1, (r.2.2.2.1.toUInt64 + (t.2.1.toUInt64 + t.2.2)) + r.2.2.2.2⟩ : Limbs) = a0 at *
  obtain ⟨k1, hk1, e1, b1⟩ := toStep_spec h a0 a.l1 b0
  generalize toStep M a0 a.l1 = a1 at *
  obtain ⟨k2, hk2, e2, b2⟩ := toStep_spec h a1 a.l2 b1
  generalize toStep M a1 a.l2 = a2 at *
  obtain ⟨k3, hk3, e3, b3⟩ := toStep_spec h a2 a.l3 b2
  generalize toStep M a2 a.l3 = a3 at *
  have ew : (⟨a3, 0⟩ : W5).val = a3.val := by unfold W5.val; simp
  rw [condSub_spec h _ (by rw [ew]; omega), ew]
  refine ⟨Nat.mod_lt _ (by omega), ?_⟩
  have key : 2 ^ 256 * a3.val = a.val * M.r2.val + (k0 + 2 ^ 64 * k1 + 2 ^ 128 * k2 + 2 ^ 192 * k3) * M.m := by
    have ev : a.val * M.r2.val = a.l0.toNat * M.r2.val + 2 ^ 64 * (a.l1.toNat * M.r2.val) +
        2 ^ 128 * (a.l2.toNat * M.r2.val) + 2 ^ 192 * (a.l3.toNat * M.r2.val) := by
      conv_lhs => rw [Limbs.val]
      ring
    rw [ev, Nat.add_mul, Nat.add_mul, Nat.add_mul, Nat.mul_assoc, Nat.mul_assoc, Nat.mul_assoc]
    clear em e0 hA ev
    generalize k0 * M.m = K0 at *
    generalize k1 * M.m = K1 at *
    generalize k2 * M.m = K2 at *
    generalize k3 * M.m = K3 at *
    generalize a.l0.toNat * M.r2.val = X0 at *
    generalize a.l1.toNat * M.r2.val = X1 at *
    generalize a.l2.toNat * M.r2.val = X2 at *
    generalize a.l3.toNat * M.r2.val = X3 at *
    omega
  have hco : Nat.Coprime M.m (2 ^ 256) := by
    apply Nat.Coprime.pow_right
    suffices hodd : M.m % 2 = 1 by
      show Nat.gcd M.m 2 = 1
      rw [Nat.gcd_comm, Nat.gcd_rec, hodd]; rfl
    have := h.ninv
    unfold Md.m
    rw [h.m3]
    rcases Nat.mod_two_eq_zero_or_one M.m0.toNat with hev | hod
    · exfalso
      obtain ⟨j, hj⟩ := Nat.dvd_of_mod_eq_zero hev
      rw [hj, Nat.mul_assoc] at this
      omega
    · omega
  apply Nat.ModEq.cancel_right_of_coprime (c := 2 ^ 256) hco
  calc a3.val % M.m * 2 ^ 256 ≡ a3.val * 2 ^ 256 [MOD M.m] := (Nat.mod_modEq _ _).mul_right _
    _ = a.val * M.r2.val + (k0 + 2 ^ 64 * k1 + 2 ^ 128 * k2 + 2 ^ 192 * k3) * M.m := by rw [← key, Nat.mul_comm]
    _ ≡ a.val * M.r2.val [MOD M.m] := by unfold Nat.ModEq; rw [Nat.add_mul_mod_self_right]
    _ ≡ a.val * 2 ^ 512 [MOD M.m] := by rw [h.r2]; exact (Nat.mod_modEq _ _).mul_left _
    _ = a.val * 2 ^ 256 * 2 ^ 256 := by rw [Nat.mul_assoc, ← Nat.pow_add]

end Verif.Pasta
