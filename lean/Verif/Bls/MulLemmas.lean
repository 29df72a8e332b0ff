import Verif.Bls.FeLemmas

/-!
# Montgomery multiplication of bls12_381/bls/arithmetic_fallback.go
-/

namespace Verif.Bls.Fe

theorem mont_low (c : UInt64) :
    18446744073709551616 * (madd0 (c * inp) 13402431016077863595 c).toNat =
      (c * inp).toNat * 13402431016077863595 + c.toNat := by
  rw [madd0_spec]
  have hc := lt64 c
  simp only [UInt64.toNat_mul, inp, UInt64.reduceToNat]
  omega

theorem mulRound_spec (v : UInt64) (y t : Fe)
    (ht : t.val < y.val + Q) (hy : y.val + Q ≤ 2 ^ 384) :
    ∃ m : ℕ, m < 2 ^ 64 ∧ 2 ^ 64 * (mulRound v y t).val = v.toNat * y.val + t.val + m * Q := by
  have hv := lt64 v
  have e : v.toNat * y.val = v.toNat * y.l0.toNat + 2 ^ 64 * (v.toNat * y.l1.toNat) +
    2 ^ 128 * (v.toNat * y.l2.toNat) + 2 ^ 192 * (v.toNat * y.l3.toNat) +
    2 ^ 256 * (v.toNat * y.l4.toNat) + 2 ^ 320 * (v.toNat * y.l5.toNat) := by
    unfold val; ring
  have hvy : v.toNat * y.val ≤ 18446744073709551615 * y.val := Nat.mul_le_mul_right _ (by omega)
  unfold mulRound
  simp only
  have A0 := madd1_spec v y.l0 t.l0
  generalize madd1 v y.l0 t.l0 = a0 at *
  have K0 := mont_low a0.2
  generalize hm : a0.2 * inp = m at *
  generalize madd0 m 13402431016077863595 a0.2 = k0 at *
  have A1 := madd2_spec v y.l1 a0.1 t.l1
  generalize madd2 v y.l1 a0.1 t.l1 = a1 at *
  have B0 := madd2_spec m 2210141511517208575 k0 a1.2
  generalize madd2 m 2210141511517208575 k0 a1.2 = b0 at *
  have A2 := madd2_spec v y.l2 a1.1 t.l2
  generalize madd2 v y.l2 a1.1 t.l2 = a2 at *
  have B1 := madd2_spec m 7435674573564081700 b0.1 a2.2
  generalize madd2 m 7435674573564081700 b0.1 a2.2 = b1 at *
  have A3 := madd2_spec v y.l3 a2.1 t.l3
  generalize madd2 v y.l3 a2.1 t.l3 = a3 at *
  have B2 := madd2_spec m 7239337960414712511 b1.1 a3.2
  generalize madd2 m 7239337960414712511 b1.1 a3.2 = b2 at *
  have A4 := madd2_spec v y.l4 a3.1 t.l4
  generalize madd2 v y.l4 a3.1 t.l4 = a4 at *
  have B3 := madd2_spec m 5412103778470702295 b2.1 a4.2
  generalize madd2 m 5412103778470702295 b2.1 a4.2 = b3 at *
  have A5 := madd2_spec v y.l5 a4.1 t.l5
  generalize madd2 v y.l5 a4.1 t.l5 = a5 at *
  have B4 := madd3_spec m 1873798617647539866 a5.2 b3.1 a5.1
  generalize madd3 m 1873798617647539866 a5.2 b3.1 a5.1 = b4 at *
  have hml := lt64 m
  clear hm
  refine ⟨m.toNat, hml, ?_⟩
  rw [Q_eq] at *
  simp only [UInt64.reduceToNat] at *
  have tot : v.toNat * y.val + t.val + m.toNat * 0x1a0111ea397fe69a4b1ba7b6434bacd764774b84f38512bf6730d2a0f6b0f6241eabfffeb153ffffb9feffffffffaaab =
    2 ^ 64 * (b0.2.toNat + 2 ^ 64 * b1.2.toNat + 2 ^ 128 * b2.2.toNat + 2 ^ 192 * b3.2.toNat) +
      2 ^ 320 * (m.toNat * 1873798617647539866 + a5.2.toNat + b3.1.toNat + 18446744073709551616 * a5.1.toNat) := by
    rw [e]
    unfold val
    clear hvy ht hy B4 e
    generalize v.toNat * y.l0.toNat = p0 at *
    generalize v.toNat * y.l1.toNat = p1 at *
    generalize v.toNat * y.l2.toNat = p2 at *
    generalize v.toNat * y.l3.toNat = p3 at *
    generalize v.toNat * y.l4.toNat = p4 at *
    generalize v.toNat * y.l5.toNat = p5 at *
    omega
  have B4' := B4 (by
    clear A0 K0 A1 B0 A2 B1 A3 B2 A4 B3 A5 B4 e
    generalize v.toNat * y.val = vy at *
    omega)
  rw [tot]
  clear A0 K0 A1 B0 A2 B1 A3 B2 A4 B3 A5 B4 e tot
  simp only [val]
  omega

theorem mulRound0_spec (v : UInt64) (y : Fe) (hy : y.val + Q ≤ 2 ^ 384) :
    ∃ m : ℕ, m < 2 ^ 64 ∧ 2 ^ 64 * (mulRound0 v y).val = v.toNat * y.val + m * Q := by
  have hv := lt64 v
  have e : v.toNat * y.val = v.toNat * y.l0.toNat + 2 ^ 64 * (v.toNat * y.l1.toNat) +
    2 ^ 128 * (v.toNat * y.l2.toNat) + 2 ^ 192 * (v.toNat * y.l3.toNat) +
    2 ^ 256 * (v.toNat * y.l4.toNat) + 2 ^ 320 * (v.toNat * y.l5.toNat) := by
    unfold val; ring
  have hvy : v.toNat * y.val ≤ 18446744073709551615 * y.val := Nat.mul_le_mul_right _ (by omega)
  unfold mulRound0
  simp only
  have A0 := mul64_spec v y.l0
  generalize mul64 v y.l0 = a0 at *
  have K0 := mont_low a0.2
  generalize hm : a0.2 * inp = m at *
  generalize madd0 m 13402431016077863595 a0.2 = k0 at *
  have A1 := madd1_spec v y.l1 a0.1
  generalize madd1 v y.l1 a0.1 = a1 at *
  have B0 := madd2_spec m 2210141511517208575 k0 a1.2
  generalize madd2 m 2210141511517208575 k0 a1.2 = b0 at *
  have A2 := madd1_spec v y.l2 a1.1
  generalize madd1 v y.l2 a1.1 = a2 at *
  have B1 := madd2_spec m 7435674573564081700 b0.1 a2.2
  generalize madd2 m 7435674573564081700 b0.1 a2.2 = b1 at *
  have A3 := madd1_spec v y.l3 a2.1
  generalize madd1 v y.l3 a2.1 = a3 at *
  have B2 := madd2_spec m 7239337960414712511 b1.1 a3.2
  generalize madd2 m 7239337960414712511 b1.1 a3.2 = b2 at *
  have A4 := madd1_spec v y.l4 a3.1
  generalize madd1 v y.l4 a3.1 = a4 at *
  have B3 := madd2_spec m 5412103778470702295 b2.1 a4.2
  generalize madd2 m 5412103778470702295 b2.1 a4.2 = b3 at *
  have A5 := madd1_spec v y.l5 a4.1
  generalize madd1 v y.l5 a4.1 = a5 at *
  have B4 := madd3_spec m 1873798617647539866 a5.2 b3.1 a5.1
  generalize madd3 m 1873798617647539866 a5.2 b3.1 a5.1 = b4 at *
  have hml := lt64 m
  clear hm
  refine ⟨m.toNat, hml, ?_⟩
  rw [Q_eq] at *
  simp only [UInt64.reduceToNat] at *
  have tot : v.toNat * y.val + m.toNat * 0x1a0111ea397fe69a4b1ba7b6434bacd764774b84f38512bf6730d2a0f6b0f6241eabfffeb153ffffb9feffffffffaaab =
    2 ^ 64 * (b0.2.toNat + 2 ^ 64 * b1.2.toNat + 2 ^ 128 * b2.2.toNat + 2 ^ 192 * b3.2.toNat) +
      2 ^ 320 * (m.toNat * 1873798617647539866 + a5.2.toNat + b3.1.toNat + 18446744073709551616 * a5.1.toNat) := by
    rw [e]
    clear hvy hy B4 e
    generalize v.toNat * y.l0.toNat = p0 at *
    generalize v.toNat * y.l1.toNat = p1 at *
    generalize v.toNat * y.l2.toNat = p2 at *
    generalize v.toNat * y.l3.toNat = p3 at *
    generalize v.toNat * y.l4.toNat = p4 at *
    generalize v.toNat * y.l5.toNat = p5 at *
    omega
  have B4' := B4 (by
    clear A0 K0 A1 B0 A2 B1 A3 B2 A4 B3 A5 B4 e
    generalize v.toNat * y.val = vy at *
    omega)
  rw [tot]
  clear A0 K0 A1 B0 A2 B1 A3 B2 A4 B3 A5 B4 e tot
  simp only [val]
  omega

/-- six rounds: the value before the last conditional subtraction. -/
theorem rounds_spec (x y : Fe) (hy : y.val + Q ≤ 2 ^ 384) :
    ∃ M : ℕ, M < 2 ^ 384 ∧
      2 ^ 384 * (mulRound x.l5 y <| mulRound x.l4 y <| mulRound x.l3 y <| mulRound x.l2 y <|
        mulRound x.l1 y <| mulRound0 x.l0 y).val = x.val * y.val + M * Q := by
  have step : ∀ (v : UInt64) (t m : ℕ), m < 2 ^ 64 → t < y.val + Q →
      v.toNat * y.val + t + m * Q < 2 ^ 64 * (y.val + Q) := by
    intro v t m hm ht
    have h1 : v.toNat * y.val ≤ 18446744073709551615 * y.val :=
      Nat.mul_le_mul_right _ (by have := lt64 v; omega)
    have h2 : m * Q ≤ 18446744073709551615 * Q := Nat.mul_le_mul_right _ (by omega)
    generalize v.toNat * y.val = vy at *
    generalize m * Q = mq at *
    omega
  obtain ⟨m0, hm0, e0⟩ := mulRound0_spec x.l0 y hy
  generalize mulRound0 x.l0 y = t0 at *
  have b0 : t0.val < y.val + Q := by
    have := step x.l0 0 m0 hm0 (by have : 0 < Q := by decide +kernel
                                   omega)
    omega
  obtain ⟨m1, hm1, e1⟩ := mulRound_spec x.l1 y t0 b0 hy
  generalize mulRound x.l1 y t0 = t1 at *
  have b1 : t1.val < y.val + Q := by have := step x.l1 t0.val m1 hm1 b0; omega
  obtain ⟨m2, hm2, e2⟩ := mulRound_spec x.l2 y t1 b1 hy
  generalize mulRound x.l2 y t1 = t2 at *
  have b2 : t2.val < y.val + Q := by have := step x.l2 t1.val m2 hm2 b1; omega
  obtain ⟨m3, hm3, e3⟩ := mulRound_spec x.l3 y t2 b2 hy
  generalize mulRound x.l3 y t2 = t3 at *
  have b3 : t3.val < y.val + Q := by have := step x.l3 t2.val m3 hm3 b2; omega
  obtain ⟨m4, hm4, e4⟩ := mulRound_spec x.l4 y t3 b3 hy
  generalize mulRound x.l4 y t3 = t4 at *
  have b4 : t4.val < y.val + Q := by have := step x.l4 t3.val m4 hm4 b3; omega
  obtain ⟨m5, hm5, e5⟩ := mulRound_spec x.l5 y t4 b4 hy
  generalize mulRound x.l5 y t4 = t5 at *
  refine ⟨m0 + 2 ^ 64 * m1 + 2 ^ 128 * m2 + 2 ^ 192 * m3 + 2 ^ 256 * m4 + 2 ^ 320 * m5, by omega, ?_⟩
  have ex : x.val * y.val = x.l0.toNat * y.val + 2 ^ 64 * (x.l1.toNat * y.val) +
    2 ^ 128 * (x.l2.toNat * y.val) + 2 ^ 192 * (x.l3.toNat * y.val) +
    2 ^ 256 * (x.l4.toNat * y.val) + 2 ^ 320 * (x.l5.toNat * y.val) := by
    simp only [val]; ring
  have em : (m0 + 2 ^ 64 * m1 + 2 ^ 128 * m2 + 2 ^ 192 * m3 + 2 ^ 256 * m4 + 2 ^ 320 * m5) * Q =
    m0 * Q + 2 ^ 64 * (m1 * Q) + 2 ^ 128 * (m2 * Q) + 2 ^ 192 * (m3 * Q) + 2 ^ 256 * (m4 * Q) +
      2 ^ 320 * (m5 * Q) := by ring
  rw [ex, em]
  clear ex em step b0 b1 b2 b3 b4 hm0 hm1 hm2 hm3 hm4 hm5
  generalize x.l0.toNat * y.val = p0 at *
  generalize x.l1.toNat * y.val = p1 at *
  generalize x.l2.toNat * y.val = p2 at *
  generalize x.l3.toNat * y.val = p3 at *
  generalize x.l4.toNat * y.val = p4 at *
  generalize x.l5.toNat * y.val = p5 at *
  generalize m0 * Q = n0 at *
  generalize m1 * Q = n1 at *
  generalize m2 * Q = n2 at *
  generalize m3 * Q = n3 at *
  generalize m4 * Q = n4 at *
  generalize m5 * Q = n5 at *
  omega

/-- Montgomery multiplication: for factors whose product is at most `2^384 · q` the result is
canonical and times `2^384` it is the product modulo `q`. -/
theorem mul_spec (x y : Fe) (hy : y.val + Q ≤ 2 ^ 384) (hxy : x.val * y.val ≤ 2 ^ 384 * Q) :
    (mul x y).val < Q ∧ (2 ^ 384 * (mul x y).val) % Q = (x.val * y.val) % Q := by
  obtain ⟨M, hM, e⟩ := rounds_spec x y hy
  unfold mul
  generalize (mulRound x.l5 y <| mulRound x.l4 y <| mulRound x.l3 y <| mulRound x.l2 y <|
        mulRound x.l1 y <| mulRound0 x.l0 y) = t at *
  have hQ : 0 < Q := by decide +kernel
  have hMQ : M * Q < 2 ^ 384 * Q := Nat.mul_lt_mul_of_pos_right hM hQ
  have ht : t.val < 2 * Q := by
    by_contra h
    have h : 2 * Q ≤ t.val := by omega
    have : 2 ^ 384 * (2 * Q) ≤ 2 ^ 384 * t.val := Nat.mul_le_mul_left _ h
    have e2 : 2 ^ 384 * (2 * Q) = 2 ^ 384 * Q + 2 ^ 384 * Q := by ring
    rw [e, e2] at this
    generalize M * Q = mq at *
    generalize 2 ^ 384 * Q = RQ at *
    omega
  rw [reduce_val t ht]
  refine ⟨Nat.mod_lt _ hQ, ?_⟩
  rw [Nat.mul_mod, Nat.mod_mod, ← Nat.mul_mod, e, Nat.add_mul_mod_self_right]

end Verif.Bls.Fe
