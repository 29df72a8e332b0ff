import Verif.Ed25519.FieldLemmas

/-!
# Encoding and decoding of field elements

`FeToBytes` writes the little-endian encoding of the canonical representative, for every argument with loose limbs, and replaces the
limbs of its argument by canonical ones; `FeFromBytes` reads 255 bits.
-/

namespace Verif.Ed25519

/-- limbs with the bounds of a positional system. -/
structure Canon (f : Fe) : Prop where
  l0 : 0 ≤ f.a0
  u0 : f.a0 < 2 ^ 26
  l1 : 0 ≤ f.a1
  u1 : f.a1 < 2 ^ 25
  l2 : 0 ≤ f.a2
  u2 : f.a2 < 2 ^ 26
  l3 : 0 ≤ f.a3
  u3 : f.a3 < 2 ^ 25
  l4 : 0 ≤ f.a4
  u4 : f.a4 < 2 ^ 26
  l5 : 0 ≤ f.a5
  u5 : f.a5 < 2 ^ 25
  l6 : 0 ≤ f.a6
  u6 : f.a6 < 2 ^ 26
  l7 : 0 ≤ f.a7
  u7 : f.a7 < 2 ^ 25
  l8 : 0 ≤ f.a8
  u8 : f.a8 < 2 ^ 26
  l9 : 0 ≤ f.a9
  u9 : f.a9 < 2 ^ 25

theorem Canon.bd {f : Fe} (h : Canon f) : Bd 67108863 33554431 f := by
  obtain ⟨l0, u0, l1, u1, l2, u2, l3, u3, l4, u4, l5, u5, l6, u6, l7, u7, l8, u8, l9, u9⟩ := h
  constructor <;> omega

theorem Canon.loose {f : Fe} (h : Canon f) : Loose f := h.bd.loose

theorem floor_step {a q v n K : Int} (hK : 0 < K) (hn : 0 < n) (hq : q = v / n) : (a + q) / K = (n * a + v) / (n * K) := by
  subst hq
  rw [← Int.ediv_ediv_of_nonneg (le_of_lt hn), Int.add_comm (n * a) v, Int.add_mul_ediv_left _ _ (ne_of_gt hn), Int.add_comm]

theorem floor26_spec {a b : Int} (ha : -2 ^ 29 ≤ a) (ha' : a ≤ 2 ^ 29) (hb : -2 ^ 29 ≤ b) (hb' : b ≤ 2 ^ 29) :
    floor26 a b = (a % 2 ^ 26, b + a / 2 ^ 26) := by
  unfold floor26
  dsimp only
  rw [i32_eq (by omega) (by omega), i32_eq (by omega) (by omega)]
  congr 1
  omega

theorem floor25_spec {a b : Int} (ha : -2 ^ 29 ≤ a) (ha' : a ≤ 2 ^ 29) (hb : -2 ^ 29 ≤ b) (hb' : b ≤ 2 ^ 29) :
    floor25 a b = (a % 2 ^ 25, b + a / 2 ^ 25) := by
  unfold floor25
  dsimp only
  rw [i32_eq (by omega) (by omega), i32_eq (by omega) (by omega)]
  congr 1
  omega

theorem intCast_P : ((P : ℕ) : Int) = 2 ^ 255 - 19 := by rw [P_eq]; norm_num

set_option maxHeartbeats 2000000 in
theorem feReduce_spec {f : Fe} (hf : Loose f) : Canon (feReduce f) ∧ ival (feReduce f) = ival f % P := by
  obtain ⟨a0, a1, a2, a3, a4, a5, a6, a7, a8, a9⟩ := f
  obtain ⟨l0, u0, l1, u1, l2, u2, l3, u3, l4, u4, l5, u5, l6, u6, l7, u7, l8, u8, l9, u9⟩ := hf
  dsimp only at *
  unfold feReduce
  dsimp only
  rw [i32_eq (x := 19 * a9 + 2 ^ 24) (by omega) (by omega)]
  generalize hq0 : (19 * a9 + 2 ^ 24) / 2 ^ 25 = q0
  have b0 : -100 ≤ q0 ∧ q0 ≤ 100 := by omega
  rw [i32_eq (x := a0 + q0) (by omega) (by omega)]
  generalize hq1 : (a0 + q0) / 2 ^ 26 = q1
  have b1 : -100 ≤ q1 ∧ q1 ≤ 100 := by omega
  rw [i32_eq (x := a1 + q1) (by omega) (by omega)]
  generalize hq2 : (a1 + q1) / 2 ^ 25 = q2
  have b2 : -100 ≤ q2 ∧ q2 ≤ 100 := by omega
  rw [i32_eq (x := a2 + q2) (by omega) (by omega)]
  generalize hq3 : (a2 + q2) / 2 ^ 26 = q3
  have b3 : -100 ≤ q3 ∧ q3 ≤ 100 := by omega
  rw [i32_eq (x := a3 + q3) (by omega) (by omega)]
  generalize hq4 : (a3 + q3) / 2 ^ 25 = q4
  have b4 : -100 ≤ q4 ∧ q4 ≤ 100 := by omega
  rw [i32_eq (x := a4 + q4) (by omega) (by omega)]
  generalize hq5 : (a4 + q4) / 2 ^ 26 = q5
  have b5 : -100 ≤ q5 ∧ q5 ≤ 100 := by omega
  rw [i32_eq (x := a5 + q5) (by omega) (by omega)]
  generalize hq6 : (a5 + q5) / 2 ^ 25 = q6
  have b6 : -100 ≤ q6 ∧ q6 ≤ 100 := by omega
  rw [i32_eq (x := a6 + q6) (by omega) (by omega)]
  generalize hq7 : (a6 + q6) / 2 ^ 26 = q7
  have b7 : -100 ≤ q7 ∧ q7 ≤ 100 := by omega
  rw [i32_eq (x := a7 + q7) (by omega) (by omega)]
  generalize hq8 : (a7 + q7) / 2 ^ 25 = q8
  have b8 : -100 ≤ q8 ∧ q8 ≤ 100 := by omega
  rw [i32_eq (x := a8 + q8) (by omega) (by omega)]
  generalize hq9 : (a8 + q8) / 2 ^ 26 = q9
  have b9 : -100 ≤ q9 ∧ q9 ≤ 100 := by omega
  rw [i32_eq (x := a9 + q9) (by omega) (by omega)]
  generalize hq10 : (a9 + q9) / 2 ^ 25 = q10
  have b10 : -100 ≤ q10 ∧ q10 ≤ 100 := by omega
  have n1 : q1 = (a0 + q0) / 2 ^ 26 := hq1.symm
  generalize hv0 : a0 + q0 = v0 at n1
  have n2 : q2 = (2 ^ 26 * a1 + v0) / 2 ^ 51 := by
    rw [← hq2, floor_step (by norm_num) (by norm_num) n1, show (2 : Int) ^ 26 * 2 ^ 25 = 2 ^ 51 from by norm_num]
  generalize hv1 : 2 ^ 26 * a1 + v0 = v1 at n2
  have n3 : q3 = (2 ^ 51 * a2 + v1) / 2 ^ 77 := by
    rw [← hq3, floor_step (by norm_num) (by norm_num) n2, show (2 : Int) ^ 51 * 2 ^ 26 = 2 ^ 77 from by norm_num]
  generalize hv2 : 2 ^ 51 * a2 + v1 = v2 at n3
  have n4 : q4 = (2 ^ 77 * a3 + v2) / 2 ^ 102 := by
    rw [← hq4, floor_step (by norm_num) (by norm_num) n3, show (2 : Int) ^ 77 * 2 ^ 25 = 2 ^ 102 from by norm_num]
  generalize hv3 : 2 ^ 77 * a3 + v2 = v3 at n4
  have n5 : q5 = (2 ^ 102 * a4 + v3) / 2 ^ 128 := by
    rw [← hq5, floor_step (by norm_num) (by norm_num) n4, show (2 : Int) ^ 102 * 2 ^ 26 = 2 ^ 128 from by norm_num]
  generalize hv4 : 2 ^ 102 * a4 + v3 = v4 at n5
  have n6 : q6 = (2 ^ 128 * a5 + v4) / 2 ^ 153 := by
    rw [← hq6, floor_step (by norm_num) (by norm_num) n5, show (2 : Int) ^ 128 * 2 ^ 25 = 2 ^ 153 from by norm_num]
  generalize hv5 : 2 ^ 128 * a5 + v4 = v5 at n6
  have n7 : q7 = (2 ^ 153 * a6 + v5) / 2 ^ 179 := by
    rw [← hq7, floor_step (by norm_num) (by norm_num) n6, show (2 : Int) ^ 153 * 2 ^ 26 = 2 ^ 179 from by norm_num]
  generalize hv6 : 2 ^ 153 * a6 + v5 = v6 at n7
  have n8 : q8 = (2 ^ 179 * a7 + v6) / 2 ^ 204 := by
    rw [← hq8, floor_step (by norm_num) (by norm_num) n7, show (2 : Int) ^ 179 * 2 ^ 25 = 2 ^ 204 from by norm_num]
  generalize hv7 : 2 ^ 179 * a7 + v6 = v7 at n8
  have n9 : q9 = (2 ^ 204 * a8 + v7) / 2 ^ 230 := by
    rw [← hq9, floor_step (by norm_num) (by norm_num) n8, show (2 : Int) ^ 204 * 2 ^ 26 = 2 ^ 230 from by norm_num]
  generalize hv8 : 2 ^ 204 * a8 + v7 = v8 at n9
  have n10 : q10 = (2 ^ 230 * a9 + v8) / 2 ^ 255 := by
    rw [← hq10, floor_step (by norm_num) (by norm_num) n9, show (2 : Int) ^ 230 * 2 ^ 25 = 2 ^ 255 from by norm_num]
  generalize hv9 : 2 ^ 230 * a9 + v8 = v9 at n10
  generalize hV : ival ⟨a0, a1, a2, a3, a4, a5, a6, a7, a8, a9⟩ = V
  have hV' : v9 = V + q0 := by
    rw [← hV]; unfold ival; dsimp only; rw [← hv9, ← hv8, ← hv7, ← hv6, ← hv5, ← hv4, ← hv3, ← hv2, ← hv1, ← hv0]; ring
  have lo : -2 ^ 232 ≤ V - 2 ^ 230 * a9 ∧ V - 2 ^ 230 * a9 ≤ 2 ^ 232 := by
    rw [← hV]; unfold ival; dsimp only; constructor <;> linarith
  have hq : q10 = V / P := by
    rw [n10, hV', intCast_P]
    clear n1 n2 n3 n4 n5 n6 n7 n8 n9 n10 hq1 hq2 hq3 hq4 hq5 hq6 hq7 hq8 hq9 hq10 hv0 hv1 hv2 hv3 hv4 hv5 hv6 hv7 hv8 hv9 hV hV' b1 b2 b3 b4 b5 b6 b7 b8 b9 b10
    have e1 := Int.emod_add_mul_ediv V (2 ^ 255 - 19)
    have e2 := Int.emod_nonneg V (by norm_num : (2 ^ 255 - 19 : Int) ≠ 0)
    have e3 := Int.emod_lt_of_pos V (by norm_num : (0 : Int) < 2 ^ 255 - 19)
    generalize V / (2 ^ 255 - 19) = q at *
    generalize V % (2 ^ 255 - 19) = r at *
    have f1 : 2 ^ 25 * q0 ≤ 19 * a9 + 2 ^ 24 := by omega
    have f2 : 19 * a9 + 2 ^ 24 < 2 ^ 25 * (q0 + 1) := by omega
    have hq : -4 ≤ q ∧ q ≤ 4 := by constructor <;> linarith [lo.1, lo.2]
    rw [Int.ediv_eq_iff_of_pos (by norm_num)]
    have t1 : -1 < r - 19 * q + q0 := by linarith [lo.1, lo.2, hq.1, hq.2]
    have t2 : r - 19 * q + q0 < 2 ^ 255 := by linarith [lo.1, lo.2, hq.1, hq.2]
    constructor <;> linarith
  have hr1 := Int.emod_nonneg V (by rw [intCast_P]; norm_num : (P : Int) ≠ 0)
  have hr2 := Int.emod_lt_of_pos V (by rw [intCast_P]; norm_num : (0 : Int) < P)
  have hr3 := Int.emod_add_mul_ediv V P
  rw [← hq] at hr3
  clear n1 n2 n3 n4 n5 n6 n7 n8 n9 n10 hq0 hq1 hq2 hq3 hq4 hq5 hq6 hq7 hq8 hq9 hq10 hv0 hv1 hv2 hv3 hv4 hv5 hv6 hv7 hv8 hv9 hV' hq lo b0 b1 b2 b3 b4 b5 b6 b7 b8 b9
  rw [i32_eq (x := a0 + 19 * q10) (by omega) (by omega)]
  generalize hx0 : a0 + 19 * q10 = x0
  rw [floor26_spec (a := x0) (b := a1) (by omega) (by omega) (by omega) (by omega)]
  dsimp only
  have d0 := Int.emod_add_mul_ediv x0 (2 ^ 26)
  have m0 := Int.emod_nonneg x0 (by norm_num : (2 ^ 26 : Int) ≠ 0)
  have M0 := Int.emod_lt_of_pos x0 (by norm_num : (0 : Int) < 2 ^ 26)
  have cb0 : -100 ≤ x0 / 2 ^ 26 ∧ x0 / 2 ^ 26 ≤ 100 := by omega
  generalize x0 % 2 ^ 26 = y0 at *
  generalize x0 / 2 ^ 26 = c0 at *
  generalize hx1 : a1 + c0 = x1
  rw [floor25_spec (a := x1) (b := a2) (by omega) (by omega) (by omega) (by omega)]
  dsimp only
  have d1 := Int.emod_add_mul_ediv x1 (2 ^ 25)
  have m1 := Int.emod_nonneg x1 (by norm_num : (2 ^ 25 : Int) ≠ 0)
  have M1 := Int.emod_lt_of_pos x1 (by norm_num : (0 : Int) < 2 ^ 25)
  have cb1 : -100 ≤ x1 / 2 ^ 25 ∧ x1 / 2 ^ 25 ≤ 100 := by omega
  generalize x1 % 2 ^ 25 = y1 at *
  generalize x1 / 2 ^ 25 = c1 at *
  generalize hx2 : a2 + c1 = x2
  rw [floor26_spec (a := x2) (b := a3) (by omega) (by omega) (by omega) (by omega)]
  dsimp only
  have d2 := Int.emod_add_mul_ediv x2 (2 ^ 26)
  have m2 := Int.emod_nonneg x2 (by norm_num : (2 ^ 26 : Int) ≠ 0)
  have M2 := Int.emod_lt_of_pos x2 (by norm_num : (0 : Int) < 2 ^ 26)
  have cb2 : -100 ≤ x2 / 2 ^ 26 ∧ x2 / 2 ^ 26 ≤ 100 := by omega
  generalize x2 % 2 ^ 26 = y2 at *
  generalize x2 / 2 ^ 26 = c2 at *
  generalize hx3 : a3 + c2 = x3
  rw [floor25_spec (a := x3) (b := a4) (by omega) (by omega) (by omega) (by omega)]
  dsimp only
  have d3 := Int.emod_add_mul_ediv x3 (2 ^ 25)
  have m3 := Int.emod_nonneg x3 (by norm_num : (2 ^ 25 : Int) ≠ 0)
  have M3 := Int.emod_lt_of_pos x3 (by norm_num : (0 : Int) < 2 ^ 25)
  have cb3 : -100 ≤ x3 / 2 ^ 25 ∧ x3 / 2 ^ 25 ≤ 100 := by omega
  generalize x3 % 2 ^ 25 = y3 at *
  generalize x3 / 2 ^ 25 = c3 at *
  generalize hx4 : a4 + c3 = x4
  rw [floor26_spec (a := x4) (b := a5) (by omega) (by omega) (by omega) (by omega)]
  dsimp only
  have d4 := Int.emod_add_mul_ediv x4 (2 ^ 26)
  have m4 := Int.emod_nonneg x4 (by norm_num : (2 ^ 26 : Int) ≠ 0)
  have M4 := Int.emod_lt_of_pos x4 (by norm_num : (0 : Int) < 2 ^ 26)
  have cb4 : -100 ≤ x4 / 2 ^ 26 ∧ x4 / 2 ^ 26 ≤ 100 := by omega
  generalize x4 % 2 ^ 26 = y4 at *
  generalize x4 / 2 ^ 26 = c4 at *
  generalize hx5 : a5 + c4 = x5
  rw [floor25_spec (a := x5) (b := a6) (by omega) (by omega) (by omega) (by omega)]
  dsimp only
  have d5 := Int.emod_add_mul_ediv x5 (2 ^ 25)
  have m5 := Int.emod_nonneg x5 (by norm_num : (2 ^ 25 : Int) ≠ 0)
  have M5 := Int.emod_lt_of_pos x5 (by norm_num : (0 : Int) < 2 ^ 25)
  have cb5 : -100 ≤ x5 / 2 ^ 25 ∧ x5 / 2 ^ 25 ≤ 100 := by omega
  generalize x5 % 2 ^ 25 = y5 at *
  generalize x5 / 2 ^ 25 = c5 at *
  generalize hx6 : a6 + c5 = x6
  rw [floor26_spec (a := x6) (b := a7) (by omega) (by omega) (by omega) (by omega)]
  dsimp only
  have d6 := Int.emod_add_mul_ediv x6 (2 ^ 26)
  have m6 := Int.emod_nonneg x6 (by norm_num : (2 ^ 26 : Int) ≠ 0)
  have M6 := Int.emod_lt_of_pos x6 (by norm_num : (0 : Int) < 2 ^ 26)
  have cb6 : -100 ≤ x6 / 2 ^ 26 ∧ x6 / 2 ^ 26 ≤ 100 := by omega
  generalize x6 % 2 ^ 26 = y6 at *
  generalize x6 / 2 ^ 26 = c6 at *
  generalize hx7 : a7 + c6 = x7
  rw [floor25_spec (a := x7) (b := a8) (by omega) (by omega) (by omega) (by omega)]
  dsimp only
  have d7 := Int.emod_add_mul_ediv x7 (2 ^ 25)
  have m7 := Int.emod_nonneg x7 (by norm_num : (2 ^ 25 : Int) ≠ 0)
  have M7 := Int.emod_lt_of_pos x7 (by norm_num : (0 : Int) < 2 ^ 25)
  have cb7 : -100 ≤ x7 / 2 ^ 25 ∧ x7 / 2 ^ 25 ≤ 100 := by omega
  generalize x7 % 2 ^ 25 = y7 at *
  generalize x7 / 2 ^ 25 = c7 at *
  generalize hx8 : a8 + c7 = x8
  rw [floor26_spec (a := x8) (b := a9) (by omega) (by omega) (by omega) (by omega)]
  dsimp only
  have d8 := Int.emod_add_mul_ediv x8 (2 ^ 26)
  have m8 := Int.emod_nonneg x8 (by norm_num : (2 ^ 26 : Int) ≠ 0)
  have M8 := Int.emod_lt_of_pos x8 (by norm_num : (0 : Int) < 2 ^ 26)
  have cb8 : -100 ≤ x8 / 2 ^ 26 ∧ x8 / 2 ^ 26 ≤ 100 := by omega
  generalize x8 % 2 ^ 26 = y8 at *
  generalize x8 / 2 ^ 26 = c8 at *
  generalize hx9 : a9 + c8 = x9
  rw [floor25_spec (a := x9) (b := 0) (by omega) (by omega) (by omega) (by omega)]
  dsimp only
  have d9 := Int.emod_add_mul_ediv x9 (2 ^ 25)
  have m9 := Int.emod_nonneg x9 (by norm_num : (2 ^ 25 : Int) ≠ 0)
  have M9 := Int.emod_lt_of_pos x9 (by norm_num : (0 : Int) < 2 ^ 25)
  have cb9 : -100 ≤ x9 / 2 ^ 25 ∧ x9 / 2 ^ 25 ≤ 100 := by omega
  generalize x9 % 2 ^ 25 = y9 at *
  generalize x9 / 2 ^ 25 = c9 at *
  refine ⟨⟨m0, M0, m1, M1, m2, M2, m3, M3, m4, M4, m5, M5, m6, M6, m7, M7, m8, M8, m9, M9⟩, ?_⟩
  unfold ival at *
  dsimp only at *
  generalize hY : y0 + 2 ^ 26 * y1 + 2 ^ 51 * y2 + 2 ^ 77 * y3 + 2 ^ 102 * y4 + 2 ^ 128 * y5 + 2 ^ 153 * y6 + 2 ^ 179 * y7 + 2 ^ 204 * y8 + 2 ^ 230 * y9 = Y
  have Y0 : 0 ≤ Y := by linarith
  have Y1 : Y < 2 ^ 255 := by linarith
  have key : Y = V + 19 * q10 - 2 ^ 255 * c9 := by
    linear_combination -hY + hV + 2 ^ 0 * d0 + 2 ^ 26 * d1 + 2 ^ 51 * d2 + 2 ^ 77 * d3 + 2 ^ 102 * d4 + 2 ^ 128 * d5 + 2 ^ 153 * d6 + 2 ^ 179 * d7 + 2 ^ 204 * d8 + 2 ^ 230 * d9 - (2 ^ 0 * hx0 + 2 ^ 26 * hx1 + 2 ^ 51 * hx2 + 2 ^ 77 * hx3 + 2 ^ 102 * hx4 + 2 ^ 128 * hx5 + 2 ^ 153 * hx6 + 2 ^ 179 * hx7 + 2 ^ 204 * hx8 + 2 ^ 230 * hx9)
  rw [intCast_P] at *
  generalize V % (2 ^ 255 - 19) = r at *
  clear d0 m0 M0 cb0 d1 m1 M1 cb1 d2 m2 M2 cb2 d3 m3 M3 cb3 d4 m4 M4 cb4 d5 m5 M5 cb5 d6 m6 M6 cb6 d7 m7 M7 cb7 d8 m8 M8 cb8 d9 m9 M9 cb9 hx0 l0 u0 hx1 l1 u1 hx2 l2 u2 hx3 l3 u3 hx4 l4 u4 hx5 l5 u5 hx6 l6 u6 hx7 l7 u7 hx8 l8 u8 hx9 l9 u9 hY hV
  have : c9 = q10 := by omega
  subst this
  linarith

theorem feReduce_canon {f : Fe} (hf : Loose f) : Canon (feReduce f) := (feReduce_spec hf).1

theorem feReduce_val {f : Fe} (hf : Loose f) : fval (feReduce f) = fval f := by
  unfold fval
  rw [(feReduce_spec hf).2, fcast_iff, Int.emod_emod_of_dvd _ (dvd_refl _)]

theorem ival_reduce {f : Fe} (hf : Loose f) : ival (feReduce f) = ((fval f).val : Int) := by
  rw [(feReduce_spec hf).2]
  unfold fval
  rw [ZMod.val_intCast]

/-! ## Bytes -/

theorem toByte_toNat (x : Int) : ((toByte x).toNat : Int) = x % 256 := by
  unfold toByte
  rw [UInt8.toNat_ofNat']
  omega

theorem orByte_toNat {a b : Int} (k : ℕ) (hk : k ≤ 8) (ha : 0 ≤ a) (ha' : a < 2 ^ k) : ((orByte a (b * 2 ^ k)).toNat : Int) = a + b * 2 ^ k % 256 := by
  unfold orByte
  have hp : (2 : Int) ^ k ≤ 2 ^ 8 := by exact_mod_cast Nat.pow_le_pow_right (by norm_num) hk
  have h1 : (toByte a).toNat = a.toNat := by
    have := toByte_toNat a; rw [Int.emod_eq_of_lt ha (by linarith)] at this; omega
  have h2 : (toByte (b * 2 ^ k)).toNat = (b % 2 ^ (8 - k)).toNat * 2 ^ k := by
    have := toByte_toNat (b * 2 ^ k)
    have e : b * 2 ^ k % 256 = b % 2 ^ (8 - k) * 2 ^ k := by
      rw [show (256 : Int) = 2 ^ (8 - k) * 2 ^ k from by rw [← pow_add, Nat.sub_add_cancel hk]; norm_num]
      rw [mul_comm b, mul_comm _ ((2 : Int) ^ k), mul_comm _ ((2 : Int) ^ k)]; exact Int.mul_emod_mul_of_pos _ _ (by positivity)
    have nn := Int.emod_nonneg b (by positivity : (2 : Int) ^ (8 - k) ≠ 0)
    zify
    rw [this, e, Int.toNat_of_nonneg nn]
  have h3 : ((toByte (b * 2 ^ k)).toNat : Int) = b * 2 ^ k % 256 := toByte_toNat _
  rw [UInt8.toNat_or, h1, Nat.or_comm]
  rw [h2] at h3 ⊢
  have hlt : a.toNat < 2 ^ k := by zify; rw [Int.toNat_of_nonneg ha]; exact ha'
  rw [← Nat.shiftLeft_eq, ← Nat.shiftLeft_add_eq_or_of_lt hlt, Nat.shiftLeft_eq, Nat.cast_add, h3, Int.toNat_of_nonneg ha]
  ring

theorem feBytes_length (f : Fe) : (feBytes f).length = 32 := rfl

set_option maxHeartbeats 2000000 in
theorem feBytes_leNat {f : Fe} (hf : Canon f) : (leNat (feBytes f) : Int) = ival f := by
  obtain ⟨a0, a1, a2, a3, a4, a5, a6, a7, a8, a9⟩ := f
  obtain ⟨l0, u0, l1, u1, l2, u2, l3, u3, l4, u4, l5, u5, l6, u6, l7, u7, l8, u8, l9, u9⟩ := hf
  dsimp only at *
  unfold feBytes
  dsimp only
  simp only [leNat, Nat.cast_add, Nat.cast_mul, Nat.cast_ofNat, Nat.cast_zero, toByte_toNat]
  rw [orByte_toNat (a := a0 / 2 ^ 24) (b := a1) 2 (by norm_num) (by omega) (by omega)]
  rw [orByte_toNat (a := a1 / 2 ^ 22) (b := a2) 3 (by norm_num) (by omega) (by omega)]
  rw [orByte_toNat (a := a2 / 2 ^ 21) (b := a3) 5 (by norm_num) (by omega) (by omega)]
  rw [orByte_toNat (a := a3 / 2 ^ 19) (b := a4) 6 (by norm_num) (by omega) (by omega)]
  rw [orByte_toNat (a := a5 / 2 ^ 24) (b := a6) 1 (by norm_num) (by omega) (by omega)]
  rw [orByte_toNat (a := a6 / 2 ^ 23) (b := a7) 3 (by norm_num) (by omega) (by omega)]
  rw [orByte_toNat (a := a7 / 2 ^ 21) (b := a8) 4 (by norm_num) (by omega) (by omega)]
  rw [orByte_toNat (a := a8 / 2 ^ 20) (b := a9) 6 (by norm_num) (by omega) (by omega)]
  have z0 : 2 ^ 0 * (a0 / 2 ^ 0 % 256) + 2 ^ 8 * (a0 / 2 ^ 8 % 256) + 2 ^ 16 * (a0 / 2 ^ 16 % 256) + 2 ^ 24 * (a0 / 2 ^ 24) = 2 ^ 0 * a0 := by clear l1 u1 l2 u2 l3 u3 l4 u4 l5 u5 l6 u6 l7 u7 l8 u8 l9 u9; omega
  have z1 : (a1 * 2 ^ 2 % 256) + 2 ^ 8 * (a1 / 2 ^ 6 % 256) + 2 ^ 16 * (a1 / 2 ^ 14 % 256) + 2 ^ 24 * (a1 / 2 ^ 22) = 2 ^ 2 * a1 := by clear l0 u0 l2 u2 l3 u3 l4 u4 l5 u5 l6 u6 l7 u7 l8 u8 l9 u9; omega
  have z2 : (a2 * 2 ^ 3 % 256) + 2 ^ 8 * (a2 / 2 ^ 5 % 256) + 2 ^ 16 * (a2 / 2 ^ 13 % 256) + 2 ^ 24 * (a2 / 2 ^ 21) = 2 ^ 3 * a2 := by clear l0 u0 l1 u1 l3 u3 l4 u4 l5 u5 l6 u6 l7 u7 l8 u8 l9 u9; omega
  have z3 : (a3 * 2 ^ 5 % 256) + 2 ^ 8 * (a3 / 2 ^ 3 % 256) + 2 ^ 16 * (a3 / 2 ^ 11 % 256) + 2 ^ 24 * (a3 / 2 ^ 19) = 2 ^ 5 * a3 := by clear l0 u0 l1 u1 l2 u2 l4 u4 l5 u5 l6 u6 l7 u7 l8 u8 l9 u9; omega
  have z4 : (a4 * 2 ^ 6 % 256) + 2 ^ 8 * (a4 / 2 ^ 2 % 256) + 2 ^ 16 * (a4 / 2 ^ 10 % 256) + 2 ^ 24 * (a4 / 2 ^ 18 % 256) = 2 ^ 6 * a4 := by clear l0 u0 l1 u1 l2 u2 l3 u3 l5 u5 l6 u6 l7 u7 l8 u8 l9 u9; omega
  have z5 : 2 ^ 0 * (a5 / 2 ^ 0 % 256) + 2 ^ 8 * (a5 / 2 ^ 8 % 256) + 2 ^ 16 * (a5 / 2 ^ 16 % 256) + 2 ^ 24 * (a5 / 2 ^ 24) = 2 ^ 0 * a5 := by clear l0 u0 l1 u1 l2 u2 l3 u3 l4 u4 l6 u6 l7 u7 l8 u8 l9 u9; omega
  have z6 : (a6 * 2 ^ 1 % 256) + 2 ^ 8 * (a6 / 2 ^ 7 % 256) + 2 ^ 16 * (a6 / 2 ^ 15 % 256) + 2 ^ 24 * (a6 / 2 ^ 23) = 2 ^ 1 * a6 := by clear l0 u0 l1 u1 l2 u2 l3 u3 l4 u4 l5 u5 l7 u7 l8 u8 l9 u9; omega
  have z7 : (a7 * 2 ^ 3 % 256) + 2 ^ 8 * (a7 / 2 ^ 5 % 256) + 2 ^ 16 * (a7 / 2 ^ 13 % 256) + 2 ^ 24 * (a7 / 2 ^ 21) = 2 ^ 3 * a7 := by clear l0 u0 l1 u1 l2 u2 l3 u3 l4 u4 l5 u5 l6 u6 l8 u8 l9 u9; omega
  have z8 : (a8 * 2 ^ 4 % 256) + 2 ^ 8 * (a8 / 2 ^ 4 % 256) + 2 ^ 16 * (a8 / 2 ^ 12 % 256) + 2 ^ 24 * (a8 / 2 ^ 20) = 2 ^ 4 * a8 := by clear l0 u0 l1 u1 l2 u2 l3 u3 l4 u4 l5 u5 l6 u6 l7 u7 l9 u9; omega
  have z9 : (a9 * 2 ^ 6 % 256) + 2 ^ 8 * (a9 / 2 ^ 2 % 256) + 2 ^ 16 * (a9 / 2 ^ 10 % 256) + 2 ^ 24 * (a9 / 2 ^ 18 % 256) = 2 ^ 6 * a9 := by clear l0 u0 l1 u1 l2 u2 l3 u3 l4 u4 l5 u5 l6 u6 l7 u7 l8 u8; omega
  unfold ival
  dsimp only
  linear_combination 2 ^ 0 * z0 + 2 ^ 24 * z1 + 2 ^ 48 * z2 + 2 ^ 72 * z3 + 2 ^ 96 * z4 + 2 ^ 128 * z5 + 2 ^ 152 * z6 + 2 ^ 176 * z7 + 2 ^ 200 * z8 + 2 ^ 224 * z9

theorem feToBytes_length (f : Fe) : (feToBytes f).length = 32 := rfl

theorem feToBytes_spec {f : Fe} (hf : Loose f) : leNat (feToBytes f) = (fval f).val := by
  have h := feBytes_leNat (feReduce_canon hf)
  rw [ival_reduce hf] at h
  exact_mod_cast h

theorem feToBytes_inj {f g : Fe} (hf : Loose f) (hg : Loose g) : feToBytes f = feToBytes g ↔ fval f = fval g := by
  constructor
  · intro h
    have := congrArg leNat h
    rw [feToBytes_spec hf, feToBytes_spec hg] at this
    exact ZMod.val_injective P this
  · intro h
    refine leNat_inj_of_length (by rw [feToBytes_length, feToBytes_length]) ?_
    rw [feToBytes_spec hf, feToBytes_spec hg, h]

theorem feIsNegative_spec {f : Fe} (hf : Loose f) : (feIsNegative f).toNat = (fval f).val % 2 := by
  rw [← feToBytes_spec hf]
  unfold feIsNegative
  generalize feToBytes f = b
  cases b with
  | nil => rfl
  | cons x xs =>
    show (x &&& 1).toNat = _
    rw [UInt8.toNat_and, leNat, show (1 : UInt8).toNat = 1 from rfl, Nat.and_one_is_mod]
    omega

theorem or_foldl_zero (b : Bytes) (a : UInt8) : b.foldl (· ||| ·) a = 0 ↔ a = 0 ∧ ∀ x ∈ b, x = 0 := by
  induction b generalizing a with
  | nil => simp
  | cons y ys ih =>
    rw [List.foldl_cons, ih, UInt8.or_eq_zero_iff]
    simp [and_assoc]

theorem leNat_eq_zero_iff (b : Bytes) : leNat b = 0 ↔ ∀ x ∈ b, x = 0 := by
  induction b with
  | nil => simp [leNat]
  | cons y ys ih =>
    have : y = 0 ↔ y.toNat = 0 := by rw [← UInt8.toNat_inj]; rfl
    simp only [leNat, List.forall_mem_cons, ← ih, this]
    omega

theorem spread_ne (x : UInt8) : (let x := x ||| x >>> 4
    let x := x ||| x >>> 2
    let x := x ||| x >>> 1
    x &&& 1) = if x = 0 then 0 else 1 := by
  have : ∀ n : Fin 256, (let x := UInt8.ofNat n.val
    let x := x ||| x >>> 4
    let x := x ||| x >>> 2
    let x := x ||| x >>> 1
    x &&& 1) = if UInt8.ofNat n.val = 0 then 0 else 1 := by decide +kernel
  have h := this ⟨x.toNat, x.toNat_lt⟩
  simpa using h

theorem feIsNonZero_spec {f : Fe} (hf : Loose f) : feIsNonZero f = if fval f = 0 then 0 else 1 := by
  unfold feIsNonZero
  dsimp only
  rw [spread_ne]
  have : (feToBytes f).foldl (· ||| ·) 0 = 0 ↔ fval f = 0 := by
    rw [or_foldl_zero, ← leNat_eq_zero_iff, feToBytes_spec hf, ZMod.val_eq_zero]
    simp
  simp only [this]

/-! ## Decoding -/

theorem load_bound (s : Bytes) (i n : ℕ) : (leNat ((s.drop i).take n) : Int) < 256 ^ n := by
  have h := leNat_lt ((s.drop i).take n)
  have : 256 ^ ((s.drop i).take n).length ≤ 256 ^ n := Nat.pow_le_pow_right (by norm_num) (List.length_take_le _ _)
  exact_mod_cast lt_of_lt_of_le h this

theorem leNat_take_drop (s : Bytes) (n : ℕ) (h : n ≤ s.length) : leNat s = leNat (s.take n) + 256 ^ n * leNat (s.drop n) := by
  conv_lhs => rw [← List.take_append_drop n s, leNat_append, List.length_take, Nat.min_eq_left h]

theorem leNat_step (s : Bytes) (i n : ℕ) (h : i + n ≤ s.length) :
    leNat (s.drop i) = leNat ((s.drop i).take n) + 256 ^ n * leNat (s.drop (i + n)) := by
  rw [leNat_take_drop (s.drop i) n (by rw [List.length_drop]; omega), List.drop_drop]

set_option maxHeartbeats 1000000 in
theorem feFromBytes_spec {s : Bytes} (h : s.length = 32) :
    Tight (feFromBytes s) ∧ fval (feFromBytes s) = ((leNat s % 2 ^ 255 : ℕ) : F) := by
  unfold feFromBytes load4 load3
  have s0 := leNat_step s 0 4 (by omega)
  have b0 := load_bound s 0 4
  have s1 := leNat_step s 4 3 (by omega)
  have b1 := load_bound s 4 3
  have s2 := leNat_step s 7 3 (by omega)
  have b2 := load_bound s 7 3
  have s3 := leNat_step s 10 3 (by omega)
  have b3 := load_bound s 10 3
  have s4 := leNat_step s 13 3 (by omega)
  have b4 := load_bound s 13 3
  have s5 := leNat_step s 16 4 (by omega)
  have b5 := load_bound s 16 4
  have s6 := leNat_step s 20 3 (by omega)
  have b6 := load_bound s 20 3
  have s7 := leNat_step s 23 3 (by omega)
  have b7 := load_bound s 23 3
  have s8 := leNat_step s 26 3 (by omega)
  have b8 := load_bound s 26 3
  have s9 := leNat_step s 29 3 (by omega)
  have b9 := load_bound s 29 3
  have s10 : leNat (s.drop 32) = 0 := by rw [List.drop_of_length_le (by omega)]; rfl
  rw [List.drop_zero] at s0 b0
  simp only [List.drop_zero]
  norm_num only [Nat.reduceAdd] at s0 b0 s1 b1 s2 b2 s3 b3 s4 b4 s5 b5 s6 b6 s7 b7 s8 b8 s9 b9
  generalize leNat (s.take 4) = v0 at *
  generalize leNat ((s.drop 4).take 3) = v1 at *
  generalize leNat ((s.drop 7).take 3) = v2 at *
  generalize leNat ((s.drop 10).take 3) = v3 at *
  generalize leNat ((s.drop 13).take 3) = v4 at *
  generalize leNat ((s.drop 16).take 4) = v5 at *
  generalize leNat ((s.drop 20).take 3) = v6 at *
  generalize leNat ((s.drop 23).take 3) = v7 at *
  generalize leNat ((s.drop 26).take 3) = v8 at *
  generalize leNat ((s.drop 29).take 3) = v9 at *
  obtain ⟨ht, hv⟩ := feCombine_spec (h0 := (v0 : Int)) (h1 := (v1 : Int) * 2 ^ 6) (h2 := (v2 : Int) * 2 ^ 5) (h3 := (v3 : Int) * 2 ^ 3) (h4 := (v4 : Int) * 2 ^ 2) (h5 := (v5 : Int)) (h6 := (v6 : Int) * 2 ^ 7) (h7 := (v7 : Int) * 2 ^ 5) (h8 := (v8 : Int) * 2 ^ 4) (h9 := (v9 : Int) % 2 ^ 23 * 2 ^ 2) (by omega) (by omega) (by omega) (by omega) (by omega) (by omega) (by omega) (by omega) (by omega) (by omega) (by omega) (by omega) (by omega) (by omega) (by omega) (by omega) (by omega) (by omega) (by omega) (by omega)
  refine ⟨ht, hv.trans ?_⟩
  have : leNat s % 2 ^ 255 = v0 + 2 ^ 32 * v1 + 2 ^ 56 * v2 + 2 ^ 80 * v3 + 2 ^ 104 * v4 + 2 ^ 128 * v5 + 2 ^ 160 * v6 + 2 ^ 184 * v7 + 2 ^ 208 * v8 + 2 ^ 232 * (v9 % 2 ^ 23) := by
    clear ht hv
    rw [s0, s1, s2, s3, s4, s5, s6, s7, s8, s9, s10]
    clear s0 s1 s2 s3 s4 s5 s6 s7 s8 s9 s10
    omega
  rw [this, ← Int.cast_natCast (R := F)]
  refine congrArg (Int.cast (R := F)) ?_
  unfold hval
  push_cast
  ring

end Verif.Ed25519
