import Verif.C25519.FieldLemmas
import Verif.Ed25519.FieldBytes

/-!
# curve25519_sha256.go: reciprocals, packing and unpacking
-/

set_option maxHeartbeats 4000000

namespace Verif.C25519

open Verif.Ed25519 (Fe i64 i64_eq fval ival hval F P Bd fcast_eq inv_eq_pow toByte toByte_toNat intCast_P)

theorem sqr2N_spec (n : ℕ) {f : Fe} (hf : Red f) : Red (sqr2N n f) ∧ fval (sqr2N n f) = fval f ^ (2 ^ (2 * n)) := by
  induction n generalizing f with
  | zero => exact ⟨hf, by simp [sqr2N]⟩
  | succ n ih =>
    have h1 := sqr_spec hf.lo
    have h2 := sqr_spec h1.1.lo
    obtain ⟨h3, h4⟩ := ih h2.1
    refine ⟨h3, ?_⟩
    show fval (sqr2N n (sqr (sqr f))) = _
    rw [h4, h2.2, h1.2, ← pow_mul, ← pow_mul]
    congr 1
    rw [show 2 * (n + 1) = 2 * n + 1 + 1 from rfl, pow_succ, pow_succ]
    ring

theorem recipChain_spec {z : Fe} (hz : Lo z) :
    (Red (recipChain z).1 ∧ fval (recipChain z).1 = fval z ^ 11) ∧
    (Red (recipChain z).2 ∧ fval (recipChain z).2 = fval z ^ (2 ^ 252 - 4)) := by
  have hS : ∀ {f : Fe} {n : ℕ}, Red f ∧ fval f = fval z ^ n → Red (sqr f) ∧ fval (sqr f) = fval z ^ (n * 2) := by
    intro f n h; exact ⟨(sqr_spec h.1.lo).1, by rw [(sqr_spec h.1.lo).2, h.2, ← pow_mul]⟩
  have hN : ∀ (k : ℕ) {f : Fe} {n : ℕ}, Red f ∧ fval f = fval z ^ n → Red (sqr2N k f) ∧ fval (sqr2N k f) = fval z ^ (n * 2 ^ (2 * k)) := by
    intro k f n h; obtain ⟨a, b⟩ := sqr2N_spec k h.1; exact ⟨a, by rw [b, h.2, ← pow_mul]⟩
  have hM : ∀ {f g : Fe} {n m : ℕ}, Red f ∧ fval f = fval z ^ n → Red g ∧ fval g = fval z ^ m →
      Red (mul f g) ∧ fval (mul f g) = fval z ^ (n + m) := by
    intro f g n m h h'; exact ⟨(mul_spec h.1.lo h'.1.lo).1, by rw [(mul_spec h.1.lo h'.1.lo).2, h.2, h'.2, ← pow_add]⟩
  unfold recipChain
  have s1 : Red (sqr z) ∧ fval (sqr z) = fval z ^ 2 := sqr_spec hz
  dsimp only
  generalize sqr z = v1 at *
  have s2 := hS (hS s1)
  generalize sqr (sqr v1) = v2 at *
  have s3 : Red (mul v2 z) ∧ fval (mul v2 z) = fval z ^ 9 :=
    ⟨(mul_spec s2.1.lo hz).1, by rw [(mul_spec s2.1.lo hz).2, s2.2, ← pow_succ]⟩
  generalize mul v2 z = v3 at *
  have t0 := hM s3 s1
  generalize mul v3 v1 = w0 at *
  have t5 := hM (hS t0) s3
  generalize mul (sqr w0) v3 = w5 at *
  have t10 := hM (hS (hS (hS (hS (hS t5))))) t5
  generalize mul (sqr (sqr (sqr (sqr (sqr w5))))) w5 = w10 at *
  have t20 := hM (hN 4 (hS (hS t10))) t10
  generalize mul (sqr2N 4 (sqr (sqr w10))) w10 = w20 at *
  have t40 := hM (hN 9 (hS (hS t20))) t20
  generalize mul (sqr2N 9 (sqr (sqr w20))) w20 = w40 at *
  have t50 := hM (hN 5 t40) t10
  generalize mul (sqr2N 5 w40) w10 = w50 at *
  have t100 := hM (hN 24 (hS (hS t50))) t50
  generalize mul (sqr2N 24 (sqr (sqr w50))) w50 = w100 at *
  have t200 := hM (hN 49 (hS (hS t100))) t100
  generalize mul (sqr2N 49 (sqr (sqr w100))) w100 = w200 at *
  have t250 := hM (hN 25 t200) t50
  generalize mul (sqr2N 25 w200) w50 = w250 at *
  have t252 := hS (hS t250)
  refine ⟨t0, t252.1, t252.2.trans ?_⟩
  congr 1

theorem recip_spec {z : Fe} (hz : Lo z) : Red (recip z) ∧ fval (recip z) = (fval z)⁻¹ := by
  obtain ⟨h0, h2⟩ := recipChain_spec hz
  unfold recip
  generalize recipChain z = c at *
  obtain ⟨c0, c2⟩ := c
  dsimp only at *
  have a1 := sqr_spec h2.1.lo
  have a2 := sqr_spec a1.1.lo
  have a3 := sqr_spec a2.1.lo
  have a4 := mul_spec a3.1.lo h0.1.lo
  refine ⟨a4.1, ?_⟩
  rw [a4.2, a3.2, a2.2, a1.2, h2.2, h0.2, inv_eq_pow, ← pow_mul, ← pow_mul, ← pow_mul, ← pow_add]
  congr 1

/-! ## Packing -/

/-- limbs in their range, except the last one. -/
structure Nn (f : Fe) : Prop where
  l0 : 0 ≤ f.a0
  u0 : f.a0 ≤ 67108863
  l1 : 0 ≤ f.a1
  u1 : f.a1 ≤ 33554431
  l2 : 0 ≤ f.a2
  u2 : f.a2 ≤ 67108863
  l3 : 0 ≤ f.a3
  u3 : f.a3 ≤ 33554431
  l4 : 0 ≤ f.a4
  u4 : f.a4 ≤ 67108863
  l5 : 0 ≤ f.a5
  u5 : f.a5 ≤ 33554431
  l6 : 0 ≤ f.a6
  u6 : f.a6 ≤ 67108863
  l7 : 0 ≤ f.a7
  u7 : f.a7 ≤ 33554431
  l8 : 0 ≤ f.a8
  u8 : f.a8 ≤ 67108863
  l9 : -16384 ≤ f.a9
  u9 : f.a9 ≤ 67108863

theorem Red.nn {f : Fe} (h : Red f) : Nn f := by
  obtain ⟨l0, u0, l1, u1, l2, u2, l3, u3, l4, u4, l5, u5, l6, u6, l7, u7, l8, u8, l9, u9⟩ := h
  constructor <;> omega

theorem put4_leNat (t : Int) (r : Bytes) : (leNat (put4 t ++ r) : Int) = t % 2 ^ 32 + 2 ^ 32 * leNat r := by
  unfold put4
  simp only [List.cons_append, List.nil_append, leNat, Nat.cast_add, Nat.cast_mul, Nat.cast_ofNat, toByte_toNat]
  omega

/-- the bytes written for the given value of `ld`. -/
def packLd (ld : Int) (x : Fe) : Bytes :=
  let ud := ld * -(p25 + 1)
  let ld := ld * 19
  let t0 := i64 (ld + x.a0 + x.a1 * 2 ^ 26)
  let t1 := i64 (t0 / 2 ^ 32 + x.a2 * 2 ^ 19)
  let t2 := i64 (t1 / 2 ^ 32 + x.a3 * 2 ^ 13)
  let t3 := i64 (t2 / 2 ^ 32 + x.a4 * 2 ^ 6)
  let t4 := i64 (t3 / 2 ^ 32 + x.a5 + x.a6 * 2 ^ 25)
  let t5 := i64 (t4 / 2 ^ 32 + x.a7 * 2 ^ 19)
  let t6 := i64 (t5 / 2 ^ 32 + x.a8 * 2 ^ 12)
  let t7 := i64 (t6 / 2 ^ 32 + (x.a9 + ud) * 2 ^ 6)
  put4 t0 ++ put4 t1 ++ put4 t2 ++ put4 t3 ++ put4 t4 ++ put4 t5 ++ put4 t6 ++ put4 t7

theorem pack_eq (x : Fe) : pack x = packLd (if x.a9 < 0 then (if isOverflow x then 1 else 0) - 1 else (if isOverflow x then 1 else 0)) x := rfl

theorem packLd_leNat {x : Fe} (h : Nn x) {ld : Int} (h0 : -1 ≤ ld) (h1 : ld ≤ 1) :
    (leNat (packLd ld x) : Int) = (ival x - ld * (2 ^ 255 - 19)) % 2 ^ 256 := by
  obtain ⟨a0, a1, a2, a3, a4, a5, a6, a7, a8, a9⟩ := x
  obtain ⟨l0, u0, l1, u1, l2, u2, l3, u3, l4, u4, l5, u5, l6, u6, l7, u7, l8, u8, l9, u9⟩ := h
  unfold packLd p25
  dsimp only at *
  rw [i64_eq (x := ld * 19 + a0 + a1 * 2 ^ 26) (by omega) (by omega)]
  obtain ⟨q0, m0, e0, b0, c0⟩ : ∃ q m, ld * 19 + a0 + a1 * 2 ^ 26 = 2 ^ 32 * q + m ∧ 0 ≤ m ∧ m < 2 ^ 32 := ⟨(ld * 19 + a0 + a1 * 2 ^ 26) / 2 ^ 32, (ld * 19 + a0 + a1 * 2 ^ 26) % 2 ^ 32, by omega, by omega, by omega⟩
  generalize ht0 : ld * 19 + a0 + a1 * 2 ^ 26 = t0 at *
  rw [show t0 / 2 ^ 32 = q0 by omega]
  rw [i64_eq (x := q0 + a2 * 2 ^ 19) (by omega) (by omega)]
  obtain ⟨q1, m1, e1, b1, c1⟩ : ∃ q m, q0 + a2 * 2 ^ 19 = 2 ^ 32 * q + m ∧ 0 ≤ m ∧ m < 2 ^ 32 := ⟨(q0 + a2 * 2 ^ 19) / 2 ^ 32, (q0 + a2 * 2 ^ 19) % 2 ^ 32, by omega, by omega, by omega⟩
  generalize ht1 : q0 + a2 * 2 ^ 19 = t1 at *
  rw [show t1 / 2 ^ 32 = q1 by omega]
  rw [i64_eq (x := q1 + a3 * 2 ^ 13) (by omega) (by omega)]
  obtain ⟨q2, m2, e2, b2, c2⟩ : ∃ q m, q1 + a3 * 2 ^ 13 = 2 ^ 32 * q + m ∧ 0 ≤ m ∧ m < 2 ^ 32 := ⟨(q1 + a3 * 2 ^ 13) / 2 ^ 32, (q1 + a3 * 2 ^ 13) % 2 ^ 32, by omega, by omega, by omega⟩
  generalize ht2 : q1 + a3 * 2 ^ 13 = t2 at *
  rw [show t2 / 2 ^ 32 = q2 by omega]
  rw [i64_eq (x := q2 + a4 * 2 ^ 6) (by omega) (by omega)]
  obtain ⟨q3, m3, e3, b3, c3⟩ : ∃ q m, q2 + a4 * 2 ^ 6 = 2 ^ 32 * q + m ∧ 0 ≤ m ∧ m < 2 ^ 32 := ⟨(q2 + a4 * 2 ^ 6) / 2 ^ 32, (q2 + a4 * 2 ^ 6) % 2 ^ 32, by omega, by omega, by omega⟩
  generalize ht3 : q2 + a4 * 2 ^ 6 = t3 at *
  rw [show t3 / 2 ^ 32 = q3 by omega]
  rw [i64_eq (x := q3 + a5 + a6 * 2 ^ 25) (by omega) (by omega)]
  obtain ⟨q4, m4, e4, b4, c4⟩ : ∃ q m, q3 + a5 + a6 * 2 ^ 25 = 2 ^ 32 * q + m ∧ 0 ≤ m ∧ m < 2 ^ 32 := ⟨(q3 + a5 + a6 * 2 ^ 25) / 2 ^ 32, (q3 + a5 + a6 * 2 ^ 25) % 2 ^ 32, by omega, by omega, by omega⟩
  generalize ht4 : q3 + a5 + a6 * 2 ^ 25 = t4 at *
  rw [show t4 / 2 ^ 32 = q4 by omega]
  rw [i64_eq (x := q4 + a7 * 2 ^ 19) (by omega) (by omega)]
  obtain ⟨q5, m5, e5, b5, c5⟩ : ∃ q m, q4 + a7 * 2 ^ 19 = 2 ^ 32 * q + m ∧ 0 ≤ m ∧ m < 2 ^ 32 := ⟨(q4 + a7 * 2 ^ 19) / 2 ^ 32, (q4 + a7 * 2 ^ 19) % 2 ^ 32, by omega, by omega, by omega⟩
  generalize ht5 : q4 + a7 * 2 ^ 19 = t5 at *
  rw [show t5 / 2 ^ 32 = q5 by omega]
  rw [i64_eq (x := q5 + a8 * 2 ^ 12) (by omega) (by omega)]
  obtain ⟨q6, m6, e6, b6, c6⟩ : ∃ q m, q5 + a8 * 2 ^ 12 = 2 ^ 32 * q + m ∧ 0 ≤ m ∧ m < 2 ^ 32 := ⟨(q5 + a8 * 2 ^ 12) / 2 ^ 32, (q5 + a8 * 2 ^ 12) % 2 ^ 32, by omega, by omega, by omega⟩
  generalize ht6 : q5 + a8 * 2 ^ 12 = t6 at *
  rw [show t6 / 2 ^ 32 = q6 by omega]
  rw [i64_eq (x := q6 + (a9 + ld * -(33554431 + 1)) * 2 ^ 6) (by omega) (by omega)]
  obtain ⟨q7, m7, e7, b7, c7⟩ : ∃ q m, q6 + (a9 + ld * -(33554431 + 1)) * 2 ^ 6 = 2 ^ 32 * q + m ∧ 0 ≤ m ∧ m < 2 ^ 32 := ⟨(q6 + (a9 + ld * -(33554431 + 1)) * 2 ^ 6) / 2 ^ 32, (q6 + (a9 + ld * -(33554431 + 1)) * 2 ^ 6) % 2 ^ 32, by omega, by omega, by omega⟩
  generalize ht7 : q6 + (a9 + ld * -(33554431 + 1)) * 2 ^ 6 = t7 at *
  simp only [List.append_assoc]
  rw [← List.append_nil (put4 t7)]
  rw [put4_leNat, put4_leNat, put4_leNat, put4_leNat, put4_leNat, put4_leNat, put4_leNat, put4_leNat]
  rw [show t0 % 2 ^ 32 = m0 by omega, show t1 % 2 ^ 32 = m1 by omega, show t2 % 2 ^ 32 = m2 by omega, show t3 % 2 ^ 32 = m3 by omega, show t4 % 2 ^ 32 = m4 by omega, show t5 % 2 ^ 32 = m5 by omega, show t6 % 2 ^ 32 = m6 by omega, show t7 % 2 ^ 32 = m7 by omega]
  have key : ival ⟨a0, a1, a2, a3, a4, a5, a6, a7, a8, a9⟩ - ld * (2 ^ 255 - 19) = (m0 + 2 ^ 32 * (m1 + 2 ^ 32 * (m2 + 2 ^ 32 * (m3 + 2 ^ 32 * (m4 + 2 ^ 32 * (m5 + 2 ^ 32 * (m6 + 2 ^ 32 * (m7 + 2 ^ 32 * ((leNat [] : ℕ) : Int))))))))) + 2 ^ 256 * q7 := by
    unfold ival
    dsimp only
    simp only [leNat, Nat.cast_zero]
    linear_combination (e0 + ht0) + 2 ^ 32 * (e1 + ht1) + 2 ^ 64 * (e2 + ht2) + 2 ^ 96 * (e3 + ht3) + 2 ^ 128 * (e4 + ht4) + 2 ^ 160 * (e5 + ht5) + 2 ^ 192 * (e6 + ht6) + 2 ^ 224 * (e7 + ht7)
  rw [key, Int.add_mul_emod_self_left, Int.emod_eq_of_lt]
  · simp only [leNat]; omega
  · simp only [leNat]; omega

theorem word_eq {x : Int} (h0 : 0 ≤ x) (h1 : x < 2 ^ 63) : word x = x.toNat := by
  unfold word; rw [Int.emod_eq_of_lt h0 (by omega)]

/-- the test on the middle limbs. -/
theorem and25 {x : Fe} (h : Nn x) :
    (word x.a1 &&& word x.a3 &&& word x.a5 &&& word x.a7 &&& word x.a9) = word p25 →
      x.a1 = p25 ∧ x.a3 = p25 ∧ x.a5 = p25 ∧ x.a7 = p25 ∧ x.a9 % 2 ^ 25 = p25 := by
  obtain ⟨l0, u0, l1, u1, l2, u2, l3, u3, l4, u4, l5, u5, l6, u6, l7, u7, l8, u8, l9, u9⟩ := h
  intro e
  have w25 : word p25 = 33554431 := by decide
  rw [w25] at e
  rw [word_eq l1 (by omega), word_eq l3 (by omega), word_eq l5 (by omega), word_eq l7 (by omega)] at e
  have h9 := Nat.and_le_right (n := x.a1.toNat &&& x.a3.toNat &&& x.a5.toNat &&& x.a7.toNat) (m := word x.a9)
  have h8 := Nat.and_le_left (n := x.a1.toNat &&& x.a3.toNat &&& x.a5.toNat &&& x.a7.toNat) (m := word x.a9)
  have h7 := Nat.and_le_right (n := x.a1.toNat &&& x.a3.toNat &&& x.a5.toNat) (m := x.a7.toNat)
  have h6 := Nat.and_le_left (n := x.a1.toNat &&& x.a3.toNat &&& x.a5.toNat) (m := x.a7.toNat)
  have h5 := Nat.and_le_right (n := x.a1.toNat &&& x.a3.toNat) (m := x.a5.toNat)
  have h4 := Nat.and_le_left (n := x.a1.toNat &&& x.a3.toNat) (m := x.a5.toNat)
  have h3 := Nat.and_le_right (n := x.a1.toNat) (m := x.a3.toNat)
  have h2 := Nat.and_le_left (n := x.a1.toNat) (m := x.a3.toNat)
  have e1 : x.a1 = 33554431 := by omega
  have e3 : x.a3 = 33554431 := by omega
  have e5 : x.a5 = 33554431 := by omega
  have e7 : x.a7 = 33554431 := by omega
  refine ⟨e1, e3, e5, e7, ?_⟩
  rw [e1, e3, e5, e7] at e
  have : (33554431 : Int).toNat &&& (33554431 : Int).toNat &&& (33554431 : Int).toNat &&& (33554431 : Int).toNat = 2 ^ 25 - 1 := by decide
  rw [this, Nat.and_comm, Nat.and_two_pow_sub_one_eq_mod] at e
  unfold word at e
  unfold p25
  omega

theorem and26 {x : Fe} (h : Nn x) : (word x.a2 &&& word x.a4 &&& word x.a6 &&& word x.a8) = word p26 →
    x.a2 = p26 ∧ x.a4 = p26 ∧ x.a6 = p26 ∧ x.a8 = p26 := by
  obtain ⟨l0, u0, l1, u1, l2, u2, l3, u3, l4, u4, l5, u5, l6, u6, l7, u7, l8, u8, l9, u9⟩ := h
  intro e
  have w26 : word p26 = 67108863 := by decide
  rw [w26] at e
  rw [word_eq l2 (by omega), word_eq l4 (by omega), word_eq l6 (by omega), word_eq l8 (by omega)] at e
  have h7 := Nat.and_le_right (n := x.a2.toNat &&& x.a4.toNat &&& x.a6.toNat) (m := x.a8.toNat)
  have h6 := Nat.and_le_left (n := x.a2.toNat &&& x.a4.toNat &&& x.a6.toNat) (m := x.a8.toNat)
  have h5 := Nat.and_le_right (n := x.a2.toNat &&& x.a4.toNat) (m := x.a6.toNat)
  have h4 := Nat.and_le_left (n := x.a2.toNat &&& x.a4.toNat) (m := x.a6.toNat)
  have h3 := Nat.and_le_right (n := x.a2.toNat) (m := x.a4.toNat)
  have h2 := Nat.and_le_left (n := x.a2.toNat) (m := x.a4.toNat)
  unfold p26
  omega

/-- `isOverflow` tells whether the value is at least the prime, for limbs with a last limb in range. -/
theorem isOverflow_iff {x : Fe} (h : Nn x) (h9 : 0 ≤ x.a9) : isOverflow x = true ↔ 2 ^ 255 - 19 ≤ ival x := by
  have a25 := and25 h
  have a26 := and26 h
  obtain ⟨l0, u0, l1, u1, l2, u2, l3, u3, l4, u4, l5, u5, l6, u6, l7, u7, l8, u8, l9, u9⟩ := h
  unfold isOverflow
  simp only [Bool.or_eq_true, Bool.and_eq_true, decide_eq_true_eq, beq_iff_eq]
  constructor
  · rintro (⟨⟨b0, b1⟩, b2⟩ | b)
    · obtain ⟨c1, c3, c5, c7, c9⟩ := a25 b1
      obtain ⟨c2, c4, c6, c8⟩ := a26 b2
      unfold p25 p26 at *
      unfold ival
      omega
    · unfold p25 at b
      unfold ival
      omega
  · intro hv
    by_cases hb : x.a9 > p25
    · exact Or.inr hb
    · left
      unfold ival at hv
      unfold p25 p26 at *
      have c9 : x.a9 = 33554431 := by omega
      have c8 : x.a8 = 67108863 := by omega
      have c7 : x.a7 = 33554431 := by omega
      have c6 : x.a6 = 67108863 := by omega
      have c5 : x.a5 = 33554431 := by omega
      have c4 : x.a4 = 67108863 := by omega
      have c3 : x.a3 = 33554431 := by omega
      have c2 : x.a2 = 67108863 := by omega
      have c1 : x.a1 = 33554431 := by omega
      have c0 : x.a0 > 67108863 - 19 := by omega
      refine ⟨⟨c0, ?_⟩, ?_⟩
      · rw [c1, c3, c5, c7, c9]; decide
      · rw [c2, c4, c6, c8]; decide

/-- with a negative last limb `isOverflow` is true only for the values `-19 … -1`. -/
theorem isOverflow_neg {x : Fe} (h : Nn x) (h9 : x.a9 < 0) (ho : isOverflow x = true) : -19 ≤ ival x ∧ ival x < 0 := by
  have a25 := and25 h
  have a26 := and26 h
  obtain ⟨l0, u0, l1, u1, l2, u2, l3, u3, l4, u4, l5, u5, l6, u6, l7, u7, l8, u8, l9, u9⟩ := h
  unfold isOverflow at ho
  simp only [Bool.or_eq_true, Bool.and_eq_true, decide_eq_true_eq, beq_iff_eq] at ho
  rcases ho with ⟨⟨b0, b1⟩, b2⟩ | b
  · obtain ⟨c1, c3, c5, c7, c9⟩ := a25 b1
    obtain ⟨c2, c4, c6, c8⟩ := a26 b2
    unfold p25 p26 at *
    unfold ival
    omega
  · unfold p25 at b; omega

/-- packing of limbs with a non-negative last limb: one subtraction of the prime. -/
theorem pack_nonneg {x : Fe} (h : Nn x) (h9 : 0 ≤ x.a9) :
    (leNat (pack x) : Int) = if 2 ^ 255 - 19 ≤ ival x then ival x - (2 ^ 255 - 19) else ival x := by
  have hr : 0 ≤ ival x ∧ ival x < 2 ^ 256 := by
    obtain ⟨l0, u0, l1, u1, l2, u2, l3, u3, l4, u4, l5, u5, l6, u6, l7, u7, l8, u8, l9, u9⟩ := h
    unfold ival
    omega
  rw [pack_eq, if_neg (by omega)]
  by_cases ho : isOverflow x = true
  · rw [if_pos ho, packLd_leNat h (by omega) (by omega), if_pos ((isOverflow_iff h h9).1 ho)]
    have := (isOverflow_iff h h9).1 ho
    rw [Int.emod_eq_of_lt (by omega) (by omega)]
    omega
  · rw [if_neg ho, packLd_leNat h (by omega) (by omega), if_neg (fun c => ho ((isOverflow_iff h h9).2 c))]
    rw [Int.emod_eq_of_lt (by omega) (by omega)]
    omega

theorem pack_length (x : Fe) : (pack x).length = 32 := rfl

/-- packing of the result of a multiplication: the canonical bytes, unless the value is one of `-19 … -1` modulo the prime. -/
theorem pack_spec {x : Fe} (h : Red x) (hv : (fval x).val < P - 19) : leNat (pack x) = (fval x).val := by
  have hval : ((fval x).val : Int) = ival x % P := by unfold fval; rw [ZMod.val_intCast]
  have hP := intCast_P
  have hr : -2 ^ 245 ≤ ival x ∧ ival x < 2 ^ 255 + 2 ^ 245 ∧ (x.a9 < 0 → ival x < 0) ∧ (0 ≤ x.a9 → 0 ≤ ival x) := by
    obtain ⟨l0, u0, l1, u1, l2, u2, l3, u3, l4, u4, l5, u5, l6, u6, l7, u7, l8, u8, l9, u9⟩ := h
    unfold ival
    omega
  by_cases h9 : 0 ≤ x.a9
  · have := pack_nonneg h.nn h9
    have h0 := hr.2.2.2 h9
    zify
    rw [this, hval, hP]
    split
    · rw [Int.emod_eq_sub_self_emod, Int.emod_eq_of_lt (by omega) (by omega)]
    · rw [Int.emod_eq_of_lt (by omega) (by omega)]
  · have h9' : x.a9 < 0 := by omega
    have hneg := hr.2.2.1 h9'
    have e : ival x % P = ival x + P := by
      rw [← Int.add_emod_right]
      rw [hP]
      exact Int.emod_eq_of_lt (by omega) (by omega)
    have ho : ¬ isOverflow x = true := by
      intro ho
      have := isOverflow_neg h.nn h9' ho
      rw [e] at hval
      have : P = 2 ^ 255 - 19 := Verif.Ed25519.P_eq
      omega
    zify
    rw [pack_eq, if_pos h9', if_neg ho, packLd_leNat h.nn (by omega) (by omega), hval, e, hP]
    rw [Int.emod_eq_of_lt (by omega) (by omega)]
    omega

/-! ## Unpacking -/

theorem at_bound (m : Bytes) (i : ℕ) : 0 ≤ at' m i ∧ at' m i < 256 := by
  unfold at'
  have := (m.getD i 0).toNat_lt
  omega

theorem leNat_32 {m : Bytes} (h : m.length = 32) : (leNat m : Int) = 2 ^ 0 * at' m 0 + 2 ^ 8 * at' m 1 + 2 ^ 16 * at' m 2 + 2 ^ 24 * at' m 3 + 2 ^ 32 * at' m 4 + 2 ^ 40 * at' m 5 + 2 ^ 48 * at' m 6 + 2 ^ 56 * at' m 7 + 2 ^ 64 * at' m 8 + 2 ^ 72 * at' m 9 + 2 ^ 80 * at' m 10 + 2 ^ 88 * at' m 11 + 2 ^ 96 * at' m 12 + 2 ^ 104 * at' m 13 + 2 ^ 112 * at' m 14 + 2 ^ 120 * at' m 15 + 2 ^ 128 * at' m 16 + 2 ^ 136 * at' m 17 + 2 ^ 144 * at' m 18 + 2 ^ 152 * at' m 19 + 2 ^ 160 * at' m 20 + 2 ^ 168 * at' m 21 + 2 ^ 176 * at' m 22 + 2 ^ 184 * at' m 23 + 2 ^ 192 * at' m 24 + 2 ^ 200 * at' m 25 + 2 ^ 208 * at' m 26 + 2 ^ 216 * at' m 27 + 2 ^ 224 * at' m 28 + 2 ^ 232 * at' m 29 + 2 ^ 240 * at' m 30 + 2 ^ 248 * at' m 31 := by
  have e : m = (List.range 32).map (fun i => m.getD i 0) := by
    apply List.ext_getElem
    · simp [h]
    · intro i h1 h2
      simp [List.getD_eq_getElem?_getD, h1]
  have e2 : leNat m = leNat ((List.range 32).map (fun i => m.getD i 0)) := by rw [← e]
  rw [e2]
  simp only [List.range_succ, List.range_zero, List.nil_append, List.cons_append, List.map_cons, List.map_nil, leNat]
  unfold at'
  push_cast
  ring

theorem unpack_nn (m : Bytes) : Nn (unpack m) ∧ 0 ≤ (unpack m).a9 := by
  have b0 := at_bound m 0
  have b1 := at_bound m 1
  have b2 := at_bound m 2
  have b3 := at_bound m 3
  have b4 := at_bound m 4
  have b5 := at_bound m 5
  have b6 := at_bound m 6
  have b7 := at_bound m 7
  have b8 := at_bound m 8
  have b9 := at_bound m 9
  have b10 := at_bound m 10
  have b11 := at_bound m 11
  have b12 := at_bound m 12
  have b13 := at_bound m 13
  have b14 := at_bound m 14
  have b15 := at_bound m 15
  have b16 := at_bound m 16
  have b17 := at_bound m 17
  have b18 := at_bound m 18
  have b19 := at_bound m 19
  have b20 := at_bound m 20
  have b21 := at_bound m 21
  have b22 := at_bound m 22
  have b23 := at_bound m 23
  have b24 := at_bound m 24
  have b25 := at_bound m 25
  have b26 := at_bound m 26
  have b27 := at_bound m 27
  have b28 := at_bound m 28
  have b29 := at_bound m 29
  have b30 := at_bound m 30
  have b31 := at_bound m 31
  unfold unpack
  refine ⟨⟨?_, ?_, ?_, ?_, ?_, ?_, ?_, ?_, ?_, ?_, ?_, ?_, ?_, ?_, ?_, ?_, ?_, ?_, ?_, ?_⟩, ?_⟩ <;> dsimp only <;> omega

theorem unpack_ival {m : Bytes} (h : m.length = 32) : ival (unpack m) = leNat m := by
  rw [leNat_32 h]
  unfold unpack ival
  dsimp only
  have d3 := Int.mul_ediv_add_emod (at' m 3) 4
  have d6 := Int.mul_ediv_add_emod (at' m 6) 8
  have d9 := Int.mul_ediv_add_emod (at' m 9) 32
  have d12 := Int.mul_ediv_add_emod (at' m 12) 64
  have d19 := Int.mul_ediv_add_emod (at' m 19) 2
  have d22 := Int.mul_ediv_add_emod (at' m 22) 8
  have d25 := Int.mul_ediv_add_emod (at' m 25) 16
  have d28 := Int.mul_ediv_add_emod (at' m 28) 64
  linear_combination 2 ^ 24 * d3 + 2 ^ 48 * d6 + 2 ^ 72 * d9 + 2 ^ 96 * d12 + 2 ^ 152 * d19 + 2 ^ 176 * d22 + 2 ^ 200 * d25 + 2 ^ 224 * d28

theorem isCanonicalPublicKey_iff (pk : Bytes) : isCanonicalPublicKey pk = true ↔ pk.length = 32 ∧ leNat pk < 2 ^ 255 - 19 := by
  unfold isCanonicalPublicKey
  by_cases h : pk.length = 32
  · rw [if_neg (by simpa using h)]
    have hp := pack_nonneg (unpack_nn pk).1 (unpack_nn pk).2
    rw [unpack_ival h] at hp
    simp only [beq_iff_eq, h, true_and]
    constructor
    · intro e
      rw [e] at hp
      by_contra hc
      rw [if_pos (by omega)] at hp
      omega
    · intro hlt
      rw [if_neg (by omega)] at hp
      exact leNat_inj_of_length (by rw [pack_length, h]) (by exact_mod_cast hp)
  · rw [if_pos h]
    simp [h]

end Verif.C25519
