import Mathlib.Tactic.LinearCombination
import Mathlib.Tactic.IntervalCases
import Verif.SM2.Field

/-!
# Correctness of the limb arithmetic of sm2_std.go
-/

set_option linter.unusedSimpArgs false
set_option exponentiation.threshold 600

namespace Verif.SM2

theorem meq {a b n : ℤ} (h : a = b) : a ≡ b [ZMOD n] := h ▸ Int.ModEq.refl _

/-- the bounds every field element of the Go code satisfies (sm2_std.go, comments of the ancestor p256.go): even
limbs below `2^30`, odd limbs below `2^29`. -/
structure Fe.Ok (f : Fe) : Prop where
  h0 : f.a0 < 1073741824
  h1 : f.a1 < 536870912
  h2 : f.a2 < 1073741824
  h3 : f.a3 < 536870912
  h4 : f.a4 < 1073741824
  h5 : f.a5 < 536870912
  h6 : f.a6 < 1073741824
  h7 : f.a7 < 536870912
  h8 : f.a8 < 1073741824

/-- all limbs fully carried. -/
structure Fe.Red (f : Fe) : Prop where
  h0 : f.a0 < 536870912
  h1 : f.a1 < 268435456
  h2 : f.a2 < 536870912
  h3 : f.a3 < 268435456
  h4 : f.a4 < 536870912
  h5 : f.a5 < 268435456
  h6 : f.a6 < 536870912
  h7 : f.a7 < 268435456
  h8 : f.a8 < 536870912

theorem Fe.Red.ok {f : Fe} (h : f.Red) : f.Ok := by
  obtain ⟨h0, h1, h2, h3, h4, h5, h6, h7, h8⟩ := h
  constructor <;> omega

theorem value_eq (f : Fe) : f.value = 1 * f.a0 + 536870912 * f.a1 + 144115188075855872 * f.a2 + 77371252455336267181195264 * f.a3 + 20769187434139310514121985316880384 * f.a4 + 11150372599265311570767859136324180752990208 * f.a5 + 2993155353253689176481146537402947624255349848014848 * f.a6 + 1606938044258990275541962092341162602522202993782792835301376 * f.a7 + 431359146674410236714672241392314090778194310760649159697657763987456 * f.a8 := by
  unfold Fe.value; ring

theorem reduceCarry_ok {f : Fe} (h : f.Red) {c : Nat} (hc : c ≤ 7) :
    (reduceCarry f c).Ok ∧ ((reduceCarry f c).value : ℤ) ≡ f.value + c * 2 ^ 257 [ZMOD P] := by
  obtain ⟨h0, h1, h2, h3, h4, h5, h6, h7, h8⟩ := h
  have e0 : (reduceCarry f c).a0 = f.a0 + (carryRow c).1 := by
    interval_cases c <;> simp only [reduceCarry, carryRow, w32] <;> omega
  have e2 : (reduceCarry f c).a2 = f.a2 + (carryRow c).2.1 := by
    interval_cases c <;> simp only [reduceCarry, carryRow, w32] <;> omega
  have e3 : (reduceCarry f c).a3 = f.a3 + (carryRow c).2.2.1 := by
    interval_cases c <;> simp only [reduceCarry, carryRow, w32] <;> omega
  have e7 : (reduceCarry f c).a7 = f.a7 + (carryRow c).2.2.2 := by
    interval_cases c <;> simp only [reduceCarry, carryRow, w32] <;> omega
  have e1 : (reduceCarry f c).a1 = f.a1 := rfl
  have e4 : (reduceCarry f c).a4 = f.a4 := rfl
  have e5 : (reduceCarry f c).a5 = f.a5 := rfl
  have e6 : (reduceCarry f c).a6 = f.a6 := rfl
  have e8 : (reduceCarry f c).a8 = f.a8 := rfl
  constructor
  · constructor <;> simp only [e0, e1, e2, e3, e4, e5, e6, e7, e8] <;>
      first | omega | (interval_cases c <;> simp only [carryRow] <;> omega)
  · rw [value_eq, value_eq, e0, e1, e2, e3, e4, e5, e6, e7, e8]
    have key : ((2 ^ 0 * (carryRow c).1 + 2 ^ 57 * (carryRow c).2.1 + 2 ^ 86 * (carryRow c).2.2.1
        + 2 ^ 200 * (carryRow c).2.2.2 : ℕ) : ℤ) ≡ c * 2 ^ 257 [ZMOD P] := by
      interval_cases c <;> decide +kernel
    have := Int.ModEq.add_left (f.value : ℤ) key
    rw [value_eq] at this
    refine Int.ModEq.trans (by apply meq; push_cast; ring) this

theorem add_ok {a b : Fe} (ha : a.Ok) (hb : b.Ok) :
    (add a b).Ok ∧ ((add a b).value : ℤ) ≡ a.value + b.value [ZMOD P] := by
  obtain ⟨a0, a1, a2, a3, a4, a5, a6, a7, a8⟩ := ha
  obtain ⟨b0, b1, b2, b3, b4, b5, b6, b7, b8⟩ := hb
  unfold add
  lift_lets
  intro c0 k0 d0 c1 k1 d1 c2 k2 d2 c3 k3 d3 c4 k4 d4 c5 k5 d5 c6 k6 d6 c7 k7 d7 c8 k8 d8
  have e0 : d0 + 536870912 * k0 = a.a0 + b.a0 ∧ d0 < 536870912 ∧ k0 ≤ 5 := by
    simp only [d0, k0, c0, w32, sub32, zero31]; omega
  clear_value d0 k0
  obtain ⟨e0, r0, l0⟩ := e0
  have e1 : d1 + 268435456 * k1 = a.a1 + b.a1 + k0 ∧ d1 < 268435456 ∧ k1 ≤ 5 := by
    simp only [d1, k1, c1, w32, sub32, zero31]; omega
  clear_value d1 k1
  obtain ⟨e1, r1, l1⟩ := e1
  have e2 : d2 + 536870912 * k2 = a.a2 + b.a2 + k1 ∧ d2 < 536870912 ∧ k2 ≤ 5 := by
    simp only [d2, k2, c2, w32, sub32, zero31]; omega
  clear_value d2 k2
  obtain ⟨e2, r2, l2⟩ := e2
  have e3 : d3 + 268435456 * k3 = a.a3 + b.a3 + k2 ∧ d3 < 268435456 ∧ k3 ≤ 5 := by
    simp only [d3, k3, c3, w32, sub32, zero31]; omega
  clear_value d3 k3
  obtain ⟨e3, r3, l3⟩ := e3
  have e4 : d4 + 536870912 * k4 = a.a4 + b.a4 + k3 ∧ d4 < 536870912 ∧ k4 ≤ 5 := by
    simp only [d4, k4, c4, w32, sub32, zero31]; omega
  clear_value d4 k4
  obtain ⟨e4, r4, l4⟩ := e4
  have e5 : d5 + 268435456 * k5 = a.a5 + b.a5 + k4 ∧ d5 < 268435456 ∧ k5 ≤ 5 := by
    simp only [d5, k5, c5, w32, sub32, zero31]; omega
  clear_value d5 k5
  obtain ⟨e5, r5, l5⟩ := e5
  have e6 : d6 + 536870912 * k6 = a.a6 + b.a6 + k5 ∧ d6 < 536870912 ∧ k6 ≤ 5 := by
    simp only [d6, k6, c6, w32, sub32, zero31]; omega
  clear_value d6 k6
  obtain ⟨e6, r6, l6⟩ := e6
  have e7 : d7 + 268435456 * k7 = a.a7 + b.a7 + k6 ∧ d7 < 268435456 ∧ k7 ≤ 5 := by
    simp only [d7, k7, c7, w32, sub32, zero31]; omega
  clear_value d7 k7
  obtain ⟨e7, r7, l7⟩ := e7
  have e8 : d8 + 536870912 * k8 = a.a8 + b.a8 + k7 ∧ d8 < 536870912 ∧ k8 ≤ 5 := by
    simp only [d8, k8, c8, w32, sub32, zero31]; omega
  clear_value d8 k8
  obtain ⟨e8, r8, l8⟩ := e8
  have key := reduceCarry_ok (f := ⟨d0, d1, d2, d3, d4, d5, d6, d7, d8⟩) ⟨r0, r1, r2, r3, r4, r5, r6, r7, r8⟩ (c := k8) (by omega)
  refine ⟨key.1, key.2.trans ?_⟩
  zify at e0
  zify at e1
  zify at e2
  zify at e3
  zify at e4
  zify at e5
  zify at e6
  zify at e7
  zify at e8
  apply meq
  rw [value_eq, value_eq, value_eq]
  push_cast
  linear_combination 1 * e0 + 536870912 * e1 + 144115188075855872 * e2 + 77371252455336267181195264 * e3 + 20769187434139310514121985316880384 * e4 + 11150372599265311570767859136324180752990208 * e5 + 2993155353253689176481146537402947624255349848014848 * e6 + 1606938044258990275541962092341162602522202993782792835301376 * e7 + 431359146674410236714672241392314090778194310760649159697657763987456 * e8

theorem zero31_value : (zero31.value : ℤ) ≡ 0 [ZMOD P] := by decide +kernel

theorem sub_ok {a b : Fe} (ha : a.Ok) (hb : b.Ok) :
    (sub a b).Ok ∧ ((sub a b).value : ℤ) ≡ a.value - b.value [ZMOD P] := by
  obtain ⟨a0, a1, a2, a3, a4, a5, a6, a7, a8⟩ := ha
  obtain ⟨b0, b1, b2, b3, b4, b5, b6, b7, b8⟩ := hb
  unfold sub
  lift_lets
  intro c0 k0 d0 c1 k1 d1 c2 k2 d2 c3 k3 d3 c4 k4 d4 c5 k5 d5 c6 k6 d6 c7 k7 d7 c8 k8 d8
  have e0 : d0 + 536870912 * k0 + b.a0 = a.a0 + 2147483640 ∧ d0 < 536870912 ∧ k0 ≤ 7 := by
    simp only [d0, k0, c0, w32, sub32, zero31]; omega
  clear_value d0 k0
  obtain ⟨e0, r0, l0⟩ := e0
  have e1 : d1 + 268435456 * k1 + b.a1 = a.a1 + 1073741820 + k0 ∧ d1 < 268435456 ∧ k1 ≤ 7 := by
    simp only [d1, k1, c1, w32, sub32, zero31]; omega
  clear_value d1 k1
  obtain ⟨e1, r1, l1⟩ := e1
  have e2 : d2 + 536870912 * k2 + b.a2 = a.a2 + 2147484668 + k1 ∧ d2 < 536870912 ∧ k2 ≤ 7 := by
    simp only [d2, k2, c2, w32, sub32, zero31]; omega
  clear_value d2 k2
  obtain ⟨e2, r2, l2⟩ := e2
  have e3 : d3 + 268435456 * k3 + b.a3 = a.a3 + 1073733628 + k2 ∧ d3 < 268435456 ∧ k3 ≤ 7 := by
    simp only [d3, k3, c3, w32, sub32, zero31]; omega
  clear_value d3 k3
  obtain ⟨e3, r3, l3⟩ := e3
  have e4 : d4 + 536870912 * k4 + b.a4 = a.a4 + 2147483644 + k3 ∧ d4 < 536870912 ∧ k4 ≤ 7 := by
    simp only [d4, k4, c4, w32, sub32, zero31]; omega
  clear_value d4 k4
  obtain ⟨e4, r4, l4⟩ := e4
  have e5 : d5 + 268435456 * k5 + b.a5 = a.a5 + 1073741820 + k4 ∧ d5 < 268435456 ∧ k5 ≤ 7 := by
    simp only [d5, k5, c5, w32, sub32, zero31]; omega
  clear_value d5 k5
  obtain ⟨e5, r5, l5⟩ := e5
  have e6 : d6 + 536870912 * k6 + b.a6 = a.a6 + 2147483644 + k5 ∧ d6 < 536870912 ∧ k6 ≤ 7 := by
    simp only [d6, k6, c6, w32, sub32, zero31]; omega
  clear_value d6 k6
  obtain ⟨e6, r6, l6⟩ := e6
  have e7 : d7 + 268435456 * k7 + b.a7 = a.a7 + 939524092 + k6 ∧ d7 < 268435456 ∧ k7 ≤ 7 := by
    simp only [d7, k7, c7, w32, sub32, zero31]; omega
  clear_value d7 k7
  obtain ⟨e7, r7, l7⟩ := e7
  have e8 : d8 + 536870912 * k8 + b.a8 = a.a8 + 2147483644 + k7 ∧ d8 < 536870912 ∧ k8 ≤ 7 := by
    simp only [d8, k8, c8, w32, sub32, zero31]; omega
  clear_value d8 k8
  obtain ⟨e8, r8, l8⟩ := e8
  have key := reduceCarry_ok (f := ⟨d0, d1, d2, d3, d4, d5, d6, d7, d8⟩) ⟨r0, r1, r2, r3, r4, r5, r6, r7, r8⟩ (c := k8) (by omega)
  refine ⟨key.1, key.2.trans ?_⟩
  zify at e0
  zify at e1
  zify at e2
  zify at e3
  zify at e4
  zify at e5
  zify at e6
  zify at e7
  zify at e8
  have hz := Int.ModEq.add_left (a.value - b.value : ℤ) zero31_value
  rw [add_zero] at hz
  refine Int.ModEq.trans (meq ?_) hz
  rw [value_eq, value_eq, value_eq, value_eq]
  simp only [zero31]
  push_cast
  linear_combination 1 * e0 + 536870912 * e1 + 144115188075855872 * e2 + 77371252455336267181195264 * e3 + 20769187434139310514121985316880384 * e4 + 11150372599265311570767859136324180752990208 * e5 + 2993155353253689176481146537402947624255349848014848 * e6 + 1606938044258990275541962092341162602522202993782792835301376 * e7 + 431359146674410236714672241392314090778194310760649159697657763987456 * e8


theorem mask_eq {x : Nat} (h0 : x ≠ 0) (h1 : x < 2147483648) : nonZeroToAllOnes x = 4294967295 := by
  unfold nonZeroToAllOnes sub32; omega

theorem and_mask {x : Nat} (h : x < 4294967296) : x &&& 4294967295 = x := by
  have := Nat.and_two_pow_sub_one_eq_mod x 32
  norm_num at this
  rw [this]; omega

theorem w32_of_lt {a : Nat} (ha : a < 4294967296) : w32 a = a := by unfold w32; omega

theorem sub32_of_le {a b : Nat} (h : b ≤ a) (ha : a < 4294967296) : sub32 a b = a - b := by
  unfold sub32; omega

theorem sub32_sub32 {a b c : Nat} (h : b + c ≤ a) (ha : a < 4294967296) : sub32 (sub32 a b) c = a - b - c := by
  rw [sub32_of_le (by omega) ha, sub32_of_le (by omega) (by omega)]

theorem borrow28 {u y : Nat} (hu : u < 2147483648) (hy : y < 268435456) :
    (if u < 268435456 then sub32 (w32 (u + 268435456)) y else sub32 u y) + y
      = u + 268435456 * (if u < 268435456 then 1 else 0) := by
  split_ifs
  · rw [w32_of_lt (by omega), sub32_of_le (by omega) (by omega)]; omega
  · rw [sub32_of_le (by omega) (by omega)]; omega

theorem borrow28' {u y s : Nat} (hu : u < 2147483648) (hy : y + s ≤ 268435456) :
    (if u < 268435456 then sub32 (sub32 (w32 (u + 268435456)) s) y else sub32 (sub32 u s) y) + y + s
      = u + 268435456 * (if u < 268435456 then 1 else 0) := by
  split_ifs
  · rw [w32_of_lt (by omega), sub32_sub32 (by omega) (by omega)]; omega
  · rw [sub32_sub32 (by omega) (by omega)]; omega

theorem borrow29 {u y : Nat} (hu : u < 2147483648) (hy : y < 536870912) :
    (if u < 536870912 then sub32 (w32 (u + 536870912)) y else sub32 u y) + y
      = u + 536870912 * (if u < 536870912 then 1 else 0) := by
  split_ifs
  · rw [w32_of_lt (by omega), sub32_of_le (by omega) (by omega)]; omega
  · rw [sub32_of_le (by omega) (by omega)]; omega

theorem borrow29' {u y s : Nat} (hu : u < 2147483648) (hy : y + s ≤ 536870912) :
    (if u < 536870912 then sub32 (sub32 (w32 (u + 536870912)) s) y else sub32 (sub32 u s) y) + y + s
      = u + 536870912 * (if u < 536870912 then 1 else 0) := by
  split_ifs
  · rw [w32_of_lt (by omega), sub32_sub32 (by omega) (by omega)]; omega
  · rw [sub32_sub32 (by omega) (by omega)]; omega

theorem borrow3A {u v w s z : Nat} (hu : u < 1073741824) (hv : v < 536870912) (hw : w < 1073741824) (hs : s ≤ 1)
    (hz : z < 2048) :
    ((if u < 536870912 then sub32 (sub32 (w32 (u + 536870912)) s) z else sub32 (sub32 u s) z : ℕ) : ℤ)
      + 536870912 * ((if u < 536870912 then (if v < 268435456 then sub32 (w32 (v + 268435456)) 1 else sub32 v 1) else v : ℕ) : ℤ)
      + 144115188075855872 * ((if u < 536870912 ∧ v < 268435456 then (if w < 536870912 then sub32 (w32 (w + 536870912)) 1 else sub32 w 1) else w : ℕ) : ℤ)
      + s + z
      = u + 536870912 * v + 144115188075855872 * w + 77371252455336267181195264 * ((if (u < 536870912 ∧ v < 268435456) ∧ w < 536870912 then 1 else 0 : ℕ) : ℤ)
    ∧ (if u < 536870912 then sub32 (sub32 (w32 (u + 536870912)) s) z else sub32 (sub32 u s) z) < 1073741824
    ∧ (if u < 536870912 then (if v < 268435456 then sub32 (w32 (v + 268435456)) 1 else sub32 v 1) else v) < 536870912
    ∧ (if u < 536870912 ∧ v < 268435456 then (if w < 536870912 then sub32 (w32 (w + 536870912)) 1 else sub32 w 1) else w) < 1073741824
    ∧ (if (u < 536870912 ∧ v < 268435456) ∧ w < 536870912 then 1 else 0) ≤ 1 := by
  by_cases h1 : u < 536870912
  · by_cases h2 : v < 268435456
    · by_cases h3 : w < 536870912
      · simp only [h1, h2, h3, if_true, and_self, true_and]
        rw [w32_of_lt (by omega), w32_of_lt (by omega), w32_of_lt (by omega), sub32_sub32 (by omega) (by omega),
          sub32_of_le (by omega) (by omega), sub32_of_le (by omega) (by omega)]
        omega
      · simp only [h1, h2, h3, if_true, if_false, and_self, true_and, and_false]
        rw [w32_of_lt (by omega), w32_of_lt (by omega), sub32_sub32 (by omega) (by omega),
          sub32_of_le (by omega) (by omega), sub32_of_le (by omega) (by omega)]
        omega
    · simp only [h1, h2, if_true, if_false, and_self, true_and, and_false, false_and]
      rw [w32_of_lt (by omega), sub32_sub32 (by omega) (by omega), sub32_of_le (by omega) (by omega)]
      omega
  · simp only [h1, if_true, if_false, and_self, true_and, and_false, false_and]
    rw [sub32_sub32 (by omega) (by omega)]
    omega

theorem borrow3B {u v w s z : Nat} (hu : u < 536870912) (hv : v < 1073741824) (hw : w < 536870912) (hs : s ≤ 1)
    (hz : z < 2048) :
    ((if u < 268435456 then sub32 (sub32 (w32 (u + 268435456)) s) z else sub32 (sub32 u s) z : ℕ) : ℤ)
      + 268435456 * ((if u < 268435456 then (if v < 536870912 then sub32 (w32 (v + 536870912)) 1 else sub32 v 1) else v : ℕ) : ℤ)
      + 144115188075855872 * ((if u < 268435456 ∧ v < 536870912 then (if w < 268435456 then sub32 (w32 (w + 268435456)) 1 else sub32 w 1) else w : ℕ) : ℤ)
      + s + z
      = u + 268435456 * v + 144115188075855872 * w + 38685626227668133590597632 * ((if (u < 268435456 ∧ v < 536870912) ∧ w < 268435456 then 1 else 0 : ℕ) : ℤ)
    ∧ (if u < 268435456 then sub32 (sub32 (w32 (u + 268435456)) s) z else sub32 (sub32 u s) z) < 536870912
    ∧ (if u < 268435456 then (if v < 536870912 then sub32 (w32 (v + 536870912)) 1 else sub32 v 1) else v) < 1073741824
    ∧ (if u < 268435456 ∧ v < 536870912 then (if w < 268435456 then sub32 (w32 (w + 268435456)) 1 else sub32 w 1) else w) < 536870912
    ∧ (if (u < 268435456 ∧ v < 536870912) ∧ w < 268435456 then 1 else 0) ≤ 1 := by
  by_cases h1 : u < 268435456
  · by_cases h2 : v < 536870912
    · by_cases h3 : w < 268435456
      · simp only [h1, h2, h3, if_true, and_self, true_and]
        rw [w32_of_lt (by omega), w32_of_lt (by omega), w32_of_lt (by omega), sub32_sub32 (by omega) (by omega),
          sub32_of_le (by omega) (by omega), sub32_of_le (by omega) (by omega)]
        omega
      · simp only [h1, h2, h3, if_true, if_false, and_self, true_and, and_false]
        rw [w32_of_lt (by omega), w32_of_lt (by omega), sub32_sub32 (by omega) (by omega),
          sub32_of_le (by omega) (by omega), sub32_of_le (by omega) (by omega)]
        omega
    · simp only [h1, h2, if_true, if_false, and_self, true_and, and_false, false_and]
      rw [w32_of_lt (by omega), sub32_sub32 (by omega) (by omega), sub32_of_le (by omega) (by omega)]
      omega
  · simp only [h1, if_true, if_false, and_self, true_and, and_false, false_and]
    rw [sub32_sub32 (by omega) (by omega)]
    omega

/-- the bounds of a window before the elimination of an even limb; `m` bounds the last limb. -/
structure Win.InvA (t : Win) (m : Nat) : Prop where
  h0 : t.t0 < 2147483648
  h1 : t.t1 < 1073741824
  h2 : t.t2 < 1073741952
  h3 : t.t3 < 536870912
  h4 : t.t4 < 1073741824
  h5 : t.t5 < 536870912
  h6 : t.t6 < 1073741824
  h7 : t.t7 < 536870912
  h8 : t.t8 < 805306368
  h9 : t.t9 < m

/-- the bounds of the limbs left by the elimination of an even limb. -/
structure Fe.PostA (f : Fe) (m : Nat) : Prop where
  h0 : f.a0 < 1073741828
  h1 : f.a1 < 1610612864
  h2 : f.a2 < 536871040
  h3 : f.a3 < 1073741824
  h4 : f.a4 < 536870912
  h5 : f.a5 < 1073741824
  h6 : f.a6 < 536870912
  h7 : f.a7 < 1073741824
  h8 : f.a8 < m + 268435456

/-- the bounds of a window before the elimination of an odd limb. -/
structure Win.InvB (t : Win) : Prop where
  h0 : t.t0 < 1073741828
  h1 : t.t1 < 1610612864
  h2 : t.t2 < 536871040
  h3 : t.t3 < 1073741824
  h4 : t.t4 < 536870912
  h5 : t.t5 < 1073741824
  h6 : t.t6 < 536870912
  h7 : t.t7 < 1073741824
  h8 : t.t8 < 536870912
  h9 : t.t9 < 536870912

/-- the bounds of the limbs left by the elimination of an odd limb. -/
structure Fe.PostB (f : Fe) : Prop where
  h0 : f.a0 < 2147483648
  h1 : f.a1 < 1073741824
  h2 : f.a2 < 1073741952
  h3 : f.a3 < 536870912
  h4 : f.a4 < 1073741824
  h5 : f.a5 < 536870912
  h6 : f.a6 < 1073741824
  h7 : f.a7 < 536870912
  h8 : f.a8 < 805306368

/-- the limbs with the weights of a window that starts with an odd limb. -/
def Fe.valueB (f : Fe) : ℤ := f.a0 + 268435456 * f.a1 + 144115188075855872 * f.a2 + 38685626227668133590597632 * f.a3 + 20769187434139310514121985316880384 * f.a4 + 5575186299632655785383929568162090376495104 * f.a5 + 2993155353253689176481146537402947624255349848014848 * f.a6 + 803469022129495137770981046170581301261101496891396417650688 * f.a7 + 431359146674410236714672241392314090778194310760649159697657763987456 * f.a8

/-- the limbs with the weights of a window that starts with an even limb. -/
def Fe.valueA (f : Fe) : ℤ := f.a0 + 536870912 * f.a1 + 144115188075855872 * f.a2 + 77371252455336267181195264 * f.a3 + 20769187434139310514121985316880384 * f.a4 + 11150372599265311570767859136324180752990208 * f.a5 + 2993155353253689176481146537402947624255349848014848 * f.a6 + 1606938044258990275541962092341162602522202993782792835301376 * f.a7 + 431359146674410236714672241392314090778194310760649159697657763987456 * f.a8

theorem stepA_ok {t : Win} {m : Nat} (h : t.InvA m) (hm : m ≤ 2147484672) (hb : (stepA t).bad = false) :
    (stepA t).val.PostA m ∧ ∃ q : ℤ, (t.t0 + 536870912 * t.t1 + 144115188075855872 * t.t2 + 77371252455336267181195264 * t.t3 + 20769187434139310514121985316880384 * t.t4 + 11150372599265311570767859136324180752990208 * t.t5 + 2993155353253689176481146537402947624255349848014848 * t.t6 + 1606938044258990275541962092341162602522202993782792835301376 * t.t7 + 431359146674410236714672241392314090778194310760649159697657763987456 * t.t8 + 231584178474632390847141970017375815706539969331281128078915168015826259279872 * t.t9 : ℤ) + q * P
      = 536870912 * (stepA t).val.valueB := by
  obtain ⟨h0, h1, h2, h3, h4, h5, h6, h7, h8, h9⟩ := h
  revert hb
  unfold stepA
  lift_lets
  intro u1 x xMask u2 u3a set4 u3 b4 u4 b5 u5 set7 u6 set8 u7 u8
  have ex : x + 536870912 * (t.t0 / 536870912) = t.t0 ∧ x < 536870912 := by simp only [x]; omega
  have e1 : u1 = t.t1 + t.t0 / 536870912 := by simp only [u1]; rw [w32_of_lt (by omega)]
  clear_value x u1
  split_ifs with hx hu8
  · intro _
    dsimp only
    refine ⟨⟨?_, ?_, ?_, ?_, ?_, ?_, ?_, ?_, ?_⟩, 0, ?_⟩
    iterate 9 (· dsimp only; omega)
    · simp only [Fe.valueB]
      have ex1 := ex.1
      rw [hx] at ex1
      zify at ex1 e1
      linear_combination (-1) * ex1 - 536870912 * e1
  all_goals
    have hmask : xMask = 4294967295 := mask_eq hx (by omega)
    have m28 : (0x10000000 &&& xMask) = 268435456 := by rw [hmask]; decide
    have m29 : (0x20000000 &&& xMask) = 536870912 := by rw [hmask]; decide
    clear_value xMask
    have ey2 : ∃ y, y = shl32 x 7 % 536870912 ∧ y + 536870912 * (x / 4194304) = 128 * x ∧ y < 536870912 :=
      ⟨_, rfl, by simp only [shl32]; omega, by omega⟩
    obtain ⟨y2, ey2, fy2, by2⟩ := ey2
    have e2 : u2 = t.t2 + y2 := by simp only [u2, ← ey2]; rw [w32_of_lt (by omega)]
    have ey3 : ∃ y, y = shl32 x 10 % 268435456 ∧ y + 268435456 * (x / 262144) = 1024 * x ∧ y < 268435456 :=
      ⟨_, rfl, by simp only [shl32]; omega, by omega⟩
    obtain ⟨y3, ey3, fy3, by3⟩ := ey3
    have e3a : u3a = t.t3 + x / 4194304 := by simp only [u3a]; rw [w32_of_lt (by omega)]
    have l4 : set4 ≤ 1 := by simp only [set4]; split_ifs <;> omega
    have e3 : u3 + y3 = u3a + 268435456 * set4 := by
      simp only [u3, set4, ← ey3, m28]
      exact borrow28 (by omega) by3
    have l3 : u3 < 536871040 := by
      have : set4 = 0 ∨ u3a < 268435456 := by
        simp only [set4]; by_cases hh : u3a < 268435456 <;> simp [hh]
      omega
    clear_value u3a set4 u3 u2
    have e456 := borrow3A (u := t.t4) (v := t.t5) (w := t.t6) (s := set4) (z := x / 262144) h4 h5 h6 l4 (by omega)
    have f4 : (if t.t4 < 536870912 then sub32 (sub32 (w32 (t.t4 + 536870912)) set4) (x / 262144) else sub32 (sub32 t.t4 set4) (x / 262144)) = u4 := by
      simp only [u4, b4, m29]
    have f5 : (if t.t4 < 536870912 then (if t.t5 < 268435456 then sub32 (w32 (t.t5 + 268435456)) 1 else sub32 t.t5 1) else t.t5) = u5 := by
      simp only [u5, b4, m28]
    have f6 : (if t.t4 < 536870912 ∧ t.t5 < 268435456 then (if t.t6 < 536870912 then sub32 (w32 (t.t6 + 536870912)) 1 else sub32 t.t6 1) else t.t6) = u6 := by
      simp only [u6, b5, b4, m29]
    have f7 : (if (t.t4 < 536870912 ∧ t.t5 < 268435456) ∧ t.t6 < 536870912 then 1 else 0) = set7 := by
      simp only [set7, b5, b4]
    rw [f4, f5, f6, f7] at e456
    clear f4 f5 f6 f7
    clear_value set7 u4 u5 u6
    clear b4 b5
    obtain ⟨e456, l4', l5, l6, l7⟩ := e456
    have ey7 : ∃ y, y = shl32 x 24 % 268435456 ∧ y + 268435456 * (x / 16) = 16777216 * x ∧ y ≤ 251658240 :=
      ⟨_, rfl, by simp only [shl32]; omega, by simp only [shl32]; omega⟩
    obtain ⟨y7, ey7, fy7, by7⟩ := ey7
    have l8 : set8 ≤ 1 := by simp only [set8]; split_ifs <;> omega
    have e7 : u7 + y7 + set7 = t.t7 + 268435456 * set8 := by
      simp only [u7, set8, ← ey7, m28]
      exact borrow28' (by omega) (by omega)
    have l7' : u7 < 536870912 := by
      have : set8 = 0 ∨ t.t7 < 268435456 := by
        simp only [set8]; by_cases hh : t.t7 < 268435456 <;> simp [hh]
      omega
    clear_value set8 u7
    have ey8 : ∃ y, y = shl32 x 28 % 536870912 ∧ y + 536870912 * (x / 2) = 268435456 * x ∧ y ≤ 268435456 :=
      ⟨_, rfl, by simp only [shl32]; omega, by simp only [shl32]; omega⟩
    obtain ⟨y8, ey8, fy8, by8⟩ := ey8
    have e8 : u8 = t.t8 + y8 := by simp only [u8, ← ey8]; rw [w32_of_lt (by omega)]
    clear_value u8
    intro hbad
    dsimp only at hbad
  · obtain ⟨v8, ev8⟩ : ∃ v, v = sub32 (sub32 (w32 (u8 + (0x20000000 &&& xMask))) set8) (x / 16) := ⟨_, rfl⟩
    obtain ⟨v9, ev9⟩ : ∃ v, v = w32 (t.t9 + (sub32 (x / 2) 1 &&& xMask)) := ⟨_, rfl⟩
    rw [← ev8, ← ev9]
    have f8 : v8 + set8 + x / 16 = u8 + 536870912 ∧ v8 < 1073741824 := by
      rw [ev8, m29, w32_of_lt (by omega), sub32_sub32 (by omega) (by omega)]; omega
    have f9 : v9 + 1 = t.t9 + x / 2 ∧ v9 < m + 268435456 := by
      rw [ev9, hmask, and_mask (by simp only [sub32]; omega)]
      simp only [Bool.and_eq_false_iff, beq_eq_false_iff_ne] at hbad
      by_cases hh : x / 2 = 0
      · have h9' : t.t9 ≠ 0 := by omega
        rw [hh]; simp only [sub32, w32]; omega
      · rw [sub32_of_le (by omega) (by omega), w32_of_lt (by omega)]; omega
    refine ⟨⟨?_, ?_, ?_, ?_, ?_, ?_, ?_, ?_, ?_⟩, x, ?_⟩
    iterate 9 (· dsimp only; omega)
    · simp only [Fe.valueB, P]
      obtain ⟨ex1, -⟩ := ex
      obtain ⟨f8, -⟩ := f8
      obtain ⟨f9, -⟩ := f9
      push_cast at e456
      zify at ex1 e1 e2 e3a e3 e7 e8 f8 f9 fy2 fy3 fy7 fy8
      linear_combination (-1) * ex1 - 536870912 * e1 - 144115188075855872 * e2 - 144115188075855872 * fy2 - 77371252455336267181195264 * e3a - 77371252455336267181195264 * e3 + 77371252455336267181195264 * fy3 - 20769187434139310514121985316880384 * e456 - 1606938044258990275541962092341162602522202993782792835301376 * e7 + 1606938044258990275541962092341162602522202993782792835301376 * fy7 - 431359146674410236714672241392314090778194310760649159697657763987456 * f8 - 231584178474632390847141970017375815706539969331281128078915168015826259279872 * f9 - 431359146674410236714672241392314090778194310760649159697657763987456 * e8 - 431359146674410236714672241392314090778194310760649159697657763987456 * fy8
  · obtain ⟨v8, ev8⟩ : ∃ v, v = sub32 (sub32 u8 set8) (x / 16) := ⟨_, rfl⟩
    obtain ⟨v9, ev9⟩ : ∃ v, v = w32 (t.t9 + (x / 2 &&& xMask)) := ⟨_, rfl⟩
    rw [← ev8, ← ev9]
    have f8 : v8 + set8 + x / 16 = u8 ∧ v8 < 1073741824 := by
      rw [ev8, sub32_sub32 (by omega) (by omega)]; omega
    have f9 : v9 = t.t9 + x / 2 ∧ v9 < m + 268435456 := by
      rw [ev9, hmask, and_mask (by omega), w32_of_lt (by omega)]
      omega
    refine ⟨⟨?_, ?_, ?_, ?_, ?_, ?_, ?_, ?_, ?_⟩, x, ?_⟩
    iterate 9 (· dsimp only; omega)
    · simp only [Fe.valueB, P]
      obtain ⟨ex1, -⟩ := ex
      obtain ⟨f8, -⟩ := f8
      obtain ⟨f9, -⟩ := f9
      push_cast at e456
      zify at ex1 e1 e2 e3a e3 e7 e8 f8 f9 fy2 fy3 fy7 fy8
      linear_combination (-1) * ex1 - 536870912 * e1 - 144115188075855872 * e2 - 144115188075855872 * fy2 - 77371252455336267181195264 * e3a - 77371252455336267181195264 * e3 + 77371252455336267181195264 * fy3 - 20769187434139310514121985316880384 * e456 - 1606938044258990275541962092341162602522202993782792835301376 * e7 + 1606938044258990275541962092341162602522202993782792835301376 * fy7 - 431359146674410236714672241392314090778194310760649159697657763987456 * f8 - 231584178474632390847141970017375815706539969331281128078915168015826259279872 * f9 - 431359146674410236714672241392314090778194310760649159697657763987456 * e8 - 431359146674410236714672241392314090778194310760649159697657763987456 * fy8

theorem stepB_ok {t : Win} (h : t.InvB) (hb : (stepB t).bad = false) :
    (stepB t).val.PostB ∧ ∃ q : ℤ, (t.t0 + 268435456 * t.t1 + 144115188075855872 * t.t2 + 38685626227668133590597632 * t.t3 + 20769187434139310514121985316880384 * t.t4 + 5575186299632655785383929568162090376495104 * t.t5 + 2993155353253689176481146537402947624255349848014848 * t.t6 + 803469022129495137770981046170581301261101496891396417650688 * t.t7 + 431359146674410236714672241392314090778194310760649159697657763987456 * t.t8 + 115792089237316195423570985008687907853269984665640564039457584007913129639936 * t.t9 : ℤ) + q * P
      = 268435456 * (stepB t).val.valueA := by
  obtain ⟨h0, h1, h2, h3, h4, h5, h6, h7, h8, h9⟩ := h
  revert hb
  unfold stepB
  lift_lets
  intro u1 x xMask u2 u3a set4 u3 b4 u4 b5 u5 set7 u6 set8 u7
  have ex : x + 268435456 * (t.t0 / 268435456) = t.t0 ∧ x < 268435456 := by simp only [x]; omega
  have e1 : u1 = t.t1 + t.t0 / 268435456 := by simp only [u1]; rw [w32_of_lt (by omega)]
  clear_value x u1
  split_ifs with hx hu8
  · intro _
    dsimp only
    refine ⟨⟨?_, ?_, ?_, ?_, ?_, ?_, ?_, ?_, ?_⟩, 0, ?_⟩
    iterate 9 (· dsimp only; omega)
    · simp only [Fe.valueA]
      have ex1 := ex.1
      rw [hx] at ex1
      zify at ex1 e1
      linear_combination (-1) * ex1 - 268435456 * e1
  all_goals
    have hmask : xMask = 4294967295 := mask_eq hx (by omega)
    have m28 : (0x10000000 &&& xMask) = 268435456 := by rw [hmask]; decide
    have m29 : (0x20000000 &&& xMask) = 536870912 := by rw [hmask]; decide
    clear_value xMask
    have ey2 : ∃ y, y = shl32 x 7 % 268435456 ∧ y + 268435456 * (x / 2097152) = 128 * x ∧ y < 268435456 :=
      ⟨_, rfl, by simp only [shl32]; omega, by omega⟩
    obtain ⟨y2, ey2, fy2, by2⟩ := ey2
    have e2 : u2 = t.t2 + y2 := by simp only [u2, ← ey2]; rw [w32_of_lt (by omega)]
    have ey3 : ∃ y, y = shl32 x 11 % 536870912 ∧ y + 536870912 * (x / 262144) = 2048 * x ∧ y < 536870912 :=
      ⟨_, rfl, by simp only [shl32]; omega, by omega⟩
    obtain ⟨y3, ey3, fy3, by3⟩ := ey3
    have e3a : u3a = t.t3 + x / 2097152 := by simp only [u3a]; rw [w32_of_lt (by omega)]
    have l4 : set4 ≤ 1 := by simp only [set4]; split_ifs <;> omega
    have e3 : u3 + y3 = u3a + 536870912 * set4 := by
      simp only [u3, set4, ← ey3, m29]
      exact borrow29 (by omega) by3
    have l3 : u3 < 1073741952 := by
      have : set4 = 0 ∨ u3a < 536870912 := by
        simp only [set4]; by_cases hh : u3a < 536870912 <;> simp [hh]
      omega
    clear_value u3a set4 u3 u2
    have e456 := borrow3B (u := t.t4) (v := t.t5) (w := t.t6) (s := set4) (z := x / 262144) h4 h5 h6 l4 (by omega)
    have f4 : (if t.t4 < 268435456 then sub32 (sub32 (w32 (t.t4 + 268435456)) set4) (x / 262144) else sub32 (sub32 t.t4 set4) (x / 262144)) = u4 := by
      simp only [u4, b4, m28]
    have f5 : (if t.t4 < 268435456 then (if t.t5 < 536870912 then sub32 (w32 (t.t5 + 536870912)) 1 else sub32 t.t5 1) else t.t5) = u5 := by
      simp only [u5, b4, m29]
    have f6 : (if t.t4 < 268435456 ∧ t.t5 < 536870912 then (if t.t6 < 268435456 then sub32 (w32 (t.t6 + 268435456)) 1 else sub32 t.t6 1) else t.t6) = u6 := by
      simp only [u6, b5, b4, m28]
    have f7 : (if (t.t4 < 268435456 ∧ t.t5 < 536870912) ∧ t.t6 < 268435456 then 1 else 0) = set7 := by
      simp only [set7, b5, b4]
    rw [f4, f5, f6, f7] at e456
    clear f4 f5 f6 f7
    clear_value set7 u4 u5 u6
    clear b4 b5
    obtain ⟨e456, l4', l5, l6, l7⟩ := e456
    have ey7 : ∃ y, y = shl32 x 25 % 536870912 ∧ y + 536870912 * (x / 16) = 33554432 * x ∧ y ≤ 503316480 :=
      ⟨_, rfl, by simp only [shl32]; omega, by simp only [shl32]; omega⟩
    obtain ⟨y7, ey7, fy7, by7⟩ := ey7
    have l8 : set8 ≤ 1 := by simp only [set8]; split_ifs <;> omega
    have e7 : u7 + y7 + set7 = t.t7 + 536870912 * set8 := by
      simp only [u7, set8, ← ey7, m29]
      exact borrow29' (by omega) (by omega)
    have l7' : u7 < 1073741824 := by
      have : set8 = 0 ∨ t.t7 < 536870912 := by
        simp only [set8]; by_cases hh : t.t7 < 536870912 <;> simp [hh]
      omega
    clear_value set8 u7
    intro hbad
    clear hbad
  · obtain ⟨v8, ev8⟩ : ∃ v, v = sub32 (sub32 (w32 (t.t8 + (0x10000000 &&& xMask))) set8) (x / 16) := ⟨_, rfl⟩
    obtain ⟨v9, ev9⟩ : ∃ v, v = w32 (t.t9 + (sub32 x 1 &&& xMask)) := ⟨_, rfl⟩
    dsimp only
    rw [← ev8, ← ev9]
    have f8 : v8 + set8 + x / 16 = t.t8 + 268435456 ∧ v8 < 536870912 := by
      rw [ev8, m28, w32_of_lt (by omega), sub32_sub32 (by omega) (by omega)]; omega
    have f9 : v9 + 1 = t.t9 + x ∧ v9 < 805306368 := by
      rw [ev9, hmask, and_mask (by simp only [sub32]; omega), sub32_of_le (by omega) (by omega), w32_of_lt (by omega)]
      omega
    refine ⟨⟨?_, ?_, ?_, ?_, ?_, ?_, ?_, ?_, ?_⟩, x, ?_⟩
    iterate 9 (· dsimp only; omega)
    · simp only [Fe.valueA, P]
      obtain ⟨ex1, -⟩ := ex
      obtain ⟨f8, -⟩ := f8
      obtain ⟨f9, -⟩ := f9
      push_cast at e456
      zify at ex1 e1 e2 e3a e3 e7  f8 f9 fy2 fy3 fy7 
      linear_combination (-1) * ex1 - 268435456 * e1 - 144115188075855872 * e2 - 144115188075855872 * fy2 - 38685626227668133590597632 * e3a - 38685626227668133590597632 * e3 + 38685626227668133590597632 * fy3 - 20769187434139310514121985316880384 * e456 - 803469022129495137770981046170581301261101496891396417650688 * e7 + 803469022129495137770981046170581301261101496891396417650688 * fy7 - 431359146674410236714672241392314090778194310760649159697657763987456 * f8 - 115792089237316195423570985008687907853269984665640564039457584007913129639936 * f9
  · obtain ⟨v8, ev8⟩ : ∃ v, v = sub32 (sub32 t.t8 set8) (x / 16) := ⟨_, rfl⟩
    obtain ⟨v9, ev9⟩ : ∃ v, v = w32 (t.t9 + (x &&& xMask)) := ⟨_, rfl⟩
    dsimp only
    rw [← ev8, ← ev9]
    have f8 : v8 + set8 + x / 16 = t.t8 ∧ v8 < 536870912 := by
      rw [ev8, sub32_sub32 (by omega) (by omega)]; omega
    have f9 : v9 = t.t9 + x ∧ v9 < 805306368 := by
      rw [ev9, hmask, and_mask (by omega), w32_of_lt (by omega)]
      omega
    refine ⟨⟨?_, ?_, ?_, ?_, ?_, ?_, ?_, ?_, ?_⟩, x, ?_⟩
    iterate 9 (· dsimp only; omega)
    · simp only [Fe.valueA, P]
      obtain ⟨ex1, -⟩ := ex
      obtain ⟨f8, -⟩ := f8
      obtain ⟨f9, -⟩ := f9
      push_cast at e456
      zify at ex1 e1 e2 e3a e3 e7  f8 f9 fy2 fy3 fy7 
      linear_combination (-1) * ex1 - 268435456 * e1 - 144115188075855872 * e2 - 144115188075855872 * fy2 - 38685626227668133590597632 * e3a - 38685626227668133590597632 * e3 + 38685626227668133590597632 * fy3 - 20769187434139310514121985316880384 * e456 - 803469022129495137770981046170581301261101496891396417650688 * e7 + 803469022129495137770981046170581301261101496891396417650688 * fy7 - 431359146674410236714672241392314090778194310760649159697657763987456 * f8 - 115792089237316195423570985008687907853269984665640564039457584007913129639936 * f9


end Verif.SM2
