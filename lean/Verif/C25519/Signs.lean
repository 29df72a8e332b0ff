import Mathlib.NumberTheory.LegendreSymbol.Basic
import Mathlib.NumberTheory.LegendreSymbol.QuadraticReciprocity
import Verif.C25519.Prep

/-!
# curve25519_sha256.go: signs, square roots, and the points `P + G` and `P - G`
-/

set_option maxHeartbeats 1000000

namespace Verif.C25519

open Verif.Ed25519 (Fe i64 i64_eq fval ival F P P_eq intCast_P)
open WeierstrassCurve

/-- adding to the first limb. -/
theorem bump_spec {x : Fe} {n : Int} (h0 : -2 ^ 30 ≤ x.a0) (h1 : x.a0 ≤ 2 ^ 30) (h2 : -2 ^ 30 ≤ n) (h3 : n ≤ 2 ^ 30) :
    bump x n = { x with a0 := x.a0 + n } ∧ fval (bump x n) = fval x + n := by
  have e : bump x n = { x with a0 := x.a0 + n } := by
    unfold bump
    rw [i64_eq (by omega) (by omega)]
  refine ⟨e, ?_⟩
  rw [e]
  unfold fval ival
  dsimp only
  push_cast
  ring

theorem xor_one (n : ℕ) (h : n < 2) : 1 ^^^ n = 1 - n := by interval_cases n <;> rfl

/-- `isNegative` is the parity of the least non-negative representative, unless it is one of the nineteen largest. -/
theorem isNegative_spec {x : Fe} (h : Red x) (hv : (fval x).val < P - 19) : isNegative x = (fval x).val % 2 := by
  have hval : ((fval x).val : Int) = ival x % P := by unfold fval; rw [ZMod.val_intCast]
  have hP := intCast_P
  have hpar : (x.a0 % 2).toNat = (ival x % 2).toNat := by unfold ival; omega
  have hr : -2 ^ 245 ≤ ival x ∧ ival x < 2 ^ 255 + 2 ^ 245 ∧ (x.a9 < 0 → ival x < 0) ∧ (0 ≤ x.a9 → 0 ≤ ival x) := by
    obtain ⟨l0, u0, l1, u1, l2, u2, l3, u3, l4, u4, l5, u5, l6, u6, l7, u7, l8, u8, l9, u9⟩ := h
    unfold ival
    omega
  have hlt : (x.a0 % 2).toNat < 2 := by omega
  unfold isNegative
  by_cases h9 : 0 ≤ x.a9
  · have h0 := hr.2.2.2 h9
    by_cases ho : isOverflow x = true
    · have ho' := (isOverflow_iff h.nn h9).1 ho
      rw [if_pos (by simp [ho]), xor_one _ hlt, hpar]
      have : ival x % P = ival x - (2 ^ 255 - 19) := by
        rw [hP, Int.emod_eq_sub_self_emod, Int.emod_eq_of_lt (by omega) (by omega)]
      omega
    · have ho' : ¬ 2 ^ 255 - 19 ≤ ival x := fun c => ho ((isOverflow_iff h.nn h9).2 c)
      rw [if_neg (by simp [ho]; omega), Nat.zero_xor, hpar]
      have : ival x % P = ival x := by
        rw [hP, Int.emod_eq_of_lt (by omega) (by omega)]
      omega
  · have h9' : x.a9 < 0 := by omega
    have hneg := hr.2.2.1 h9'
    have e : ival x % P = ival x + P := by
      rw [← Int.add_emod_right]
      rw [hP]
      exact Int.emod_eq_of_lt (by omega) (by omega)
    rw [if_pos (by simp [h9']), xor_one _ hlt, hpar]
    omega

theorem add_a0 {x y : Fe} (hx : Red x) (hy : Red y) : 0 ≤ (add x y).a0 ∧ (add x y).a0 ≤ 134217726 := by
  rw [add_eq hx.lo hy.lo]
  dsimp only
  have := hx.l0; have := hx.u0; have := hy.l0; have := hy.u0
  omega

theorem lo_a0 {x : Fe} (h : Lo x) {n : Int} (h0 : -134217728 ≤ n) (h1 : n ≤ 134217728) : Lo { x with a0 := n } := by
  obtain ⟨l0, u0, l1, u1, l2, u2, l3, u3, l4, u4, l5, u5, l6, u6, l7, u7, l8, u8, l9, u9⟩ := h
  constructor <;> dsimp only <;> omega

/-- `xToY2`: the right-hand side of the equation of the curve. -/
theorem xToY2_spec {x : Fe} (h : Red x) : Red (xToY2 x) ∧ fval (xToY2 x) = fval x ^ 3 + 486662 * fval x ^ 2 + fval x := by
  unfold xToY2
  dsimp only
  have a := sqr_spec h.lo
  have b := mulSmall_spec h.lo (n := 486662) (by norm_num) (by norm_num)
  have c := add_spec a.1 b.1
  have c0 := add_a0 a.1 b.1
  generalize add (sqr x) (mulSmall x 486662) = t at *
  obtain ⟨e1, e2⟩ := bump_spec (x := t) (n := 1) (by omega) (by omega) (by omega) (by omega)
  have hl : Lo (bump t 1) := by rw [e1]; exact lo_a0 c.1 (by omega) (by omega)
  have m := mul_spec hl h.lo
  refine ⟨m.1, ?_⟩
  rw [m.2, e2, c.2, a.2, b.2]
  push_cast
  ring

theorem P_half : P / 2 = 4 * (2 ^ 252 - 3) + 2 := by rw [P_eq]; norm_num

theorem two_pow_half : (2 : F) ^ (P / 2) = -1 := by
  have h2 : (2 : F) ≠ 0 := two_ne
  have hns : ¬ IsSquare (2 : F) := by
    have hP := P_eq
    rw [ZMod.exists_sq_eq_two_iff (by omega)]
    omega
  rcases ZMod.pow_div_two_eq_neg_one_or_one P h2 with h | h
  · exact absurd ((ZMod.euler_criterion P h2).2 h) hns
  · exact h

/-- `sqrt` of a square is one of its roots. -/
theorem sqrt_spec {u : Fe} (h : Red u) {w : F} (hw : fval u = w ^ 2) : Red (sqrt u) ∧ fval (sqrt u) ^ 2 = w ^ 2 := by
  unfold sqrt
  dsimp only
  have a := add_spec h h
  generalize add u u = t1 at *
  obtain ⟨-, c⟩ := recipChain_spec a.1
  have b := mul_spec a.1 c.1.lo
  have hb : fval (recipSqrt t1) = fval t1 ^ (2 ^ 252 - 3) := by
    unfold recipSqrt
    rw [b.2, c.2, ← pow_succ']
    rw [show 2 ^ 252 - 4 + 1 = 2 ^ 252 - 3 by norm_num]
  have hbr : Red (recipSqrt t1) := b.1
  generalize recipSqrt t1 = v at *
  have d := sqr_spec hbr.lo
  have e := mul_spec a.1 d.1.lo
  have e0 := e.1.l0
  have e1 := e.1.u0
  generalize hm : mul t1 (sqr v) = m at *
  obtain ⟨f1, f2⟩ := bump_spec (x := m) (n := -1) (by omega) (by omega) (by omega) (by omega)
  have hl : Lo (bump m (-1)) := by rw [f1]; exact lo_a0 e.1.lo (by omega) (by omega)
  have g := mul_spec hbr.lo hl
  have k := mul_spec h.lo g.1.lo
  refine ⟨k.1, ?_⟩
  rw [k.2, g.2, f2, e.2, d.2, a.2] at *
  push_cast
  by_cases h0 : fval u = 0
  · rw [← hw, h0]; ring
  · have hw0 : w ≠ 0 := by rintro rfl; apply h0; rw [hw]; ring
    have hi : ((fval u + fval u) * fval v ^ 2) ^ 2 = -1 := by
      rw [hb]
      have e : ((fval u + fval u) * ((fval u + fval u) ^ (2 ^ 252 - 3)) ^ 2) ^ 2 = (2 * fval u) ^ (P / 2) := by
        rw [P_half, ← two_mul]
        generalize (2 : ℕ) ^ 252 - 3 = n
        generalize 2 * fval u = t
        ring
      rw [e, mul_pow, two_pow_half, hw, ← pow_mul]
      have : 2 * (P / 2) = P - 1 := by rw [P_eq]; norm_num
      rw [this, ZMod.pow_card_sub_one_eq_one hw0]; ring
    rw [← hw]
    linear_combination (fval u ^ 2 * fval v ^ 2 - fval u) * hi

/-! ## The base point -/

/-- the y-coordinate of the base point. -/
def gy : F := 43114425171068552920764898935933967039370386198203806730763910166200978582548

theorem cast_eq {a b : ℤ} (h : (a - b) % (2 ^ 255 - 19) = 0) : ((a : ℤ) : F) = b := by
  have : (P : ℤ) ∣ b - a := by
    rw [intCast_P, Int.dvd_iff_emod_eq_zero]
    omega
  exact (ZMod.intCast_eq_intCast_iff_dvd_sub a b P).2 this

theorem gy_sq : gy ^ 2 = 39420360 := by
  have := cast_eq (a := 43114425171068552920764898935933967039370386198203806730763910166200978582548 ^ 2) (b := 39420360) (by norm_num)
  unfold gy
  exact_mod_cast this

theorem base2y_fval : fval base2y = 2 * gy := by
  have := cast_eq (a := ival base2y) (b := 2 * 43114425171068552920764898935933967039370386198203806730763910166200978582548)
    (by unfold ival base2y; norm_num)
  unfold gy fval
  rw [this]
  push_cast
  rfl

theorem baseR2y_fval : fval baseR2y * (2 * gy) = 1 := by
  have := cast_eq (a := ival baseR2y * (2 * 43114425171068552920764898935933967039370386198203806730763910166200978582548)) (b := 1)
    (by unfold ival baseR2y; norm_num)
  unfold gy fval
  exact_mod_cast this

theorem base2y_red : Red base2y := by
  unfold base2y
  constructor <;> dsimp only <;> omega

theorem baseR2y_red : Red baseR2y := by
  unfold baseR2y
  constructor <;> dsimp only <;> omega

theorem gy_ne : gy ≠ 0 := by
  intro h
  have := baseR2y_fval
  rw [h] at this
  simp at this

/-- a point of the curve is not singular. -/
theorem nonsing {x y : F} (h : y ^ 2 = x ^ 3 + 486662 * x ^ 2 + x) (hy : y ≠ 0) : E.Nonsingular x y := by
  rw [Affine.nonsingular_iff]
  refine ⟨mont_eq.2 h, Or.inr ?_⟩
  simp only [mont, zero_mul, sub_zero]
  intro e
  have : 2 * y = 0 := by linear_combination e
  rcases mul_eq_zero.1 this with h | h
  · exact two_ne h
  · exact hy h

theorem g_eq : gy ^ 2 = (9 : F) ^ 3 + 486662 * 9 ^ 2 + 9 := by rw [gy_sq]; norm_num

theorem g_ns : E.Nonsingular 9 gy := nonsing g_eq gy_ne

/-- the base point, with the x-coordinate 9. -/
def G : E.Point := Affine.Point.some 9 gy g_ns

/-! ## `P + G` and `P - G` -/

theorem add_bump {r y : Fe} (hr : Red r) (hy : Red y) {n : Int} (h0 : -67108864 ≤ n) (h1 : n ≤ 67108864) :
    Lo0 (add (bump r n) y) ∧ fval (add (bump r n) y) = fval r + n + fval y := by
  have a0 := hr.l0
  have a1 := hr.u0
  obtain ⟨e1, e2⟩ := bump_spec (x := r) (n := n) (by omega) (by omega) (by omega) (by omega)
  have hl : Lo (bump r n) := by rw [e1]; exact lo_a0 hr.lo (by omega) (by omega)
  have e := add_eq hl hy.lo
  have hf : fval (add (bump r n) y) = fval (bump r n) + fval y := by
    rw [e]; unfold fval ival; dsimp only; push_cast; ring
  refine ⟨?_, by rw [hf, e2]⟩
  rw [e, e1]
  obtain ⟨fl0, fu0, fl1, fu1, fl2, fu2, fl3, fu3, fl4, fu4, fl5, fu5, fl6, fu6, fl7, fu7, fl8, fu8, fl9, fu9⟩ := hr
  obtain ⟨gl0, gu0, gl1, gu1, gl2, gu2, gl3, gu3, gl4, gu4, gl5, gu5, gl6, gu6, gl7, gu7, gl8, gu8, gl9, gu9⟩ := hy
  refine ⟨⟨?_, ?_, ?_, ?_, ?_, ?_, ?_, ?_, ?_, ?_, ?_, ?_, ?_, ?_, ?_, ?_, ?_, ?_, ?_, ?_⟩, ?_, ?_⟩ <;> dsimp only <;> omega

theorem sub_bump {r y : Fe} (hr : Red r) (hy : Red y) {n : Int} (h0 : -67108864 ≤ n) (h1 : n ≤ 67108864) :
    Lo0 (sub (bump r n) y) ∧ fval (sub (bump r n) y) = fval r + n - fval y := by
  have a0 := hr.l0
  have a1 := hr.u0
  obtain ⟨e1, e2⟩ := bump_spec (x := r) (n := n) (by omega) (by omega) (by omega) (by omega)
  have hl : Lo (bump r n) := by rw [e1]; exact lo_a0 hr.lo (by omega) (by omega)
  have e := sub_eq hl hy.lo
  have hf : fval (sub (bump r n) y) = fval (bump r n) - fval y := by
    rw [e]; unfold fval ival; dsimp only; push_cast; ring
  refine ⟨?_, by rw [hf, e2]⟩
  rw [e, e1]
  obtain ⟨fl0, fu0, fl1, fu1, fl2, fu2, fl3, fu3, fl4, fu4, fl5, fu5, fl6, fu6, fl7, fu7, fl8, fu8, fl9, fu9⟩ := hr
  obtain ⟨gl0, gu0, gl1, gu1, gl2, gu2, gl3, gu3, gl4, gu4, gl5, gu5, gl6, gu6, gl7, gu7, gl8, gu8, gl9, gu9⟩ := hy
  refine ⟨⟨?_, ?_, ?_, ?_, ?_, ?_, ?_, ?_, ?_, ?_, ?_, ?_, ?_, ?_, ?_, ?_, ?_, ?_, ?_, ?_⟩, ?_, ?_⟩ <;> dsimp only <;> omega

theorem bump_sub {r y : Fe} (hr : Red r) (hy : Red y) {n : Int} (h0 : -67108864 ≤ n) (h1 : n ≤ 67108864) :
    Lo (bump (sub r y) n) ∧ fval (bump (sub r y) n) = fval r - fval y + n := by
  have s := sub_spec hr hy
  have e := sub_eq hr.lo hy.lo
  have e0 : (sub r y).a0 = r.a0 - y.a0 := by rw [e]
  have a0 := hr.l0
  have a1 := hr.u0
  have b0 := hy.l0
  have b1 := hy.u0
  obtain ⟨e1, e2⟩ := bump_spec (x := sub r y) (n := n) (by omega) (by omega) (by omega) (by omega)
  refine ⟨?_, by rw [e2, s.2]⟩
  rw [e1]
  exact lo_a0 s.1 (by omega) (by omega)

theorem bump_add {r y : Fe} (hr : Red r) (hy : Red y) {n : Int} (h0 : -67108864 ≤ n) (h1 : n ≤ 67108864) :
    Lo0 (bump (add r y) n) ∧ fval (bump (add r y) n) = fval r + fval y + n := by
  have s := add_spec hr hy
  have a := add_a0 hr hy
  obtain ⟨e1, e2⟩ := bump_spec (x := add r y) (n := n) (by omega) (by omega) (by omega) (by omega)
  refine ⟨?_, by rw [e2, s.2]⟩
  rw [e1]
  refine ⟨lo_a0 s.1 (by omega) (by omega), ?_, ?_⟩ <;> dsimp only <;> omega

theorem bump_red {r : Fe} (hr : Red r) {n : Int} (h0 : -67108864 ≤ n) (h1 : n ≤ 67108864) : Lo (bump r n) ∧ fval (bump r n) = fval r + n := by
  have a0 := hr.l0
  have a1 := hr.u0
  obtain ⟨e1, e2⟩ := bump_spec (x := r) (n := n) (by omega) (by omega) (by omega) (by omega)
  refine ⟨?_, e2⟩
  rw [e1]
  exact lo_a0 hr.lo (by omega) (by omega)

/-- the two square roots `y` and `-y` are away from the ends of the field, where `isNegative` is wrong. -/
def Mid (y : F) : Prop := y.val < P - 19 ∧ (-y).val < P - 19

theorem P_odd : P % 2 = 1 := by have := P_eq; omega

theorem neg_val {y : F} (h : y ≠ 0) : (-y).val = P - y.val := by
  haveI : NeZero y := ⟨h⟩
  exact ZMod.val_neg_of_ne_zero y

/-- for the point `Q` with the even y-coordinate, the code computes the x-coordinates of `Q + G` and `Q - G`. -/
theorem sumDiff_spec {p1 : Fe} (hp : Red p1) {y : F} (hn : E.Nonsingular (fval p1) y) (he : y.val % 2 = 0) (hm : Mid y) (h9 : fval p1 ≠ 9) :
    Red (sumDiff p1).1 ∧ Red (sumDiff p1).2 ∧
    (∃ y' hn', Affine.Point.some (fval p1) y hn + G = Affine.Point.some (fval (sumDiff p1).1) y' hn') ∧
    (∃ y' hn', Affine.Point.some (fval p1) y hn - G = Affine.Point.some (fval (sumDiff p1).2) y' hn') := by
  have hy := mont_eq.1 hn.1
  have a := xToY2_spec hp
  rw [← hy] at a
  have b := sqrt_spec a.1 a.2
  have c := mul_spec base2y_red.lo b.1.lo
  rw [base2y_fval] at c
  have hx : fval p1 - 9 ≠ 0 := sub_ne_zero.2 h9
  obtain ⟨x3, y3, n3, es, ev⟩ := mont_add hn g_ns h9
  obtain ⟨ng, eng⟩ := mont_neg g_ns
  obtain ⟨x4, y4, n4, es', ev'⟩ := mont_add hn ng h9
  have f1 := bump_red hp (n := -9) (by norm_num) (by norm_num)
  have f2 := sqr_spec f1.1
  have f3 := recip_spec f2.1.lo
  have d := sub_bump a.1 c.1 (n := 39420360) (by norm_num) (by norm_num)
  have e := add_bump a.1 c.1 (n := 39420360) (by norm_num) (by norm_num)
  have hr : fval (recip (sqr (bump p1 (-9)))) = ((fval p1 - 9) ^ 2)⁻¹ := by
    rw [f3.2, f2.2, f1.2]; push_cast; ring
  -- the choice of the root
  have key : ∀ {u : Fe} {w : F}, Lo0 u → fval u = (y - w) ^ 2 → ∀ {x' : F}, (fval p1 - 9) ^ 2 * (x' + 486662 + fval p1 + 9) = (y - w) ^ 2 →
      Red (mulSmall (bump (sub (mul u (recip (sqr (bump p1 (-9))))) p1) (-(9 + 486662))) 1) ∧
      fval (mulSmall (bump (sub (mul u (recip (sqr (bump p1 (-9))))) p1) (-(9 + 486662))) 1) = x' := by
    intro u w hu hw x' hx'
    have m := mul_spec0 hu f3.1.lo
    have n := bump_sub m.1 hp (n := -(9 + 486662)) (by norm_num) (by norm_num)
    have k := mulSmall_spec n.1 (n := 1) (by norm_num) (by norm_num)
    refine ⟨k.1, ?_⟩
    rw [k.2, n.2, m.2, hr, hw, ← hx']
    push_cast
    field_simp
    ring
  unfold sumDiff
  dsimp only
  have hval : isNegative (sqrt (xToY2 p1)) = 0 ∧ fval (sqrt (xToY2 p1)) = y ∨ isNegative (sqrt (xToY2 p1)) ≠ 0 ∧ fval (sqrt (xToY2 p1)) = -y := by
    have hs : (fval (sqrt (xToY2 p1)) - y) * (fval (sqrt (xToY2 p1)) + y) = 0 := by linear_combination b.2
    rcases mul_eq_zero.1 hs with h | h
    · left
      have h : fval (sqrt (xToY2 p1)) = y := by linear_combination h
      refine ⟨?_, h⟩
      rw [isNegative_spec b.1 (by rw [h]; exact hm.1), h, he]
    · have h : fval (sqrt (xToY2 p1)) = -y := by linear_combination h
      by_cases h0 : y = 0
      · left
        rw [h0, neg_zero] at h
        refine ⟨?_, by rw [h, h0]⟩
        have : (0 : F).val = 0 := ZMod.val_zero
        rw [isNegative_spec b.1 (by rw [h, this]; have := P_eq; omega), h, this]
      · right
        refine ⟨?_, h⟩
        rw [isNegative_spec b.1 (by rw [h]; exact hm.2), h, neg_val h0]
        have := P_odd
        have := ZMod.val_lt y
        omega
  have sum_eq : Affine.Point.some (fval p1) y hn + G = Affine.Point.some x3 y3 n3 := es
  have dif_eq : Affine.Point.some (fval p1) y hn - G = Affine.Point.some x4 y4 n4 := by
    rw [sub_eq_add_neg]; unfold G; rw [eng]; exact es'
  have sub3 : ∀ t, t = x3 → ∃ y' hn', Affine.Point.some (fval p1) y hn + G = Affine.Point.some t y' hn' := by
    rintro _ rfl; exact ⟨_, _, sum_eq⟩
  have sub4 : ∀ t, t = x4 → ∃ y' hn', Affine.Point.some (fval p1) y hn - G = Affine.Point.some t y' hn' := by
    rintro _ rfl; exact ⟨_, _, dif_eq⟩
  have gs := gy_sq
  rcases hval with ⟨hj, hv⟩ | ⟨hj, hv⟩
  · simp only [hj, if_true]
    have k1 := key (w := gy) d.1 (by rw [d.2, a.2, c.2, hv]; push_cast; linear_combination -gs) ev
    have k2 := key (w := -gy) e.1 (by rw [e.2, a.2, c.2, hv]; push_cast; linear_combination -gs) ev'
    exact ⟨k1.1, k2.1, sub3 _ k1.2, sub4 _ k2.2⟩
  · simp only [hj, if_false]
    have k1 := key (w := gy) e.1 (by rw [e.2, a.2, c.2, hv]; push_cast; linear_combination -gs) ev
    have k2 := key (w := -gy) d.1 (by rw [d.2, a.2, c.2, hv]; push_cast; linear_combination -gs) ev'
    exact ⟨k1.1, k2.1, sub3 _ k1.2, sub4 _ k2.2⟩

/-- `coreY`: the opposite of the y-coordinate of a point `Q`, from the x-coordinates of `Q` and `Q + G`. -/
theorem coreY_spec {px x1 z1 : Fe} (hp : Red px) {y : F} (hn : E.Nonsingular (fval px) y) (h9 : fval px ≠ 9)
    (h1 : FRep x1 z1 (Affine.Point.some (fval px) y hn + G)) : Red (coreY px x1 z1) ∧ fval (coreY px x1 z1) = -y := by
  have hy := mont_eq.1 hn.1
  have a := xToY2_spec hp
  rw [← hy] at a
  obtain ⟨x3, y3, n3, es, ev⟩ := mont_add hn g_ns h9
  have hx := affine_xc h1
  have hx3 : xc (Affine.Point.some (fval px) y hn + G) = x3 := by unfold G; rw [es]; rfl
  rw [hx3] at hx
  unfold affine at hx
  have b := bump_add hx.1 hp (n := 9 + 486662) (by norm_num) (by norm_num)
  have c := bump_red hp (n := -9) (by norm_num) (by norm_num)
  have d := sqr_spec c.1
  have e := mul_spec0 b.1 d.1.lo
  have f := bump_sub e.1 a.1 (n := -39420360) (by norm_num) (by norm_num)
  have g := mul_spec f.1 baseR2y_red.lo
  unfold coreY
  dsimp only
  refine ⟨g.1, ?_⟩
  rw [g.2, f.2, e.2, d.2, c.2, b.2, hx.2, a.2]
  have hg := gy_sq
  have hb := baseR2y_fval
  push_cast
  linear_combination fval baseR2y * ev + fval baseR2y * hg - y * hb
end Verif.C25519
