import Verif.Bls.Fp2
import Verif.Bls.Mont
import Verif.Bls.Inverse
import Mathlib.Algebra.QuadraticAlgebra.Basic
import Mathlib.Algebra.CharP.Lemmas
import Mathlib.Algebra.CharP.Algebra
import Mathlib.NumberTheory.LegendreSymbol.Basic

/-!
# The quadratic extension of the BLS12-381 base field

Lemmas: what the functions of `Fp2.lean` compute in `Fq2 = Fq[u]/(u² + 1)`.
-/

namespace Verif.Bls

instance nonres : Fact (∀ r : Fq, r ^ 2 ≠ (-1) + 0 * r) := ⟨by
  intro r h
  rw [zero_mul, add_zero] at h
  have h1 := ZMod.mod_four_ne_three_of_sq_eq_neg_one h
  exact h1 (by decide +kernel)⟩

/-- `Fq[u] / (u² + 1)`. -/
abbrev Fq2 := QuadraticAlgebra Fq (-1) 0

instance : CharP Fq2 Q := charP_of_injective_algebraMap (R := Fq) (A := Fq2) (algebraMap Fq Fq2).injective Q

theorem inv_parts_aux {K : Type*} [Field K] [Fact (∀ r : K, r ^ 2 ≠ (-1) + 0 * r)] (z : QuadraticAlgebra K (-1) 0) :
    z⁻¹.re = z.re * (QuadraticAlgebra.norm z)⁻¹ ∧ z⁻¹.im = -(z.im * (QuadraticAlgebra.norm z)⁻¹) := by
  rw [QuadraticAlgebra.inv_def]
  constructor
  · simp [mul_comm]
  · simp [mul_comm]

theorem inv_parts (z : Fq2) :
    z⁻¹.re = z.re * (QuadraticAlgebra.norm z)⁻¹ ∧ z⁻¹.im = -(z.im * (QuadraticAlgebra.norm z)⁻¹) := inv_parts_aux z

namespace Fe2

/-- the element a model value stands for. -/
def den (a : Fe2) : Fq2 := ⟨Fe.den a.c0, Fe.den a.c1⟩

theorem den_re (a : Fe2) : (den a).re = Fe.den a.c0 := by simp only [den]

theorem den_im (a : Fe2) : (den a).im = Fe.den a.c1 := by simp only [den]

theorem den_mk (a b : Fe) : den ⟨a, b⟩ = ⟨Fe.den a, Fe.den b⟩ := by simp only [den]

theorem den_eq {a : Fe2} {z : Fq2} (h0 : Fe.den a.c0 = z.re) (h1 : Fe.den a.c1 = z.im) : den a = z := by
  apply QuadraticAlgebra.ext
  · rw [den_re, h0]
  · rw [den_im, h1]

/-- both coordinates are reduced. -/
def Red (a : Fe2) : Prop := Fe.Red a.c0 ∧ Fe.Red a.c1

theorem mk_spec {x y : Fe} {z : Fq2} (hx : Fe.Red x) (hy : Fe.Red y) (h0 : Fe.den x = z.re)
    (h1 : Fe.den y = z.im) : Red ⟨x, y⟩ ∧ den ⟨x, y⟩ = z :=
  ⟨⟨hx, hy⟩, den_eq h0 h1⟩

theorem den_inj {a b : Fe2} (ha : Red a) (hb : Red b) (h : den a = den b) : a = b := by
  obtain ⟨h1, h2⟩ := QuadraticAlgebra.ext_iff.mp h
  have e1 := Fe.den_inj ha.1 hb.1 h1
  have e2 := Fe.den_inj ha.2 hb.2 h2
  cases a; cases b; simp_all

theorem red_zero : Red zero := ⟨Fe.red_zero, Fe.red_zero⟩

theorem den_zero : den zero = 0 :=
  den_eq (by rw [QuadraticAlgebra.re_zero]; exact Fe.den_zero) (by rw [QuadraticAlgebra.im_zero]; exact Fe.den_zero)

theorem red_one : Red one := ⟨Fe.red_one, Fe.red_zero⟩

theorem den_one : den one = 1 := by
  apply den_eq
  · rw [QuadraticAlgebra.re_one]; exact Fe.den_one
  · rw [QuadraticAlgebra.im_one]; exact Fe.den_zero

theorem isZero_den {a : Fe2} (ha : Red a) : isZero a = true ↔ den a = 0 := by
  rw [isZero, Bool.and_eq_true, Fe.isZero_den ha.1, Fe.isZero_den ha.2, QuadraticAlgebra.ext_iff,
    den_re, den_im, QuadraticAlgebra.re_zero, QuadraticAlgebra.im_zero]

theorem equal_den {a b : Fe2} (ha : Red a) (hb : Red b) : equal a b = true ↔ den a = den b := by
  rw [equal, Bool.and_eq_true, Fe.equal_den ha.1 hb.1, Fe.equal_den ha.2 hb.2, QuadraticAlgebra.ext_iff,
    den_re, den_im, den_re, den_im]

theorem den_add {a b : Fe2} (ha : Red a) (hb : Red b) : Red (add a b) ∧ den (add a b) = den a + den b := by
  obtain ⟨h1, h2⟩ := Fe.den_add ha.1 hb.1
  obtain ⟨h3, h4⟩ := Fe.den_add ha.2 hb.2
  simp only [add]
  refine mk_spec h1 h3 ?_ ?_
  · rw [QuadraticAlgebra.re_add, den_re, den_re, h2]
  · rw [QuadraticAlgebra.im_add, den_im, den_im, h4]

theorem den_double {a : Fe2} (ha : Red a) : Red (double a) ∧ den (double a) = den a + den a := by
  obtain ⟨h1, h2⟩ := Fe.den_double ha.1
  obtain ⟨h3, h4⟩ := Fe.den_double ha.2
  simp only [double]
  refine mk_spec h1 h3 ?_ ?_
  · rw [QuadraticAlgebra.re_add, den_re, h2]
  · rw [QuadraticAlgebra.im_add, den_im, h4]

theorem den_sub {a b : Fe2} (ha : Red a) (hb : Red b) : Red (sub a b) ∧ den (sub a b) = den a - den b := by
  obtain ⟨h1, h2⟩ := Fe.den_sub ha.1 hb.1
  obtain ⟨h3, h4⟩ := Fe.den_sub ha.2 hb.2
  simp only [sub]
  refine mk_spec h1 h3 ?_ ?_
  · rw [QuadraticAlgebra.re_sub, den_re, den_re, h2]
  · rw [QuadraticAlgebra.im_sub, den_im, den_im, h4]

theorem den_neg {a : Fe2} (ha : Red a) : Red (neg a) ∧ den (neg a) = -den a := by
  obtain ⟨h1, h2⟩ := Fe.den_neg ha.1
  obtain ⟨h3, h4⟩ := Fe.den_neg ha.2
  simp only [neg]
  refine mk_spec h1 h3 ?_ ?_
  · rw [QuadraticAlgebra.re_neg, den_re, h2]
  · rw [QuadraticAlgebra.im_neg, den_im, h4]

theorem den_mul {a b : Fe2} (ha : Red a) (hb : Red b) : Red (mul a b) ∧ den (mul a b) = den a * den b := by
  obtain ⟨h1, e1⟩ := Fe.den_mul ha.1.lz hb.1.lz
  obtain ⟨h2, e2⟩ := Fe.den_mul ha.2.lz hb.2.lz
  obtain ⟨h3, e3⟩ := Fe.den_add ha.1 ha.2
  obtain ⟨h4, e4⟩ := Fe.den_add hb.1 hb.2
  obtain ⟨h5, e5⟩ := Fe.den_sub h1 h2
  obtain ⟨h6, e6⟩ := Fe.den_mul h3.lz h4.lz
  obtain ⟨h7, e7⟩ := Fe.den_add h1 h2
  obtain ⟨h8, e8⟩ := Fe.den_sub h6 h7
  simp only [mul]
  refine mk_spec h5 h8 ?_ ?_
  · rw [e5, e1, e2, QuadraticAlgebra.re_mul, den_re, den_re, den_im, den_im]; ring
  · rw [e8, e6, e7, e1, e2, e3, e4, QuadraticAlgebra.im_mul, den_re, den_re, den_im, den_im]; ring

theorem den_square {a : Fe2} (ha : Red a) : Red (square a) ∧ den (square a) = den a * den a := by
  obtain ⟨h1, e1⟩ := Fe.den_ladd ha.1 ha.2
  obtain ⟨h2, e2⟩ := Fe.den_sub ha.1 ha.2
  obtain ⟨h3, e3⟩ := Fe.den_ldouble ha.1
  obtain ⟨h4, e4⟩ := Fe.den_mul h1 h2.lz
  obtain ⟨h5, e5⟩ := Fe.den_mul h3 ha.2.lz
  simp only [square]
  refine mk_spec h4 h5 ?_ ?_
  · rw [e4, e1, e2, QuadraticAlgebra.re_mul, den_re, den_im]; ring
  · rw [e5, e3, QuadraticAlgebra.im_mul, den_re, den_im]; ring

theorem den_inverse {a : Fe2} (ha : Red a) :
    Red (inverse .amd64 a) ∧ den (inverse .amd64 a) = (den a)⁻¹ := by
  obtain ⟨h1, e1⟩ := Fe.den_square ha.1
  obtain ⟨h2, e2⟩ := Fe.den_square ha.2
  obtain ⟨h3, e3⟩ := Fe.den_add h1 h2
  obtain ⟨h4, e4⟩ := Fe.inverse_spec h3
  obtain ⟨h5, e5⟩ := Fe.den_mul ha.1.lz h4.lz
  obtain ⟨h6, e6⟩ := Fe.den_mul h4.lz ha.2.lz
  obtain ⟨h7, e7⟩ := Fe.den_neg h6
  have hn : QuadraticAlgebra.norm (den a) = Fe.den a.c0 * Fe.den a.c0 + Fe.den a.c1 * Fe.den a.c1 := by
    rw [QuadraticAlgebra.norm_def, den_re, den_im]; ring
  simp only [inverse]
  obtain ⟨i0, i1⟩ := inv_parts (den a)
  refine mk_spec h5 h7 ?_ ?_
  · rw [e5, e4, e3, e1, e2, i0, hn, den_re]
  · rw [e7, e6, e4, e3, e1, e2, i1, hn, den_im, mul_comm]

theorem expLoop_spec {a : Fe2} (ha : Red a) (s k : ℕ) : ∀ z : Fe2, Red z →
    Red (expLoop a s k z) ∧ den (expLoop a s k z) = den z ^ 2 ^ k * den a ^ (s % 2 ^ k) := by
  induction k with
  | zero => intro z hz; exact ⟨hz, by simp [expLoop, Nat.mod_one]⟩
  | succ k ih =>
    intro z hz
    obtain ⟨h1, h2⟩ := den_square hz
    unfold expLoop
    simp only
    have hp : (2 : ℕ) ^ (k + 1) = 2 ^ k * 2 := pow_succ 2 k
    have hmod : s % 2 ^ (k + 1) = 2 ^ k * (if s.testBit k then 1 else 0) + s % 2 ^ k := by
      rw [Nat.mod_pow_succ, Nat.add_comm, Nat.testBit_eq_decide_div_mod_eq]
      congr 2
      rcases Nat.mod_two_eq_zero_or_one (s / 2 ^ k) with h | h <;> simp [h]
    by_cases hb : s.testBit k
    · rw [if_pos hb]
      obtain ⟨h3, h4⟩ := den_mul h1 ha
      obtain ⟨h5, h6⟩ := ih _ h3
      refine ⟨h5, ?_⟩
      rw [h6, h4, h2, hmod, if_pos hb, mul_one, hp, pow_add, pow_mul]
      ring
    · rw [if_neg hb]
      obtain ⟨h5, h6⟩ := ih _ h1
      refine ⟨h5, ?_⟩
      rw [h6, h2, hmod, if_neg hb, mul_zero, zero_add, hp, pow_mul]
      ring

theorem exp_spec {a : Fe2} (ha : Red a) (s : ℕ) : Red (exp a s) ∧ den (exp a s) = den a ^ s := by
  obtain ⟨h1, h2⟩ := expLoop_spec ha s (Fe.bitLen s) one red_one
  refine ⟨h1, h2.trans ?_⟩
  rw [den_one, one_pow, one_mul, Nat.mod_eq_of_lt]
  unfold Fe.bitLen
  split
  · rename_i h; subst h; simp
  · exact Nat.lt_log2_self (n := s)

theorem neg_one_spec : Red negativeOne2 ∧ den negativeOne2 = -1 := by
  obtain ⟨x, hx⟩ : ∃ x, x = negativeOne2.c0 := ⟨_, rfl⟩
  have hr : Fe.Red x := by rw [hx]; decide +kernel
  have h0 : Fe.add x Fe.one = Fe.zero := by rw [hx]; decide +kernel
  have he : negativeOne2 = ⟨x, Fe.zero⟩ := by rw [hx]; decide +kernel
  rw [he]
  refine mk_spec hr Fe.red_zero ?_ ?_
  · have := (Fe.den_add hr Fe.red_one).2
    rw [h0, Fe.den_zero, Fe.den_one] at this
    rw [QuadraticAlgebra.re_neg, QuadraticAlgebra.re_one]
    linear_combination -this
  · rw [QuadraticAlgebra.im_neg, QuadraticAlgebra.im_one, neg_zero]; exact Fe.den_zero

end Fe2

theorem frob_aux {K : Type*} [Field K] (q : ℕ) [Fact q.Prime] [CharP (QuadraticAlgebra K (-1 : K) 0) q]
    (hK : ∀ x : K, x ^ q = x) (k : ℕ) (hk : q = 2 * (2 * k + 1) + 1) (z : QuadraticAlgebra K (-1 : K) 0) :
    z ^ q = star z := by
  have hw : (QuadraticAlgebra.omega : QuadraticAlgebra K (-1 : K) 0) ^ q = -QuadraticAlgebra.omega := by
    have h2 : (QuadraticAlgebra.omega : QuadraticAlgebra K (-1 : K) 0) ^ 2 = -1 := by
      rw [pow_two, QuadraticAlgebra.omega_mul_omega_eq_mk]
      ext <;> simp [QuadraticAlgebra.re_one, QuadraticAlgebra.im_one]
    conv_lhs => rw [hk]
    rw [pow_succ, pow_mul, h2, pow_succ, pow_mul]
    simp
  have hz : z = algebraMap K _ z.re + algebraMap K _ z.im * QuadraticAlgebra.omega := by
    ext <;> simp [QuadraticAlgebra.algebraMap_eq]
  conv_lhs => rw [hz]
  rw [add_pow_char, mul_pow, hw, ← map_pow, ← map_pow, hK, hK]
  ext <;> simp [QuadraticAlgebra.algebraMap_eq]

/-- raising to the power `Q` is conjugation. -/
theorem frob (z : Fq2) : z ^ Q = star z :=
  frob_aux Q ZMod.pow_card ((Q - 3) / 4) (by decide +kernel) z

theorem sqrt_core (y : Fq2) (hy : y ≠ 0) (al : Fq2) (hal : al = y ^ (Q - 1)) (hne : al ≠ -1) :
    (al + 1) ^ (Q - 1) * al = 1 := by
  have hQ : Q - 1 + 1 = Q := by decide +kernel
  have h1 : al * y = star y := by rw [hal, ← pow_succ, hQ, frob]
  have h2 : star al * star y = y := by
    have := congrArg star h1
    rw [star_mul', star_star] at this
    exact this
  have hsy : star y ≠ 0 := by
    intro h; apply hy; rw [← star_star y, h, star_zero]
  have h3 : al * star al = 1 := by
    have : al * star al * star y = star y := by rw [mul_assoc, h2, h1]
    exact mul_right_cancel₀ hsy (this.trans (one_mul _).symm)
  have hn : al + 1 ≠ 0 := fun h => hne (eq_neg_of_add_eq_zero_left h)
  have h4 : (al + 1) ^ (Q - 1) * (al + 1) = star al + 1 := by
    rw [← pow_succ, hQ, frob, star_add, star_one]
  apply mul_right_cancel₀ hn
  calc (al + 1) ^ (Q - 1) * al * (al + 1) = ((al + 1) ^ (Q - 1) * (al + 1)) * al := by ring
    _ = al * star al + al := by rw [h4]; ring
    _ = 1 * (al + 1) := by rw [h3]; ring

namespace Fe2

theorem exps (e1 e2 : ℕ) (he1 : e1 = pMinus3Over4) (he2 : e2 = pMinus1Over2) :
    2 * e1 + 1 = e2 ∧ 2 * e2 = Q - 1 ∧ e2 ≠ 0 := by
  subst he1 he2; decide +kernel

/-- `sqrt` finds a root exactly when there is one. -/
theorem sqrt_spec {a : Fe2} (ha : Red a) :
    Red (sqrt a).1 ∧
      ((sqrt a).2 = true ↔ ∃ y : Fq2, y * y = den a) ∧
      ((sqrt a).2 = true → den (sqrt a).1 * den (sqrt a).1 = den a) := by
  simp only [sqrt]
  obtain ⟨x1, x2, x3⟩ := exps _ _ rfl rfl
  generalize pMinus3Over4 = e1 at *
  generalize pMinus1Over2 = e2 at *
  obtain ⟨h1, d1⟩ := exp_spec ha e1
  obtain ⟨h2, d2⟩ := den_square h1
  obtain ⟨h3, d3⟩ := den_mul h2 ha
  obtain ⟨h4, d4⟩ := den_mul h1 ha
  generalize exp a e1 = a1 at *
  generalize mul (square a1) a = alpha at *
  generalize mul a1 a = x0 at *
  have hal : den alpha = den a ^ e2 := by
    rw [d3, d2, d1, ← x1]; ring
  have hx0 : den x0 * den x0 = den alpha * den a := by
    rw [d4, d3, d2]; ring
  by_cases hm : equal alpha negativeOne2 = true
  · rw [if_pos hm]
    rw [equal_den h3 neg_one_spec.1, neg_one_spec.2] at hm
    obtain ⟨h5, d5⟩ := Fe.den_neg h4.2
    have key : den (⟨Fe.neg x0.c1, x0.c0⟩ : Fe2) * den (⟨Fe.neg x0.c1, x0.c0⟩ : Fe2) = den a := by
      have e : den (⟨Fe.neg x0.c1, x0.c0⟩ : Fe2) * den (⟨Fe.neg x0.c1, x0.c0⟩ : Fe2) = -(den x0 * den x0) := by
        apply QuadraticAlgebra.ext
        · rw [QuadraticAlgebra.re_neg, QuadraticAlgebra.re_mul, QuadraticAlgebra.re_mul, den_re, den_im, den_re, den_im, d5]; ring
        · rw [QuadraticAlgebra.im_neg, QuadraticAlgebra.im_mul, QuadraticAlgebra.im_mul, den_re, den_im, den_re, den_im, d5]; ring
      rw [e, hx0, hm]; ring
    exact ⟨⟨h5, h4.1⟩, ⟨fun _ => ⟨_, key⟩, fun _ => rfl⟩, fun _ => key⟩
  · rw [if_neg hm]
    rw [equal_den h3 neg_one_spec.1, neg_one_spec.2] at hm
    obtain ⟨h5, d5⟩ := den_add h3 red_one
    obtain ⟨h6, d6⟩ := exp_spec h5 e2
    obtain ⟨h7, d7⟩ := den_mul h6 h4
    obtain ⟨h8, d8⟩ := den_square h7
    simp only
    rw [equal_den h8 ha, d8]
    refine ⟨h7, ⟨fun h => ⟨_, h⟩, ?_⟩, fun h => h⟩
    rintro ⟨y, hy⟩
    by_cases h0 : y = 0
    · have ha0 : den a = 0 := by rw [← hy, h0, mul_zero]
      rw [d7, d4, ha0]; ring
    · have hal' : den alpha = y ^ (Q - 1) := by
        rw [hal, ← hy, ← x2, ← pow_two, ← pow_mul]
      have := sqrt_core y h0 _ hal' hm
      rw [d7, d6, d5, den_one]
      calc (den alpha + 1) ^ e2 * den x0 * ((den alpha + 1) ^ e2 * den x0)
          = (den alpha + 1) ^ (2 * e2) * (den x0 * den x0) := by rw [two_mul, pow_add]; ring
        _ = ((den alpha + 1) ^ (2 * e2) * den alpha) * den a := by rw [hx0]; ring
        _ = den a := by rw [x2, this, one_mul]

/-- the 96 bytes of an element: the coefficient of `u`, then the constant one, big-endian. -/
def enc (z : Fq2) : Bytes := Fe.be48 z.im.val ++ Fe.be48 z.re.val

theorem be48_val_length (z : Fq) : (Fe.be48 z.val).length = 48 :=
  Fe.be48_length ((ZMod.val_lt _).trans Fe.Q_lt_256)

theorem enc_length (z : Fq2) : (enc z).length = 96 := by
  rw [enc, List.length_append, be48_val_length, be48_val_length]

theorem toBytes_eq {a : Fe2} (ha : Red a) : toBytes a = enc (den a) := by
  rw [toBytes, Fe.toBytes_eq ha.1, Fe.toBytes_eq ha.2, enc, den_re, den_im]

theorem fe_fromBytes_be48 (z : Fq) : ∃ a, Fe.fromBytes (Fe.be48 z.val) = some a ∧ Fe.Red a ∧ Fe.den a = z := by
  obtain ⟨a, h1, h2, h3⟩ := (Fe.fromBytes_spec (Fe.be48 z.val)).1
    ⟨be48_val_length z, by rw [Fe.beNat_be48]; exact ZMod.val_lt _⟩
  refine ⟨a, h1, h2, ?_⟩
  rw [h3, Fe.beNat_be48, ZMod.natCast_zmod_val]

theorem fe_fromBytes_some {b : Bytes} {a : Fe} (h : Fe.fromBytes b = some a) :
    Fe.Red a ∧ Fe.be48 (Fe.den a).val = b := by
  by_cases hc : b.length = 48 ∧ beNat b < Q
  · obtain ⟨a', h1, h2, h3⟩ := (Fe.fromBytes_spec b).1 hc
    rw [h] at h1
    obtain rfl := Option.some.inj h1
    refine ⟨h2, ?_⟩
    apply beNat_inj_of_length
    · rw [be48_val_length, hc.1]
    · rw [Fe.beNat_be48, h3, ZMod.val_natCast_of_lt hc.2]
  · rw [(Fe.fromBytes_spec b).2 hc] at h; cases h

theorem fromBytes_enc (z : Fq2) : ∃ a, fromBytes (enc z) = some a ∧ Red a ∧ den a = z := by
  obtain ⟨c1, h1, h2, h3⟩ := fe_fromBytes_be48 z.im
  obtain ⟨c0, g1, g2, g3⟩ := fe_fromBytes_be48 z.re
  refine ⟨⟨c0, c1⟩, ?_, ⟨g2, h2⟩, den_eq g3 h3⟩
  rw [fromBytes, if_neg (by rw [enc_length]; decide)]
  have e1 : (enc z).take 48 = Fe.be48 z.im.val := by
    rw [enc, List.take_append_of_le_length (by rw [be48_val_length]),
      List.take_of_length_le (by rw [be48_val_length])]
  have e2 : (enc z).drop 48 = Fe.be48 z.re.val := by
    rw [enc, List.drop_append_of_le_length (by rw [be48_val_length]),
      List.drop_of_length_le (by rw [be48_val_length]), List.nil_append]
  rw [e1, e2, h1, g1]

theorem fromBytes_some {b : Bytes} {a : Fe2} (h : fromBytes b = some a) : Red a ∧ enc (den a) = b := by
  unfold fromBytes at h
  split_ifs at h with hl
  cases h1 : Fe.fromBytes (b.take 48) with
  | none => rw [h1] at h; cases h
  | some c1 =>
    cases h0 : Fe.fromBytes (b.drop 48) with
    | none => rw [h1, h0] at h; cases h
    | some c0 =>
      rw [h1, h0] at h
      obtain rfl := Option.some.inj h
      obtain ⟨r1, e1⟩ := fe_fromBytes_some h1
      obtain ⟨r0, e0⟩ := fe_fromBytes_some h0
      refine ⟨⟨r0, r1⟩, ?_⟩
      rw [enc, den_re, den_im, e1, e0, List.take_append_drop]

/-- `signBE` is true for the smaller of the two roots, comparing the coefficient of `u` first. -/
theorem signBE_spec {a : Fe2} (ha : Red a) : signBE a = true ↔
    if (den a).im = 0 then (den a).re.val ≤ (-(den a).re).val else (den a).im.val ≤ (-(den a).im).val := by
  have hz := Fe.isZero_den ha.2
  rw [den_im, den_re, signBE]
  by_cases h : Fe.den a.c1 = 0
  · rw [if_pos h, hz.mpr h, Bool.not_true, if_neg Bool.false_ne_true]
    exact Fe.signBE_spec ha.1
  · rw [if_neg h, Bool.eq_false_iff.mpr (fun hh => h (hz.mp hh)), Bool.not_false, if_pos rfl]
    exact Fe.signBE_spec ha.2

end Fe2

end Verif.Bls
