import Verif.Bls.PairingSpec
import Verif.Bls.Groups
import Verif.Bls.Tower

/-!
# The tower functions compute in `Fq12`

Lemmas: what the functions of `Tower.lean` compute, by coordinates with respect to the powers of `w`.
-/

namespace Verif.Bls

open Spec (xi w emb2)

/-! ## Fq2 -/

namespace Fe2

/-- the reduced model value `a` stands for `x`. -/
def Is (a : Fe2) (x : Fq2) : Prop := Red a ∧ den a = x

variable {a b : Fe2} {x y : Fq2}

theorem Is.cast (h : Is a x) (e : x = y) : Is a y := e ▸ h
theorem Is.self (h : Red a) : Is a (den a) := ⟨h, rfl⟩
theorem is_zero : Is zero 0 := ⟨red_zero, den_zero⟩
theorem is_one : Is one 1 := ⟨red_one, den_one⟩
theorem Is.add (ha : Is a x) (hb : Is b y) : Is (add a b) (x + y) := by
  obtain ⟨h1, h2⟩ := den_add ha.1 hb.1; exact ⟨h1, by rw [h2, ha.2, hb.2]⟩
theorem Is.sub (ha : Is a x) (hb : Is b y) : Is (sub a b) (x - y) := by
  obtain ⟨h1, h2⟩ := den_sub ha.1 hb.1; exact ⟨h1, by rw [h2, ha.2, hb.2]⟩
theorem Is.mul (ha : Is a x) (hb : Is b y) : Is (mul a b) (x * y) := by
  obtain ⟨h1, h2⟩ := den_mul ha.1 hb.1; exact ⟨h1, by rw [h2, ha.2, hb.2]⟩
theorem Is.double (ha : Is a x) : Is (double a) (x + x) := by
  obtain ⟨h1, h2⟩ := den_double ha.1; exact ⟨h1, by rw [h2, ha.2]⟩
theorem Is.square (ha : Is a x) : Is (square a) (x * x) := by
  obtain ⟨h1, h2⟩ := den_square ha.1; exact ⟨h1, by rw [h2, ha.2]⟩
theorem Is.neg (ha : Is a x) : Is (neg a) (-x) := by
  obtain ⟨h1, h2⟩ := den_neg ha.1; exact ⟨h1, by rw [h2, ha.2]⟩
theorem Is.inverse (ha : Is a x) : Is (inverse .amd64 a) x⁻¹ := by
  obtain ⟨h1, h2⟩ := den_inverse ha.1; exact ⟨h1, by rw [h2, ha.2]⟩

theorem xi_mul_aux {K : Type*} [Field K] (z : QuadraticAlgebra K (-1) 0) :
    (z.re - z.im = ((⟨1, 1⟩ : QuadraticAlgebra K (-1) 0) * z).re) ∧
      (z.re + z.im = ((⟨1, 1⟩ : QuadraticAlgebra K (-1) 0) * z).im) := by
  rw [QuadraticAlgebra.re_mul, QuadraticAlgebra.im_mul]
  constructor <;> ring

theorem b2_mul_aux {K : Type*} [Field K] (z : QuadraticAlgebra K (-1) 0) :
    ((z.re + z.re + (z.re + z.re)) - (z.im + z.im + (z.im + z.im)) = ((⟨4, 4⟩ : QuadraticAlgebra K (-1) 0) * z).re) ∧
      ((z.re + z.re + (z.re + z.re)) + (z.im + z.im + (z.im + z.im)) = ((⟨4, 4⟩ : QuadraticAlgebra K (-1) 0) * z).im) := by
  rw [QuadraticAlgebra.re_mul, QuadraticAlgebra.im_mul]
  constructor <;> ring

theorem xi_mul_parts (z : Fq2) : (z.re - z.im = (xi * z).re) ∧ (z.re + z.im = (xi * z).im) := by
  rw [xi]; exact xi_mul_aux z

theorem b2_mul_parts (z : Fq2) : ((z.re + z.re + (z.re + z.re)) - (z.im + z.im + (z.im + z.im)) = (Spec.b2 * z).re) ∧
      ((z.re + z.re + (z.re + z.re)) + (z.im + z.im + (z.im + z.im)) = (Spec.b2 * z).im) := by
  rw [Spec.b2]; exact b2_mul_aux z

theorem Is.mulByNonResidue (ha : Is a x) : Is (mulByNonResidue a) (xi * x) := by
  obtain ⟨h1, e1⟩ := Fe.den_sub ha.1.1 ha.1.2
  obtain ⟨h2, e2⟩ := Fe.den_add ha.1.1 ha.1.2
  obtain ⟨p1, p2⟩ := xi_mul_parts x
  rw [Fe2.mulByNonResidue]
  refine mk_spec h1 h2 ?_ ?_
  · rw [e1, ← p1, ← ha.2, den_re, den_im]
  · rw [e2, ← p2, ← ha.2, den_re, den_im]

theorem Is.mulByB (ha : Is a x) : Is (mulByB a) (Spec.b2 * x) := by
  obtain ⟨h1, e1⟩ := Fe.den_double ha.1.1
  obtain ⟨h2, e2⟩ := Fe.den_double h1
  obtain ⟨h3, e3⟩ := Fe.den_double ha.1.2
  obtain ⟨h4, e4⟩ := Fe.den_double h3
  obtain ⟨h5, e5⟩ := Fe.den_sub h2 h4
  obtain ⟨h6, e6⟩ := Fe.den_add h2 h4
  obtain ⟨p1, p2⟩ := b2_mul_parts x
  simp only [Fe2.mulByB]
  refine mk_spec h5 h6 ?_ ?_
  · rw [e5, e4, e3, e2, e1, ← p1, ← ha.2, den_re, den_im]
  · rw [e6, e4, e3, e2, e1, ← p2, ← ha.2, den_re, den_im]

theorem C_mul_aux {K : Type*} [Field K] (z : QuadraticAlgebra K (-1) 0) (c : K) :
    (z.re * c = (z * algebraMap K _ c).re) ∧ (z.im * c = (z * algebraMap K _ c).im) := by
  rw [QuadraticAlgebra.re_mul, QuadraticAlgebra.im_mul]
  simp

theorem C_mul_parts (z : Fq2) (c : Fq) : (z.re * c = (z * algebraMap Fq Fq2 c).re) ∧ (z.im * c = (z * algebraMap Fq Fq2 c).im) :=
  C_mul_aux z c

theorem Is.mulByFq (ha : Is a x) {c : Fe} (hc : Fe.Red c) : Is (mulByFq a c) (x * algebraMap Fq Fq2 (Fe.den c)) := by
  obtain ⟨h1, e1⟩ := Fe.den_mul ha.1.1.lz hc.lz
  obtain ⟨h2, e2⟩ := Fe.den_mul ha.1.2.lz hc.lz
  obtain ⟨p1, p2⟩ := C_mul_parts x (Fe.den c)
  rw [Fe2.mulByFq]
  refine mk_spec h1 h2 ?_ ?_
  · rw [e1, ← p1, ← ha.2, den_re]
  · rw [e2, ← p2, ← ha.2, den_im]

theorem star_aux {K : Type*} [Field K] (z : QuadraticAlgebra K (-1) 0) :
    z.re = (star z).re ∧ -z.im = (star z).im := by
  simp

theorem star_parts (z : Fq2) : z.re = (star z).re ∧ -z.im = (star z).im := star_aux z

theorem Is.frob_odd (ha : Is a x) {p : ℕ} (hp : p % 2 = 1) : Is (frobeniusMap a p) (x ^ Q) := by
  obtain ⟨h1, e1⟩ := Fe.den_neg ha.1.2
  obtain ⟨p1, p2⟩ := star_parts x
  rw [Fe2.frobeniusMap, if_pos hp, frob]
  refine mk_spec ha.1.1 h1 ?_ ?_
  · rw [← p1, ← ha.2, den_re]
  · rw [e1, ← p2, ← ha.2, den_im]

theorem Is.frob_even (ha : Is a x) {p : ℕ} (hp : p % 2 = 0) : Is (frobeniusMap a p) x := by
  rw [Fe2.frobeniusMap, if_neg (by omega)]; exact ha

theorem Is.equal_iff (ha : Is a x) (hb : Is b y) : equal a b = true ↔ x = y := by
  rw [equal_den ha.1 hb.1, ha.2, hb.2]

end Fe2

/-- solves `Is (expression) ?x`. -/
macro "fe2" : tactic => `(tactic| repeat' (with_reducible first
  | assumption | apply Fe2.Is.mul | apply Fe2.Is.add | apply Fe2.Is.sub | apply Fe2.Is.double | apply Fe2.Is.square
  | apply Fe2.Is.neg | apply Fe2.Is.mulByNonResidue | apply Fe2.Is.mulByB | apply Fe2.Is.inverse
  | apply Fe2.Is.mulByFq | apply Fe2.is_zero | apply Fe2.is_one))

/-! ## the field Fq12 -/

theorem w_six : w ^ 6 = emb2 xi := root_pow_six

theorem emb2_inj {x y : Fq2} (h : emb2 x = emb2 y) : x = y := emb2.injective h

theorem ind {c0 c1 c2 c3 c4 c5 : Fq2}
    (h : emb2 c0 + emb2 c1 * w + emb2 c2 * w ^ 2 + emb2 c3 * w ^ 3 + emb2 c4 * w ^ 4 + emb2 c5 * w ^ 5 = 0) :
    c0 = 0 ∧ c1 = 0 ∧ c2 = 0 ∧ c3 = 0 ∧ c4 = 0 ∧ c5 = 0 := coords_zero h

theorem span (z : Fq12) : ∃ c0 c1 c2 c3 c4 c5 : Fq2,
    z = emb2 c0 + emb2 c1 * w + emb2 c2 * w ^ 2 + emb2 c3 * w ^ 3 + emb2 c4 * w ^ 4 + emb2 c5 * w ^ 5 := coords_exist z

theorem xi_ne : xi ≠ 0 := fun h => xi_not_square 0 (by rw [h]; norm_num)

theorem w_ne : w ≠ 0 := by
  intro h
  have := w_six
  rw [h, zero_pow (by norm_num)] at this
  exact xi_ne (emb2_inj (by rw [← this, map_zero]))

/-! ## Fq6 -/

namespace Fe6

/-- all coordinates are reduced. -/
def Red (a : Fe6) : Prop := Fe2.Red a.c0 ∧ Fe2.Red a.c1 ∧ Fe2.Red a.c2

/-- `c0 + c1 v + c2 v²` with `v = w²`. -/
noncomputable def val (a : Fe6) : Fq12 := emb2 (Fe2.den a.c0) + emb2 (Fe2.den a.c1) * w ^ 2 + emb2 (Fe2.den a.c2) * w ^ 4

/-- the reduced model value `a` stands for `z`. -/
def Is (a : Fe6) (z : Fq12) : Prop := Red a ∧ val a = z

variable {a b : Fe6} {x y : Fq12}

theorem Is.cast (h : Is a x) (e : x = y) : Is a y := e ▸ h

theorem Is.mk {c0 c1 c2 : Fe2} {x0 x1 x2 : Fq2} (h0 : Fe2.Is c0 x0) (h1 : Fe2.Is c1 x1) (h2 : Fe2.Is c2 x2)
    (h : emb2 x0 + emb2 x1 * w ^ 2 + emb2 x2 * w ^ 4 = x) : Is ⟨c0, c1, c2⟩ x :=
  ⟨⟨h0.1, h1.1, h2.1⟩, by rw [val]; dsimp only; rw [h0.2, h1.2, h2.2, h]⟩

theorem Is.dest (h : Is a x) : ∃ x0 x1 x2, Fe2.Is a.c0 x0 ∧ Fe2.Is a.c1 x1 ∧ Fe2.Is a.c2 x2 ∧
    x = emb2 x0 + emb2 x1 * w ^ 2 + emb2 x2 * w ^ 4 :=
  ⟨_, _, _, ⟨h.1.1, rfl⟩, ⟨h.1.2.1, rfl⟩, ⟨h.1.2.2, rfl⟩, by rw [← h.2, val]⟩

theorem is_zero : Is zero 0 := by
  rw [zero]
  apply Is.mk
  · fe2
  · fe2
  · fe2
  · simp

theorem is_one : Is one 1 := by
  rw [one]
  apply Is.mk
  · fe2
  · fe2
  · fe2
  · simp

theorem Is.add (ha : Is a x) (hb : Is b y) : Is (add a b) (x + y) := by
  obtain ⟨a0, a1, a2, h0, h1, h2, rfl⟩ := ha.dest
  obtain ⟨b0, b1, b2, k0, k1, k2, rfl⟩ := hb.dest
  simp only [Fe6.add]
  apply Is.mk
  · fe2
  · fe2
  · fe2
  · simp only [map_add]; ring

theorem Is.sub (ha : Is a x) (hb : Is b y) : Is (sub a b) (x - y) := by
  obtain ⟨a0, a1, a2, h0, h1, h2, rfl⟩ := ha.dest
  obtain ⟨b0, b1, b2, k0, k1, k2, rfl⟩ := hb.dest
  simp only [Fe6.sub]
  apply Is.mk
  · fe2
  · fe2
  · fe2
  · simp only [map_sub]; ring

theorem Is.double (ha : Is a x) : Is (double a) (x + x) := by
  obtain ⟨a0, a1, a2, h0, h1, h2, rfl⟩ := ha.dest
  simp only [Fe6.double]
  apply Is.mk
  · fe2
  · fe2
  · fe2
  · simp only [map_add]; ring

theorem Is.neg (ha : Is a x) : Is (neg a) (-x) := by
  obtain ⟨a0, a1, a2, h0, h1, h2, rfl⟩ := ha.dest
  simp only [Fe6.neg]
  apply Is.mk
  · fe2
  · fe2
  · fe2
  · simp only [map_neg]; ring

theorem Is.mul (ha : Is a x) (hb : Is b y) : Is (mul a b) (x * y) := by
  obtain ⟨a0, a1, a2, h0, h1, h2, rfl⟩ := ha.dest
  obtain ⟨b0, b1, b2, k0, k1, k2, rfl⟩ := hb.dest
  simp only [Fe6.mul]
  apply Is.mk
  · fe2
  · fe2
  · fe2
  · simp only [map_add, map_sub, map_mul, ← w_six]; ring

theorem Is.square (ha : Is a x) : Is (square a) (x * x) := by
  obtain ⟨a0, a1, a2, h0, h1, h2, rfl⟩ := ha.dest
  simp only [Fe6.square]
  apply Is.mk
  · fe2
  · fe2
  · fe2
  · simp only [map_add, map_sub, map_mul, ← w_six]; ring

theorem Is.mulBy01Assign (ha : Is a x) {b0 b1 : Fe2} {y0 y1 : Fq2} (k0 : Fe2.Is b0 y0) (k1 : Fe2.Is b1 y1) :
    Is (mulBy01Assign a b0 b1) (x * (emb2 y0 + emb2 y1 * w ^ 2)) := by
  obtain ⟨a0, a1, a2, h0, h1, h2, rfl⟩ := ha.dest
  simp only [Fe6.mulBy01Assign]
  apply Is.mk
  · fe2
  · fe2
  · fe2
  · simp only [map_add, map_sub, map_mul, ← w_six]; ring

theorem Is.mulBy01 (ha : Is a x) {b0 b1 : Fe2} {y0 y1 : Fq2} (k0 : Fe2.Is b0 y0) (k1 : Fe2.Is b1 y1) :
    Is (mulBy01 a b0 b1) (x * (emb2 y0 + emb2 y1 * w ^ 2)) := by
  obtain ⟨a0, a1, a2, h0, h1, h2, rfl⟩ := ha.dest
  simp only [Fe6.mulBy01]
  apply Is.mk
  · fe2
  · fe2
  · fe2
  · simp only [map_add, map_sub, map_mul, ← w_six]; ring

theorem Is.mulBy1 (ha : Is a x) {b1 : Fe2} {y1 : Fq2} (k1 : Fe2.Is b1 y1) :
    Is (mulBy1 a b1) (x * (emb2 y1 * w ^ 2)) := by
  obtain ⟨a0, a1, a2, h0, h1, h2, rfl⟩ := ha.dest
  simp only [Fe6.mulBy1]
  apply Is.mk
  · fe2
  · fe2
  · fe2
  · simp only [map_mul, ← w_six]; ring

theorem Is.mulByNonResidue (ha : Is a x) : Is (mulByNonResidue a) (x * w ^ 2) := by
  obtain ⟨a0, a1, a2, h0, h1, h2, rfl⟩ := ha.dest
  simp only [Fe6.mulByNonResidue]
  apply Is.mk
  · fe2
  · fe2
  · fe2
  · simp only [map_mul, ← w_six]; ring

theorem Is.mulByBaseField (ha : Is a x) {b : Fe2} {y : Fq2} (k : Fe2.Is b y) :
    Is (mulByBaseField a b) (x * emb2 y) := by
  obtain ⟨a0, a1, a2, h0, h1, h2, rfl⟩ := ha.dest
  simp only [Fe6.mulByBaseField]
  apply Is.mk
  · fe2
  · fe2
  · fe2
  · simp only [map_mul]; ring

theorem inv_aux {F K : Type*} [Field F] [Field K] (e : F →+* K) {ξ : F} {w : K} (hw : w ^ 6 = e ξ) (hc : ∀ b : F, b ^ 3 ≠ ξ)
    (hind : ∀ c0 c1 c2 : F, e c0 + e c1 * w ^ 2 + e c2 * w ^ 4 = 0 → c0 = 0 ∧ c1 = 0 ∧ c2 = 0) {a0 a1 a2 t0 t1 t2 n : F}
    (h0 : t0 = a0 * a0 - ξ * (a1 * a2)) (h1 : t1 = a1 * a1 - a0 * a2) (h2 : t2 = ξ * (a2 * a2) - a0 * a1)
    (hn : n = ξ * (a2 * t2 + a1 * t1) + a0 * t0) :
    e (t0 * n⁻¹) + e (t2 * n⁻¹) * w ^ 2 + e (t1 * n⁻¹) * w ^ 4 = (e a0 + e a1 * w ^ 2 + e a2 * w ^ 4)⁻¹ := by
  have key : (e a0 + e a1 * w ^ 2 + e a2 * w ^ 4) * (e t0 + e t2 * w ^ 2 + e t1 * w ^ 4) = e n := by
    rw [hn, h0, h1, h2]
    simp only [map_add, map_sub, map_mul, ← hw]
    ring
  by_cases hz : e a0 + e a1 * w ^ 2 + e a2 * w ^ 4 = 0
  · obtain ⟨z0, z1, z2⟩ := hind _ _ _ hz
    subst z0 z1 z2
    simp [h0, h1, h2]
  · have hn0 : n ≠ 0 := by
      intro hn0
      rw [hn0, map_zero] at key
      rcases mul_eq_zero.mp key with h | h
      · exact hz h
      · obtain ⟨z0, z2, z1⟩ := hind _ _ _ h
        rw [z0] at h0; rw [z1] at h1; rw [z2] at h2
        by_cases ha2 : a2 = 0
        · subst ha2
          have ha1 : a1 = 0 := by
            have : a1 * a1 = 0 := by linear_combination -h1
            simpa using this
          subst ha1
          have ha0 : a0 = 0 := by
            have : a0 * a0 = 0 := by linear_combination -h0
            simpa using this
          subst ha0
          exact hz (by simp)
        · apply hc (a1 / a2)
          rw [div_pow, div_eq_iff (pow_ne_zero _ ha2)]
          linear_combination (-a1) * h1 + a2 * h2
    have hen : e n ≠ 0 := by rw [Ne, map_eq_zero]; exact hn0
    apply eq_inv_of_mul_eq_one_left
    simp only [map_mul, map_inv₀]
    calc _ = ((e a0 + e a1 * w ^ 2 + e a2 * w ^ 4) * (e t0 + e t2 * w ^ 2 + e t1 * w ^ 4)) * (e n)⁻¹ := by ring
      _ = 1 := by rw [key, mul_inv_cancel₀ hen]

theorem ind6 (c0 c1 c2 : Fq2) (h : emb2 c0 + emb2 c1 * w ^ 2 + emb2 c2 * w ^ 4 = 0) : c0 = 0 ∧ c1 = 0 ∧ c2 = 0 := by
  obtain ⟨h0, _, h2, _, h4, _⟩ := ind (c0 := c0) (c1 := 0) (c2 := c1) (c3 := 0) (c4 := c2) (c5 := 0)
    (by rw [map_zero]; linear_combination h)
  exact ⟨h0, h2, h4⟩

theorem Is.inverse (ha : Is a x) : Is (inverse .amd64 a) x⁻¹ := by
  obtain ⟨a0, a1, a2, h0, h1, h2, rfl⟩ := ha.dest
  simp only [Fe6.inverse]
  apply Is.mk
  · fe2
  · fe2
  · fe2
  · exact inv_aux emb2 w_six xi_not_cube ind6 rfl rfl rfl rfl

end Fe6

/-! ## Fq12 -/

namespace Fe12

/-- all coordinates are reduced. -/
def Red (a : Fe12) : Prop := Fe6.Red a.c0 ∧ Fe6.Red a.c1

/-- `c0 + c1 w`. -/
noncomputable def val (a : Fe12) : Fq12 := Fe6.val a.c0 + Fe6.val a.c1 * w

/-- the reduced model value `a` stands for `z`. -/
def Is (a : Fe12) (z : Fq12) : Prop := Red a ∧ val a = z

variable {a b : Fe12} {x y : Fq12}

theorem Is.cast (h : Is a x) (e : x = y) : Is a y := e ▸ h

theorem Is.mk {c0 c1 : Fe6} {x0 x1 : Fq12} (h0 : Fe6.Is c0 x0) (h1 : Fe6.Is c1 x1)
    (h : x0 + x1 * w = x) : Is ⟨c0, c1⟩ x :=
  ⟨⟨h0.1, h1.1⟩, by rw [val]; dsimp only; rw [h0.2, h1.2, h]⟩

theorem Is.dest (h : Is a x) : ∃ x0 x1, Fe6.Is a.c0 x0 ∧ Fe6.Is a.c1 x1 ∧ x = x0 + x1 * w :=
  ⟨_, _, ⟨h.1.1, rfl⟩, ⟨h.1.2, rfl⟩, by rw [← h.2, val]⟩

/-- solves `Fe6.Is (expression) ?x`. -/
macro "fe6" : tactic => `(tactic| repeat' (with_reducible first
  | assumption | apply Fe6.Is.mul | apply Fe6.Is.add | apply Fe6.Is.sub | apply Fe6.Is.double | apply Fe6.Is.square
  | apply Fe6.Is.neg | apply Fe6.Is.mulByNonResidue | apply Fe6.Is.inverse | apply Fe6.Is.mulBy01Assign
  | apply Fe6.Is.mulBy01 | apply Fe6.Is.mulBy1 | apply Fe6.Is.mulByBaseField | apply Fe6.is_zero | apply Fe6.is_one
  | apply Fe2.Is.add))

theorem is_one : Is one 1 := by
  rw [one]
  apply Is.mk
  · fe6
  · fe6
  · simp

theorem Is.conjugate (ha : Is a x) : ∃ x0 x1, Fe6.Is a.c0 x0 ∧ Fe6.Is a.c1 x1 ∧ x = x0 + x1 * w ∧ Is (conjugate a) (x0 - x1 * w) := by
  obtain ⟨a0, a1, h0, h1, rfl⟩ := ha.dest
  refine ⟨a0, a1, h0, h1, rfl, ?_⟩
  simp only [Fe12.conjugate]
  apply Is.mk
  · fe6
  · fe6
  · ring

theorem Is.square (ha : Is a x) : Is (square a) (x * x) := by
  obtain ⟨a0, a1, h0, h1, rfl⟩ := ha.dest
  simp only [Fe12.square]
  apply Is.mk
  · fe6
  · fe6
  · ring

theorem Is.mul (ha : Is a x) (hb : Is b y) : Is (mul a b) (x * y) := by
  obtain ⟨a0, a1, h0, h1, rfl⟩ := ha.dest
  obtain ⟨b0, b1, k0, k1, rfl⟩ := hb.dest
  simp only [Fe12.mul]
  apply Is.mk
  · fe6
  · fe6
  · ring

theorem Is.mulBy014Assign (ha : Is a x) {c0 c1 c4 : Fe2} {y0 y1 y4 : Fq2} (k0 : Fe2.Is c0 y0) (k1 : Fe2.Is c1 y1)
    (k4 : Fe2.Is c4 y4) : Is (mulBy014Assign a c0 c1 c4) (x * (emb2 y0 + emb2 y1 * w ^ 2 + emb2 y4 * w ^ 3)) := by
  obtain ⟨a0, a1, h0, h1, rfl⟩ := ha.dest
  simp only [Fe12.mulBy014Assign]
  apply Is.mk
  · fe6
  · fe6
  · simp only [map_add]; ring

theorem inv_aux {K : Type*} [Field K] {w x0 x1 : K} (hz : x0 - x1 * w = 0 → x0 + x1 * w = 0) :
    x0 * (x0 * x0 - x1 * x1 * w ^ 2)⁻¹ + -((x0 * x0 - x1 * x1 * w ^ 2)⁻¹ * x1) * w = (x0 + x1 * w)⁻¹ := by
  have key : x0 * x0 - x1 * x1 * w ^ 2 = (x0 + x1 * w) * (x0 - x1 * w) := by ring
  by_cases h : x0 + x1 * w = 0
  · rw [key, h]; simp
  · have h' : x0 - x1 * w ≠ 0 := fun h' => h (hz h')
    rw [key]
    field_simp
    ring

theorem Is.inverse (ha : Is a x) : Is (inverse .amd64 a) x⁻¹ := by
  obtain ⟨a0, a1, h0, h1, rfl⟩ := ha.dest
  simp only [Fe12.inverse]
  apply Is.mk
  · fe6
  · fe6
  · apply inv_aux
    obtain ⟨p0, p1, p2, -, -, -, rfl⟩ := h0.dest
    obtain ⟨q0, q1, q2, -, -, -, rfl⟩ := h1.dest
    intro h
    obtain ⟨rfl, e1, rfl, e3, rfl, e5⟩ := ind (c0 := p0) (c1 := -q0) (c2 := p1) (c3 := -q1) (c4 := p2) (c5 := -q2)
      (by rw [← h]; simp only [map_neg]; ring)
    rw [neg_eq_zero] at e1 e3 e5
    subst e1 e3 e5
    simp

theorem Is.coords (ha : Is a x) : ∃ c0 c1 c2 c3 c4 c5, Fe2.Is a.c0.c0 c0 ∧ Fe2.Is a.c1.c0 c1 ∧ Fe2.Is a.c0.c1 c2 ∧
    Fe2.Is a.c1.c1 c3 ∧ Fe2.Is a.c0.c2 c4 ∧ Fe2.Is a.c1.c2 c5 ∧
    x = emb2 c0 + emb2 c1 * w + emb2 c2 * w ^ 2 + emb2 c3 * w ^ 3 + emb2 c4 * w ^ 4 + emb2 c5 * w ^ 5 := by
  obtain ⟨a0, a1, h0, h1, rfl⟩ := ha.dest
  obtain ⟨p0, p1, p2, k0, k1, k2, rfl⟩ := h0.dest
  obtain ⟨q0, q1, q2, m0, m1, m2, rfl⟩ := h1.dest
  exact ⟨p0, q0, p1, q1, p2, q2, k0, m0, k1, m1, k2, m2, by ring⟩

theorem Is.ofCoords {d0 d1 d2 d3 d4 d5 : Fe2} {c0 c1 c2 c3 c4 c5 : Fq2} (h0 : Fe2.Is d0 c0) (h1 : Fe2.Is d1 c1) (h2 : Fe2.Is d2 c2)
    (h3 : Fe2.Is d3 c3) (h4 : Fe2.Is d4 c4) (h5 : Fe2.Is d5 c5)
    (h : emb2 c0 + emb2 c1 * w + emb2 c2 * w ^ 2 + emb2 c3 * w ^ 3 + emb2 c4 * w ^ 4 + emb2 c5 * w ^ 5 = x) :
    Is ⟨⟨d0, d2, d4⟩, ⟨d1, d3, d5⟩⟩ x :=
  .mk (.mk h0 h2 h4 rfl) (.mk h1 h3 h5 rfl) (by rw [← h]; ring)

theorem Is.equal_iff (ha : Is a x) (hb : Is b y) : equal a b = true ↔ x = y := by
  obtain ⟨c0, c1, c2, c3, c4, c5, h0, h1, h2, h3, h4, h5, rfl⟩ := ha.coords
  obtain ⟨d0, d1, d2, d3, d4, d5, k0, k1, k2, k3, k4, k5, rfl⟩ := hb.coords
  simp only [Fe12.equal, Fe6.equal, Bool.and_eq_true]
  rw [h0.equal_iff k0, h1.equal_iff k1, h2.equal_iff k2, h3.equal_iff k3, h4.equal_iff k4, h5.equal_iff k5]
  constructor
  · rintro ⟨⟨⟨e1, e2⟩, e3⟩, ⟨e4, e5⟩, e6⟩
    rw [e1, e2, e3, e4, e5, e6]
  · intro h
    obtain ⟨e0, e1, e2, e3, e4, e5⟩ := ind (c0 := c0 - d0) (c1 := c1 - d1) (c2 := c2 - d2) (c3 := c3 - d3) (c4 := c4 - d4)
      (c5 := c5 - d5) (by simp only [map_sub]; linear_combination h)
    exact ⟨⟨⟨sub_eq_zero.mp e0, sub_eq_zero.mp e2⟩, sub_eq_zero.mp e4⟩, ⟨sub_eq_zero.mp e1, sub_eq_zero.mp e3⟩, sub_eq_zero.mp e5⟩

end Fe12

end Verif.Bls
