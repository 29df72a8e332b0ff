import Mathlib.GroupTheory.Perm.Cycle.Type
import Mathlib.FieldTheory.Finite.Basic
import Verif.EC.Ref

/-!
# The number of points of a curve

Lemmas only (no code of the repo is modelled).  If `n • G = 0` for a prime `n`, `2p + 1 < 3n` and `x³ + ax + b` has no root, then the curve
has exactly `n` points, so `n • Q = 0` for every point.  That the cubic has no root is shown by computing `x^p` modulo the cubic.
-/

namespace Verif.EC.Order

open WeierstrassCurve

variable (c : Params)

/-- polynomials of degree below 3 modulo `x³ + ax + b`. -/
structure Poly where
  c0 : Int
  c1 : Int
  c2 : Int
  deriving DecidableEq

/-- product modulo the cubic: `x³ = -ax - b`, `x⁴ = -ax² - bx`. -/
def Poly.mul (s t : Poly) : Poly :=
  let d0 := s.c0 * t.c0
  let d1 := s.c0 * t.c1 + s.c1 * t.c0
  let d2 := s.c0 * t.c2 + s.c1 * t.c1 + s.c2 * t.c0
  let d3 := s.c1 * t.c2 + s.c2 * t.c1
  let d4 := s.c2 * t.c2
  ⟨(d0 - c.b * d3) % c.p, (d1 - c.a * d3 - c.b * d4) % c.p, (d2 - c.a * d4) % c.p⟩

/-- `acc · t^k`, by squaring. -/
def Poly.pow : Nat → Nat → Poly → Poly → Poly
  | 0, _, _, acc => acc
  | f + 1, k, t, acc =>
    if k = 0 then acc else Poly.pow f (k / 2) (Poly.mul c t t) (if k % 2 = 1 then Poly.mul c acc t else acc)

/-- `x^p` modulo the cubic. -/
def frob : Poly := Poly.pow c (c.p.log2 + 1) c.p ⟨0, 1, 0⟩ ⟨1, 0, 0⟩

/-- `x^p - x` is invertible modulo the cubic, with inverse `h`. -/
def noRoot (h : Poly) : Prop :=
  Poly.mul c h ⟨(frob c).c0, (frob c).c1 - 1, (frob c).c2⟩ = ⟨1, 0, 0⟩

instance (h : Poly) : Decidable (noRoot c h) := by unfold noRoot; infer_instance

variable {c} [hp : Fact c.p.Prime]

def Poly.ev (t : Poly) (r : ZMod c.p) : ZMod c.p := t.c0 + t.c1 * r + t.c2 * r ^ 2

theorem ev_mul {r : ZMod c.p} (hr : r ^ 3 + c.a * r + c.b = 0) (s t : Poly) :
    (Poly.mul c s t).ev r = s.ev r * t.ev r := by
  simp only [Poly.mul, Poly.ev, ZMod.intCast_mod, Int.cast_sub, Int.cast_mul, Int.cast_add, Int.cast_natCast]
  linear_combination (-((s.c1 : ZMod c.p) * t.c2 + s.c2 * t.c1) - s.c2 * t.c2 * r) * hr

theorem ev_pow {r : ZMod c.p} (hr : r ^ 3 + c.a * r + c.b = 0) (f k : Nat) (hk : k < 2 ^ f) (t acc : Poly) :
    (Poly.pow c f k t acc).ev r = acc.ev r * t.ev r ^ k := by
  induction f generalizing k t acc with
  | zero => have : k = 0 := by simpa using hk
            subst this; simp [Poly.pow]
  | succ f ih =>
    unfold Poly.pow
    split
    · rename_i h0; subst h0; simp
    · have hdiv := Nat.div_add_mod k 2
      rw [ih (k / 2) (by rw [pow_succ] at hk; omega), ev_mul hr]
      by_cases h1 : k % 2 = 1
      · simp only [h1, if_true]
        rw [ev_mul hr]
        conv_rhs => rw [← hdiv, h1, pow_succ, pow_mul]
        ring
      · have h0 : k % 2 = 0 := by omega
        simp only [h1, if_false]
        conv_rhs => rw [← hdiv, h0, add_zero, pow_mul]
        ring

theorem no_root {h : Poly} (hn : noRoot c h) (r : ZMod c.p) : r ^ 3 + c.a * r + c.b ≠ 0 := by
  intro hr
  have h1 := ev_pow hr (c.p.log2 + 1) c.p Nat.lt_log2_self ⟨0, 1, 0⟩ ⟨1, 0, 0⟩
  have h2 : (Poly.ev ⟨0, 1, 0⟩ r : ZMod c.p) = r := by simp [Poly.ev]
  have h3 : (Poly.ev ⟨1, 0, 0⟩ r : ZMod c.p) = 1 := by simp [Poly.ev]
  rw [h2, h3, one_mul, ZMod.pow_card] at h1
  have h4 := congrArg (fun t : Poly => t.ev r) hn
  simp only [ev_mul hr, h3] at h4
  have h5 : (Poly.ev ⟨(frob c).c0, (frob c).c1 - 1, (frob c).c2⟩ r : ZMod c.p) = 0 := by
    have h1' : (frob c).ev r = r := h1
    simp only [Poly.ev, Int.cast_sub, Int.cast_one] at h1' ⊢
    linear_combination h1'
  rw [h5, mul_zero] at h4
  exact zero_ne_one h4

/-- a point is determined by `x` and the parity of `y`. -/
def key : c.Pt → Option (ZMod c.p × Bool)
  | .zero => none
  | .some x y _ => some (x, y.val % 2 == 0)

theorem key_inj (hg : Good c) : Function.Injective (key (c := c)) := by
  intro P Q h
  have hodd : c.p % 2 = 1 := by
    rcases hp.out.eq_two_or_odd with h | h
    · have := hg.p3; omega
    · exact h
  cases P with
  | zero => cases Q with
    | zero => rfl
    | some x y hn => simp [key] at h
  | some x y hn => cases Q with
    | zero => simp [key] at h
    | some x' y' hn' =>
      simp only [key, Option.some.injEq, Prod.mk.injEq] at h
      obtain ⟨hx, hy⟩ := h
      subst hx
      have e1 := (W_equation _ _).mp hn.1
      have e2 := (W_equation _ _).mp hn'.1
      have : (y - y') * (y + y') = 0 := by linear_combination e1 - e2
      have hyy : y = y' := by
        rcases mul_eq_zero.mp this with h | h
        · exact sub_eq_zero.mp h
        · have hneg : y' = -y := by linear_combination h
          by_cases hy0 : y = 0
          · rw [hneg, hy0]; simp
          · exfalso
            have : NeZero y := ⟨hy0⟩
            have hv : y'.val = c.p - y.val := by rw [hneg, ZMod.val_neg_of_ne_zero]
            have hlt := ZMod.val_lt y
            have hb : (y.val % 2 = 0) ↔ (y'.val % 2 = 0) := by
              rw [← beq_iff_eq, ← beq_iff_eq (a := y'.val % 2), hy]
            omega
      subst hyy; rfl

theorem finite (hg : Good c) : Finite c.Pt := Finite.of_injective _ (key_inj hg)

theorem card_le (hg : Good c) : Nat.card c.Pt ≤ 2 * c.p + 1 := by
  have := Nat.card_le_card_of_injective _ (key_inj hg)
  rw [Nat.card_eq_fintype_card (α := Option (ZMod c.p × Bool))] at this
  simp [ZMod.card] at this
  omega

/-- the curve has exactly `n` points. -/
theorem card_eq (hg : Good c) (ho : c.n • hg.G = 0) (hsz : 2 * c.p + 1 < 3 * c.n) {h : Poly} (hn : noRoot c h) :
    Nat.card c.Pt = c.n := by
  have := finite hg
  have hG : hg.G ≠ 0 := Affine.Point.some_ne_zero _
  have : Fact c.n.Prime := ⟨hg.np⟩
  have hord : addOrderOf hg.G = c.n := addOrderOf_eq_prime ho hG
  have hdvd : c.n ∣ Nat.card c.Pt := hord ▸ addOrderOf_dvd_natCard hg.G
  obtain ⟨m, hm⟩ := hdvd
  have hle := card_le hg
  have hpos : 0 < Nat.card c.Pt := Nat.card_pos
  have hnpos := hg.np.pos
  have hm3 : m < 3 := by
    by_contra hge
    have : c.n * 3 ≤ c.n * m := Nat.mul_le_mul_left _ (by omega)
    omega
  have hm0 : m ≠ 0 := by rintro rfl; omega
  have hm2 : m ≠ 2 := by
    rintro rfl
    have h2 : 2 ∣ Nat.card c.Pt := ⟨c.n, by rw [hm]; ring⟩
    obtain ⟨Q, hQ⟩ := exists_prime_addOrderOf_dvd_card' 2 h2
    have hQ2 : 2 • Q = 0 := hQ ▸ addOrderOf_nsmul_eq_zero Q
    have hQ0 : Q ≠ 0 := by rintro rfl; simp at hQ
    cases hc : Q with
    | zero => exact hQ0 hc
    | some x y hns =>
      have hneg : Q = -Q := by rw [two_nsmul] at hQ2; exact eq_neg_of_add_eq_zero_left hQ2
      rw [hc, Affine.Point.neg_some] at hneg
      have hy : y = c.W.negY x y := by
        have := (Affine.Point.some.injEq _ _ _ _ _ _).mp hneg
        exact this.2
      have hy2 : 2 * y = 0 := by
        simp only [Params.W, sw, Affine.negY] at hy
        linear_combination hy
      have hy0 : y = 0 := (mul_eq_zero.mp hy2).resolve_left hg.two
      have := (W_equation _ _).mp hns.1
      rw [hy0] at this
      exact no_root hn x (by linear_combination -this)
  have : m = 1 := by omega
  rw [hm, this, mul_one]

/-- every point has order dividing `n`. -/
theorem n_smul (hg : Good c) (ho : c.n • hg.G = 0) (hsz : 2 * c.p + 1 < 3 * c.n) {h : Poly} (hn : noRoot c h)
    (Q : c.Pt) : c.n • Q = 0 := by
  have := finite hg
  rw [← card_eq hg ho hsz hn]
  exact card_nsmul_eq_zero'

/-- every point is a multiple of `G`. -/
theorem exists_smul (hg : Good c) (ho : c.n • hg.G = 0) (hsz : 2 * c.p + 1 < 3 * c.n) {h : Poly} (hn : noRoot c h)
    (Q : c.Pt) : ∃ k < c.n, Q = k • hg.G := by
  have := finite hg
  have hcard := card_eq hg ho hsz hn
  have : Fact c.n.Prime := ⟨hg.np⟩
  have hG : hg.G ≠ 0 := Affine.Point.some_ne_zero _
  have hmem := mem_zmultiples_of_prime_card (p := c.n) hcard hG (g' := Q)
  rw [mem_zmultiples_iff_mem_range_addOrderOf, addOrderOf_eq_prime ho hG] at hmem
  obtain ⟨k, hk, he⟩ := Finset.mem_image.mp hmem
  exact ⟨k, Finset.mem_range.mp hk, he.symm⟩

end Verif.EC.Order
