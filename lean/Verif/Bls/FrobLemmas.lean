import Verif.Bls.Frobenius

/-!
# Frobenius maps and cyclotomic squaring
-/

namespace Verif.Bls

open Spec (xi w emb2)

noncomputable instance : CharP Fq12 Q := charP_of_injective_ringHom Spec.emb1.injective Q

noncomputable instance : ExpChar Fq12 Q := .prime prime_Q

/-- `x ↦ x^(q^k)`. -/
noncomputable def phi (k : ℕ) : Fq12 →+* Fq12 := iterateFrobenius Fq12 Q k

theorem phi_def (k : ℕ) (x : Fq12) : phi k x = x ^ Q ^ k := by rw [phi, iterateFrobenius_def]

theorem Q_mod6 : Q % 6 = 1 := by decide +kernel

theorem Q_pow6 (k : ℕ) : Q ^ k = 6 * ((Q ^ k - 1) / 6) + 1 := by
  have h : Q ^ k % 6 = 1 := by rw [Nat.pow_mod, Q_mod6]; simp
  generalize Q ^ k = n at *
  omega

theorem pow_aux {K : Type*} [Field K] (w x : K) (e n m : ℕ) (hn : n = 6 * m + 1) (hw : w ^ 6 = x) : w ^ n = x ^ m * w := by
  rw [hn, pow_add, pow_mul, hw, pow_one]

theorem phi_w (k : ℕ) : phi k w = emb2 (xi ^ ((Q ^ k - 1) / 6)) * w := by
  rw [phi_def, map_pow]
  exact pow_aux w (emb2 xi) 0 _ _ (Q_pow6 k) w_six

theorem Fq2_pow_QQ (x : Fq2) : (x ^ Q) ^ Q = x := by rw [frob, frob, star_star]

theorem pow_iter {M : Type*} [Monoid M] {q : ℕ} (x : M) (h : ∀ x : M, (x ^ q) ^ q = x) (k : ℕ) :
    x ^ q ^ k = if k % 2 = 1 then x ^ q else x := by
  induction k with
  | zero => simp
  | succ k ih =>
    rw [pow_succ, pow_mul, ih]
    rcases Nat.mod_two_eq_zero_or_one k with h0 | h0
    · rw [if_neg (by omega), if_pos (by omega)]
    · rw [if_pos h0, if_neg (by omega), h]

theorem Fq2_pow (x : Fq2) (k : ℕ) : x ^ Q ^ k = if k % 2 = 1 then x ^ Q else x := pow_iter x Fq2_pow_QQ k

theorem phi_emb2 (k : ℕ) (x : Fq2) : phi k (emb2 x) = emb2 (x ^ Q ^ k) := by rw [phi_def, map_pow]

theorem phi_emb2_even {k : ℕ} (hk : k % 2 = 0) (x : Fq2) : phi k (emb2 x) = emb2 x := by
  rw [phi_emb2, Fq2_pow, if_neg (by omega)]

theorem phi_phi (j k : ℕ) (x : Fq12) : phi j (phi k x) = phi (j + k) x := by
  simp only [phi_def]
  rw [← pow_mul, ← pow_add, add_comm]

theorem Fe2.Is.frob {a : Fe2} {x : Fq2} (ha : Fe2.Is a x) (k : ℕ) : Fe2.Is (Fe2.frobeniusMap a k) (x ^ Q ^ k) := by
  rw [Fq2_pow]
  rcases Nat.mod_two_eq_zero_or_one k with h0 | h0
  · rw [if_neg (by omega)]; exact ha.frob_even h0
  · rw [if_pos h0]; exact ha.frob_odd h0

theorem is_frob12 {k : ℕ} (hk : k < 12) : Fe2.Is (frob12 k) (xi ^ ((Q ^ k - 1) / 6)) := chkPow_spec (frob12_spec k hk)
theorem is_frob61 {k : ℕ} (hk : k < 12) : Fe2.Is (frob61 (k % 6)) (xi ^ (2 * ((Q ^ k - 1) / 6))) := chkPow_spec (frob61_spec k hk)
theorem is_frob62 {k : ℕ} (hk : k < 12) : Fe2.Is (frob62 (k % 6)) (xi ^ (4 * ((Q ^ k - 1) / 6))) := chkPow_spec (frob62_spec k hk)

theorem Fe2.Is.uniq {a : Fe2} {x y : Fq2} (h : Fe2.Is a x) (k : Fe2.Is a y) : x = y := h.2.symm.trans k.2

theorem is_frob61_3 : Fe2.Is frob61_3 ⟨0, 1⟩ := by
  refine Fe2.mk_spec Fe.red_zero Fe.red_one ?_ ?_
  · exact Fe.den_zero
  · exact Fe.den_one

theorem frob62_3_eq : frob62_3 = Fe2.neg Fe2.one := by decide +kernel

theorem is_frob62_3 : Fe2.Is frob62_3 (-1) := by rw [frob62_3_eq]; exact Fe2.is_one.neg

theorem u_mul_aux {K : Type*} [Field K] (z : QuadraticAlgebra K (-1) 0) :
    (-z.im = (z * (⟨0, 1⟩ : QuadraticAlgebra K (-1) 0)).re) ∧ (z.re = (z * (⟨0, 1⟩ : QuadraticAlgebra K (-1) 0)).im) := by
  rw [QuadraticAlgebra.re_mul, QuadraticAlgebra.im_mul]
  constructor <;> ring

theorem u_mul_parts (z : Fq2) : (-z.im = (z * (⟨0, 1⟩ : Fq2)).re) ∧ (z.re = (z * (⟨0, 1⟩ : Fq2)).im) := u_mul_aux z

theorem Fe2.Is.mulU {a : Fe2} {x : Fq2} (ha : Fe2.Is a x) : Fe2.Is ⟨Fe.neg a.c1, a.c0⟩ (x * ⟨0, 1⟩) := by
  obtain ⟨h1, e1⟩ := Fe.den_neg ha.1.2
  obtain ⟨p1, p2⟩ := u_mul_parts x
  refine mk_spec h1 ha.1.1 ?_ ?_
  · rw [e1, ← p1, ← ha.2, den_im]
  · rw [← p2, ← ha.2, den_re]

theorem phi6_val (k : ℕ) (a0 a1 a2 : Fq2) : phi k (emb2 a0 + emb2 a1 * w ^ 2 + emb2 a2 * w ^ 4) =
    emb2 (a0 ^ Q ^ k) + emb2 (a1 ^ Q ^ k * xi ^ (2 * ((Q ^ k - 1) / 6))) * w ^ 2 +
      emb2 (a2 ^ Q ^ k * xi ^ (4 * ((Q ^ k - 1) / 6))) * w ^ 4 := by
  simp only [map_add, map_mul, map_pow (phi k), phi_w, phi_emb2]
  rw [pow_mul' xi 2, pow_mul' xi 4]
  generalize xi ^ ((Q ^ k - 1) / 6) = g
  generalize a0 ^ Q ^ k = b0
  generalize a1 ^ Q ^ k = b1
  generalize a2 ^ Q ^ k = b2
  simp only [map_pow]
  ring

theorem Fe6.Is.frobeniusMapAssign {a : Fe6} {x : Fq12} (ha : Fe6.Is a x) {k : ℕ} (hk : k < 12) :
    Fe6.Is (Fe6.frobeniusMapAssign a k) (phi k x) := by
  obtain ⟨a0, a1, a2, h0, h1, h2, rfl⟩ := ha.dest
  rw [phi6_val]
  simp only [Fe6.frobeniusMapAssign]
  have e1 := is_frob61 hk
  have e2 := is_frob62 hk
  split
  · rename_i h
    rw [h] at e1 e2
    have g1 := e1.uniq Fe2.is_one
    have g2 := e2.uniq Fe2.is_one
    rw [g1, g2, mul_one, mul_one]
    exact Fe6.Is.mk (h0.frob k) (h1.frob k) (h2.frob k) rfl
  · split
    · rename_i h
      rw [h] at e1 e2
      have g1 := e1.uniq is_frob61_3
      have g2 := e2.uniq is_frob62_3
      rw [g1, g2]
      exact Fe6.Is.mk (h0.frob k) (h1.frob k).mulU ((h2.frob k).neg.cast (mul_neg_one _).symm) rfl
    · exact Fe6.Is.mk (h0.frob k) ((h1.frob k).mul e1) ((h2.frob k).mul e2) rfl

/-- fp6's `frobeniusMap`, away from the case with the wrong indices. -/
theorem Fe6.Is.frobeniusMap {a : Fe6} {x : Fq12} (ha : Fe6.Is a x) {k : ℕ} (hk : k < 12) (h3 : k % 6 ≠ 3) :
    Fe6.Is (Fe6.frobeniusMap a k) (phi k x) := by
  have h := ha.frobeniusMapAssign hk
  simp only [Fe6.frobeniusMapAssign, if_neg h3] at h
  simp only [Fe6.frobeniusMap, if_neg h3]
  exact h

theorem phi12_val (k : ℕ) (x0 x1 : Fq12) : phi k (x0 + x1 * w) = phi k x0 + phi k x1 * emb2 (xi ^ ((Q ^ k - 1) / 6)) * w := by
  rw [map_add, map_mul, phi_w]; ring

theorem frob12_6_eq : frob12_6 = Fe2.neg Fe2.one := by decide +kernel

theorem frob_tail {o0 o1 : Fe6} {x0 x1 : Fq12} {k : ℕ} (hk : k < 12) (h0 : Fe6.Is o0 (phi k x0)) (h1 : Fe6.Is o1 (phi k x1)) :
    Fe12.Is (if k = 0 then ⟨o0, o1⟩ else if k = 6 then ⟨o0, Fe6.neg o1⟩ else ⟨o0, Fe6.mulByBaseField o1 (frob12 k)⟩)
      (phi k (x0 + x1 * w)) := by
  rw [phi12_val]
  have e := is_frob12 hk
  split
  · rename_i h
    have g : xi ^ ((Q ^ k - 1) / 6) = 1 := by
      rw [h] at e ⊢; exact e.uniq Fe2.is_one
    rw [g, map_one, mul_one]
    exact .mk h0 h1 rfl
  · split
    · rename_i h
      have g : xi ^ ((Q ^ k - 1) / 6) = -1 := by
        rw [h] at e ⊢; exact e.uniq (show Fe2.Is frob12_6 (-1) from by rw [frob12_6_eq]; exact Fe2.is_one.neg)
      rw [g, map_neg, map_one]
      exact .mk h0 h1.neg (by ring)
    · exact .mk h0 (h1.mulByBaseField e) rfl

theorem Fe12.Is.frobeniusMapAssign {a : Fe12} {x : Fq12} (ha : Fe12.Is a x) {k : ℕ} (hk : k < 12) :
    Fe12.Is (Fe12.frobeniusMapAssign a k) (phi k x) := by
  obtain ⟨a0, a1, h0, h1, rfl⟩ := ha.dest
  simp only [Fe12.frobeniusMapAssign]
  exact frob_tail hk (h0.frobeniusMapAssign hk) (h1.frobeniusMapAssign hk)

theorem Fe12.Is.frobeniusMap {a : Fe12} {x : Fq12} (ha : Fe12.Is a x) {k : ℕ} (hk : k < 12) (h3 : k % 6 ≠ 3) :
    Fe12.Is (Fe12.frobeniusMap a k) (phi k x) := by
  obtain ⟨a0, a1, h0, h1, rfl⟩ := ha.dest
  simp only [Fe12.frobeniusMap]
  exact frob_tail hk (h0.frobeniusMap hk h3) (h1.frobeniusMap hk h3)

theorem phi_six_w : phi 6 w = -w := by
  rw [phi_w]
  have e := is_frob12 (show 6 < 12 by norm_num)
  rw [e.uniq (show Fe2.Is frob12_6 (-1) from by rw [frob12_6_eq]; exact Fe2.is_one.neg), map_neg, map_one]
  ring

theorem Fe6.Is.phi_six {a : Fe6} {x : Fq12} (ha : Fe6.Is a x) : phi 6 x = x := by
  obtain ⟨a0, a1, a2, h0, h1, h2, rfl⟩ := ha.dest
  simp only [map_add, map_mul, map_pow, phi_six_w, phi_emb2_even (show 6 % 2 = 0 by norm_num)]
  ring

theorem Fe12.Is.conj {a : Fe12} {x : Fq12} (ha : Fe12.Is a x) : Fe12.Is (Fe12.conjugate a) (phi 6 x) := by
  obtain ⟨x0, x1, h0, h1, rfl, h⟩ := ha.conjugate
  refine h.cast ?_
  rw [map_add, map_mul, h0.phi_six, h1.phi_six, phi_six_w]
  ring

theorem phi_twelve (x : Fq12) : phi 12 x = x := by
  obtain ⟨c0, c1, c2, c3, c4, c5, rfl⟩ := span x
  have hw : phi 12 w = w := by
    rw [show 12 = 6 + 6 by norm_num, ← phi_phi, phi_six_w, map_neg, phi_six_w, neg_neg]
  simp only [map_add, map_mul, map_pow, hw, phi_emb2_even (show 12 % 2 = 0 by norm_num)]

/-! ## the cyclotomic subgroup -/

/-- `xi^((q²-1)/6)`, a primitive sixth root of unity. -/
noncomputable def g6 : Fq2 := xi ^ ((Q ^ 2 - 1) / 6)

theorem g6_check : Fe2.mul frob12_2 frob12_2 = Fe2.sub frob12_2 Fe2.one := by decide +kernel

theorem g6_sq : g6 * g6 = g6 - 1 := by
  have h := is_frob12 (k := 2) (by norm_num)
  rw [← g6, show frob12 2 = frob12_2 from rfl] at h
  have h1 := h.mul h
  rw [g6_check] at h1
  exact h1.uniq (h.sub Fe2.is_one)

theorem phi_two_w : phi 2 w = emb2 g6 * w := by rw [phi_w, g6]

theorem phi_four_w : phi 4 w = emb2 (g6 * g6) * w := by
  rw [show 4 = 2 + 2 by norm_num, ← phi_phi, phi_two_w, map_mul, phi_two_w, phi_emb2_even (by norm_num), map_mul]
  ring

theorem pow_g {K : Type*} [Field K] {g : K} (h : g * g = g - 1) : g ^ 2 = g - 1 ∧ g ^ 3 = -1 ∧ g ^ 4 = -g ∧ g ^ 5 = 1 - g := by
  have h2 : g ^ 2 = g - 1 := by rw [← h]; ring
  have h3 : g ^ 3 = -1 := by linear_combination g * h2 + h2
  refine ⟨h2, h3, ?_, ?_⟩
  · linear_combination g * h3
  · linear_combination g ^ 2 * h3 - h2

theorem pow_g' {K : Type*} [Field K] {g : K} (h : g * g = g - 1) :
    (g - 1) ^ 2 = -g ∧ (g - 1) ^ 3 = 1 ∧ (g - 1) ^ 4 = g - 1 ∧ (g - 1) ^ 5 = -g := by
  have h2 : (g - 1) ^ 2 = -g := by linear_combination h
  have h3 : (g - 1) ^ 3 = 1 := by linear_combination (g - 1) * h2 - h
  refine ⟨h2, h3, ?_, ?_⟩
  · linear_combination (g - 1) * h3
  · linear_combination (g - 1) ^ 2 * h3 + h2

theorem cyc_aux {F K : Type*} [Field F] [Field K] (e : F →+* K) {ξ g : F} {w : K} (hw : w ^ 6 = e ξ)
    (hind : ∀ c0 c1 c2 c3 c4 c5 : F, e c0 + e c1 * w + e c2 * w ^ 2 + e c3 * w ^ 3 + e c4 * w ^ 4 + e c5 * w ^ 5 = 0 →
      c0 = 0 ∧ c1 = 0 ∧ c2 = 0 ∧ c3 = 0 ∧ c4 = 0 ∧ c5 = 0) (hg : g * g = g - 1) {c0 c1 c2 c3 c4 c5 : F}
    (h : (e c0 + e c1 * (e (g - 1) * w) + e c2 * (e (-g) * w ^ 2) + e c3 * w ^ 3 + e c4 * (e (g - 1) * w ^ 4) + e c5 * (e (-g) * w ^ 5)) *
        (e c0 + e c1 * w + e c2 * w ^ 2 + e c3 * w ^ 3 + e c4 * w ^ 4 + e c5 * w ^ 5) =
      e c0 + e c1 * (e g * w) + e c2 * (e (g - 1) * w ^ 2) - e c3 * w ^ 3 + e c4 * (e (-g) * w ^ 4) + e c5 * (e (1 - g) * w ^ 5)) :
    c0 * c0 + ξ * (c3 * c3 - c1 * c5 - c2 * c4) = c0 ∧ c0 * c1 + ξ * (c3 * c4 - 2 * c2 * c5) = c1 ∧
    c1 * c1 - c0 * c2 + ξ * (c4 * c4 - c3 * c5) = c2 ∧ c1 * c2 - 2 * c0 * c3 + ξ * (c4 * c5) = c3 ∧
    c2 * c2 - c0 * c4 - c1 * c3 + ξ * (c5 * c5) = c4 ∧ c0 * c5 + c2 * c3 - 2 * c1 * c4 = c5 := by
  have hg0 : g ≠ 0 := by rintro rfl; simp at hg
  have hg1 : g - 1 ≠ 0 := by rw [← hg]; exact mul_ne_zero hg0 hg0
  have hg2 : 1 - g ≠ 0 := by rw [← neg_sub]; exact neg_ne_zero.mpr hg1
  obtain ⟨e0, e1, e2, e3, e4, e5⟩ := hind (c0 * c0 + ξ * (c3 * c3 - c1 * c5 - c2 * c4) - c0)
    (g * (c0 * c1 + ξ * (c3 * c4 - 2 * c2 * c5) - c1))
    ((g - 1) * (c1 * c1 - c0 * c2 + ξ * (c4 * c4 - c3 * c5) - c2))
    (-(c1 * c2 - 2 * c0 * c3 + ξ * (c4 * c5) - c3))
    ((-g) * (c2 * c2 - c0 * c4 - c1 * c3 + ξ * (c5 * c5) - c4))
    ((1 - g) * (c0 * c5 + c2 * c3 - 2 * c1 * c4 - c5)) (by
      simp only [map_add, map_sub, map_mul, map_neg, map_one, map_ofNat, ← hw] at h ⊢
      linear_combination h)
  refine ⟨sub_eq_zero.mp e0, sub_eq_zero.mp ?_, sub_eq_zero.mp ?_, sub_eq_zero.mp (neg_eq_zero.mp e3), sub_eq_zero.mp ?_, sub_eq_zero.mp ?_⟩
  · exact (mul_eq_zero.mp e1).resolve_left hg0
  · exact (mul_eq_zero.mp e2).resolve_left hg1
  · exact (mul_eq_zero.mp e4).resolve_left (neg_ne_zero.mpr hg0)
  · exact (mul_eq_zero.mp e5).resolve_left hg2

/-- the cyclotomic subgroup, defined by `x^(q⁴ - q² + 1) = 1`. -/
def Cyc (x : Fq12) : Prop := x ≠ 0 ∧ phi 4 x * x = phi 2 x

theorem Cyc.rels {c0 c1 c2 c3 c4 c5 : Fq2}
    (h : phi 4 (emb2 c0 + emb2 c1 * w + emb2 c2 * w ^ 2 + emb2 c3 * w ^ 3 + emb2 c4 * w ^ 4 + emb2 c5 * w ^ 5) *
        (emb2 c0 + emb2 c1 * w + emb2 c2 * w ^ 2 + emb2 c3 * w ^ 3 + emb2 c4 * w ^ 4 + emb2 c5 * w ^ 5) =
      phi 2 (emb2 c0 + emb2 c1 * w + emb2 c2 * w ^ 2 + emb2 c3 * w ^ 3 + emb2 c4 * w ^ 4 + emb2 c5 * w ^ 5)) :
    c0 * c0 + xi * (c3 * c3 - c1 * c5 - c2 * c4) = c0 ∧ c0 * c1 + xi * (c3 * c4 - 2 * c2 * c5) = c1 ∧
    c1 * c1 - c0 * c2 + xi * (c4 * c4 - c3 * c5) = c2 ∧ c1 * c2 - 2 * c0 * c3 + xi * (c4 * c5) = c3 ∧
    c2 * c2 - c0 * c4 - c1 * c3 + xi * (c5 * c5) = c4 ∧ c0 * c5 + c2 * c3 - 2 * c1 * c4 = c5 := by
  refine cyc_aux emb2 w_six (fun _ _ _ _ _ _ h => ind h) g6_sq ?_
  simp only [map_add, map_mul, map_pow, phi_two_w, phi_four_w, phi_emb2_even (show 4 % 2 = 0 by norm_num),
    phi_emb2_even (show 2 % 2 = 0 by norm_num), mul_pow] at h
  obtain ⟨p2, p3, p4, p5⟩ := pow_g (show emb2 g6 * emb2 g6 = emb2 g6 - 1 by rw [← map_mul, g6_sq, map_sub, map_one])
  obtain ⟨r2, r3, r4, r5⟩ := pow_g' (show emb2 g6 * emb2 g6 = emb2 g6 - 1 by rw [← map_mul, g6_sq, map_sub, map_one])
  have hgg : emb2 g6 * emb2 g6 = emb2 g6 - 1 := by rw [← map_mul, g6_sq, map_sub, map_one]
  simp only [← mul_pow, hgg] at h
  simp only [mul_pow, p2, p3, p4, p5, r2, r3, r4, r5] at h
  simp only [map_sub, map_neg, map_one]
  linear_combination h

theorem Fe12.Is.cyclotomicSquare {a : Fe12} {x : Fq12} (ha : Fe12.Is a x) (hx : phi 4 x * x = phi 2 x) :
    Fe12.Is (Fe12.cyclotomicSquare a) (x * x) := by
  obtain ⟨c0, c1, c2, c3, c4, c5, h0, h1, h2, h3, h4, h5, rfl⟩ := ha.coords
  obtain ⟨e0, e1, e2, e3, e4, e5⟩ := Cyc.rels hx
  simp only [Fe12.cyclotomicSquare, Fe12.fp4Square]
  apply Fe12.Is.ofCoords
  · fe2
  · fe2
  · fe2
  · fe2
  · fe2
  · fe2
  · replace e0 := congrArg emb2 e0
    replace e1 := congrArg emb2 e1
    replace e2 := congrArg emb2 e2
    replace e3 := congrArg emb2 e3
    replace e4 := congrArg emb2 e4
    replace e5 := congrArg emb2 e5
    simp only [map_add, map_sub, map_mul, map_ofNat, ← w_six] at e0 e1 e2 e3 e4 e5 ⊢
    clear hx ha h0 h1 h2 h3 h4 h5
    linear_combination 2 * e0 - 2 * w * e1 + 2 * w ^ 2 * e2 - 2 * w ^ 3 * e3 + 2 * w ^ 4 * e4 - 2 * w ^ 5 * e5

end Verif.Bls
