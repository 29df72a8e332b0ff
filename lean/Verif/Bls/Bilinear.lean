import Verif.Bls.Eigen

/-!
# The ate pairing is bilinear
-/

namespace Verif.Bls

open Verif.EC WeierstrassCurve Sem
open Spec (xi w emb2 emb1)

/-! ## generic lemmas -/

theorem slope_spec {F K : Type} [Field F] [DecidableEq F] [Field K] [DecidableEq K] {b : F} (e : F →+* K) {c : K} (hc : c ≠ 0)
    {x₁ y₁ x₂ y₂ : F} (h₁ : (sw 0 b).Nonsingular x₁ y₁) (h₂ : (sw 0 b).Nonsingular x₂ y₂) (hn : ¬(x₁ = x₂ ∧ y₁ = (sw 0 b).negY x₂ y₂)) :
    (if ((e x₁ / c ^ 2, e y₁ / c ^ 3) : K × K) = (e x₂ / c ^ 2, e y₂ / c ^ 3) then 3 * (e x₁ / c ^ 2) ^ 2 / (2 * (e y₁ / c ^ 3))
      else (e y₂ / c ^ 3 - e y₁ / c ^ 3) / (e x₂ / c ^ 2 - e x₁ / c ^ 2)) = e ((sw 0 b).slope x₁ x₂ y₁ y₂) / c := by
  rw [← slope_map (b := b) (b' := (0 : K)) e hc]
  have hx : e x₁ / c ^ 2 = e x₂ / c ^ 2 ↔ x₁ = x₂ := by
    rw [div_left_inj' (pow_ne_zero _ hc)]; exact e.injective.eq_iff
  have hy : e y₁ / c ^ 3 = e y₂ / c ^ 3 ↔ y₁ = y₂ := by
    rw [div_left_inj' (pow_ne_zero _ hc)]; exact e.injective.eq_iff
  have hy' : e y₁ / c ^ 3 = -(e y₂ / c ^ 3) ↔ y₁ = -y₂ := by
    rw [← neg_div, div_left_inj' (pow_ne_zero _ hc), ← map_neg]; exact e.injective.eq_iff
  rw [sw_negY] at hn
  by_cases hxx : x₁ = x₂
  · have hyn : y₁ ≠ (sw 0 b).negY x₂ y₂ := by rw [sw_negY]; exact fun h => hn ⟨hxx, h⟩
    have hyy := Affine.Y_eq_of_Y_ne h₁.1 h₂.1 hxx hyn
    rw [if_pos (by rw [hxx, hyy]), Affine.slope_of_Y_ne (hx.mpr hxx) (by rw [sw_negY]; exact fun h => hn ⟨hxx, hy'.mp h⟩)]
    simp only [sw_a1, sw_a2, sw_a4, sw_negY]
    congr 1 <;> ring
  · rw [if_neg (fun h => hxx (hx.mp (congrArg Prod.fst h))), Affine.slope_of_X_ne (fun h => hxx (hx.mp h)), ← neg_sub, ← neg_sub (e x₁ / c ^ 2),
      neg_div_neg_eq]

theorem sw_eval {F K : Type} [Field F] [Field K] {b : F} (e : F →+* K) {x₀ y₀ : K} (h : y₀ ^ 2 = x₀ ^ 3 + e b) :
    (sw 0 b).polynomial.eval₂ (Polynomial.eval₂RingHom e x₀) y₀ = 0 := by
  rw [Affine.polynomial, sw_a1, sw_a2, sw_a3, sw_a4, sw_a6]
  simp [h, Polynomial.eval₂_pow]

/-! ## lines -/

/-- the line through `A` and `B` at a point of `E1`. -/
noncomputable def ln (p : Fq × Fq) (A B : Spec.E2.Point) : Fq12 :=
  Spec.line (Spec.untwist A) (Spec.untwist B) (emb1 p.1, emb1 p.2)

theorem lineAt_eq (A B : Spec.E2.Point → Spec.E2.Point) (p : Fq × Fq) (T : Spec.E2.Point) : lineAt A B (p, T) = ln p (A T) (B T) := by
  rw [lineAt, ln]

theorem ln_ne {p : Fq × Fq} (hp : p.2 ≠ 0) (A B : Spec.E2.Point) : ln p A B ≠ 0 := line_ne (untwist_odd A) (untwist_odd B) hp

theorem spec_slope {x₁ y₁ x₂ y₂ : Fq2} (h₁ : Spec.E2.Nonsingular x₁ y₁) (h₂ : Spec.E2.Nonsingular x₂ y₂)
    (hn : (Affine.Point.some x₁ y₁ h₁ + Affine.Point.some x₂ y₂ h₂ : Spec.E2.Point) ≠ 0) :
    Spec.slope (Spec.untwist (.some x₁ y₁ h₁)) (Spec.untwist (.some x₂ y₂ h₂)) = emb2 (Spec.E2.slope x₁ x₂ y₁ y₂) / w := by
  rw [untwist_some, untwist_some, Spec.slope]
  exact slope_spec emb2 w_ne h₁ h₂ (not_neg hn)

theorem line_scale {K : Type*} [Field K] {w xP yP a b l : K} (hw : w ≠ 0) :
    w ^ 3 * ((yP - b / w ^ 3) - l / w * (xP - a / w ^ 2)) = yP * w ^ 3 - b - l * (xP * w ^ 2 - a) := by
  field_simp

theorem eval_ok {p : Fq × Fq} (hp : p.2 ^ 2 = p.1 ^ 3 + 4) : (emb1 p.2 * w ^ 3) ^ 2 = (emb1 p.1 * w ^ 2) ^ 3 + emb2 Spec.b2 := by
  rw [b2_xi, map_mul, ← w_six, map_ofNat]
  have h := congrArg emb1 hp
  rw [map_add, map_pow, map_pow, map_ofNat] at h
  linear_combination w ^ 6 * h

/-- evaluation of a function on `E2` at the image of a point of `E1`. -/
noncomputable def ev {p : Fq × Fq} (hp : p.2 ^ 2 = p.1 ^ 3 + 4) : Spec.E2.CoordinateRing →+* Fq12 :=
  evalFn emb2 (sw_eval emb2 (eval_ok hp))

theorem ev_line {p : Fq × Fq} (hp : p.2 ^ 2 = p.1 ^ 3 + 4) {A B : Spec.E2.Point} (hA : A ≠ 0) (hB : B ≠ 0) (h : A + B ≠ 0) :
    ev hp (lineFn A B) = w ^ 3 * ln p A B := by
  cases A with
  | zero => exact absurd rfl hA
  | some x₁ y₁ h₁ =>
    cases B with
    | zero => exact absurd rfl hB
    | some x₂ y₂ h₂ =>
      rw [ev, evalFn_line, ln, Spec.line, spec_slope h₁ h₂ h, untwist_some]
      exact (line_scale w_ne).symm

theorem xi_cube (c d : Fq2) (hc : c ≠ 0) : emb2 c * w ^ 2 ≠ emb2 d := by
  intro h
  have h3 : emb2 (c ^ 3 * xi) = emb2 (d ^ 3) := by
    rw [map_mul, map_pow, map_pow, ← h, ← w_six]; ring
  have h4 := emb2.injective h3
  apply xi_not_cube (d / c)
  rw [div_pow, ← h4, mul_div_cancel_left₀ _ (pow_ne_zero _ hc)]

theorem E2_x_ne {y : Fq2} (h : Spec.E2.Nonsingular 0 y) : False := by
  have e := (sw_equation _ _ _ _).mp h.1
  rw [b2_xi] at e
  apply xi_not_square (y / 2)
  have h2 : (2 : Fq2) ≠ 0 := Fq2_two_ne
  rw [div_pow, div_eq_iff (pow_ne_zero _ h2)]
  linear_combination e

theorem fixed_pow {z : Fq12} (h0 : z ≠ 0) (h : phi 6 z = z) : z ^ NN = 1 := by
  have h1 := phi_six_pow z
  rw [map_pow, h] at h1
  have h2 : (z ^ NN) ^ 2 = 1 := by
    rw [pow_two]; nth_rewrite 1 [h1]; exact inv_mul_cancel₀ (pow_ne_zero _ h0)
  have h3 : (z ^ NN) ^ Spec.r = 1 := by rw [← pow_mul, NN_r, Fq12_pow_one h0]
  have hr : Spec.r = 2 * (Spec.r / 2) + 1 := by decide +kernel
  rw [hr, pow_succ, pow_mul, h2, one_pow, one_mul] at h3
  exact h3

theorem ev_vert {p : Fq × Fq} (hp : p.2 ^ 2 = p.1 ^ 3 + 4) {A : Spec.E2.Point} (hA : A ≠ 0) :
    ev hp (vertFn A) ≠ 0 ∧ ev hp (vertFn A) ^ NN = 1 := by
  cases A with
  | zero => exact absurd rfl hA
  | some x y h =>
    rw [ev, evalFn_vert]
    have h0 : emb1 p.1 * w ^ 2 - emb2 x ≠ 0 := by
      rw [sub_ne_zero]
      by_cases hx : p.1 = 0
      · rw [hx, map_zero, zero_mul]
        intro he
        have : x = 0 := (map_eq_zero emb2).mp he.symm
        subst this
        exact E2_x_ne h
      · rw [emb1_eq]
        apply xi_cube
        rw [Ne, map_eq_zero]; exact hx
    refine ⟨h0, fixed_pow h0 ?_⟩
    rw [map_sub, map_mul, map_pow, phi_six_w, phi_emb1, phi_emb2_even (by norm_num), neg_sq]

theorem emb2_pow {c : Fq2} (hc : c ≠ 0) : emb2 c ^ NN = 1 := by
  refine fixed_pow ?_ (phi_emb2_even (by norm_num) c)
  rw [Ne, map_eq_zero]; exact hc

theorem four_pow_aux {K : Type*} [Field K] {N : ℕ} {W a b c a' b' c' v1 v2 v3 v4 u : K} (hW : W ≠ 0)
    (h : (W * a) * (W * b) * (W * c) * (v1 * v2) * u = (W * a') * (W * b') * (W * c') * (v3 * v4)) (h1 : v1 ^ N = 1) (h2 : v2 ^ N = 1)
    (h3 : v3 ^ N = 1) (h4 : v4 ^ N = 1) (hu : u ^ N = 1) : a ^ N * b ^ N * c ^ N = a' ^ N * b' ^ N * c' ^ N := by
  have h' := congrArg (· ^ N) h
  simp only [mul_pow, h1, h2, h3, h4, hu, mul_one] at h'
  have hW' : W ^ N ≠ 0 := pow_ne_zero _ hW
  apply mul_left_cancel₀ (pow_ne_zero 3 hW')
  linear_combination h'

/-- four points: adding them in two orders. -/
theorem ln_four {p : Fq × Fq} (hp : p.2 ^ 2 = p.1 ^ 3 + 4) {A B C D : Spec.E2.Point} (hA : A ≠ 0) (hB : B ≠ 0) (hC : C ≠ 0) (hD : D ≠ 0)
    (hAB : A + B ≠ 0) (hCD : C + D ≠ 0) (hAC : A + C ≠ 0) (hBD : B + D ≠ 0) (hS : A + B + (C + D) ≠ 0) :
    ln p A B ^ NN * ln p C D ^ NN * ln p (A + B) (C + D) ^ NN = ln p A C ^ NN * ln p B D ^ NN * ln p (A + C) (B + D) ^ NN := by
  obtain ⟨c, hc, e⟩ := four_fn hA hB hC hD hAB hCD hAC hBD hS
  have hS' : A + C + (B + D) ≠ 0 := by rwa [show A + C + (B + D) = A + B + (C + D) by abel]
  have e' := congrArg (ev hp) e
  simp only [map_mul] at e'
  rw [ev_line hp hA hB hAB, ev_line hp hC hD hCD, ev_line hp hAB hCD hS, ev_line hp hA hC hAC, ev_line hp hB hD hBD,
    ev_line hp hAC hBD hS', show ev hp (Affine.CoordinateRing.mk _ (Polynomial.C (Polynomial.C c))) = emb2 c from evalFn_const _ _ _] at e'
  exact four_pow_aux (pow_ne_zero 3 w_ne) e' (ev_vert hp hAC).2 (ev_vert hp hBD).2 (ev_vert hp hAB).2 (ev_vert hp hCD).2 (emb2_pow hc)

/-! ## Miller's function in the second argument -/

/-- Miller's function, after the final exponentiation. -/
noncomputable def mp (p : Fq × Fq) (n : ℕ) (T : Spec.E2.Point) : Fq12 := millerAt n (p, T) ^ NN

/-- a line, after the final exponentiation. -/
noncomputable def lp (p : Fq × Fq) (A B : Spec.E2.Point) : Fq12 := ln p A B ^ NN

theorem mp_ne {x y : Fq} (hy : y ≠ 0) (n : ℕ) (T : Spec.E2.Point) : mp (x, y) n T ≠ 0 := by
  rw [mp]; exact pow_ne_zero _ (millerAt_ne T hy n)

theorem mp_one (p : Fq × Fq) (T : Spec.E2.Point) : mp p 1 T = 1 := by rw [mp, millerAt_one, one_pow]

theorem mp_even {n : ℕ} (hn : 0 < n) (p : Fq × Fq) (T : Spec.E2.Point) :
    mp p (2 * n) T = mp p n T ^ 2 * lp p (n • T) (n • T) := by
  rw [mp, millerAt_even hn, lineAt_eq, mul_pow, mp, lp, pow_right_comm]

theorem mp_odd {n : ℕ} (hn : 0 < n) (p : Fq × Fq) (T : Spec.E2.Point) :
    mp p (2 * n + 1) T = mp p (2 * n) T * lp p ((2 * n) • T) T := by
  rw [mp, millerAt_odd hn, lineAt_eq, lineAt_eq, mul_pow, mp, millerAt_even hn, lineAt_eq, lp]

theorem lp_ne {p : Fq × Fq} (hp : p.2 ≠ 0) (A B : Spec.E2.Point) : lp p A B ≠ 0 := pow_ne_zero _ (ln_ne hp A B)

theorem lp_r {p : Fq × Fq} (hp : p.2 ≠ 0) (A B : Spec.E2.Point) : lp p A B ^ Spec.r = 1 := by
  rw [lp, ← pow_mul, NN_r, Fq12_pow_one (ln_ne hp A B)]

theorem even_aux {K : Type*} [CommRing K] {a b c l L la lb lc l' : K} {n : ℕ} (ih : a * b * l = c * L ^ n)
    (h : la * lb * l' = l * l * lc) : a ^ 2 * la * (b ^ 2 * lb) * l' = c ^ 2 * lc * L ^ (2 * n) := by
  have h2 : (a * b * l) ^ 2 = (c * L ^ n) ^ 2 := by rw [ih]
  rw [mul_pow c, ← pow_mul, mul_comm n 2] at h2
  linear_combination (a * b) ^ 2 * h + lc * h2

theorem odd_aux {K : Type*} [CommRing K] {a b c l L la lb lc l' : K} {n : ℕ} (ih : a * b * l = c * L ^ n)
    (h : la * lb * l' = l * L * lc) : a * la * (b * lb) * l' = c * lc * L ^ (n + 1) := by
  rw [pow_succ]
  linear_combination (a * b) * h + L * lc * ih

theorem mp_add {p : Fq × Fq} (hp : p.2 ^ 2 = p.1 ^ 3 + 4) {S T : Spec.E2.Point} (hS : Ok S) (hT : Ok T) (hST : Ok (S + T)) {n : ℕ}
    (hn : 0 < n) (hr : n < Spec.r) : mp p n S * mp p n T * lp p (n • S) (n • T) = mp p n (S + T) * lp p S T ^ n := by
  induction n using Nat.strong_induction_on with
  | _ n ih =>
    have step : ∀ m, 0 < m → 2 * m < Spec.r → m < n →
        mp p (2 * m) S * mp p (2 * m) T * lp p ((2 * m) • S) ((2 * m) • T) = mp p (2 * m) (S + T) * lp p S T ^ (2 * m) := by
      intro m h0 hmr hmn
      have e2 : ∀ R : Spec.E2.Point, (2 * m) • R = m • R + m • R := fun R => by rw [two_mul, add_smul]
      have h4 := ln_four hp (hS.smul h0 (by omega)) (hS.smul h0 (by omega)) (hT.smul h0 (by omega)) (hT.smul h0 (by omega))
        (by rw [← e2]; exact hS.smul (by omega) hmr) (by rw [← e2]; exact hT.smul (by omega) hmr)
        (by rw [← nsmul_add]; exact hST.smul h0 (by omega)) (by rw [← nsmul_add]; exact hST.smul h0 (by omega))
        (by rw [← e2, ← e2, ← nsmul_add]; exact hST.smul (by omega) hmr)
      rw [← e2, ← e2, ← nsmul_add] at h4
      rw [mp_even h0, mp_even h0, mp_even h0]
      exact even_aux (ih m hmn h0 (by omega)) h4
    rcases Nat.lt_or_ge 1 n with h1 | h1
    · rcases Nat.mod_two_eq_zero_or_one n with h | h
      · have e : n = 2 * (n / 2) := by omega
        rw [e]
        exact step (n / 2) (by omega) (by omega) (by omega)
      · obtain ⟨m, rfl⟩ : ∃ m, n = 2 * m + 1 := ⟨n / 2, by omega⟩
        have h0 : 0 < m := by omega
        have e1 : ∀ R : Spec.E2.Point, (2 * m + 1) • R = (2 * m) • R + R := fun R => by rw [add_smul, one_smul]
        have h4 := ln_four hp (hS.smul (j := 2 * m) (by omega) (by omega)) hS.1 (hT.smul (j := 2 * m) (by omega) (by omega)) hT.1
          (by rw [← e1]; exact hS.smul (by omega) hr) (by rw [← e1]; exact hT.smul (by omega) hr)
          (by rw [← nsmul_add]; exact hST.smul (by omega) (by omega)) hST.1
          (by rw [← e1, ← e1, ← nsmul_add]; exact hST.smul (by omega) hr)
        rw [← e1, ← e1, ← nsmul_add] at h4
        rw [mp_odd h0, mp_odd h0, mp_odd h0]
        exact odd_aux (step m h0 (by omega) (by omega)) h4
    · have : n = 1 := by omega
      subst this
      rw [mp_one, mp_one, mp_one, one_smul, one_smul, pow_one, one_mul]

/-! ## the Frobenius map on lines -/

theorem line_phi (k : ℕ) (A B P : Fq12 × Fq12) : Spec.line (phiPt k A) (phiPt k B) (phiPt k P) = phi k (Spec.line A B P) := by
  have hs : Spec.slope (phiPt k A) (phiPt k B) = phi k (Spec.slope A B) := by
    rw [Spec.slope, Spec.slope]
    have hi : phiPt k A = phiPt k B ↔ A = B := by
      rw [phiPt, phiPt, Prod.ext_iff, Prod.ext_iff]
      simp only [(phi k).injective.eq_iff]
    simp only [hi]
    split_ifs
    · simp only [phiPt, map_div₀, map_mul, map_pow, map_ofNat]
    · simp only [phiPt, map_div₀, map_sub]
  rw [Spec.line, Spec.line, hs]
  simp only [phiPt, map_sub, map_mul]

theorem ln_X (p : Fq × Fq) {S T : Spec.E2.Point} (hS : Spec.r • S = 0) (hT : Spec.r • T = 0) :
    ln p (blsX • S) (blsX • T) = phi 7 (ln p S T) := by
  rw [ln, untwist_X hS, untwist_X hT, ln, ← line_phi]
  rw [show phiPt 7 (emb1 p.1, emb1 p.2) = (emb1 p.1, emb1 p.2) by simp only [phiPt, phi7_emb1]]

theorem X_mod : Q ^ 7 = Spec.r * (Q ^ 7 / Spec.r) + blsX := by decide +kernel
theorem X_pos : 0 < blsX := by decide +kernel

theorem pow_Q7 {z : Fq12} (h : z ^ Spec.r = 1) : z ^ Q ^ 7 = z ^ blsX := by
  rw [X_mod, pow_add, pow_mul, h, one_pow, one_mul]

theorem mp_X {p : Fq × Fq} (hp : p.2 ^ 2 = p.1 ^ 3 + 4) (hy : p.2 ≠ 0) {S T : Spec.E2.Point} (hS : Ok S) (hT : Ok T) (hST : Ok (S + T)) :
    mp p blsX S * mp p blsX T = mp p blsX (S + T) := by
  have h := mp_add hp hS hT hST X_pos (lt_trans (Nat.lt_succ_self _) X_lt)
  have hl : lp p (blsX • S) (blsX • T) = lp p S T ^ blsX := by
    rw [lp, ln_X p hS.2 hT.2, phi_def, ← pow_mul, mul_comm, pow_mul, ← lp, pow_Q7 (lp_r hy S T)]
  rw [hl] at h
  exact mul_right_cancel₀ (pow_ne_zero _ (lp_ne hy S T)) h

/-! ## the negative of the second argument -/

theorem untwist_neg {T : Spec.E2.Point} : Spec.untwist (-T) = phiPt 6 (Spec.untwist T) := by
  have ho := untwist_odd T
  rw [phiPt, ho.1, ho.2]
  cases T with
  | zero =>
    rw [show (-(Affine.Point.zero) : Spec.E2.Point) = .zero from rfl, Spec.untwist]
    simp only [neg_zero]
  | some x y h =>
    rw [Affine.Point.neg_some, untwist_some, untwist_some, sw_negY, map_neg, neg_div]

theorem ln_neg (p : Fq × Fq) (A B : Spec.E2.Point) : ln p (-A) (-B) = phi 6 (ln p A B) := by
  rw [ln, untwist_neg, untwist_neg, ln, ← line_phi]
  rw [show phiPt 6 (emb1 p.1, emb1 p.2) = (emb1 p.1, emb1 p.2) by simp only [phiPt, phi_emb1]]

theorem millerAt_neg_right (p : Fq × Fq) (T : Spec.E2.Point) (n : ℕ) : millerAt n (p, -T) = phi 6 (millerAt n (p, T)) := by
  induction n using Nat.strong_induction_on with
  | _ n ih =>
    rcases Nat.lt_or_ge 1 n with hn | hn
    · rcases Nat.mod_two_eq_zero_or_one n with h | h
      · rw [show n = 2 * (n / 2) by omega, millerAt_even (by omega), millerAt_even (by omega), ih (n / 2) (by omega), lineAt_eq, lineAt_eq,
          neg_nsmul, ln_neg, map_mul, map_pow]
      · rw [show n = 2 * (n / 2) + 1 by omega, millerAt_odd (by omega), millerAt_odd (by omega), ih (n / 2) (by omega), lineAt_eq, lineAt_eq,
          lineAt_eq, lineAt_eq, neg_nsmul, neg_nsmul, ln_neg, ln_neg, map_mul, map_mul, map_pow]
    · rw [millerAt, Spec.miller, dif_pos hn, millerAt, Spec.miller, dif_pos hn, map_one]

theorem mp_neg (p : Fq × Fq) (T : Spec.E2.Point) (n : ℕ) : mp p n (-T) = (mp p n T)⁻¹ := by
  rw [mp, millerAt_neg_right, ← map_pow, phi_six_pow, mp]

theorem pairing_mp {x y : Fq} (h : Spec.E1.Nonsingular x y) {T : Spec.E2.Point} (hT : T ≠ 0) :
    Spec.pairing (.some x y h) T = (mp (x, y) blsX T)⁻¹ := by rw [pairing_some h hT, mp]

theorem E1_eq {x y : Fq} (h : Spec.E1.Nonsingular x y) : (x, y).2 ^ 2 = (x, y).1 ^ 3 + 4 := by
  have e := (sw_equation _ _ _ _).mp h.1
  rw [zero_mul, add_zero] at e
  exact e

/-- the pairing is additive in the second argument. -/
theorem pairing_add_right (P : Spec.E1.Point) {S T : Spec.E2.Point} (hS : Spec.r • S = 0) (hT : Spec.r • T = 0) :
    Spec.pairing P (S + T) = Spec.pairing P S * Spec.pairing P T := by
  by_cases hS0 : S = 0
  · rw [hS0, zero_add, pairing_zero_right, one_mul]
  by_cases hT0 : T = 0
  · rw [hT0, add_zero, pairing_zero_right, mul_one]
  cases P with
  | zero =>
    rw [show (Affine.Point.zero : Spec.E1.Point) = 0 from rfl, pairing_zero_left, pairing_zero_left, pairing_zero_left, one_mul]
  | some x y h =>
    by_cases h0 : S + T = 0
    · have : T = -S := by rw [eq_neg_iff_add_eq_zero, add_comm]; exact h0
      rw [h0, pairing_zero_right, this, pairing_mp h hS0, pairing_mp h (neg_ne_zero.mpr hS0), mp_neg, inv_inv,
        inv_mul_cancel₀ (mp_ne (y_ne h) _ _)]
    · rw [pairing_mp h h0, pairing_mp h hS0, pairing_mp h hT0, ← mp_X (E1_eq h) (y_ne h) ⟨hS0, hS⟩ ⟨hT0, hT⟩ ⟨h0, by
        rw [nsmul_add, hS, hT, add_zero]⟩, mul_inv]

/-! ## lines through points of `E1` -/

/-- the line `y = l x + m` at a point of `E2`. -/
noncomputable def tl (l m : Fq) (A : Spec.E2.Point) : Fq12 :=
  (Spec.untwist A).2 - (emb1 l * (Spec.untwist A).1 + emb1 m)

theorem card_odd : (h2 * Spec.r) % 2 = 1 := by decide +kernel

theorem E2_y_ne {x y : Fq2} (h : Spec.E2.Nonsingular x y) : y ≠ 0 := by
  rintro rfl
  have h1 := add_self_of_y (h := h)
  have hc := card_smul (.some x 0 h)
  have h3 : h2 * Spec.r = 2 * (h2 * Spec.r / 2) + 1 := by have := card_odd; omega
  rw [h3, add_nsmul, mul_comm, mul_nsmul', two_nsmul, h1, nsmul_zero, zero_add, one_nsmul] at hc
  exact Affine.Point.some_ne_zero h hc

theorem tl_ne (l m : Fq) {A : Spec.E2.Point} (hA : A ≠ 0) : tl l m A ≠ 0 := by
  intro h
  have ho := untwist_odd A
  have h' := congrArg (phi 6) h
  rw [map_zero, tl, map_sub, map_add, map_mul, ho.1, ho.2, phi_emb1, phi_emb1] at h'
  rw [tl] at h
  have h2 : 2 * (Spec.untwist A).2 = 0 := by linear_combination h - h'
  rcases mul_eq_zero.mp h2 with h3 | h3
  · exact Fq12_two_ne h3
  · cases A with
    | zero => exact hA rfl
    | some x y hn =>
      rw [untwist_some] at h3
      rcases div_eq_zero_iff.mp h3 with h4 | h4
      · exact E2_y_ne hn ((map_eq_zero _).mp h4)
      · exact pow_ne_zero 3 w_ne h4

theorem tl_phi (k : ℕ) (hk : ∀ x, phi k (emb1 x) = emb1 x) (l m : Fq) {A B : Spec.E2.Point} (h : Spec.untwist B = phiPt k (Spec.untwist A)) :
    tl l m B = phi k (tl l m A) := by
  rw [tl, h, tl, map_sub, map_add, map_mul, hk, hk, phiPt]

/-- the line at a point, after the final exponentiation. -/
noncomputable def tp (l m : Fq) (A : Spec.E2.Point) : Fq12 := tl l m A ^ NN

theorem tp_ne (l m : Fq) {A : Spec.E2.Point} (hA : A ≠ 0) : tp l m A ≠ 0 := by rw [tp]; exact pow_ne_zero _ (tl_ne l m hA)

theorem tp_neg (l m : Fq) (A : Spec.E2.Point) : tp l m (-A) = (tp l m A)⁻¹ := by
  rw [tp, tl_phi 6 phi_emb1 l m untwist_neg, ← map_pow, phi_six_pow, tp]

theorem tp_X (l m : Fq) {A : Spec.E2.Point} (hA : Ok A) : tp l m (blsX • A) = tp l m A ^ blsX := by
  have hr : tp l m A ^ Spec.r = 1 := by rw [tp, ← pow_mul, NN_r, Fq12_pow_one (tl_ne l m hA.1)]
  rw [tp, tl_phi 7 phi7_emb1 l m (untwist_X hA.2), phi_def, ← pow_mul, mul_comm, pow_mul, ← tp, pow_Q7 hr]

theorem lp_neg (x y : Fq) (A B : Spec.E2.Point) : lp (x, -y) A B = (lp (x, y) A B)⁻¹ := by
  have h := line_conj (untwist_odd A) (untwist_odd B) x y
  have h' : ln (x, -y) A B = -phi 6 (ln (x, y) A B) := by rw [ln, ln, h, neg_neg]
  rw [lp, h', even_pow (Or.inr rfl : -phi 6 (ln (x, y) A B) = phi 6 (ln (x, y) A B) ∨ _), ← map_pow, phi_six_pow, lp]

theorem vieta_one {l m x₁ x₂ x₃ : Fq} (h : Vieta 4 l m x₁ x₂ x₃) :
    Vieta (4 : Fq12) (emb1 l) (emb1 m) (emb1 x₁) (emb1 x₂) (emb1 x₃) := by
  have := h.map emb1 (c := 1) (b' := 4) one_ne_zero (by rw [map_ofNat]; ring)
  simpa only [one_pow, div_one] using this

theorem vieta_two {l m x₁ x₂ x₃ : Fq2} (h : Vieta Spec.b2 l m x₁ x₂ x₃) :
    Vieta (4 : Fq12) (emb2 l / w) (emb2 m / w ^ 3) (emb2 x₁ / w ^ 2) (emb2 x₂ / w ^ 2) (emb2 x₃ / w ^ 2) :=
  h.map emb2 w_ne (by rw [b2_xi, map_mul, map_ofNat, ← w_six]; ring)

theorem recip_aux {K : Type*} [Field K] {L M l m a₁ a₂ a₃ b₁ b₂ b₃ p₁ p₂ p₃ q₁ q₂ q₃ : K} (hb : b₁ = L * a₁ + M) (hb2 : b₂ = L * a₂ + M)
    (hb3 : b₃ = L * a₃ + M) (hq : q₁ = l * p₁ + m) (hq2 : q₂ = l * p₂ + m) (hq3 : q₃ = l * p₃ + m)
    (h : ((l * p₁ + m) - (L * p₁ + M)) * ((l * p₂ + m) - (L * p₂ + M)) * ((l * p₃ + m) - (L * p₃ + M)) =
      -(((L * a₁ + M) - (l * a₁ + m)) * ((L * a₂ + M) - (l * a₂ + m)) * ((L * a₃ + M) - (l * a₃ + m)))) :
    ((q₁ - b₁) - L * (p₁ - a₁)) * ((q₂ - b₁) - L * (p₂ - a₁)) * ((q₃ - b₁) - L * (p₃ - a₁)) =
      -((b₁ - (l * a₁ + m)) * (b₂ - (l * a₂ + m)) * (b₃ - (l * a₃ + m))) := by
  subst hb hb2 hb3 hq hq2 hq3
  rw [← h]
  ring

theorem recip {x₁ y₁ x₂ y₂ x₃ y₃ : Fq} {h₁ : Spec.E1.Nonsingular x₁ y₁} {h₂ : Spec.E1.Nonsingular x₂ y₂} {h₃ : Spec.E1.Nonsingular x₃ y₃}
    (hs : (Affine.Point.some x₁ y₁ h₁ + Affine.Point.some x₂ y₂ h₂ : Spec.E1.Point) = .some x₃ y₃ h₃) :
    ∃ l m : Fq, ∀ {A B : Spec.E2.Point}, A ≠ 0 → B ≠ 0 → A + B ≠ 0 →
      ln (x₁, y₁) A B * ln (x₂, y₂) A B * ln (x₃, -y₃) A B = -(tl l m A * tl l m B * tl l m (-(A + B))) := by
  obtain ⟨hv, hy2, hy3⟩ := vieta hs
  generalize Spec.E1.slope x₁ x₂ y₁ y₂ = l at hv hy2 hy3
  refine ⟨l, y₁ - l * x₁, ?_⟩
  intro A B hA hB hAB
  cases A with
  | zero => exact absurd rfl hA
  | some a₁ b₁ g₁ =>
    cases B with
    | zero => exact absurd rfl hB
    | some a₂ b₂ g₂ =>
      obtain ⟨a₃, b₃, g₃, e⟩ : ∃ a₃ b₃ g₃, (Affine.Point.some a₁ b₁ g₁ + Affine.Point.some a₂ b₂ g₂ : Spec.E2.Point) = .some a₃ b₃ g₃ := by
        generalize (Affine.Point.some a₁ b₁ g₁ + Affine.Point.some a₂ b₂ g₂ : Spec.E2.Point) = C at hAB
        cases C with
        | zero => exact absurd rfl hAB
        | some a b g => exact ⟨a, b, g, rfl⟩
      obtain ⟨hw, hb2, hb3⟩ := vieta e
      have hsl := spec_slope g₁ g₂ hAB
      generalize Spec.E2.slope a₁ a₂ b₁ b₂ = L at hw hb2 hb3 hsl
      have hr := reciprocity (vieta_two hw) (vieta_one hv)
      simp only [ln, Spec.line, hsl, tl]
      rw [e, Affine.Point.neg_some, untwist_some, untwist_some, untwist_some, sw_negY]
      have f2 := congrArg emb2 hb2
      have f3 := congrArg emb2 hb3
      have d2 := congrArg emb1 hy2
      have d3 := congrArg emb1 hy3
      simp only [map_sub, map_mul, map_neg] at f2 f3 d2 d3 hr ⊢
      refine recip_aux ?_ ?_ ?_ ?_ ?_ ?_ hr
      · have := w_ne; field_simp; ring
      · have := w_ne; field_simp; linear_combination f2
      · have := w_ne; field_simp; linear_combination f3
      · ring
      · linear_combination d2
      · linear_combination d3

theorem recip_pow_aux {K : Type*} [Field K] {a b c t s u : K} (hc : c ≠ 0) (hu : u ≠ 0) (h : a * b * c⁻¹ = t * s * u⁻¹) :
    a * b * u = t * s * c := by
  field_simp at h
  linear_combination h

/-! ## Miller's function in the first argument -/

theorem lp_add {x₁ y₁ x₂ y₂ x₃ y₃ : Fq} {h₁ : Spec.E1.Nonsingular x₁ y₁} {h₂ : Spec.E1.Nonsingular x₂ y₂} {h₃ : Spec.E1.Nonsingular x₃ y₃}
    (hs : (Affine.Point.some x₁ y₁ h₁ + Affine.Point.some x₂ y₂ h₂ : Spec.E1.Point) = .some x₃ y₃ h₃) :
    ∃ l m : Fq, ∀ {A B : Spec.E2.Point}, A ≠ 0 → B ≠ 0 → A + B ≠ 0 →
      lp (x₁, y₁) A B * lp (x₂, y₂) A B * tp l m (A + B) = tp l m A * tp l m B * lp (x₃, y₃) A B := by
  obtain ⟨l, m, h⟩ := recip hs
  refine ⟨l, m, ?_⟩
  intro A B hA hB hAB
  have hr := h hA hB hAB
  have h' := even_pow (Or.inr hr)
  rw [mul_pow, mul_pow, mul_pow, mul_pow, ← lp, ← lp, ← lp, ← tp, ← tp, ← tp, lp_neg, tp_neg] at h'
  exact recip_pow_aux (lp_ne (y_ne h₃) A B) (tp_ne l m hAB) h'

theorem mp_left {x₁ y₁ x₂ y₂ x₃ y₃ : Fq} {h₁ : Spec.E1.Nonsingular x₁ y₁} {h₂ : Spec.E1.Nonsingular x₂ y₂} {h₃ : Spec.E1.Nonsingular x₃ y₃}
    (hs : (Affine.Point.some x₁ y₁ h₁ + Affine.Point.some x₂ y₂ h₂ : Spec.E1.Point) = .some x₃ y₃ h₃) {T : Spec.E2.Point} (hT : Ok T) :
    ∃ l m : Fq, ∀ n, 0 < n → n < Spec.r →
      mp (x₁, y₁) n T * mp (x₂, y₂) n T * tp l m (n • T) = mp (x₃, y₃) n T * tp l m T ^ n := by
  obtain ⟨l, m, hl⟩ := lp_add hs
  refine ⟨l, m, ?_⟩
  intro n
  induction n using Nat.strong_induction_on with
  | _ n ih =>
    intro hn hr
    have step : ∀ k, 0 < k → 2 * k < Spec.r → k < n →
        mp (x₁, y₁) (2 * k) T * mp (x₂, y₂) (2 * k) T * tp l m ((2 * k) • T) = mp (x₃, y₃) (2 * k) T * tp l m T ^ (2 * k) := by
      intro k h0 hkr hkn
      have e2 : (2 * k) • T = k • T + k • T := by rw [two_mul, add_smul]
      have h4 := hl (hT.smul h0 (by omega)) (hT.smul h0 (by omega)) (by rw [← e2]; exact hT.smul (by omega) hkr)
      rw [← e2] at h4
      rw [mp_even h0, mp_even h0, mp_even h0]
      exact even_aux (ih k hkn h0 (by omega)) h4
    rcases Nat.lt_or_ge 1 n with h1 | h1
    · rcases Nat.mod_two_eq_zero_or_one n with h | h
      · have e : n = 2 * (n / 2) := by omega
        rw [e]
        exact step (n / 2) (by omega) (by omega) (by omega)
      · obtain ⟨k, rfl⟩ : ∃ k, n = 2 * k + 1 := ⟨n / 2, by omega⟩
        have h0 : 0 < k := by omega
        have e1 : (2 * k + 1) • T = (2 * k) • T + T := by rw [add_smul, one_smul]
        have h4 := hl (hT.smul (j := 2 * k) (by omega) (by omega)) hT.1 (by rw [← e1]; exact hT.smul (by omega) hr)
        rw [← e1] at h4
        rw [mp_odd h0, mp_odd h0, mp_odd h0]
        exact odd_aux (step k h0 (by omega) (by omega)) h4
    · have : n = 1 := by omega
      subst this
      rw [mp_one, mp_one, mp_one, one_smul, pow_one, one_mul]

/-- the pairing is additive in the first argument. -/
theorem pairing_add_left (P R : Spec.E1.Point) {T : Spec.E2.Point} (hT : Spec.r • T = 0) :
    Spec.pairing (P + R) T = Spec.pairing P T * Spec.pairing R T := by
  by_cases hT0 : T = 0
  · rw [hT0, pairing_zero_right, pairing_zero_right, pairing_zero_right, one_mul]
  by_cases h0 : P + R = 0
  · have : R = -P := by rw [eq_neg_iff_add_eq_zero, add_comm]; exact h0
    rw [h0, pairing_zero_left, this, pairing_neg, mul_inv_cancel₀ (pairing_ne _ _)]
  cases P with
  | zero => rw [show (Affine.Point.zero : Spec.E1.Point) = 0 from rfl, zero_add, pairing_zero_left, one_mul]
  | some x₁ y₁ h₁ =>
    cases R with
    | zero => rw [show (Affine.Point.zero : Spec.E1.Point) = 0 from rfl, add_zero, pairing_zero_left, mul_one]
    | some x₂ y₂ h₂ =>
      obtain ⟨x₃, y₃, h₃, e⟩ : ∃ x₃ y₃ h₃, (Affine.Point.some x₁ y₁ h₁ + Affine.Point.some x₂ y₂ h₂ : Spec.E1.Point) = .some x₃ y₃ h₃ := by
        generalize (Affine.Point.some x₁ y₁ h₁ + Affine.Point.some x₂ y₂ h₂ : Spec.E1.Point) = C at h0
        cases C with
        | zero => exact absurd rfl h0
        | some a b g => exact ⟨a, b, g, rfl⟩
      have hok : Ok T := ⟨hT0, hT⟩
      obtain ⟨l, m, h⟩ := mp_left e hok
      have hx := h blsX X_pos (lt_trans (Nat.lt_succ_self _) X_lt)
      rw [tp_X l m hok] at hx
      have := mul_right_cancel₀ (pow_ne_zero _ (tp_ne l m hT0)) hx
      rw [e, pairing_mp h₃ hT0, pairing_mp h₁ hT0, pairing_mp h₂ hT0, ← this, mul_inv]

theorem pairing_smul_left (k : ℕ) (P : Spec.E1.Point) {T : Spec.E2.Point} (hT : Spec.r • T = 0) :
    Spec.pairing (k • P) T = Spec.pairing P T ^ k := by
  induction k with
  | zero => rw [zero_nsmul, pairing_zero_left, pow_zero]
  | succ k ih => rw [succ_nsmul, pairing_add_left _ _ hT, ih, pow_succ]

theorem r_smul {T : Spec.E2.Point} (hT : Spec.r • T = 0) (k : ℕ) : Spec.r • (k • T) = 0 := by
  rw [smul_comm, hT, nsmul_zero]

theorem pairing_smul_right (k : ℕ) (P : Spec.E1.Point) {T : Spec.E2.Point} (hT : Spec.r • T = 0) :
    Spec.pairing P (k • T) = Spec.pairing P T ^ k := by
  induction k with
  | zero => rw [zero_nsmul, pairing_zero_right, pow_zero]
  | succ k ih => rw [succ_nsmul, pairing_add_right _ (r_smul hT k) hT, ih, pow_succ]

end Verif.Bls
