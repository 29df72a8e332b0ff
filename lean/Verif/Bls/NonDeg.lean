import Verif.Bls.Bilinear

/-!
# The pairing of the two generators is not 1

Evaluated with natural numbers: Miller's function up to factors that the final exponentiation removes, then the power
`(q⁶ + 1)/r`, which is in `Fq6` exactly when the pairing is 1.
-/

namespace Verif.Bls

open Verif.EC WeierstrassCurve Sem
open Spec (xi w emb2 emb1)

/-! ## arithmetic in `Fq12` -/

/-- `c0 + c1 w + … + c5 w⁵`. -/
structure N12 where
  c0 : ℕ × ℕ
  c1 : ℕ × ℕ
  c2 : ℕ × ℕ
  c3 : ℕ × ℕ
  c4 : ℕ × ℕ
  c5 : ℕ × ℕ

namespace N12

noncomputable def val (a : N12) : Fq12 :=
  emb2 (calc2.val a.c0) + emb2 (calc2.val a.c1) * w + emb2 (calc2.val a.c2) * w ^ 2 + emb2 (calc2.val a.c3) * w ^ 3 +
    emb2 (calc2.val a.c4) * w ^ 4 + emb2 (calc2.val a.c5) * w ^ 5

def mul (a b : N12) : N12 :=
  let m := calc2.mul
  let p := calc2.add
  let x := calc2.mul (1, 1)
  ⟨p (m a.c0 b.c0) (x (p (m a.c1 b.c5) (p (m a.c2 b.c4) (p (m a.c3 b.c3) (p (m a.c4 b.c2) (m a.c5 b.c1)))))),
   p (p (m a.c0 b.c1) (m a.c1 b.c0)) (x (p (m a.c2 b.c5) (p (m a.c3 b.c4) (p (m a.c4 b.c3) (m a.c5 b.c2))))),
   p (p (m a.c0 b.c2) (p (m a.c1 b.c1) (m a.c2 b.c0))) (x (p (m a.c3 b.c5) (p (m a.c4 b.c4) (m a.c5 b.c3)))),
   p (p (m a.c0 b.c3) (p (m a.c1 b.c2) (p (m a.c2 b.c1) (m a.c3 b.c0)))) (x (p (m a.c4 b.c5) (m a.c5 b.c4))),
   p (p (m a.c0 b.c4) (p (m a.c1 b.c3) (p (m a.c2 b.c2) (p (m a.c3 b.c1) (m a.c4 b.c0))))) (x (m a.c5 b.c5)),
   p (m a.c0 b.c5) (p (m a.c1 b.c4) (p (m a.c2 b.c3) (p (m a.c3 b.c2) (p (m a.c4 b.c1) (m a.c5 b.c0)))))⟩

def one : N12 := ⟨(1, 0), (0, 0), (0, 0), (0, 0), (0, 0), (0, 0)⟩

theorem val_xi : calc2.val (1, 1) = xi := by
  rw [xi]
  apply QuadraticAlgebra.ext <;> simp [calc2, ofPair, QuadraticAlgebra.re_one, QuadraticAlgebra.im_one]

theorem mul_val (a b : N12) : val (mul a b) = val a * val b := by
  simp only [val, mul, (calc2.add_ok _ _).2, (calc2.mul_ok _ _).2, val_xi, map_add, map_mul]
  rw [← w_six]
  ring

theorem one_val : val one = 1 := by
  have h1 : calc2.val (1, 0) = 1 := calc2.one_ok.2
  have h0 : calc2.val (0, 0) = 0 := calc2.zero_ok.2
  simp only [val, one, h1, h0, map_one, map_zero, zero_mul, add_zero]

def powAux : ℕ → N12 → ℕ → N12 → N12
  | 0, _, _, acc => acc
  | f + 1, b, e, acc =>
    if e = 0 then acc
    else
      let b' := mul b b
      if calc2.isZ b'.c5 then powAux f b' (e / 2) (if e % 2 = 1 then mul acc b else acc)
      else powAux f b' (e / 2) (if e % 2 = 1 then mul acc b else acc)

def pow (b : N12) (e : ℕ) : N12 := powAux (e.log2 + 1) b e one

theorem powAux_val (f : ℕ) (b : N12) (e : ℕ) (acc : N12) (h : e < 2 ^ f) : val (powAux f b e acc) = val acc * val b ^ e := by
  induction f generalizing b e acc with
  | zero => have : e = 0 := by simpa using h
            subst this; simp [powAux]
  | succ f ih =>
    unfold powAux
    dsimp only
    rw [ite_self]
    split_ifs with h0 h1
    · rw [h0, pow_zero, mul_one]
    · rw [ih _ _ _ (by rw [pow_succ] at h; omega), mul_val, mul_val]
      have he : val b ^ e = val b ^ (2 * (e / 2) + 1) := by congr 1; omega
      rw [he, pow_succ, pow_mul]; ring
    · rw [ih _ _ _ (by rw [pow_succ] at h; omega), mul_val]
      have he : val b ^ e = val b ^ (2 * (e / 2)) := by congr 1; omega
      rw [he, pow_mul]; ring

theorem pow_val (b : N12) (e : ℕ) : val (pow b e) = val b ^ e := by
  rw [pow, powAux_val _ _ _ _ Nat.lt_log2_self, one_val, one_mul]

theorem powAux_ok (f : ℕ) (b : N12) (e : ℕ) (acc : N12) (h : calc2.Ok acc.c1) : calc2.Ok (powAux f b e acc).c1 := by
  induction f generalizing b e acc with
  | zero => exact h
  | succ f ih =>
    unfold powAux
    dsimp only
    rw [ite_self]
    split_ifs with h0 h1
    · exact h
    · exact ih _ _ _ (calc2.add_ok _ _).1
    · exact ih _ _ _ h

theorem pow_ok (b : N12) (e : ℕ) : calc2.Ok (pow b e).c1 := powAux_ok _ _ _ _ calc2.zero_ok.1

end N12

/-! ## lines -/

theorem tangent_aux {K : Type*} [Field K] {X Y Z x y l xP yP w : K} (hx : X = x * Z ^ 2) (hy : Y = y * Z ^ 3)
    (hl : 2 * y * l = 3 * x ^ 2) : (3 * X * X * X - 2 * Y * Y) - 3 * X * X * (Z * Z) * xP * w ^ 2 + 2 * Y * Z * (Z * Z) * yP * w ^ 3 =
      2 * y * Z ^ 6 * (yP * w ^ 3 - y - l * (xP * w ^ 2 - x)) := by
  subst hx hy
  linear_combination (Z ^ 6 * (xP * w ^ 2 - x)) * hl

theorem chord_aux {K : Type*} [Field K] {X Y Z x y x' y' l xP yP w : K} (hx : X = x * Z ^ 2) (hy : Y = y * Z ^ 3)
    (hl : y' - y = l * (x' - x)) :
    ((y' * Z * (Z * Z) - Y) * x' - Z * (x' * (Z * Z) - X) * y') - (y' * Z * (Z * Z) - Y) * xP * w ^ 2 + Z * (x' * (Z * Z) - X) * yP * w ^ 3 =
      Z ^ 3 * (x' - x) * (yP * w ^ 3 - y - l * (xP * w ^ 2 - x)) := by
  subst hx hy
  linear_combination (Z ^ 3 * (x' - x) - Z ^ 3 * (xP * w ^ 2 - x) - Z ^ 3 * (x' - x) + 0) * hl


abbrev J2 := (ℕ × ℕ) × (ℕ × ℕ) × (ℕ × ℕ)

/-- the tangent at the generator of G1, up to a factor. -/
def lineD (t : J2) : N12 :=
  let m := calc2.mul
  let xx := m (3, 0) (m t.1 t.1)
  let zz := m t.2.2 t.2.2
  ⟨calc2.sub (m xx t.1) (m (2, 0) (m t.2.1 t.2.1)), (0, 0), calc2.sub (0, 0) (m (m xx zz) (Spec.g1x, 0)),
    m (m (2, 0) (m t.2.1 (m t.2.2 zz))) (Spec.g1y, 0), (0, 0), (0, 0)⟩

/-- the chord through the generator of G2, at the generator of G1, up to a factor. -/
def lineA (t : J2) : N12 :=
  let m := calc2.mul
  let zz := m t.2.2 t.2.2
  let n := calc2.sub (m Spec.g2y (m t.2.2 zz)) t.2.1
  let d := m t.2.2 (calc2.sub (m Spec.g2x zz) t.1)
  ⟨calc2.sub (m n Spec.g2x) (m d Spec.g2y), (0, 0), calc2.sub (0, 0) (m n (Spec.g1x, 0)), m d (Spec.g1y, 0), (0, 0), (0, 0)⟩

def pG : Fq × Fq := ((Spec.g1x : Fq), (Spec.g1y : Fq))

theorem val_nat (n : ℕ) : calc2.val (n, 0) = algebraMap Fq Fq2 (n : Fq) := by
  apply QuadraticAlgebra.ext <;> simp [calc2, ofPair]

theorem val_zero : calc2.val (0, 0) = 0 := calc2.zero_ok.2

theorem emb2_val_nat (n : ℕ) : emb2 (calc2.val (n, 0)) = emb1 (n : Fq) := by rw [val_nat, emb1_eq]

theorem emb1_two : emb1 ((2 : ℕ) : Fq) = 2 := by rw [Nat.cast_ofNat, map_ofNat]
theorem emb1_three : emb1 ((3 : ℕ) : Fq) = 3 := by rw [Nat.cast_ofNat, map_ofNat]

theorem no_two {A : Spec.E2.Point} (hA : A ≠ 0) : A + A ≠ 0 := by
  intro h
  have hc := card_smul A
  have h3 : h2 * Spec.r = 2 * (h2 * Spec.r / 2) + 1 := by have := card_odd; omega
  rw [h3, add_nsmul, mul_comm, mul_nsmul', two_nsmul, h, nsmul_zero, zero_add, one_nsmul] at hc
  exact hA hc

theorem ln_eq {x₁ y₁ x₂ y₂ : Fq2} {h₁ : Spec.E2.Nonsingular x₁ y₁} {h₂ : Spec.E2.Nonsingular x₂ y₂} (p : Fq × Fq)
    (hn : (Affine.Point.some x₁ y₁ h₁ + Affine.Point.some x₂ y₂ h₂ : Spec.E2.Point) ≠ 0) :
    emb1 p.2 * w ^ 3 - emb2 y₁ - emb2 (Spec.E2.slope x₁ x₂ y₁ y₂) * (emb1 p.1 * w ^ 2 - emb2 x₁) =
      w ^ 3 * ln p (.some x₁ y₁ h₁) (.some x₂ y₂ h₂) := by
  rw [ln, Spec.line, spec_slope h₁ h₂ hn, untwist_some]
  exact (line_scale w_ne).symm

theorem some_congr {K : Type*} [Field K] {W : Affine K} {x y x' y' : K} {h : W.Nonsingular x y} {h' : W.Nonsingular x' y'}
    (hx : x = x') (hy : y = y') : Affine.Point.some x y h = Affine.Point.some x' y' h' := by
  subst hx; subst hy; rfl

theorem lineD_sim {t : J2} {A : Spec.E2.Point} (ht : calc2.JI t A) (hA : A ≠ 0) : Sim (N12.val (lineD t)) (ln pG A A) := by
  cases A with
  | zero => exact absurd rfl hA
  | some x y h =>
    obtain ⟨-, hz, hX, hY⟩ := ht
    have hy := E2_y_ne h
    have hs := ln_eq pG (no_two hA)
    have hl : 2 * y * Spec.E2.slope x x y y = 3 * x ^ 2 := by
      have h2 : (2 : Fq2) ≠ 0 := Fq2_two_ne
      have hyn : y ≠ Spec.E2.negY x y := by
        rw [sw_negY]; intro e
        have : 2 * y = 0 := by linear_combination e
        rcases mul_eq_zero.mp this with h | h
        · exact h2 h
        · exact hy h
      have h2y : y - -y ≠ 0 := by
        intro e; apply hyn; rw [sw_negY]; exact sub_eq_zero.mp e
      rw [Affine.slope_of_Y_ne rfl hyn, sw_negY, sw_a1, sw_a2, sw_a4, mul_div_assoc', div_eq_iff h2y]
      ring
    generalize Spec.E2.slope x x y y = l at hs hl
    refine ⟨2 * y * calc2.val t.2.2 ^ 6, mul_ne_zero (mul_ne_zero Fq2_two_ne hy) (pow_ne_zero _ hz), 1, ?_⟩
    rw [mul_one, mul_assoc (emb2 _), ← hs]
    have hX' := congrArg emb2 hX
    have hY' := congrArg emb2 hY
    have hl' := congrArg emb2 hl
    simp only [map_mul, map_pow, map_ofNat] at hX' hY' hl'
    have key := tangent_aux (xP := emb1 pG.1) (yP := emb1 pG.2) (w := w) hX' hY' hl'
    simp only [N12.val, lineD, (calc2.add_ok _ _).2, (calc2.sub_ok _ _).2, (calc2.mul_ok _ _).2, map_add, map_mul, map_sub, emb2_val_nat,
      val_zero, map_zero, emb1_two, emb1_three, map_pow, map_ofNat, pG] at key ⊢
    rw [← key]
    ring

theorem lineA_sim {t : J2} {A : Spec.E2.Point} (ht : calc2.JI t A) (hA : A ≠ 0) (hn : A + Spec.gen2 ≠ 0) (hne : A ≠ Spec.gen2) :
    Sim (N12.val (lineA t)) (ln pG A Spec.gen2) := by
  cases A with
  | zero => exact absurd rfl hA
  | some x y h =>
    obtain ⟨-, hz, hX, hY⟩ := ht
    rw [Spec.gen2] at hn hne ⊢
    have hs := ln_eq pG hn
    have hx : ofPair Q Spec.g2x - x ≠ 0 := by
      rw [sub_ne_zero]
      intro e
      subst e
      have e1 := (sw_equation _ _ _ _).mp h.1
      have e2 := gen2_eq
      have : (y - ofPair Q Spec.g2y) * (y + ofPair Q Spec.g2y) = 0 := by linear_combination e1 - e2
      rcases mul_eq_zero.mp this with h' | h'
      · exact hne (some_congr rfl (sub_eq_zero.mp h'))
      · exact hn (Affine.Point.add_of_Y_eq rfl (by rw [sw_negY]; exact eq_neg_of_add_eq_zero_left h'))
    have hl : ofPair Q Spec.g2y - y = Spec.E2.slope x (ofPair Q Spec.g2x) y (ofPair Q Spec.g2y) * (ofPair Q Spec.g2x - x) := by
      rw [Affine.slope_of_X_ne (fun e => hx (by rw [e, sub_self]))]
      have : x - ofPair Q Spec.g2x ≠ 0 := fun e => hx (by rw [← neg_sub, e, neg_zero])
      field_simp
      ring
    generalize Spec.E2.slope x (ofPair Q Spec.g2x) y (ofPair Q Spec.g2y) = l at hs hl
    refine ⟨calc2.val t.2.2 ^ 3 * (ofPair Q Spec.g2x - x), mul_ne_zero (pow_ne_zero _ hz) hx, 1, ?_⟩
    rw [mul_one, mul_assoc (emb2 _), ← hs]
    have hX' := congrArg emb2 hX
    have hY' := congrArg emb2 hY
    have hl' := congrArg emb2 hl
    simp only [map_mul, map_pow, map_sub] at hX' hY' hl'
    have key := chord_aux (xP := emb1 pG.1) (yP := emb1 pG.2) (w := w) hX' hY' hl'
    have vx : calc2.val Spec.g2x = ofPair Q Spec.g2x := by simp only [calc2]
    have vy : calc2.val Spec.g2y = ofPair Q Spec.g2y := by simp only [calc2]
    simp only [N12.val, lineA, (calc2.add_ok _ _).2, (calc2.sub_ok _ _).2, (calc2.mul_ok _ _).2, map_add, map_mul, map_sub, emb2_val_nat,
      val_zero, map_zero, map_pow, pG, vx, vy] at key ⊢
    rw [← key]
    ring

/-! ## the loop -/

def mstep (s : J2 × N12) (b : Bool) : J2 × N12 :=
  let t := calc2.dbl s.1
  let f := N12.mul (N12.mul s.2 s.2) (lineD s.1)
  if b then (calc2.jadd t (Spec.g2x, Spec.g2y, (1, 0)), N12.mul f (lineA t)) else (t, f)

def nstep (n : ℕ) (b : Bool) : ℕ := 2 * n + b.toNat

def Inv (n : ℕ) (s : J2 × N12) : Prop := calc2.JI s.1 (n • Spec.gen2) ∧ Sim (N12.val s.2) (millerAt n (pG, Spec.gen2))

theorem ok_gen2 : Ok Spec.gen2 := ⟨gen2_ne, gen2_order⟩

theorem mstep_ok {n : ℕ} {s : J2 × N12} {b : Bool} (h : Inv n s) (hn : 0 < n) (hr : nstep n b < Spec.r) : Inv (nstep n b) (mstep s b) := by
  obtain ⟨ht, hf⟩ := h
  have hr2 : 2 * n < Spec.r := lt_of_le_of_lt (Nat.le_add_right _ _) hr
  have e2 : (2 * n) • Spec.gen2 = n • Spec.gen2 + n • Spec.gen2 := by rw [two_mul, add_nsmul]
  have hd : calc2.JI (calc2.dbl s.1) ((2 * n) • Spec.gen2) := by rw [e2]; exact Calc.dbl_ok ht
  have hl := lineD_sim ht (ok_gen2.smul hn (by omega))
  have hf2 : Sim (N12.val (N12.mul (N12.mul s.2 s.2) (lineD s.1))) (millerAt (2 * n) (pG, Spec.gen2)) := by
    rw [millerAt_even hn, lineAt_eq, N12.mul_val, N12.mul_val, pow_two]
    exact (hf.mul hf).mul hl
  cases b with
  | false => exact ⟨hd, hf2⟩
  | true =>
    have e1 : (2 * n + 1) • Spec.gen2 = (2 * n) • Spec.gen2 + Spec.gen2 := by rw [add_nsmul, one_nsmul]
    have hr' : 2 * n + 1 < Spec.r := hr
    refine ⟨?_, ?_⟩
    · rw [show nstep n true = 2 * n + 1 from rfl, e1]
      exact Calc.jadd_ok hd gen2_ji
    · have hne : (2 * n) • Spec.gen2 ≠ Spec.gen2 := by
        intro e
        have h1 : (2 * n - 1) • Spec.gen2 + Spec.gen2 = Spec.gen2 := by
          rw [← succ_nsmul, show 2 * n - 1 + 1 = 2 * n by omega, e]
        exact ok_gen2.smul (j := 2 * n - 1) (by omega) (by omega) (add_eq_right.mp h1)
      have hla := lineA_sim hd (ok_gen2.smul (by omega) hr2) (by rw [← e1]; exact ok_gen2.smul (by omega) hr') hne
      rw [show nstep n true = 2 * n + 1 from rfl, millerAt_odd hn]
      rw [millerAt_even hn] at hf2
      rw [show (mstep s true).2 = N12.mul (N12.mul (N12.mul s.2 s.2) (lineD s.1)) (lineA (calc2.dbl s.1)) from rfl, N12.mul_val, lineAt_eq _ _ _ _]
      rw [lineAt_eq] at hf2 ⊢
      exact hf2.mul hla

theorem nstep_le (l : List Bool) (n : ℕ) : n ≤ l.foldl nstep n := by
  induction l generalizing n with
  | nil => exact le_refl _
  | cons b l ih => exact le_trans (by rw [nstep]; omega) (ih (nstep n b))

theorem mloop_ok (l : List Bool) {n : ℕ} {s : J2 × N12} (h : Inv n s) (hn : 0 < n) (hr : l.foldl nstep n < Spec.r) :
    Inv (l.foldl nstep n) (l.foldl mstep s) := by
  induction l generalizing n s with
  | nil => exact h
  | cons b l ih =>
    have h1 : nstep n b < Spec.r := lt_of_le_of_lt (nstep_le l _) hr
    exact ih (mstep_ok h hn h1) (by rw [nstep]; omega) hr

/-- the bits of `X` after the first. -/
def bitsX : List Bool := (List.range 63).map fun i => blsX.testBit (62 - i)

theorem bitsX_eq : bitsX.foldl nstep 1 = blsX := by decide +kernel

/-- Miller's function of the generators, up to a factor. -/
def milG : N12 := (bitsX.foldl mstep ((Spec.g2x, Spec.g2y, (1, 0)), N12.one)).2

theorem milG_sim : Sim (N12.val milG) (millerAt blsX (pG, Spec.gen2)) := by
  have h0 : Inv 1 ((Spec.g2x, Spec.g2y, (1, 0)), N12.one) := by
    refine ⟨by rw [one_nsmul]; exact gen2_ji, ?_⟩
    rw [N12.one_val, millerAt_one]; exact Sim.refl 1
  have h := (mloop_ok bitsX h0 one_pos (by rw [bitsX_eq]; exact lt_trans (Nat.lt_succ_self _) X_lt)).2
  rw [bitsX_eq] at h
  exact h

/-! ## the value -/

theorem milG_check : calc2.isZ (N12.pow milG ((Q ^ 6 + 1) / Spec.r)).c1 = false := by decide +kernel

theorem NN_split : (Q ^ 12 - 1) / Spec.r = ((Q ^ 6 + 1) / Spec.r) * (Q ^ 6 - 1) := by decide +kernel

theorem phi_six_val (a : N12) (h : phi 6 (N12.val a) = N12.val a) : calc2.val a.c1 = 0 := by
  simp only [N12.val, map_add, map_mul, map_pow, phi_six_w, phi_emb2_even (show 6 % 2 = 0 by norm_num)] at h
  have h2 : emb2 0 + emb2 (2 * calc2.val a.c1) * w + emb2 0 * w ^ 2 + emb2 (2 * calc2.val a.c3) * w ^ 3 + emb2 0 * w ^ 4
      + emb2 (2 * calc2.val a.c5) * w ^ 5 = 0 := by
    simp only [map_mul, map_ofNat, map_zero]
    linear_combination -h
  exact (mul_eq_zero.mp (ind h2).2.1).resolve_left Fq2_two_ne

theorem pow_fix {K : Type*} [Field K] {x : K} {n : ℕ} (hn : n = (n - 1) + 1) (h : x ^ (n - 1) = 1) : x ^ n = x := by
  rw [hn, pow_succ, h, one_mul]

/-- The pairing of the two generators is not one. -/
theorem pairing_gen : Spec.pairing Spec.gen1 Spec.gen2 ≠ 1 := by
  intro h
  have h1 : Spec.pairing Spec.gen1 Spec.gen2 = ((millerAt blsX (pG, Spec.gen2)) ^ NN)⁻¹ := pairing_some _ gen2_ne
  rw [h1, inv_eq_one] at h
  have hm := milG_sim.pow
  rw [h, NN_split, pow_mul, ← N12.pow_val] at hm
  have hf : phi 6 (N12.val (N12.pow milG ((Q ^ 6 + 1) / Spec.r))) = N12.val (N12.pow milG ((Q ^ 6 + 1) / Spec.r)) := by
    rw [phi_def]
    exact pow_fix (by decide +kernel) hm
  have hc := phi_six_val _ hf
  have := (calc2.isZ_iff (N12.pow_ok _ _)).mpr hc
  rw [milG_check] at this
  exact Bool.false_ne_true this

/-- Only the identity of the subgroup of G2 pairs with the generator of G1 to one. -/
theorem nondegenerate {T : Spec.E2.Point} (hT : Spec.r • T = 0) (h : Spec.pairing Spec.gen1 T = 1) : T = 0 := by
  obtain ⟨k, rfl⟩ := mem_gen2 hT
  rw [pairing_smul_right k Spec.gen1 gen2_order] at h
  have hr := pairing_pow_r Spec.gen1 Spec.gen2
  have hd : orderOf (Spec.pairing Spec.gen1 Spec.gen2) ∣ k := orderOf_dvd_of_pow_eq_one h
  haveI := Fact.mk prime_r
  rw [orderOf_eq_prime hr pairing_gen] at hd
  obtain ⟨j, rfl⟩ := hd
  rw [mul_comm, mul_nsmul', gen2_order, nsmul_zero]

end Verif.Bls
