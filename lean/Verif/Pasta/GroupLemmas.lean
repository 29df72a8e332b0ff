import Verif.Pasta.Group
import Verif.Pasta.Mont
import Mathlib.NumberTheory.LegendreSymbol.Basic
import Mathlib.FieldTheory.Finite.Basic
import Mathlib.Tactic.Ring

/-!
# The Pallas group operations compute the group law
-/

namespace Verif.Pasta

open Verif.EC WeierstrassCurve

/-- `l` is the canonical Montgomery form of `x`. -/
def El (l : Limbs) (x : ZMod c.p) : Prop := Red c.p l ∧ den c.p l = x

section
variable {a b : Limbs} {x y : ZMod c.p}

theorem El.red (h : El a x) : Red c.p a := h.1
theorem El.mul (ha : El a x) (hb : El b y) : El (Pasta.mul Fp a b) (x * y) := by
  obtain ⟨h1, h2⟩ := den_mul FpM a b (.inl ha.1); exact ⟨h1, by rw [h2, ha.2, hb.2]⟩
theorem El.sq (ha : El a x) : El (Pasta.square Fp a) (x * x) := El.mul ha ha
theorem El.add (ha : El a x) (hb : El b y) : El (Pasta.add Fp a b) (x + y) := by
  obtain ⟨h1, h2⟩ := den_add FpM a b ha.1 hb.1; exact ⟨h1, by rw [h2, ha.2, hb.2]⟩
theorem El.sub (ha : El a x) (hb : El b y) : El (Pasta.sub Fp a b) (x - y) := by
  obtain ⟨h1, h2⟩ := den_sub FpM a b ha.1 hb.1; exact ⟨h1, by rw [h2, ha.2, hb.2]⟩
theorem El.opp (ha : El a x) : El (Pasta.opp Fp a) (-x) := by
  obtain ⟨h1, h2⟩ := den_opp FpM a ha.1; exact ⟨h1, by rw [h2, ha.2]⟩
theorem El.pow (ha : El a x) (bits : List Bool) : El (Pasta.pow a bits) (x ^ bitsNat bits) := by
  obtain ⟨h1, h2⟩ := pow_spec a ha.1 bits; exact ⟨h1, by rw [h2, ha.2]⟩
theorem El.eq (ha : El a x) (hb : El b y) : equals Fp a b = true ↔ x = y := by
  rw [equals_iff FpM ha.1 hb.1, ha.2, hb.2]
theorem El.isZero (ha : El a x) : equalsZero a = true ↔ x = 0 := by
  rw [equalsZero_iff FpM ha.1, ha.2]
theorem El.isOne (ha : El a x) : equalsOne a = true ↔ x = 1 := by
  rw [equalsOne_iff ha.1, ha.2]
theorem El.inj (ha : El a x) (hb : El b x) : a = b := den_inj FpM ha.1 hb.1 (ha.2.trans hb.2.symm)
theorem El.val (ha : El a x) : (fromMont Fp a).val = x.val := by rw [fromMont_val FpM, ha.2]
theorem El.congr (ha : El a x) (h : x = y) : El a y := h ▸ ha
end

/-- a Montgomery constant: `v ≡ k · 2²⁵⁶`. -/
theorem El.const {l : Limbs} {k : ℕ} (h1 : l.val < c.p) (h2 : l.val % c.p = k * 2 ^ 256 % c.p) :
    El l (k : ZMod c.p) := by
  refine ⟨h1, ?_⟩
  have h3 : (l.val : ZMod c.p) = ((k * 2 ^ 256 : ℕ) : ZMod c.p) := (ZMod.natCast_eq_natCast_iff _ _ _).mpr h2
  unfold den
  rw [h3, Nat.cast_mul, mul_inv_cancel_right₀ FpM.two]

theorem el_zero : El fieldZero 0 := ⟨red_zero, den_zero⟩
theorem el_one : El fieldOne 1 := (El.const (k := 1) (by decide +kernel) (by decide +kernel)).congr (by norm_num)
theorem el_three : El fieldThree 3 := (El.const (k := 3) (by decide +kernel) (by decide +kernel)).congr (by norm_num)
theorem el_eight : El fieldEight 8 := (El.const (k := 8) (by decide +kernel) (by decide +kernel)).congr (by norm_num)
theorem el_b : El groupCoeffB (c.b : ZMod c.p) := El.const (k := c.b) (by decide +kernel) (by decide +kernel)
theorem el_gx : El affineOne.X (c.gx : ZMod c.p) := El.const (k := c.gx) (by decide +kernel) (by decide +kernel)
theorem el_gy : El affineOne.Y (c.gy : ZMod c.p) := El.const (k := c.gy) (by decide +kernel) (by decide +kernel)

/-! ### inversion and square roots -/

theorem bits_inv : bitsNat pMinus2 = c.p - 2 := by decide +kernel
theorem bits_half : bitsNat pMinus1Over2 = c.p / 2 := by decide +kernel
theorem bits_t : 2 ^ 33 * bitsNat tMinus1Div2 + 2 ^ 32 = c.p - 1 := by decide +kernel

theorem El.inv {a : Limbs} {x : ZMod c.p} (ha : El a x) (hx : x ≠ 0) : El (Pasta.inv a) x⁻¹ := by
  have h := ha.pow pMinus2
  refine h.congr ?_
  rw [bits_inv]
  apply mul_right_cancel₀ hx
  rw [inv_mul_cancel₀ hx, ← pow_succ]
  have : c.p - 2 + 1 = c.p - 1 := by decide +kernel
  rw [this]
  exact ZMod.pow_card_sub_one_eq_one hx

theorem el_z : ∃ z : ZMod c.p, El sqrtZ z ∧ z ^ 2 ^ 31 = -1 := by
  refine ⟨den c.p sqrtZ, ⟨by decide +kernel, rfl⟩, ?_⟩
  have hz : El sqrtZ ((0x2bce74deac30ebda362120830561f81aea322bf2b7bb7584bdad6fabd87ea32f : ℕ) : ZMod c.p) :=
    El.const (by decide +kernel) (by decide +kernel)
  rw [hz.2]
  have hsq : ∀ (k : ℕ) (g : ℕ), ((g : ℕ) : ZMod c.p) ^ 2 ^ k = ((Nat.iterate (fun t => t * t % c.p) k g : ℕ) : ZMod c.p) := by
    intro k
    induction k with
    | zero => intro g; rw [pow_zero, pow_one]; rfl
    | succ k ih =>
      intro g
      rw [Function.iterate_succ_apply, ← ih, ZMod.natCast_mod, Nat.cast_mul, ← pow_two, ← pow_mul, ← pow_succ']
  rw [hsq]
  have hv : Nat.iterate (fun t => t * t % c.p) 31
      0x2bce74deac30ebda362120830561f81aea322bf2b7bb7584bdad6fabd87ea32f = c.p - 1 := by decide +kernel
  rw [hv, Nat.cast_sub (by decide +kernel), ZMod.natCast_self, Nat.cast_one, zero_sub]

theorem sqCount_spec : ∀ (f : ℕ) (b : Limbs) (β : ZMod c.p) (m k : ℕ), El b β → k < f → β ^ 2 ^ k = 1 →
    ∃ j ≤ k, sqCount f b m = some (m + j) ∧ β ^ 2 ^ j = 1 ∧ (0 < j → β ^ 2 ^ (j - 1) ≠ 1) := by
  intro f
  induction f with
  | zero => intro b β m k _ h; omega
  | succ f ih =>
    intro b β m k hb hk h1
    unfold sqCount
    by_cases hb1 : β = 1
    · rw [if_pos (hb.isOne.mpr hb1)]
      exact ⟨0, Nat.zero_le _, rfl, by rw [hb1, one_pow], by omega⟩
    · rw [if_neg (fun h => hb1 (hb.isOne.mp h))]
      obtain _ | k := k
      · rw [pow_zero, pow_one] at h1; exact absurd h1 hb1
      · have h2 : (β * β) ^ 2 ^ k = 1 := by rw [← pow_two, ← pow_mul, ← pow_succ', h1]
        obtain ⟨j, hj, e1, e2, e3⟩ := ih (square Fp b) (β * β) (m + 1) k hb.sq (by omega) h2
        have e4 : ∀ i, (β * β) ^ 2 ^ i = β ^ 2 ^ (i + 1) := fun i => by rw [← pow_two, ← pow_mul, ← pow_succ']
        refine ⟨j + 1, by omega, by rw [e1]; congr 1; omega, by rw [← e4, e2], ?_⟩
        intro _
        obtain _ | j := j
        · simpa using hb1
        · have := e3 (by omega)
          rw [e4] at this
          exact this

theorem sqTimes_spec (j : ℕ) (w : Limbs) (ω : ZMod c.p) (h : El w ω) : El (sqTimes j w) (ω ^ 2 ^ j) := by
  unfold sqTimes
  induction j with
  | zero => rw [Nat.repeat, pow_zero, pow_one]; exact h
  | succ j ih =>
    rw [Nat.repeat, pow_succ, pow_mul, pow_two]
    exact ih.sq

theorem sqrtLoop_spec (a : ZMod c.p) : ∀ (f v : ℕ) (z b x : Limbs) (ζ β ξ : ZMod c.p), 0 < v → v < f → v ≤ 32 →
    El z ζ → El b β → El x ξ → ζ ^ 2 ^ (v - 1) = -1 → β ^ 2 ^ (v - 1) = 1 → ξ * ξ = a * β →
    ∃ y ψ, sqrtLoop f v z b x = .ret y ∧ El y ψ ∧ ψ * ψ = a := by
  intro f
  induction f with
  | zero => intro v _ _ _ _ _ _ _ h; omega
  | succ f ih =>
    intro v z b x ζ β ξ hv hvf hv32 hz hb hx e1 e2 e3
    unfold sqrtLoop
    by_cases hb1 : β = 1
    · rw [if_pos (hb.isOne.mpr hb1)]
      exact ⟨x, ξ, rfl, hx, by rw [e3, hb1, mul_one]⟩
    · rw [if_neg (fun h => hb1 (hb.isOne.mp h))]
      obtain ⟨m, hm, f1, f2, f3⟩ := sqCount_spec 64 b β 0 (v - 1) hb (by omega) e2
      rw [f1, Nat.zero_add]
      dsimp only
      have hm0 : 0 < m := by
        rcases Nat.eq_zero_or_pos m with h | h
        · rw [h, pow_zero, pow_one] at f2; exact absurd f2 hb1
        · exact h
      have f4 : β ^ 2 ^ (m - 1) = -1 := by
        have hs : (β ^ 2 ^ (m - 1)) ^ 2 = 1 := by
          rw [← pow_mul, ← pow_succ, Nat.sub_add_cancel hm0, f2]
        rcases mul_eq_zero.mp (show (β ^ 2 ^ (m - 1) - 1) * (β ^ 2 ^ (m - 1) + 1) = 0 by linear_combination hs) with h | h
        · exact absurd (sub_eq_zero.mp h) (f3 hm0)
        · exact eq_neg_of_add_eq_zero_left h
      have hw := sqTimes_spec (v - m - 1) z ζ hz
      have e5 : (ζ ^ 2 ^ (v - m - 1) * ζ ^ 2 ^ (v - m - 1)) ^ 2 ^ (m - 1) = -1 := by
        rw [← pow_two, ← pow_mul, ← pow_mul, ← pow_succ', ← pow_add]
        have : v - m - 1 + (m - 1 + 1) = v - 1 := by omega
        rw [this, e1]
      refine ih m _ _ _ _ _ _ hm0 (by omega) (by omega) hw.sq (hb.mul hw.sq) (hx.mul hw) e5 ?_ ?_
      · rw [mul_pow, f4, e5]; ring
      · linear_combination (ζ ^ 2 ^ (v - m - 1) * ζ ^ 2 ^ (v - m - 1)) * e3

/-- `FiatPastaFpSqrt` ends, fails exactly on non-squares, and otherwise returns a square root. -/
theorem sqrt_spec {a : Limbs} {x : ZMod c.p} (ha : El a x) :
    (IsSquare x → ∃ y ψ, sqrt a = .ret (some y) ∧ El y ψ ∧ ψ * ψ = x) ∧ (¬ IsSquare x → sqrt a = .ret none) := by
  unfold sqrt
  by_cases hx : x = 0
  · rw [if_pos (ha.isZero.mpr hx)]
    refine ⟨fun _ => ⟨_, 0, rfl, el_zero, by rw [hx, zero_mul]⟩, fun h => absurd ⟨0, by rw [hx, zero_mul]⟩ h⟩
  · rw [if_neg (fun h => hx (ha.isZero.mp h))]
    dsimp only
    have hc := ha.pow pMinus1Over2
    rw [bits_half] at hc
    have heul := ZMod.euler_criterion c.p hx
    by_cases hsq : IsSquare x
    · refine ⟨fun _ => ?_, fun h => absurd hsq h⟩
      have h1 : equalsOne (Pasta.pow a pMinus1Over2) = true := hc.isOne.mpr (heul.mp hsq)
      rw [if_neg (by rw [h1]; decide)]
      obtain ⟨ζ, hz, hz1⟩ := el_z
      have hw := ha.pow tMinus1Div2
      have hxx := ha.mul hw
      have hbb := hxx.mul hw
      obtain ⟨y, ψ, g1, g2, g3⟩ := sqrtLoop_spec x 64 32 sqrtZ _ _ ζ _ _ (by norm_num) (by norm_num) (by norm_num) hz hbb hxx hz1
        (by
          have h2 := heul.mp hsq
          rw [mul_assoc, ← pow_add, ← pow_succ', ← pow_mul]
          have : (bitsNat tMinus1Div2 + bitsNat tMinus1Div2 + 1) * 2 ^ (32 - 1) = c.p / 2 := by
            decide +kernel
          rw [this, h2])
        (by ring)
      refine ⟨y, ψ, ?_, g2, g3⟩
      rw [g1]; rfl
    · refine ⟨fun h => absurd h hsq, fun _ => ?_⟩
      have h1 : equalsOne (Pasta.pow a pMinus1Over2) = false := by
        rw [Bool.eq_false_iff]
        exact fun h => hsq (heul.mpr (hc.isOne.mp h))
      rw [if_pos h1]

/-! ### the group -/

/-- Jacobian coordinates of the point. -/
def JI (g : Group) (Q : Pt) : Prop :=
  Red c.p g.X ∧ Red c.p g.Y ∧ Red c.p g.Z ∧ JRep c.W (den c.p g.X) (den c.p g.Y) (den c.p g.Z) Q

theorem JI.isZero {g : Group} {Q : Pt} (h : JI g Q) : isZero g = true ↔ Q = 0 := by
  obtain ⟨-, -, h3, h4⟩ := h
  unfold Pasta.isZero
  rw [El.eq ⟨h3, rfl⟩ el_zero, h4.zero_iff]

theorem JI.zero : JI groupZero 0 := ⟨el_zero.1, el_one.1, el_zero.1, el_zero.2⟩

theorem groupDbl_spec {g : Group} {Q : Pt} (h : JI g Q) : JI (groupDbl g) (Q + Q) := by
  unfold groupDbl
  by_cases h0 : Q = 0
  · rw [if_pos (h.isZero.mpr h0), h0, add_zero, ← h0]; exact h
  rw [if_neg (fun hh => h0 (h.isZero.mp hh))]
  obtain ⟨h1, h2, h3, h4⟩ := h
  have hX : El g.X _ := ⟨h1, rfl⟩
  have hY : El g.Y _ := ⟨h2, rfl⟩
  have hZ : El g.Z _ := ⟨h3, rfl⟩
  generalize den c.p g.X = X at *
  generalize den c.p g.Y = Y at *
  generalize den c.p g.Z = Z at *
  have ha := hX.sq
  have hb := hY.sq
  have hc := hb.sq
  have d0 := ((hX.add hb).sq.sub ha).sub hc
  have hd := d0.add d0
  have he := el_three.mul ha
  have hx := he.sq.sub (hd.add hd)
  have hy := (he.mul (hd.sub hx)).sub (el_eight.mul hc)
  have hf := hY.mul hZ
  have hz := hf.add hf
  have hca : (c.a : ZMod c.p) = 0 := Nat.cast_zero
  refine ⟨hx.1, hy.1, hz.1, ?_⟩
  refine JRep.congr hx.2 hy.2 hz.2 ?_
  refine jdbl good.two h4 (M := 3 * X ^ 2 + c.a * Z ^ 4) (S := 4 * X * Y ^ 2) rfl rfl ?_ ?_ ?_
  · rw [hca]; ring
  · rw [hca]; ring
  · ring

theorem groupAdd_spec {g k : Group} {P Q : Pt} (hg : JI g P) (hk : JI k Q)
    (hne : P = 0 ∨ Q = 0 ∨ P ≠ Q ∨ g = k) : JI (groupAdd g k) (P + Q) := by
  unfold groupAdd
  by_cases hP : P = 0
  · rw [if_pos (hg.isZero.mpr hP), hP, zero_add]; exact hk
  rw [if_neg (fun hh => hP (hg.isZero.mp hh))]
  by_cases hQ : Q = 0
  · rw [if_pos (hk.isZero.mpr hQ), hQ, add_zero]; exact hg
  rw [if_neg (fun hh => hQ (hk.isZero.mp hh))]
  obtain ⟨g1, g2, g3, g4⟩ := id hg
  obtain ⟨k1, k2, k3, k4⟩ := id hk
  have hX1 : El g.X _ := ⟨g1, rfl⟩
  have hY1 : El g.Y _ := ⟨g2, rfl⟩
  have hZ1 : El g.Z _ := ⟨g3, rfl⟩
  have hX2 : El k.X _ := ⟨k1, rfl⟩
  have hY2 : El k.Y _ := ⟨k2, rfl⟩
  have hZ2 : El k.Z _ := ⟨k3, rfl⟩
  by_cases heq : g = k
  · have hPQ : P = Q := by
      subst heq
      refine jrep_eq g4 k4 (fun h => hP (g4.zero_iff.mp h)) (fun h => hP (g4.zero_iff.mp h)) rfl rfl
    rw [if_pos (by
      rw [Bool.and_eq_true, Bool.and_eq_true, hX1.eq hX2, hY1.eq hY2, hZ1.eq hZ2, heq]
      exact ⟨⟨rfl, rfl⟩, rfl⟩), ← hPQ]
    exact groupDbl_spec hg
  · rw [if_neg (by
      rw [Bool.and_eq_true, Bool.and_eq_true, hX1.eq hX2, hY1.eq hY2, hZ1.eq hZ2]
      rintro ⟨⟨e1, e2⟩, e3⟩
      apply heq
      have i1 := den_inj FpM g1 k1 e1
      have i2 := den_inj FpM g2 k2 e2
      have i3 := den_inj FpM g3 k3 e3
      cases g; cases k; dsimp only at i1 i2 i3; subst i1 i2 i3; rfl)]
    have hPQ : P ≠ Q := by
      rcases hne with h | h | h | h
      · exact absurd h hP
      · exact absurd h hQ
      · exact h
      · exact absurd h heq
    have hz1 : den c.p g.Z ≠ 0 := fun h => hP (g4.zero_iff.mp h)
    have hz2 : den c.p k.Z ≠ 0 := fun h => hQ (k4.zero_iff.mp h)
    generalize den c.p g.X = X1 at *
    generalize den c.p g.Y = Y1 at *
    generalize den c.p g.Z = Z1 at *
    generalize den c.p k.X = X2 at *
    generalize den c.p k.Y = Y2 at *
    generalize den c.p k.Z = Z2 at *
    have z11 := hZ1.sq
    have z22 := hZ2.sq
    have u1 := hX1.mul z22
    have u2 := hX2.mul z11
    have s1 := hY1.mul (hZ2.mul z22)
    have s2 := hY2.mul (hZ1.mul z11)
    have hh := u2.sub u1
    have hi := (hh.add hh).sq
    have hj := hh.mul hi
    have hw0 := s2.sub s1
    have hw := hw0.add hw0
    have hv := u1.mul hi
    have rX := (hw.sq.sub hj).sub (hv.add hv)
    have sj := s1.mul hj
    have rY := (hw.mul (hv.sub rX)).sub (sj.add sj)
    have rZ := (((hZ1.add hZ2).sq.sub z11).sub z22).mul hh
    refine ⟨rX.1, rY.1, rZ.1, JRep.congr rX.2 rY.2 rZ.2 ?_⟩
    have key := jadd g4 k4 hz1 hz2 (U1 := X1 * Z2 ^ 2) (U2 := X2 * Z1 ^ 2) (S1 := Y1 * Z2 ^ 3) (S2 := Y2 * Z1 ^ 3)
      rfl rfl rfl rfl rfl rfl (by
        rintro ⟨hH, hR⟩
        exact hPQ (jrep_eq g4 k4 hz1 hz2 (sub_eq_zero.mp hH).symm (sub_eq_zero.mp hR).symm)) rfl rfl rfl
    refine JRep.congr ?_ ?_ ?_ (key.scale good.two) <;> ring

/-- the defect of `GroupAdd`: equal points with different coordinates give infinity. -/
theorem groupAdd_same {g k : Group} {P : Pt} (hg : JI g P) (hk : JI k P) (hne : g ≠ k) (hP : P ≠ 0) :
    JI (groupAdd g k) 0 := by
  unfold groupAdd
  rw [if_neg (fun hh => hP (hg.isZero.mp hh)), if_neg (fun hh => hP (hk.isZero.mp hh))]
  obtain ⟨g1, g2, g3, g4⟩ := id hg
  obtain ⟨k1, k2, k3, k4⟩ := id hk
  have hX1 : El g.X _ := ⟨g1, rfl⟩
  have hY1 : El g.Y _ := ⟨g2, rfl⟩
  have hZ1 : El g.Z _ := ⟨g3, rfl⟩
  have hX2 : El k.X _ := ⟨k1, rfl⟩
  have hY2 : El k.Y _ := ⟨k2, rfl⟩
  have hZ2 : El k.Z _ := ⟨k3, rfl⟩
  rw [if_neg (by
      rw [Bool.and_eq_true, Bool.and_eq_true, hX1.eq hX2, hY1.eq hY2, hZ1.eq hZ2]
      rintro ⟨⟨e1, e2⟩, e3⟩
      apply hne
      have i1 := den_inj FpM g1 k1 e1
      have i2 := den_inj FpM g2 k2 e2
      have i3 := den_inj FpM g3 k3 e3
      cases g; cases k; dsimp only at i1 i2 i3; subst i1 i2 i3; rfl)]
  have hU := (g4.same k4).resolve_right hP
  generalize den c.p g.X = X1 at *
  generalize den c.p g.Y = Y1 at *
  generalize den c.p g.Z = Z1 at *
  generalize den c.p k.X = X2 at *
  generalize den c.p k.Y = Y2 at *
  generalize den c.p k.Z = Z2 at *
  have z11 := hZ1.sq
  have z22 := hZ2.sq
  have u1 := hX1.mul z22
  have u2 := hX2.mul z11
  have s1 := hY1.mul (hZ2.mul z22)
  have s2 := hY2.mul (hZ1.mul z11)
  have hh := u2.sub u1
  have hi := (hh.add hh).sq
  have hj := hh.mul hi
  have hw0 := s2.sub s1
  have hw := hw0.add hw0
  have hv := u1.mul hi
  have rX := (hw.sq.sub hj).sub (hv.add hv)
  have sj := s1.mul hj
  have rY := (hw.mul (hv.sub rX)).sub (sj.add sj)
  have rZ := (((hZ1.add hZ2).sq.sub z11).sub z22).mul hh
  refine ⟨rX.1, rY.1, rZ.1, ?_⟩
  show den c.p _ = 0
  refine rZ.2.trans ?_
  linear_combination (-(Z1 * Z2 * 2)) * hU.1

theorem neg_spec {g : Group} {P : Pt} (hg : JI g P) : JI ⟨g.X, opp Fp g.Y, g.Z⟩ (-P) := by
  obtain ⟨g1, g2, g3, g4⟩ := hg
  have hY : El g.Y _ := ⟨g2, rfl⟩
  refine ⟨g1, hY.opp.1, g3, ?_⟩
  refine JRep.congr rfl hY.opp.2 rfl ?_
  dsimp only
  clear hY
  generalize den c.p g.X = X at *
  generalize den c.p g.Y = Y at *
  generalize den c.p g.Z = Z at *
  cases P with
  | zero => have : Z = 0 := g4
            exact this
  | some x y h =>
    obtain ⟨e1, e2, e3⟩ := g4
    rw [Affine.Point.neg_some]
    refine ⟨e1, e2, ?_⟩
    rw [e3]
    simp only [Affine.negY, Params.W, sw]
    ring

/-! ### scalar multiplication -/

theorem scalarBit_spec (k : Limbs) (j : ℕ) (hj : j < 256) : scalarBit k j = true ↔ k.val / 2 ^ j % 2 = 1 := by
  unfold scalarBit
  rw [decide_eq_true_iff, ← UInt64.toNat_inj, UInt64.toNat_and, UInt64.toNat_shiftRight]
  have ht : j % 64 < 64 := Nat.mod_lt _ (by norm_num)
  have h1 : (UInt64.ofNat (j % 64)).toNat % 64 = j % 64 := by
    rw [UInt64.toNat_ofNat', Nat.mod_eq_of_lt (by omega : j % 64 < 2 ^ 64), Nat.mod_eq_of_lt ht]
  rw [h1]
  have h2 : (1 : UInt64).toNat = 1 := rfl
  rw [h2, Nat.and_one_is_mod, Nat.shiftRight_eq_div_pow]
  have hkey : ∀ (l hi : ℕ), (l + 2 ^ 64 * hi) / 2 ^ (j % 64) % 2 = l / 2 ^ (j % 64) % 2 := by
    intro l hi
    have e : (2 : ℕ) ^ 64 = 2 ^ (j % 64) * (2 * 2 ^ (63 - j % 64)) := by
      rw [← pow_succ', ← pow_add]; congr 1; omega
    rw [e, mul_assoc, Nat.add_mul_div_left _ _ (by positivity), mul_assoc, Nat.add_mul_mod_self_left]
  have hsplit : k.val / 2 ^ j = k.val / 2 ^ (64 * (j / 64)) / 2 ^ (j % 64) := by
    rw [Nat.div_div_eq_div_mul, ← pow_add]; congr 2; omega
  rw [hsplit]
  have hl0 := k.l0.toNat_lt
  have hl1 := k.l1.toNat_lt
  have hl2 := k.l2.toNat_lt
  have hl3 := k.l3.toNat_lt
  unfold Limbs.get
  have hcase : j / 64 = 0 ∨ j / 64 = 1 ∨ j / 64 = 2 ∨ j / 64 = 3 := by omega
  rcases hcase with h | h | h | h
  · rw [if_pos h, h]
    have : k.val / 2 ^ (64 * 0) = k.l0.toNat + 2 ^ 64 * (k.l1.toNat + 2 ^ 64 * (k.l2.toNat + 2 ^ 64 * k.l3.toNat)) := by
      unfold Limbs.val; omega
    rw [this, hkey]
  · rw [if_neg (by omega), if_pos h, h]
    have : k.val / 2 ^ (64 * 1) = k.l1.toNat + 2 ^ 64 * (k.l2.toNat + 2 ^ 64 * k.l3.toNat) := by
      unfold Limbs.val; omega
    rw [this, hkey]
  · rw [if_neg (by omega), if_neg (by omega), if_pos h, h]
    have : k.val / 2 ^ (64 * 2) = k.l2.toNat + 2 ^ 64 * k.l3.toNat := by
      unfold Limbs.val; omega
    rw [this, hkey]
  · rw [if_neg (by omega), if_neg (by omega), if_neg (by omega), h]
    have : k.val / 2 ^ (64 * 3) = k.l3.toNat := by
      unfold Limbs.val; omega
    rw [this]

theorem scalarLoop_spec (k : Limbs) (p : Group) (P : Pt) (hp : JI p P) (hP : P ≠ 0) (hk : k.val < c.n) :
    ∀ (n : ℕ) (r : Group), n ≤ 255 → JI r ((k.val / 2 ^ n) • P) → JI (scalarLoop k p n r) (k.val • P) := by
  intro n
  induction n with
  | zero => intro r _ h; rw [pow_zero, Nat.div_one] at h; exact h
  | succ n ih =>
    intro r hn h
    unfold scalarLoop
    dsimp only
    have hd := groupDbl_spec h
    have hm : k.val / 2 ^ n = 2 * (k.val / 2 ^ (n + 1)) + k.val / 2 ^ n % 2 := by
      rw [pow_succ, ← Nat.div_div_eq_div_mul]; omega
    rw [← two_nsmul, ← mul_nsmul'] at hd
    have hle : k.val / 2 ^ n ≤ k.val := Nat.div_le_self _ _
    apply ih _ (by omega)
    generalize k.val / 2 ^ (n + 1) = m at *
    by_cases hb : scalarBit k n = true
    · rw [if_pos hb]
      rw [(scalarBit_spec k n (by omega)).mp hb] at hm
      rw [hm, add_nsmul, one_nsmul]
      apply groupAdd_spec hd hp
      by_cases hm0 : m = 0
      · left; rw [hm0, mul_zero, zero_nsmul]
      · right; right; left
        intro he
        have h1 : (2 * m - 1) • P = 0 := by
          have : 2 * m = (2 * m - 1) + 1 := by omega
          rw [this, add_nsmul, one_nsmul] at he
          exact add_eq_right.mp he
        rw [smul_eq_zero_iff _ _ hP] at h1
        have := Nat.le_of_dvd (by omega) h1
        omega
    · rw [if_neg hb]
      have : k.val / 2 ^ n % 2 = 0 := by
        have := mt (scalarBit_spec k n (by omega)).mpr hb
        omega
      rw [this, add_zero] at hm
      rw [hm]; exact hd

theorem groupScalarMul_spec (k : Limbs) (hk : Red c.n k) (p : Group) (P : Pt) (hp : JI p P) :
    JI (groupScalarMul k p) ((den c.n k).val • P) := by
  unfold groupScalarMul
  by_cases hP : P = 0
  · rw [if_pos (hp.isZero.mpr hP), hP, nsmul_zero]; exact JI.zero
  rw [if_neg (fun h => hP (hp.isZero.mp h))]
  by_cases hk0 : den c.n k = 0
  · rw [if_pos ((equals_iff FqM hk (b := fieldZero) red_zero).mpr (hk0.trans den_zero.symm)), hk0, ZMod.val_zero, zero_nsmul]
    exact JI.zero
  rw [if_neg (fun h => hk0 (((equals_iff FqM hk (b := fieldZero) red_zero).mp h).trans den_zero))]
  have hv := fromMont_val FqM k
  have hlt : (fromMont Fq k).val < c.n := by rw [hv]; exact ZMod.val_lt _
  have := scalarLoop_spec (fromMont Fq k) p P hp hP hlt 255 groupZero le_rfl (by
    rw [Nat.div_eq_of_lt (lt_trans hlt (by decide +kernel)), zero_nsmul]; exact JI.zero)
  rw [hv] at this
  exact this

/-! ### affine points -/

/-- affine coordinates of the point, zeros for infinity. -/
def AI (a : Affine) : Pt → Prop
  | .zero => El a.X 0 ∧ El a.Y 0
  | .some x y _ => El a.X x ∧ El a.Y y

theorem AI.red {a : Affine} {Q : Pt} (h : AI a Q) : Red c.p a.X ∧ Red c.p a.Y := by
  cases Q with
  | zero => exact ⟨h.1.1, h.2.1⟩
  | some x y hn => exact ⟨h.1.1, h.2.1⟩

theorem AI.uniq {a b : Affine} {Q : Pt} (ha : AI a Q) (hb : AI b Q) : a = b := by
  have key : a.X = b.X ∧ a.Y = b.Y := by
    cases Q with
    | zero => exact ⟨ha.1.inj hb.1, ha.2.inj hb.2⟩
    | some x y hn => exact ⟨ha.1.inj hb.1, ha.2.inj hb.2⟩
  cases a; cases b
  obtain ⟨h1, h2⟩ := key
  dsimp only at h1 h2
  rw [h1, h2]

theorem AI.inj {a : Affine} {P Q : Pt} (ha : AI a P) (hb : AI a Q) : P = Q := by
  have key : ∀ {x y : ZMod c.p} (hn : c.W.Nonsingular x y), El a.X 0 → El a.Y 0 → El a.X x → El a.Y y → False :=
    fun hn h1 h2 h3 h4 => good.origin_off hn ⟨h3.2.symm.trans h1.2, h4.2.symm.trans h2.2⟩
  cases P with
  | zero => cases Q with
    | zero => rfl
    | some x y hn => exact (key hn ha.1 ha.2 hb.1 hb.2).elim
  | some x y hn => cases Q with
    | zero => exact (key hn hb.1 hb.2 ha.1 ha.2).elim
    | some x' y' hn' =>
      obtain rfl := ha.1.2.symm.trans hb.1.2
      obtain rfl := ha.2.2.symm.trans hb.2.2
      rfl

theorem affineOne_spec : AI affineOne good.G := ⟨el_gx, el_gy⟩

theorem affineToGroup_spec {a : Affine} {Q : Pt} (h : AI a Q) : JI (affineToGroup a) Q := by
  unfold affineToGroup
  cases Q with
  | zero =>
    rw [if_pos (by rw [Bool.and_eq_true]; exact ⟨(h.1.eq el_zero).mpr rfl, (h.2.eq el_zero).mpr rfl⟩)]
    exact JI.zero
  | some x y hn =>
    rw [if_neg (by
      rw [Bool.and_eq_true, h.1.eq el_zero, h.2.eq el_zero]; exact good.origin_off hn)]
    refine ⟨h.1.1, h.2.1, el_one.1, ?_⟩
    refine JRep.congr h.1.2 h.2.2 el_one.2 ?_
    exact ⟨one_ne_zero, by ring, by ring⟩

theorem affineFromGroup_spec {g : Group} {Q : Pt} (h : JI g Q) : AI (affineFromGroup g) Q := by
  obtain ⟨h1, h2, h3, h4⟩ := h
  have hX : El g.X _ := ⟨h1, rfl⟩
  have hY : El g.Y _ := ⟨h2, rfl⟩
  have hZ : El g.Z _ := ⟨h3, rfl⟩
  unfold affineFromGroup
  cases Q with
  | zero =>
    rw [if_pos ((hZ.eq el_zero).mpr h4)]
    exact ⟨el_zero, el_zero⟩
  | some x y hn =>
    obtain ⟨e1, e2, e3⟩ := h4
    rw [if_neg (fun h => e1 ((hZ.eq el_zero).mp h))]
    have zi := hZ.inv e1
    have zi2 := zi.mul zi
    have zi3 := zi2.mul zi
    refine ⟨(hX.mul zi2).congr ?_, (hY.mul zi3).congr ?_⟩
    · rw [e2]; field_simp
    · rw [e3]; field_simp

theorem affineScalarMul_spec (k : Limbs) (hk : Red c.n k) {a : Affine} {Q : Pt} (h : AI a Q) :
    AI (affineScalarMul k a) ((den c.n k).val • Q) :=
  affineFromGroup_spec (groupScalarMul_spec k hk _ _ (affineToGroup_spec h))

theorem affineToGroup_inj {a b : Affine} {P Q : Pt} (ha : AI a P) (hb : AI b Q) (h : P = Q) :
    affineToGroup a = affineToGroup b := by
  subst h; rw [ha.uniq hb]

/-- affine addition is complete: equal affine points have equal coordinates, so the doubling branch is taken. -/
theorem affineAdd_spec {a b : Affine} {P Q : Pt} (ha : AI a P) (hb : AI b Q) : AI (affineAdd a b) (P + Q) := by
  refine affineFromGroup_spec (groupAdd_spec (affineToGroup_spec ha) (affineToGroup_spec hb) ?_)
  by_cases h : P = Q
  · exact .inr (.inr (.inr (affineToGroup_inj ha hb h)))
  · exact .inr (.inr (.inl h))

end Verif.Pasta
