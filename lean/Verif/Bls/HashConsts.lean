import Verif.Bls.HashLemmas

/-!
# Hashing to G2: the constants of swu.go and isogeny.go
-/

namespace Verif.Bls

theorem Fe.den_rat {c : Fe} (d n m : ℕ) (hd : d % Q ≠ 0)
    (h : (d * c.val + m * 2 ^ 384) % Q = n * 2 ^ 384 % Q) : Fe.den c = ((n : Fq) - m) / d := by
  have hd' : (d : Fq) ≠ 0 := Fe.natCast_ne_zero_of hd
  have h1 : ((d * c.val + m * 2 ^ 384 : ℕ) : Fq) = ((n * 2 ^ 384 : ℕ) : Fq) :=
    (ZMod.natCast_eq_natCast_iff' _ _ _).mpr h
  rw [Nat.cast_add, Nat.cast_mul, Nat.cast_mul, Nat.cast_mul, Fe.val_of_den] at h1
  have hR := Fe.R_ne
  generalize ((2 ^ 384 : ℕ) : Fq) = R at *
  rw [eq_div_iff hd']
  apply mul_right_cancel₀ hR
  linear_combination h1

theorem mk_CI_aux {K : Type*} [Field K] (a b : K) : (⟨a, b⟩ : QuadraticAlgebra K (-1) 0) =
    algebraMap K _ a + algebraMap K _ b * ⟨0, 1⟩ := by
  ext <;> simp [QuadraticAlgebra.algebraMap_eq]

/-- the inclusion of `Fq`. -/
noncomputable abbrev emb : Fq →+* Fq2 := algebraMap Fq Fq2

theorem mk_CI (a b : Fq) : (⟨a, b⟩ : Fq2) = emb a + emb b * Spec.I := by
  rw [Spec.I]; exact mk_CI_aux a b

theorem Fe2.den_CI (a b : Fe) : Fe2.den ⟨a, b⟩ = emb (Fe.den a) + emb (Fe.den b) * Spec.I := by
  rw [Fe2.den_mk, mk_CI]

theorem I_sq_aux {K : Type*} [Field K] : (⟨0, 1⟩ : QuadraticAlgebra K (-1) 0) * ⟨0, 1⟩ = -1 := by
  ext <;> simp [QuadraticAlgebra.re_one, QuadraticAlgebra.im_one]

theorem I_sq : Spec.I * Spec.I = -1 := by rw [Spec.I]; exact I_sq_aux

theorem three_ne2 : (3 : Fq2) ≠ 0 := sem2.three_ne

theorem Fe2.red_mk {a b : Fe} (ha : Fe.Red a) (hb : Fe.Red b) : Fe2.Red ⟨a, b⟩ := ⟨ha, hb⟩

/-- a constant given by its words: reduced, and equal to `(n - m)/d + (n' - m')/d I`. -/
theorem Fe2.const {a b : Fe} (d n m n' m' : ℕ) (hd : d % Q ≠ 0) (ha : a.val < Q) (hb : b.val < Q)
    (h : (d * a.val + m * 2 ^ 384) % Q = n * 2 ^ 384 % Q)
    (h' : (d * b.val + m' * 2 ^ 384) % Q = n' * 2 ^ 384 % Q) :
    Fe2.Red ⟨a, b⟩ ∧ Fe2.den ⟨a, b⟩ = ((n : Fq2) - m) / d + ((n' : Fq2) - m') / d * Spec.I := by
  refine ⟨Fe2.red_mk ha hb, ?_⟩
  rw [Fe2.den_CI, Fe.den_rat d n m hd h, Fe.den_rat d n' m' hd h', map_div₀, map_div₀, map_sub, map_sub,
    map_natCast, map_natCast, map_natCast, map_natCast, map_natCast]

theorem mk_nat (n m : ℕ) : (⟨(n : Fq), (m : Fq)⟩ : Fq2) = (n : Fq2) + (m : Fq2) * Spec.I := by
  rw [mk_CI, map_natCast, map_natCast]

theorem isoA_eq : Spec.isoA = 240 * Spec.I := by
  have := mk_nat 0 240
  simp only [Nat.cast_zero, zero_add, Nat.cast_ofNat] at this
  rw [Spec.isoA]; exact this

theorem isoB_eq : Spec.isoB = 1012 * (1 + Spec.I) := by
  have := mk_nat 1012 1012
  simp only [Nat.cast_ofNat] at this
  rw [Spec.isoB, this]; ring

theorem b2_eq : Spec.b2 = 4 * (1 + Spec.I) := by
  have := mk_nat 4 4
  simp only [Nat.cast_ofNat] at this
  rw [Spec.b2, this]; ring

theorem sswuZ_eq : Spec.sswuZ = -(2 + Spec.I) := by
  rw [Spec.sswuZ, mk_CI, map_neg, map_neg, map_one, map_ofNat]; ring

theorem swuA_spec : Fe2.Red swuA ∧ Fe2.den swuA = Spec.isoA := by
  obtain ⟨h, e⟩ := Fe2.const (a := swuA.c0) (b := swuA.c1) 1 0 0 240 0 (by decide +kernel) (by decide +kernel)
    (by decide +kernel) (by decide +kernel) (by decide +kernel)
  refine ⟨h, e.trans ?_⟩
  rw [isoA_eq]; push_cast; ring

theorem swuB_spec : Fe2.Red swuB ∧ Fe2.den swuB = Spec.isoB := by
  obtain ⟨h, e⟩ := Fe2.const (a := swuB.c0) (b := swuB.c1) 1 1012 0 1012 0 (by decide +kernel) (by decide +kernel)
    (by decide +kernel) (by decide +kernel) (by decide +kernel)
  refine ⟨h, e.trans ?_⟩
  rw [isoB_eq]; push_cast; ring

theorem swuZ_spec : Fe2.Red swuZ ∧ Fe2.den swuZ = Spec.sswuZ := by
  obtain ⟨h, e⟩ := Fe2.const (a := swuZ.c0) (b := swuZ.c1) 1 0 2 0 1 (by decide +kernel) (by decide +kernel)
    (by decide +kernel) (by decide +kernel) (by decide +kernel)
  refine ⟨h, e.trans ?_⟩
  rw [sswuZ_eq]; push_cast; ring

theorem I_ne : Spec.I ≠ 0 := by
  intro h
  have := I_sq
  rw [h, mul_zero] at this
  exact one_ne_zero (neg_eq_zero.mp this.symm)

theorem nat_ne2 {n : ℕ} (h : n % Q ≠ 0) : (n : Fq2) ≠ 0 := by
  rw [← map_natCast emb]
  exact (map_ne_zero emb).mpr (Fe.natCast_ne_zero_of h)

theorem isoA_ne : Spec.isoA ≠ 0 := by
  rw [isoA_eq]
  have := nat_ne2 (n := 240) (by decide +kernel)
  rw [Nat.cast_ofNat] at this
  exact mul_ne_zero this I_ne

theorem sswuZ_ne : Spec.sswuZ ≠ 0 := by
  rw [sswuZ_eq]
  intro h
  have h5 := nat_ne2 (n := 5) (by decide +kernel)
  rw [Nat.cast_ofNat] at h5
  apply h5
  linear_combination (-2 + Spec.I) * h + I_sq

theorem swuMinusBOverA_spec : Fe2.Red swuMinusBOverA ∧ Fe2.den swuMinusBOverA = -Spec.isoB / Spec.isoA := by
  obtain ⟨x, hx⟩ : ∃ x, x = swuMinusBOverA := ⟨_, rfl⟩
  have hr : Fe2.Red x := by rw [hx]; exact ⟨by decide +kernel, by decide +kernel⟩
  have hm : Fe2.mul x swuA = Fe2.neg swuB := by rw [hx]; decide +kernel
  rw [← hx]
  refine ⟨hr, ?_⟩
  rw [eq_div_iff isoA_ne, ← swuA_spec.2, ← (Fe2.den_mul hr swuA_spec.1).2, hm, (Fe2.den_neg swuB_spec.1).2,
    swuB_spec.2]

theorem swuZInv_spec : Fe2.Red swuZInv ∧ Fe2.den swuZInv = Spec.sswuZ⁻¹ := by
  obtain ⟨x, hx⟩ : ∃ x, x = swuZInv := ⟨_, rfl⟩
  have hr : Fe2.Red x := by rw [hx]; exact ⟨by decide +kernel, by decide +kernel⟩
  have hm : Fe2.mul x swuZ = Fe2.one := by rw [hx]; decide +kernel
  rw [← hx]
  refine ⟨hr, ?_⟩
  apply eq_inv_of_mul_eq_one_left
  have := (Fe2.den_mul hr swuZ_spec.1).2
  rw [hm, Fe2.den_one, swuZ_spec.2] at this
  exact this.symm

/-- a root of `g'` at the exceptional `x1` of the code. -/
def swuRoot : Fe2 :=
  ⟨⟨6266313288111521826, 8886368836110058122, 1418986294913275083, 8759770357235981383, 6529165408392788053, 33282092328206302⟩,
   ⟨8131733618337137929, 6575189963677389969, 16404140943550925132, 5025227773396462714, 2754349720243346140, 1825544151629745682⟩⟩

theorem swuRoot_spec : Fe2.Red swuRoot ∧ Fe2.square swuRoot = swuG (Fe2.mul swuZInv swuMinusBOverA) ∧
    Fe2.isZero (swuG (Fe2.mul swuZInv swuMinusBOverA)) = false := by
  refine ⟨⟨by decide +kernel, by decide +kernel⟩, by decide +kernel, by decide +kernel⟩

/-! ## signs and squares -/

theorem Fe.isEven_fromMont {a : Fe} (ha : Fe.Red a) : Fe.isEven (Fe.fromMont a) = true ↔ (Fe.den a).val % 2 = 0 := by
  rw [Fe.isEven_iff, Fe.fromMont_val ha]

theorem Fe2.sign_spec {a : Fe2} (ha : Fe2.Red a) : Fe2.sign a = true ↔ Spec.sgn0 (Fe2.den a) = 0 := by
  unfold Fe2.sign Spec.sgn0
  rw [Fe2.den_re, Fe2.den_im]
  by_cases h : Fe.isZero a.c0 = true
  · rw [if_neg (by rw [h]; decide), if_pos ((Fe.isZero_den ha.1).mp h), Fe.isEven_fromMont ha.2]
  · rw [if_pos (by simpa using h), if_neg (fun h' => h ((Fe.isZero_den ha.1).mpr h')), Fe.isEven_fromMont ha.1]

theorem neg_parity {z : Fq} (h : z ≠ 0) : (-z).val % 2 ≠ z.val % 2 := by
  have hQ := Q_odd
  have hz := ZMod.val_lt z
  rw [ZMod.neg_val, if_neg h]
  omega

theorem sgn0_le (z : Fq2) : Spec.sgn0 z ≤ 1 := by
  unfold Spec.sgn0
  split <;> omega

theorem sgn0_neg {z : Fq2} (h : z ≠ 0) : Spec.sgn0 (-z) ≠ Spec.sgn0 z := by
  unfold Spec.sgn0
  rw [QuadraticAlgebra.re_neg, QuadraticAlgebra.im_neg]
  by_cases h0 : z.re = 0
  · have h1 : z.im ≠ 0 := fun h1 => h (QuadraticAlgebra.ext h0 h1)
    rw [if_pos (by rw [h0, neg_zero]), if_pos h0]
    exact neg_parity h1
  · rw [if_neg (by rwa [neg_eq_zero]), if_neg h0]
    exact neg_parity h0

theorem nonResidue1_spec : Fe.Red nonResidue1 ∧ Fe.den nonResidue1 = -1 := by
  obtain ⟨x, hx⟩ : ∃ x, x = nonResidue1 := ⟨_, rfl⟩
  have hr : Fe.Red x := by rw [hx]; decide +kernel
  have h0 : Fe.add x Fe.one = Fe.zero := by rw [hx]; decide +kernel
  rw [← hx]
  refine ⟨hr, ?_⟩
  have := (Fe.den_add hr Fe.red_one).2
  rw [h0, Fe.den_zero, Fe.den_one] at this
  linear_combination -this

theorem Fe.isQnr_spec {a : Fe} (ha : Fe.Red a) : Fe.isQnr a = false ↔ Fe.den a ^ Fe2.pMinus1Over2 = 1 := by
  obtain ⟨h, e⟩ := Fe.exp_spec ha Fe2.pMinus1Over2
  rw [Fe.isQnr, Bool.not_eq_false', Fe.equal_den h Fe.red_one, e, Fe.den_one]

theorem Fe2.isQnr_spec {a : Fe2} (ha : Fe2.Red a) :
    Fe2.isQnr .amd64 a = false ↔ IsSquare (Fe2.den a) ∧ Fe2.den a ≠ 0 := by
  obtain ⟨h0, e0⟩ := Fe.den_square ha.1
  obtain ⟨h1, e1⟩ := Fe.den_square ha.2
  obtain ⟨h2, e2⟩ := Fe.den_mul h1.lz nonResidue1_spec.1.lz
  obtain ⟨h3, e3⟩ := Fe.den_neg h2
  obtain ⟨h4, e4⟩ := Fe.den_add h3 h0
  rw [Fe2.isQnr, Fe.isQnr_spec h4]
  have hn : Fe.den (Fe.add (Fe.neg (Fe.mul (Fe.square .amd64 a.c1) nonResidue1)) (Fe.square .amd64 a.c0)) =
      QuadraticAlgebra.norm (Fe2.den a) := by
    rw [QuadraticAlgebra.norm_def, Fe2.den_re, Fe2.den_im, e4, e3, e2, e1, e0, nonResidue1_spec.2]; ring
  rw [hn]
  by_cases hz : Fe2.den a = 0
  · have : Fe2.pMinus1Over2 ≠ 0 := by decide +kernel
    have h00 : QuadraticAlgebra.norm (0 : Fq2) = 0 := by
      rw [QuadraticAlgebra.norm_def, QuadraticAlgebra.re_zero, QuadraticAlgebra.im_zero]; ring
    rw [hz, h00, zero_pow this]
    exact ⟨fun h => absurd h zero_ne_one, fun h => absurd rfl h.2⟩
  · rw [← isSquare_norm _ hz]
    exact ⟨fun h => ⟨h, hz⟩, fun h => h.1⟩

theorem pow_ne_one_of {n : ℕ} (h : powMod n Fe2.pMinus1Over2 Q ≠ 1 % Q) : (n : Fq) ^ Fe2.pMinus1Over2 ≠ 1 := by
  intro h1
  apply h
  rw [powMod_eq _ _ _ Fe.Q_pos]
  have : ((n ^ Fe2.pMinus1Over2 : ℕ) : Fq) = ((1 : ℕ) : Fq) := by rw [Nat.cast_pow, Nat.cast_one]; exact h1
  exact (ZMod.natCast_eq_natCast_iff' _ _ _).mp this

theorem norm_mk_aux {K : Type*} [Field K] (a b : K) :
    QuadraticAlgebra.norm (⟨a, b⟩ : QuadraticAlgebra K (-1) 0) = a * a + b * b := by
  rw [QuadraticAlgebra.norm_def]; ring

theorem sswuZ_nonsquare : ¬ IsSquare Spec.sswuZ := by
  rw [isSquare_norm _ sswuZ_ne, Spec.sswuZ]
  have : QuadraticAlgebra.norm (⟨-2, -1⟩ : Fq2) = ((5 : ℕ) : Fq) := by
    rw [norm_mk_aux]; norm_num
  rw [this]
  exact pow_ne_one_of (by decide +kernel)

theorem b2_nonsquare : ¬ IsSquare Spec.b2 := by
  have hb : Spec.b2 ≠ 0 := sem2.b_ne
  rw [isSquare_norm _ hb, Spec.b2]
  have : QuadraticAlgebra.norm (⟨4, 4⟩ : Fq2) = ((32 : ℕ) : Fq) := by
    rw [norm_mk_aux]; norm_num
  rw [this]
  exact pow_ne_one_of (by decide +kernel)

end Verif.Bls
