import Verif.Bls.HashG1Poly
import Verif.Bls.HashUnique

/-!
# Hashing to G1: what `swuMapG1`, `isogenyMapG1` and the maps built from them compute
-/

namespace Verif.Bls

open Verif.EC WeierstrassCurve PolyNat

/-! ## field operations on reduced words -/

theorem Fe.rmul {a b : Fe} (ha : Fe.Red a) (hb : Fe.Red b) : Fe.Red (Fe.mul a b) ∧ Fe.den (Fe.mul a b) = Fe.den a * Fe.den b :=
  Fe.den_mul ha.lz hb.lz

theorem Fe.rinv {a : Fe} (ha : Fe.Red a) : Fe.Red (Fe.inverse a) ∧ Fe.den (Fe.inverse a) = (Fe.den a)⁻¹ := Fe.inverse_spec ha

theorem nat_ne1 {n : ℕ} (h : n % Q ≠ 0) : (n : Fq) ≠ 0 := Fe.natCast_ne_zero_of h

/-! ## the curve `E1'` -/

theorem iso1A_ne : (Spec.iso1A : Fq) ≠ 0 := nat_ne1 (by decide +kernel)
theorem iso1B_ne : (Spec.iso1B : Fq) ≠ 0 := nat_ne1 (by decide +kernel)

theorem eleven : ((11 : ℕ) : Fq) = 11 := Nat.cast_ofNat

theorem halfQ' : Q / 2 = Fe2.pMinus1Over2 := by decide +kernel

theorem euler {a : Fq} (ha : a ≠ 0) : IsSquare a ↔ a ^ Fe2.pMinus1Over2 = 1 := by
  rw [← halfQ']; exact ZMod.euler_criterion Q ha

theorem eleven_nonsquare : ¬ IsSquare (11 : Fq) := by
  rw [← eleven, euler (nat_ne1 (by decide +kernel))]
  exact pow_ne_one_of (by decide +kernel)

theorem eleven_ne : (11 : Fq) ≠ 0 := fun h => eleven_nonsquare (h ▸ IsSquare.zero)

theorem E1'_nonsing {x y : Fq} (h : y ^ 2 = Spec.g1' x) : Spec.E1'.Nonsingular x y := by
  have hΔ : Spec.E1'.Δ ≠ 0 := by
    rw [sw_Δ]
    have e : (-16 : Fq) * (4 * (Spec.iso1A : Fq) ^ 3 + 27 * (Spec.iso1B : Fq) ^ 2) =
        -((16 * (4 * Spec.iso1A ^ 3 + 27 * Spec.iso1B ^ 2) : ℕ) : Fq) := by push_cast; ring
    rw [e]
    exact neg_ne_zero.mpr (nat_ne1 (by decide +kernel))
  exact (Affine.equation_iff_nonsingular_of_Δ_ne_zero hΔ).mp ((sw_equation _ _ _ _).mpr h)

/-! ## the isogeny -/

theorem iso1_on_curve {x y : Fq} (h : y ^ 2 = Spec.g1' x) (hk : Spec.poly x kk ≠ 0) :
    (y * Spec.poly x Spec.k3 / Spec.poly x Spec.k4) ^ 2 = (Spec.poly x Spec.k1 / Spec.poly x Spec.k2) ^ 3 + 4 := by
  have hi := iso1_identity x
  rw [← h] at hi
  rw [k2_eq, k4_eq]
  generalize Spec.poly x kk = D at *
  generalize Spec.poly x Spec.k1 = n1 at *
  generalize Spec.poly x Spec.k3 = n3 at *
  field_simp
  linear_combination hi

/-- `kk` and `x³ + A' x + B'` have no common root. -/
theorem bezout (x : Fq) : ∃ s t : Fq, s * Spec.poly x kk + t * Spec.g1' x = 1 := by
  refine ⟨Spec.poly x [
    542080308405674787875827503547757851642709611181914559207463482800014893099698864264503755660161464006129571333164,
    1856953963043175401752535616446463490026864211802021013592979912810300622535739537677508656426301035334917139563942,
    472326945226937561336164070766720215388990192645312267286802310192075443062966827922298837015674564858351515942062],
    Spec.poly x [
    2718263359018188740066443918701911106336843259656356963559870352361162262776300211946672059954162021340510125589219,
    1271448240065068661010929350432806395248809247864880535006162069004583131163759175636264404941437337678453498349611,
    2885491451911125085254688091339679625827282617391407972950791367565856803494655165384484619296436319255961732193317,
    873418772788096431587427229223231951963122646885896198022147799232561550667909698726436347919005710280497035785914,
    3530082609994729832081625754969183941167892627293695618045255825931956207427871036520388792113341099179542756617725], ?_⟩
  rw [← poly_ff, ← poly_mul, ← poly_mul, ← poly_add]
  refine (poly_same x (b := [1, 0, 0, 0, 0, 0, 0, 0]) (by decide +kernel)).trans ?_
  simp only [Spec.poly, Nat.cast_zero, Nat.cast_one]; ring

theorem E1_odd : (h1 * Spec.r) % 2 = 1 := by decide +kernel

/-- `E1` has no point of order 2. -/
theorem no_two_torsion {P : Spec.E1.Point} (h : P + P = 0) : P = 0 := by
  have hc : (h1 * Spec.r) • P = 0 := by
    rw [← card_E1]; exact card_nsmul_eq_zero'
  have h2 : 2 • P = 0 := by rw [two_nsmul, h]
  have e : h1 * Spec.r = 2 * (h1 * Spec.r / 2) + 1 := by have := E1_odd; omega
  rw [e, add_nsmul, one_nsmul, mul_comm, mul_nsmul', h2, nsmul_zero, zero_add] at hc
  exact hc

/-- `x³ + A' x + B'` has no root. -/
theorem g1'_ne (x : Fq) : Spec.g1' x ≠ 0 := by
  intro h0
  obtain ⟨s, t, hst⟩ := bezout x
  have hk : Spec.poly x kk ≠ 0 := by
    intro hk
    rw [hk, h0, mul_zero, mul_zero, add_zero] at hst
    exact zero_ne_one hst
  have hc := iso1_on_curve (x := x) (y := 0) (by rw [h0]; ring) hk
  rw [zero_mul, zero_div] at hc
  have hn : Spec.E1.Nonsingular _ 0 := sem1.nonsing hc
  have h2 : (.some _ _ hn : Spec.E1.Point) + .some _ _ hn = 0 :=
    Affine.Point.add_of_Y_eq rfl (by simp [Affine.negY, sw])
  exact Affine.Point.some_ne_zero _ (no_two_torsion h2)

/-! ## constants -/

theorem swu1A_spec : Fe.Red swu1A ∧ Fe.den swu1A = (Spec.iso1A : Fq) := den_of (by decide +kernel)
theorem swu1B_spec : Fe.Red swu1B ∧ Fe.den swu1B = (Spec.iso1B : Fq) := den_of (by decide +kernel)
theorem swu1Z_spec : Fe.Red swu1Z ∧ Fe.den swu1Z = 11 := by
  rw [← eleven]; exact den_of (by decide +kernel)

theorem swu1MinusBOverA_spec : Fe.Red swu1MinusBOverA ∧ Fe.den swu1MinusBOverA = -Spec.iso1B / Spec.iso1A := by
  obtain ⟨x, hx⟩ : ∃ x, x = swu1MinusBOverA := ⟨_, rfl⟩
  have hr : Fe.Red x := by rw [hx]; decide +kernel
  have hm : Fe.mul x swu1A = Fe.neg swu1B := by rw [hx]; decide +kernel
  rw [← hx]
  refine ⟨hr, ?_⟩
  rw [eq_div_iff iso1A_ne, ← swu1A_spec.2, ← (Fe.rmul hr swu1A_spec.1).2, hm, (Fe.den_neg swu1B_spec.1).2, swu1B_spec.2]

theorem neg_inv_aux {K : Type*} [Field K] {x z : K} (hz : z ≠ 0) (h : x * z = -1) : x = -z⁻¹ := by
  rw [← one_div, ← neg_div, eq_div_iff hz, h]

theorem swu1ZInv_spec : Fe.Red swu1ZInv ∧ Fe.den swu1ZInv = -(11 : Fq)⁻¹ := by
  obtain ⟨x, hx⟩ : ∃ x, x = swu1ZInv := ⟨_, rfl⟩
  have hr : Fe.Red x := by rw [hx]; decide +kernel
  have hm : Fe.mul x swu1Z = Fe.neg Fe.one := by rw [hx]; decide +kernel
  rw [← hx]
  refine ⟨hr, ?_⟩
  exact neg_inv_aux eleven_ne (by rw [← swu1Z_spec.2, ← (Fe.rmul hr swu1Z_spec.1).2, hm, (Fe.den_neg Fe.red_one).2, Fe.den_one])

/-- a root of `x³ + A' x + B'` at the exceptional `x1`. -/
def swu1Root : Fe := ⟨6581303311714731919, 12130315956063905158, 18206891154067386084, 952173996335271655, 12228209586786641347, 1809297230928598351⟩

theorem swu1Root_spec : Fe.Red swu1Root ∧ Fe.square .amd64 swu1Root = swu1G .amd64 (Fe.mul swu1ZInv swu1MinusBOverA) :=
  ⟨by decide +kernel, by decide +kernel⟩

/-! ## the simplified SWU map -/

theorem swu1X1_spec {t : Fe} (ht : Fe.Red t) :
    Fe.Red (swu1X1 .amd64 t) ∧
    (Fe.den t + Fe.den t ^ 2 ≠ 0 → Fe.den (swu1X1 .amd64 t) =
      (-Spec.iso1B / Spec.iso1A) * (1 + (Fe.den t + Fe.den t ^ 2)⁻¹)) ∧
    (Fe.den t + Fe.den t ^ 2 = 0 → swu1X1 .amd64 t = Fe.mul swu1ZInv swu1MinusBOverA) := by
  obtain ⟨h1, e1⟩ := Fe.den_square ht
  obtain ⟨h2, e2⟩ := Fe.den_add ht h1
  obtain ⟨h3, e3⟩ := Fe.rinv h2
  obtain ⟨h4, e4⟩ := Fe.den_add h3 Fe.red_one
  have hs : Fe.den t + Fe.den t ^ 2 = Fe.den (Fe.add t (Fe.square .amd64 t)) := by rw [e2, e1, pow_two]
  have hz := Fe.isZero_den h3
  rw [e3, ← hs, inv_eq_zero] at hz
  simp only [swu1X1]
  by_cases h0 : Fe.den t + Fe.den t ^ 2 = 0
  · rw [if_pos (hz.mpr h0)]
    exact ⟨(Fe.rmul swu1ZInv_spec.1 swu1MinusBOverA_spec.1).1, fun h => absurd h0 h, fun _ => rfl⟩
  · rw [if_neg (fun h => h0 (hz.mp h))]
    obtain ⟨h5, e5⟩ := Fe.rmul h4 swu1MinusBOverA_spec.1
    refine ⟨h5, fun _ => ?_, fun h => absurd h h0⟩
    rw [e5, swu1MinusBOverA_spec.2, e4, e3, Fe.den_one, ← hs, mul_comm, add_comm (_⁻¹)]

theorem swu1G_spec {x : Fe} (hx : Fe.Red x) : Fe.Red (swu1G .amd64 x) ∧ Fe.den (swu1G .amd64 x) = Spec.g1' (Fe.den x) := by
  obtain ⟨h1, e1⟩ := Fe.den_square hx
  obtain ⟨h2, e2⟩ := Fe.den_add h1 swu1A_spec.1
  obtain ⟨h3, e3⟩ := Fe.rmul h2 hx
  obtain ⟨h4, e4⟩ := Fe.den_add h3 swu1B_spec.1
  rw [swu1G]
  refine ⟨h4, ?_⟩
  rw [e4, e3, e2, e1, swu1A_spec.2, swu1B_spec.2, Spec.g1']
  ring

theorem Fe.sign_spec {a : Fe} (ha : Fe.Red a) : Fe.sign a = true ↔ (Fe.den a).val % 2 = 0 := by
  unfold Fe.sign
  exact Fe.isEven_fromMont ha

/-- `y`, made to have the parity of `u`. -/
theorem withSign1 {y u : Fe} (hy : Fe.Red y) (hu : Fe.Red u) (h0 : Fe.den y ≠ 0) :
    ∃ y', (if Fe.sign y != Fe.sign u then Fe.neg y else y) = y' ∧ Fe.Red y' ∧
      Fe.den y' ^ 2 = Fe.den y ^ 2 ∧ (Fe.den y').val % 2 = (Fe.den u).val % 2 := by
  have sy := Fe.sign_spec hy
  have su := Fe.sign_spec hu
  obtain ⟨hn, en⟩ := Fe.den_neg hy
  by_cases h : Fe.sign y = Fe.sign u
  · refine ⟨y, by rw [h]; simp, hy, rfl, ?_⟩
    rw [h, su] at sy
    omega
  · refine ⟨Fe.neg y, by rw [if_pos (by simpa using h)], hn, by rw [en]; ring, ?_⟩
    have hne := neg_parity h0
    have h' : ¬ ((Fe.den y).val % 2 = 0 ↔ (Fe.den u).val % 2 = 0) := by
      rw [← sy, ← su]
      intro k
      exact h (Bool.eq_iff_iff.mpr k)
    rw [en]
    omega

theorem Fe.isQnr_iff {a : Fe} (ha : Fe.Red a) (h0 : Fe.den a ≠ 0) : Fe.isQnr a = false ↔ IsSquare (Fe.den a) := by
  rw [Fe.isQnr_spec ha, euler h0]

theorem ringChar_ne1 : ringChar Fq ≠ 2 := by
  rw [ZMod.ringChar_zmod_n]
  exact (by decide +kernel : Q ≠ 2)

theorem isSquare_def1 {a : Fq} : IsSquare a ↔ ∃ y, y * y = a :=
  ⟨fun ⟨y, h⟩ => ⟨y, h.symm⟩, fun ⟨y, h⟩ => ⟨y, h.symm⟩⟩

theorem exc_eq {K : Type*} [Field K] (z a b : K) : -z⁻¹ * (-b / a) = b / (z * a) := by
  rw [neg_div, neg_mul_neg, mul_comm z a, ← div_div, div_eq_mul_inv (b / a), mul_comm]

/-- the two values the map chooses from. -/
theorem swu1_choice {u : Fe} (hu : Fe.Red u) :
    ∃ t x1 gx1, t = Fe.mul (Fe.square .amd64 u) swu1Z ∧ x1 = swu1X1 .amd64 t ∧ gx1 = swu1G .amd64 x1 ∧
      Fe.Red t ∧ Fe.Red x1 ∧ Fe.Red gx1 ∧ Fe.den t = 11 * Fe.den u ^ 2 ∧
      Fe.den gx1 = Spec.g1' (Fe.den x1) ∧
      (¬ IsSquare (Fe.den gx1) →
        IsSquare (Fe.den gx1 * Fe.den t ^ 3) ∧
        Spec.g1' (Fe.den t * Fe.den x1) = Fe.den gx1 * Fe.den t ^ 3) ∧
      Fe.den x1 = Spec.x11 (Fe.den u) := by
  obtain ⟨h1, e1⟩ := Fe.den_square hu
  obtain ⟨h2, e2⟩ := Fe.rmul h1 swu1Z_spec.1
  obtain ⟨h3, e3, e3'⟩ := swu1X1_spec h2
  obtain ⟨h4, e4⟩ := swu1G_spec h3
  have et : Fe.den (Fe.mul (Fe.square .amd64 u) swu1Z) = 11 * Fe.den u ^ 2 := by
    rw [e2, e1, swu1Z_spec.2]; ring
  have heq : Fe.den (Fe.mul (Fe.square .amd64 u) swu1Z) + Fe.den (Fe.mul (Fe.square .amd64 u) swu1Z) ^ 2 =
      11 ^ 2 * Fe.den u ^ 4 + 11 * Fe.den u ^ 2 := by rw [et]; ring
  refine ⟨_, _, _, rfl, rfl, rfl, h2, h3, h4, et, e4, ?_, ?_⟩
  · intro hns
    by_cases h0 : Fe.den (Fe.mul (Fe.square .amd64 u) swu1Z) + Fe.den (Fe.mul (Fe.square .amd64 u) swu1Z) ^ 2 = 0
    · exfalso
      apply hns
      rw [e3' h0]
      obtain ⟨r1, r2⟩ := swu1Root_spec
      obtain ⟨k1, k2⟩ := Fe.den_square r1
      rw [r2] at k2
      exact ⟨_, k2⟩
    · have hx := e3 h0
      generalize Fe.mul (Fe.square .amd64 u) swu1Z = t at *
      generalize swu1X1 .amd64 t = x1 at *
      have hsec := sswu_second iso1A_ne h0 hx
      rw [e4] at hns ⊢
      refine ⟨?_, by rw [Spec.g1', Spec.g1']; exact hsec⟩
      exact sswu_square ringChar_ne1 eleven_nonsquare (u := Fe.den u) (by rw [et]; ring) hns
  · rw [Spec.x11]
    by_cases h0 : (11 : Fq) ^ 2 * Fe.den u ^ 4 + 11 * Fe.den u ^ 2 = 0
    · rw [if_pos h0, e3' (heq.trans h0), (Fe.rmul swu1ZInv_spec.1 swu1MinusBOverA_spec.1).2, swu1ZInv_spec.2, swu1MinusBOverA_spec.2]
      exact exc_eq _ _ _
    · rw [if_neg h0, e3 (by rw [heq]; exact h0), heq]

/-- `swuMapG1` computes the simplified SWU map. -/
theorem swuG1_spec {u : Fe} (hu : Fe.Red u) :
    ∃ x y, swuG1 .amd64 u = (x, y) ∧ Fe.Red x ∧ Fe.Red y ∧ ∃ h, Spec.Sswu1 (Fe.den u) (.some (Fe.den x) (Fe.den y) h) := by
  obtain ⟨t, x1, gx1, ht, hx1, hgx1, rt, rx, rg, et, eg, hq, hspec⟩ := swu1_choice hu
  obtain ⟨rt2, et2⟩ := Fe.den_square rt
  obtain ⟨rt3, et3⟩ := Fe.rmul rt rt2
  obtain ⟨rx2, ex2⟩ := Fe.rmul rt rx
  obtain ⟨rg2, eg2⟩ := Fe.rmul rg rt3
  have hqs := Fe.isQnr_iff rg (by rw [eg]; exact g1'_ne _)
  have e : swuG1 .amd64 u =
      (if (!Fe.isQnr gx1) = true then x1 else Fe.mul t x1,
        if (Fe.sign (Fe.sqrt .amd64 (if (!Fe.isQnr gx1) = true then gx1 else Fe.mul gx1 (Fe.mul t (Fe.square .amd64 t)))).1 != Fe.sign u) = true
        then Fe.neg (Fe.sqrt .amd64 (if (!Fe.isQnr gx1) = true then gx1 else Fe.mul gx1 (Fe.mul t (Fe.square .amd64 t)))).1
        else (Fe.sqrt .amd64 (if (!Fe.isQnr gx1) = true then gx1 else Fe.mul gx1 (Fe.mul t (Fe.square .amd64 t)))).1) := by
    simp only [swuG1]
    rw [← ht, ← hx1, ← hgx1]
  rw [e]
  by_cases hb : Fe.isQnr gx1 = true
  · rw [hb, Bool.not_true, if_neg Bool.false_ne_true, if_neg Bool.false_ne_true]
    obtain ⟨s1, s2, s3⟩ := Fe.sqrt_spec rg2
    have hns : ¬ IsSquare (Fe.den gx1) := by rw [← hqs, hb]; decide
    obtain ⟨hsq, hg2⟩ := hq hns
    have ev : Fe.den (Fe.mul gx1 (Fe.mul t (Fe.square .amd64 t))) = Fe.den gx1 * Fe.den t ^ 3 := by
      rw [eg2, et3, et2]; ring
    have s4 := s3 (s2.mpr (by rw [ev]; exact isSquare_def1.mp hsq))
    have s5 : Fe.den (Fe.sqrt .amd64 (Fe.mul gx1 (Fe.mul t (Fe.square .amd64 t)))).1 ≠ 0 := by
      intro h0
      rw [h0, mul_zero, ev, ← hg2] at s4
      exact g1'_ne _ s4.symm
    obtain ⟨y', hy', ry, esq, esg⟩ := withSign1 s1 hu s5
    rw [hy']
    have hcurve : Fe.den y' ^ 2 = Spec.g1' (Fe.den (Fe.mul t x1)) := by
      rw [esq, pow_two, s4, ev, ex2, hg2]
    refine ⟨_, _, rfl, rx2, ry, E1'_nonsing hcurve, _, _, E1'_nonsing hcurve, rfl, ?_, esg⟩
    rw [Spec.sswuX1, ← hspec, ← eg, if_neg hns, ex2, et]
  · have hb' : Fe.isQnr gx1 = false := Bool.eq_false_iff.mpr hb
    rw [hb', Bool.not_false, if_pos rfl, if_pos rfl]
    obtain ⟨s1, s2, s3⟩ := Fe.sqrt_spec rg
    have hsq := hqs.mp hb'
    have s4 := s3 (s2.mpr (isSquare_def1.mp hsq))
    have s5 : Fe.den (Fe.sqrt .amd64 gx1).1 ≠ 0 := by
      intro h0
      rw [h0, mul_zero, eg] at s4
      exact g1'_ne _ s4.symm
    obtain ⟨y', hy', ry, esq, esg⟩ := withSign1 s1 hu s5
    rw [hy']
    have hcurve : Fe.den y' ^ 2 = Spec.g1' (Fe.den x1) := by
      rw [esq, pow_two, s4, eg]
    refine ⟨_, _, rfl, rx, ry, E1'_nonsing hcurve, _, _, E1'_nonsing hcurve, rfl, ?_, esg⟩
    rw [Spec.sswuX1, ← hspec, ← eg, if_pos hsq]

end Verif.Bls
