import Mathlib.NumberTheory.JacobiSum.Basic
import Mathlib.NumberTheory.LegendreSymbol.QuadraticChar.Basic
import Mathlib.NumberTheory.MulChar.Lemmas
import Mathlib.RingTheory.RootsOfUnity.Complex
import Mathlib.FieldTheory.Finite.Basic
import Verif.EC.Jacobian

/-!
# Counting the solutions of `y² = x³ + b` over a finite field with a cube root of unity

The number is `q + t` with `t² + 3 s² = 4 q` for an integer `s` (Gauss); the proof uses Jacobi sums.
-/

namespace Verif.EC

open Finset

section
variable {F : Type*} [Field F] [Fintype F] [DecidableEq F]

/-! ## the Eisenstein integers in `ℂ` -/

variable {ω : ℂ}

/-- `z = a + b ω`. -/
def Eis (ω z : ℂ) : Prop := ∃ a b : ℤ, z = a + b * ω

theorem omega_sq (hω : IsPrimitiveRoot ω 3) : ω ^ 2 = -1 - ω := by
  have h := hω.geom_sum_eq_zero (by norm_num)
  simp only [sum_range_succ, sum_range_zero] at h
  linear_combination h

theorem Eis.add {x y : ℂ} (hx : Eis ω x) (hy : Eis ω y) : Eis ω (x + y) := by
  obtain ⟨a, b, rfl⟩ := hx
  obtain ⟨c, d, rfl⟩ := hy
  exact ⟨a + c, b + d, by push_cast; ring⟩

theorem Eis.mul (hω : IsPrimitiveRoot ω 3) {x y : ℂ} (hx : Eis ω x) (hy : Eis ω y) : Eis ω (x * y) := by
  obtain ⟨a, b, rfl⟩ := hx
  obtain ⟨c, d, rfl⟩ := hy
  refine ⟨a * c - b * d, a * d + b * c - b * d, ?_⟩
  push_cast
  linear_combination (b : ℂ) * d * omega_sq hω

theorem Eis.int (n : ℤ) : Eis ω n := ⟨n, 0, by simp⟩

theorem Eis.omega : Eis ω ω := ⟨0, 1, by simp⟩

theorem Eis.pow (hω : IsPrimitiveRoot ω 3) {x : ℂ} (hx : Eis ω x) (n : ℕ) : Eis ω (x ^ n) := by
  induction n with
  | zero => rw [pow_zero]; exact_mod_cast Eis.int (ω := ω) 1
  | succ n ih => rw [pow_succ]; exact ih.mul hω hx

theorem Eis.sum {ι : Type*} (s : Finset ι) (f : ι → ℂ) (h : ∀ i ∈ s, Eis ω (f i)) : Eis ω (∑ i ∈ s, f i) :=
  Finset.sum_induction f (Eis ω) (fun _ _ => Eis.add) (by exact_mod_cast Eis.int (ω := ω) 0) h

theorem conj_omega (hω : IsPrimitiveRoot ω 3) : star ω = -1 - ω := by
  have h1 : ‖ω‖ = 1 := hω.norm'_eq_one (by norm_num)
  have h2 : star ω * ω = 1 := by
    rw [RCLike.star_def, Complex.conj_mul', h1]; norm_num
  have h3 : ω ^ 3 = 1 := hω.pow_eq_one
  have h0 : ω ≠ 0 := hω.ne_zero (by norm_num)
  have h4 := omega_sq hω
  apply mul_right_cancel₀ h0
  rw [h2]
  linear_combination h4

/-- an Eisenstein integer of norm `q`. -/
theorem Eis.norm (hω : IsPrimitiveRoot ω 3) {z : ℂ} (hz : Eis ω z) {q : ℕ} (h : z * star z = q) :
    ∃ t s : ℤ, z + star z = t ∧ t ^ 2 + 3 * s ^ 2 = 4 * q := by
  obtain ⟨a, b, rfl⟩ := hz
  have hc := conj_omega hω
  have hsq := omega_sq hω
  have hs : star ((a : ℂ) + b * ω) = a + b * (-1 - ω) := by
    rw [star_add, star_mul', hc]; simp
  rw [hs] at h ⊢
  refine ⟨2 * a - b, b, by push_cast; ring, ?_⟩
  have : ((a ^ 2 - a * b + b ^ 2 : ℤ) : ℂ) = ((q : ℤ) : ℂ) := by
    push_cast
    rw [← h]
    linear_combination (b : ℂ) ^ 2 * hsq
  have := Int.cast_injective this
  linear_combination 4 * this

/-! ## cube roots -/

theorem card_cubes {χ : MulChar F ℂ} (hχ : orderOf χ = 3) (u : F) :
    ((univ.filter fun x : F => x ^ 3 = u).card : ℂ) = 1 + χ u + (χ ^ 2) u := by
  by_cases hu : u = 0
  · subst hu
    have : (univ.filter fun x : F => x ^ 3 = 0) = {0} := by
      ext x; simp
    rw [this, card_singleton, MulChar.map_zero, MulChar.map_zero]; norm_num
  have hχ3 : χ ^ 3 = 1 := by rw [← hχ]; exact pow_orderOf_eq_one χ
  have hval : ∀ x : F, x ≠ 0 → (χ x) ^ 3 = 1 := by
    intro x hx
    rw [← MulChar.pow_apply' χ (by norm_num), hχ3, MulChar.one_apply (Ne.isUnit hx)]
  have h3 : 3 ∣ Fintype.card F - 1 := by rw [← hχ]; exact χ.orderOf_dvd_card_sub_one
  rw [MulChar.pow_apply' χ (by norm_num)]
  obtain ⟨g, hg⟩ := IsCyclic.exists_generator (α := Fˣ)
  have hcard : orderOf g = Fintype.card F - 1 := by
    rw [orderOf_eq_card_of_forall_mem_zpowers hg, Nat.card_eq_fintype_card, Fintype.card_units]
  have hpos : 0 < Fintype.card F - 1 := by have := Fintype.one_lt_card (α := F); omega
  obtain ⟨m, hm⟩ := h3
  -- a primitive cube root of unity in `F`
  have hζ : IsPrimitiveRoot ((g : F) ^ m) 3 := by
    have : IsPrimitiveRoot (g : F) (Fintype.card F - 1) := by
      rw [← hcard]; exact (IsPrimitiveRoot.orderOf g).map_of_injective (f := Units.coeHom F) Units.val_injective
    exact this.pow hpos (by rw [hm, mul_comm])
  by_cases hc : ∃ x, x ^ 3 = u
  · obtain ⟨x, rfl⟩ := hc
    have hx : x ≠ 0 := by rintro rfl; exact hu (by norm_num)
    have h1 : χ (x ^ 3) = 1 := by rw [map_pow, hval x hx]
    rw [h1]
    have hroots : (univ.filter fun y : F => y ^ 3 = x ^ 3).card = 3 := by
      have h2 := hζ.card_nthRoots (x ^ 3)
      rw [if_pos ⟨x, rfl⟩] at h2
      have hnd : (Polynomial.nthRoots 3 (x ^ 3)).Nodup := hζ.nthRoots_nodup (pow_ne_zero _ hx)
      have : (univ.filter fun y : F => y ^ 3 = x ^ 3) = (Polynomial.nthRoots 3 (x ^ 3)).toFinset := by
        ext y
        rw [mem_filter, Multiset.mem_toFinset, Polynomial.mem_nthRoots (by norm_num)]
        simp
      rw [this, Multiset.toFinset_card_of_nodup hnd, h2]
    rw [hroots]; norm_num
  · have he : (univ.filter fun x : F => x ^ 3 = u) = ∅ := by
      ext x
      simp only [mem_filter, mem_univ, true_and, notMem_empty, iff_false]
      exact fun h => hc ⟨x, h⟩
    rw [he, card_empty]
    have hne : χ u ≠ 1 := by
      intro h1
      obtain ⟨k, hk⟩ := Submonoid.mem_powers_iff _ _ |>.mp (mem_powers_iff_mem_zpowers.mpr (hg (Units.mk0 u hu)))
      have hk' : u = (g : F) ^ k := by
        have := congrArg Units.val hk
        simpa using this.symm
      have hg1 : χ (g : F) ≠ 1 := by
        intro h
        have : χ = 1 := (MulChar.eq_iff hg χ 1).mpr (by rw [h, MulChar.one_apply g.isUnit])
        rw [this, orderOf_one] at hχ
        norm_num at hχ
      rw [hk', map_pow] at h1
      have h33 := hval (g : F) g.ne_zero
      have hord : orderOf (χ (g : F)) = 3 := orderOf_eq_prime h33 hg1
      have hd := orderOf_dvd_of_pow_eq_one h1
      rw [hord] at hd
      obtain ⟨j, rfl⟩ := hd
      exact hc ⟨(g : F) ^ j, by rw [← pow_mul, mul_comm, hk']⟩
    have h3 := hval u hu
    have : (χ u - 1) * (1 + χ u + χ u ^ 2) = 0 := by linear_combination h3
    rcases mul_eq_zero.mp this with h | h
    · exact absurd (sub_eq_zero.mp h) hne
    · rw [h]; norm_num

/-! ## the count -/

theorem sum_fiber (f : F → ℂ) {χ : MulChar F ℂ} (hχ : orderOf χ = 3) :
    ∑ x : F, f (x ^ 3) = ∑ u : F, f u + ∑ u : F, χ u * f u + ∑ u : F, (χ ^ 2) u * f u := by
  have h : ∑ x : F, f (x ^ 3) = ∑ u : F, ((univ.filter fun x : F => x ^ 3 = u).card : ℂ) * f u := by
    rw [← sum_fiberwise_of_maps_to (g := fun x : F => x ^ 3) (t := univ) (fun _ _ => mem_univ _)]
    refine sum_congr rfl fun u _ => ?_
    rw [sum_congr rfl (g := fun _ => f u) (by intro x hx; rw [(mem_filter.mp hx).2]), sum_const, nsmul_eq_mul]
  rw [h]
  simp only [card_cubes hχ, add_mul, one_mul, sum_add_distrib]

theorem twist_sum (χ ρ : MulChar F ℂ) {b : F} (hb : b ≠ 0) :
    ∑ u : F, χ u * ρ (u + b) = χ (-b) * ρ b * jacobiSum χ ρ := by
  rw [jacobiSum, mul_sum, ← Equiv.sum_comp (Equiv.mulLeft₀ (-b) (neg_ne_zero.mpr hb))]
  refine sum_congr rfl fun v _ => ?_
  rw [Equiv.mulLeft₀_apply, map_mul, show -b * v + b = b * (1 - v) by ring, map_mul]
  ring

/-- the number of solutions of `y² = x³ + b`. -/
theorem card_solutions (h2 : ringChar F ≠ 2) (h3 : 3 ∣ Fintype.card F - 1) {b : F} (hb : b ≠ 0) :
    ∃ t s : ℤ, ((univ.filter fun p : F × F => p.2 ^ 2 = p.1 ^ 3 + b).card : ℤ) = Fintype.card F + t ∧
      t ^ 2 + 3 * s ^ 2 = 4 * Fintype.card F := by
  obtain ⟨ω, hω⟩ : ∃ ω : ℂ, IsPrimitiveRoot ω 3 := ⟨_, Complex.isPrimitiveRoot_exp 3 (by norm_num)⟩
  obtain ⟨χ, hχ⟩ := MulChar.exists_mulChar_orderOf F h3 hω
  set ρ : MulChar F ℂ := (quadraticChar F).ringHomComp (Int.castRingHom ℂ) with hρ
  have hρv : ∀ a, ρ a = (quadraticChar F a : ℂ) := fun a => by rw [hρ, MulChar.ringHomComp_apply]; rfl
  have hχ3 : χ ^ 3 = 1 := by rw [← hχ]; exact pow_orderOf_eq_one χ
  have hχ1 : χ ≠ 1 := by rintro rfl; rw [orderOf_one] at hχ; norm_num at hχ
  have hinv : χ⁻¹ = χ ^ 2 := by
    rw [inv_eq_iff_mul_eq_one, ← pow_succ', hχ3]
  have hρ1 : ρ ≠ 1 := by
    obtain ⟨a, ha⟩ := quadraticChar_exists_neg_one' h2
    intro h
    have := hρv a
    rw [h, MulChar.one_apply a.isUnit, ha] at this
    norm_num at this
  have hρ2 : ρ ^ 2 = 1 := by
    ext a
    rw [MulChar.pow_apply' _ (by norm_num), hρv, MulChar.one_apply a.isUnit]
    have := quadraticChar_sq_one (F := F) a.ne_zero
    exact_mod_cast this
  have hρinv : ρ⁻¹ = ρ := by
    rw [inv_eq_iff_mul_eq_one, ← pow_two, hρ2]
  have hχρ : χ * ρ ≠ 1 := by
    intro h
    have : χ ^ 2 = 1 := by
      have : (χ * ρ) ^ 2 = 1 := by rw [h, one_pow]
      rwa [mul_pow, hρ2, mul_one] at this
    have hd := orderOf_dvd_of_pow_eq_one this
    rw [hχ] at hd
    norm_num at hd
  -- counting
  have hcount : ((univ.filter fun p : F × F => p.2 ^ 2 = p.1 ^ 3 + b).card : ℂ) = Fintype.card F + ∑ x : F, ρ (x ^ 3 + b) := by
    have h1 : ((univ.filter fun p : F × F => p.2 ^ 2 = p.1 ^ 3 + b).card : ℤ) = ∑ x : F, (quadraticChar F (x ^ 3 + b) + 1) := by
      rw [card_filter, ← univ_product_univ, sum_product]
      push_cast
      refine sum_congr rfl fun x _ => ?_
      have := quadraticChar_card_sqrts h2 (x ^ 3 + b)
      rw [← this, Set.toFinset_card, Fintype.card_subtype, card_filter]
      push_cast
      rfl
    have h2 : (((univ.filter fun p : F × F => p.2 ^ 2 = p.1 ^ 3 + b).card : ℤ) : ℂ) = ∑ x : F, (ρ (x ^ 3 + b) + 1) := by
      rw [h1]; push_cast
      exact sum_congr rfl fun x _ => by rw [hρv]
    rw [Int.cast_natCast] at h2
    rw [h2, sum_add_distrib, sum_const, card_univ, nsmul_eq_mul, mul_one, add_comm]
  set z : ℂ := χ (-b) * ρ b * jacobiSum χ ρ with hz
  have hstar : star z = (χ ^ 2) (-b) * ρ b * jacobiSum (χ ^ 2) ρ := by
    have hsχ : ∀ a, star (χ a) = (χ ^ 2) a := fun a => by rw [MulChar.star_apply' χ a, hinv]
    have hsρ : ∀ a, star (ρ a) = ρ a := fun a => by rw [MulChar.star_apply' ρ a, hρinv]
    rw [hz, star_mul', star_mul', hsχ, hsρ, jacobiSum, star_sum, jacobiSum]
    congr 1
    refine sum_congr rfl fun x _ => ?_
    rw [star_mul', hsχ, hsρ]
  have hsum : ∑ x : F, ρ (x ^ 3 + b) = z + star z := by
    rw [sum_fiber (fun u => ρ (u + b)) hχ, twist_sum χ ρ hb, twist_sum (χ ^ 2) ρ hb, hstar]
    have : ∑ u : F, ρ (u + b) = 0 := by
      exact (Equiv.sum_comp (Equiv.addRight b) (fun u => ρ u)).trans (MulChar.sum_eq_zero_of_ne_one hρ1)
    rw [this, zero_add]
  have hE : Eis ω z := by
    have hχE : ∀ a, Eis ω (χ a) := by
      intro a
      by_cases ha : a = 0
      · rw [ha, MulChar.map_zero]; exact_mod_cast Eis.int (ω := ω) 0
      · obtain ⟨k, -, hk⟩ := MulChar.exists_apply_eq_pow hχ3 hω ha
        rw [hk]; exact Eis.omega.pow hω k
    have hρE : ∀ a, Eis ω (ρ a) := fun a => by rw [hρv]; exact Eis.int _
    exact ((hχE _).mul hω (hρE _)).mul hω (Eis.sum _ _ fun i _ => (hχE _).mul hω (hρE _))
  have hnorm : z * star z = Fintype.card F := by
    have hJ := jacobiSum_mul_jacobiSum_inv (F' := ℂ) (F := F) (by
      rw [ringChar.eq_zero]
      exact (CharP.ringChar_ne_zero_of_finite F).symm) hχ1 hρ1 hχρ
    rw [hinv, hρinv] at hJ
    have h1 : χ (-b) * (χ ^ 2) (-b) = 1 := by
      rw [← MulChar.mul_apply, ← pow_succ', hχ3, MulChar.one_apply (Ne.isUnit (neg_ne_zero.mpr hb))]
    have h2 : ρ b * ρ b = 1 := by
      rw [← MulChar.mul_apply, ← pow_two, hρ2, MulChar.one_apply (Ne.isUnit hb)]
    rw [hstar, hz]
    linear_combination (ρ b * ρ b * (jacobiSum χ ρ * jacobiSum (χ ^ 2) ρ)) * h1 + (jacobiSum χ ρ * jacobiSum (χ ^ 2) ρ) * h2 + hJ
  obtain ⟨t, s, ht, hts⟩ := hE.norm hω hnorm
  refine ⟨t, s, ?_, hts⟩
  rw [hsum, ht] at hcount
  exact_mod_cast hcount

/-! ## the points of the curve -/

theorem natCard_point (h2 : (2 : F) ≠ 0) (h3 : (3 : F) ≠ 0) (hq : 3 ∣ Fintype.card F - 1) {b : F} (hb : b ≠ 0) :
    Finite (sw 0 b).Point ∧ ∃ t s : ℤ, (Nat.card (sw 0 b).Point : ℤ) = Fintype.card F + 1 + t ∧ t ^ 2 + 3 * s ^ 2 = 4 * Fintype.card F := by
  have hns : ∀ {x y : F}, y ^ 2 = x ^ 3 + b → (sw 0 b).Nonsingular x y := by
    intro x y h
    rw [WeierstrassCurve.Affine.nonsingular_iff]
    refine ⟨(sw_equation _ _ _ _).mpr (by rw [h]; ring), ?_⟩
    by_contra hc
    push Not at hc
    obtain ⟨e1, e2⟩ := hc
    simp only [sw] at e1 e2
    have hy : y = 0 := by
      have : (2 : F) * y = 0 := by linear_combination e2
      exact (mul_eq_zero.mp this).resolve_left h2
    have hx : x = 0 := by
      have : (3 : F) * x ^ 2 = 0 := by linear_combination -e1
      exact pow_eq_zero_iff two_ne_zero |>.mp ((mul_eq_zero.mp this).resolve_left h3)
    apply hb
    rw [hy, hx] at h
    linear_combination -h
  let S := {p : F × F // p.2 ^ 2 = p.1 ^ 3 + b}
  let e : (sw 0 b).Point ≃ Option S :=
    { toFun := fun P => match P with
        | .zero => none
        | .some x y h => some ⟨(x, y), by have := (sw_equation 0 b x y).mp h.1; simpa using this⟩
      invFun := fun o => match o with
        | none => .zero
        | some p => .some p.1.1 p.1.2 (hns p.2)
      left_inv := fun P => by cases P <;> rfl
      right_inv := fun o => by cases o <;> rfl }
  obtain ⟨t, s, h1, h4⟩ := card_solutions (F := F) (fun h => by
    have := CharP.cast_eq_zero F (ringChar F)
    rw [h] at this
    exact h2 (by exact_mod_cast this)) hq hb
  refine ⟨Finite.of_equiv _ e.symm, t, s, ?_, h4⟩
  rw [Nat.card_congr e, Nat.card_eq_fintype_card, Fintype.card_option, Fintype.card_subtype]
  push_cast
  rw [h1]; ring

end

/-! ## representations `t² + 3 s² = 4 n` -/

/-- one factor of a representation by a prime `p` with `4 p = u² + 3 v²` splits off. -/
theorem rep_step {p : ℤ} (hp : Prime p) (hp3 : 2 < p) {u v n t s : ℤ} (hu : u ^ 2 + 3 * v ^ 2 = 4 * p) (h : t ^ 2 + 3 * s ^ 2 = 4 * (p * n)) :
    ∃ t' s', t' ^ 2 + 3 * s' ^ 2 = 4 * n ∧ ((2 * t = t' * u + 3 * s' * v ∧ 2 * s = t' * v - s' * u) ∨
      (2 * t = t' * u - 3 * s' * v ∧ 2 * s = -(t' * v) - s' * u)) := by
  have hprod : p ∣ (t * v - s * u) * (t * v + s * u) := by
    refine ⟨4 * n * v ^ 2 - 4 * s ^ 2, ?_⟩
    linear_combination v ^ 2 * h - s ^ 2 * hu
  have hpar : ∀ a b m : ℤ, a ^ 2 + 3 * b ^ 2 = 4 * m → (a - b) % 2 = 0 := by
    intro a b m hab
    rcases Int.emod_two_eq_zero_or_one a with ha | ha <;> rcases Int.emod_two_eq_zero_or_one b with hb | hb
    · omega
    · exfalso
      obtain ⟨k, rfl⟩ : ∃ k, a = 2 * k := ⟨a / 2, by omega⟩
      obtain ⟨l, rfl⟩ : ∃ l, b = 2 * l + 1 := ⟨b / 2, by omega⟩
      ring_nf at hab
      omega
    · exfalso
      obtain ⟨k, rfl⟩ : ∃ k, a = 2 * k + 1 := ⟨a / 2, by omega⟩
      obtain ⟨l, rfl⟩ : ∃ l, b = 2 * l := ⟨b / 2, by omega⟩
      ring_nf at hab
      omega
    · omega
  have main : ∀ v : ℤ, u ^ 2 + 3 * v ^ 2 = 4 * p → p ∣ t * v - s * u →
      ∃ t' s', t' ^ 2 + 3 * s' ^ 2 = 4 * n ∧ 2 * t = t' * u + 3 * s' * v ∧ 2 * s = t' * v - s' * u := by
    intro v hu hd
    obtain ⟨B, hB⟩ := hd
    have hA2 : (t * u + 3 * s * v) ^ 2 + 3 * (t * v - s * u) ^ 2 = 16 * p ^ 2 * n := by
      linear_combination (u ^ 2 + 3 * v ^ 2) * h + 4 * p * n * hu
    have hdA : p ∣ (t * u + 3 * s * v) ^ 2 := by
      refine ⟨16 * p * n - 3 * p * B ^ 2, ?_⟩
      rw [hB] at hA2
      linear_combination hA2
    obtain ⟨A, hA⟩ := hp.dvd_of_dvd_pow hdA
    have hp0 : p ≠ 0 := hp.ne_zero
    have e1 : A ^ 2 + 3 * B ^ 2 = 4 * (4 * n) := by
      rw [hA, hB] at hA2
      have : p ^ 2 * (A ^ 2 + 3 * B ^ 2) = p ^ 2 * (4 * (4 * n)) := by linear_combination hA2
      exact mul_left_cancel₀ (pow_ne_zero 2 hp0) this
    have h1 := hpar t s _ h
    have h2 := hpar u v _ hu
    -- `B` is even
    have hodd : p % 2 = 1 := by
      rcases Int.emod_two_eq_zero_or_one p with h0 | h0
      · exfalso
        have hd : (2 : ℤ) ∣ p := Int.dvd_of_emod_eq_zero h0
        obtain ⟨c, hc⟩ := hd
        rcases hp.irreducible.isUnit_or_isUnit hc with hx | hx
        · exact absurd (Int.isUnit_iff.mp hx) (by norm_num)
        · rcases Int.isUnit_iff.mp hx with rfl | rfl <;> omega
      · exact h0
    have hBe : B % 2 = 0 := by
      have : (t * v - s * u) % 2 = 0 := by
        obtain ⟨k, hk⟩ : ∃ k, t = s + 2 * k := ⟨(t - s) / 2, by omega⟩
        obtain ⟨l, hl⟩ : ∃ l, u = v + 2 * l := ⟨(u - v) / 2, by omega⟩
        have : t * v - s * u = 2 * (k * v - s * l) := by rw [hk, hl]; ring
        omega
      rw [hB, Int.mul_emod, hodd] at this
      omega
    have hAe : A % 2 = 0 := by
      have := hpar A B _ e1
      omega
    obtain ⟨a, rfl⟩ : ∃ a, A = 2 * a := ⟨A / 2, by omega⟩
    obtain ⟨b, rfl⟩ : ∃ b, B = 2 * b := ⟨B / 2, by omega⟩
    refine ⟨a, b, by linarith [e1], ?_, ?_⟩
    · have : 2 * p * (2 * t) = 2 * p * (a * u + 3 * b * v) := by
        linear_combination -t * hu + u * hA + 3 * v * hB
      exact mul_left_cancel₀ (mul_ne_zero two_ne_zero hp0) this
    · have : 2 * p * (2 * s) = 2 * p * (a * v - b * u) := by
        linear_combination -s * hu + v * hA - u * hB
      exact mul_left_cancel₀ (mul_ne_zero two_ne_zero hp0) this
  rcases hp.dvd_or_dvd hprod with hd | hd
  · obtain ⟨t', s', h1, h2, h3⟩ := main v hu hd
    exact ⟨t', s', h1, .inl ⟨h2, h3⟩⟩
  · obtain ⟨t', s', h1, h2, h3⟩ := main (-v) (by rw [neg_sq]; exact hu) (by
      rw [mul_neg, ← neg_add', dvd_neg]; exact hd)
    exact ⟨t', s', h1, .inr ⟨by rw [h2]; ring, by rw [h3]; ring⟩⟩

theorem rep_one {t s : ℤ} (h : t ^ 2 + 3 * s ^ 2 = 4) :
    (t, s) ∈ [((2 : ℤ), (0 : ℤ)), (-2, 0), (1, 1), (1, -1), (-1, 1), (-1, -1)] := by
  have hs : -1 ≤ s ∧ s ≤ 1 := by constructor <;> nlinarith [sq_nonneg t]
  have ht : -2 ≤ t ∧ t ≤ 2 := by constructor <;> nlinarith [sq_nonneg s]
  obtain ⟨s1, s2⟩ := hs
  obtain ⟨t1, t2⟩ := ht
  interval_cases s <;> interval_cases t <;> simp_all

/-- the candidates for `t` in `t² + 3 s² = 4 p²`. -/
def cands (u v : ℤ) : List ℤ :=
  [((2 : ℤ), (0 : ℤ)), (-2, 0), (1, 1), (1, -1), (-1, 1), (-1, -1)].flatMap fun z =>
    [v, -v].flatMap fun v1 => [v, -v].map fun v2 =>
      ((z.1 * u + 3 * z.2 * v1) * u + 3 * (z.1 * v1 - z.2 * u) * v2) / 4

theorem rep_square {p : ℤ} (hp : Prime p) (hp3 : 2 < p) {u v t s : ℤ} (hu : u ^ 2 + 3 * v ^ 2 = 4 * p) (h : t ^ 2 + 3 * s ^ 2 = 4 * (p * p)) :
    t ∈ cands u v := by
  obtain ⟨t1, s1, h1, e1⟩ := rep_step hp hp3 hu h
  obtain ⟨t2, s2, h2, e2⟩ := rep_step hp hp3 hu (h1.trans (by ring : 4 * p = 4 * (p * 1)))
  have h3 := rep_one (h2.trans (by ring))
  have key : ∃ v1 ∈ [v, -v], ∃ v2 ∈ [v, -v], 4 * t = (t2 * u + 3 * s2 * v1) * u + 3 * (t2 * v1 - s2 * u) * v2 := by
    rcases e1 with ⟨e1, -⟩ | ⟨e1, -⟩ <;> rcases e2 with ⟨e2, e3⟩ | ⟨e2, e3⟩
    · exact ⟨v, by simp, v, by simp, by linear_combination 2 * e1 + u * e2 + 3 * v * e3⟩
    · exact ⟨-v, by simp, v, by simp, by linear_combination 2 * e1 + u * e2 + 3 * v * e3⟩
    · exact ⟨v, by simp, -v, by simp, by linear_combination 2 * e1 + u * e2 - 3 * v * e3⟩
    · exact ⟨-v, by simp, -v, by simp, by linear_combination 2 * e1 + u * e2 - 3 * v * e3⟩
  obtain ⟨v1, hv1, v2, hv2, e⟩ := key
  rw [cands, List.mem_flatMap]
  refine ⟨(t2, s2), h3, List.mem_flatMap.mpr ⟨v1, hv1, List.mem_map.mpr ⟨v2, hv2, ?_⟩⟩⟩
  dsimp only
  rw [← e]
  omega

end Verif.EC
