import Verif.Bls.Mont

/-!
# The modular inverse of bls12_381/bls/fp.go (Kaliski's algorithm)
-/

namespace Verif.Bls.Fe

theorem shr_or (a b : UInt64) : (a >>> 1 ||| b <<< 63).toNat = a.toNat / 2 + 2 ^ 63 * (b.toNat % 2) := by
  have ha := lt64 a
  have hb := lt64 b
  rw [UInt64.toNat_or, UInt64.toNat_shiftLeft, UInt64.toNat_shiftRight]
  simp only [UInt64.reduceToNat, Nat.reduceMod, Nat.shiftRight_eq_div_pow, Nat.shiftLeft_eq]
  have e : b.toNat * 2 ^ 63 % 2 ^ 64 = (b.toNat % 2) * 2 ^ 63 := by omega
  rw [e, Nat.or_comm, ← Nat.shiftLeft_eq, ← Nat.shiftLeft_add_eq_or_of_lt (by omega), Nat.shiftLeft_eq]
  omega

theorem shl_or (a b : UInt64) : (a <<< 1 ||| b >>> 63).toNat = (2 * a.toNat) % 2 ^ 64 + b.toNat / 2 ^ 63 := by
  have ha := lt64 a
  have hb := lt64 b
  rw [UInt64.toNat_or, UInt64.toNat_shiftLeft, UInt64.toNat_shiftRight]
  simp only [UInt64.reduceToNat, Nat.reduceMod, Nat.shiftRight_eq_div_pow, Nat.shiftLeft_eq]
  have e : a.toNat * 2 ^ 1 % 2 ^ 64 = (a.toNat % 2 ^ 63) * 2 ^ 1 := by omega
  rw [e, ← Nat.shiftLeft_eq, ← Nat.shiftLeft_add_eq_or_of_lt (by omega), Nat.shiftLeft_eq]
  omega

theorem div2_val (a : Fe) : (div2 a 0).val = a.val / 2 := by
  have h0 := lt64 a.l0
  have h1 := lt64 a.l1
  have h2 := lt64 a.l2
  have h3 := lt64 a.l3
  have h4 := lt64 a.l4
  have h5 := lt64 a.l5
  simp only [div2, val, shr_or, UInt64.toNat_zero]
  omega

theorem mul2_val (a : Fe) : (mul2 a).1.val + 2 ^ 384 * (mul2 a).2.toNat = 2 * a.val := by
  have h0 := lt64 a.l0
  have h1 := lt64 a.l1
  have h2 := lt64 a.l2
  have h3 := lt64 a.l3
  have h4 := lt64 a.l4
  have h5 := lt64 a.l5
  simp only [mul2, val, shl_or, UInt64.toNat_shiftLeft, UInt64.toNat_shiftRight, UInt64.reduceToNat,
    Nat.reduceMod, Nat.shiftRight_eq_div_pow, Nat.shiftLeft_eq]
  omega

theorem mul2_small {a : Fe} (h : a.val < 2 * Q) : (mul2 a).1.val = 2 * a.val ∧ (mul2 a).2 = 0 := by
  have h1 := mul2_val a
  have hs := Q_small
  have h2 := val_lt (mul2 a).1
  have h3 : (mul2 a).2.toNat = 0 := by omega
  refine ⟨by omega, ?_⟩
  rw [← UInt64.toNat_inj, h3]; rfl

/-- the invariant of phase 1. -/
structure PInv (e : ℕ) (t : Inv) : Prop where
  upos : 0 < t.u.val
  spos : 0 < t.s.val
  lin : t.u.val * t.s.val + t.v.val * t.r.val = Q
  er : (e : Fq) * (t.r.val : Fq) = -((t.u.val : Fq) * 2 ^ t.k)
  es : (e : Fq) * (t.s.val : Fq) = (t.v.val : Fq) * 2 ^ t.k
  cop : Nat.Coprime t.u.val t.v.val
  meas : t.u.val * t.v.val * 2 ^ t.k < 2 ^ 762
  sb : t.s.val ≤ 2 ^ t.k
  rb : t.r.val ≤ 2 ^ t.k
  rq : t.r.val < 2 * Q
  z0 : t.z = 0

theorem PInv.bounds {e : ℕ} {t : Inv} (h : PInv e t) (hv : 0 < t.v.val) :
    t.r.val < Q ∧ t.s.val ≤ Q ∧ t.k < 762 := by
  have h1 := h.lin
  have h2 : 1 * t.s.val ≤ t.u.val * t.s.val := Nat.mul_le_mul_right _ h.upos
  have h3 : 1 * t.r.val ≤ t.v.val * t.r.val := Nat.mul_le_mul_right _ hv
  have h4 := h.spos
  have h5 : 1 ≤ t.u.val * t.v.val := Nat.mul_pos h.upos hv
  have h6 : 1 * 2 ^ t.k ≤ t.u.val * t.v.val * 2 ^ t.k := Nat.mul_le_mul_right _ h5
  have h7 := h.meas
  refine ⟨?_, ?_, ?_⟩
  · generalize t.u.val * t.s.val = a at *
    generalize t.v.val * t.r.val = b at *
    omega
  · generalize t.u.val * t.s.val = a at *
    generalize t.v.val * t.r.val = b at *
    omega
  · rw [one_mul] at h6
    exact (Nat.pow_lt_pow_iff_right (by omega)).mp (h6.trans_lt h7)

theorem invStep_inv {e : ℕ} {t : Inv} (h : PInv e t) (hv : 0 < t.v.val) :
    PInv e (invStep t) ∧ (invStep t).k = t.k + 1 := by
  obtain ⟨hr, hs, -⟩ := h.bounds hv
  have hQ := Q_small
  have hup := h.upos
  have hsp := h.spos
  obtain ⟨m1, m2⟩ := mul2_small (a := t.s) (by omega)
  obtain ⟨n1, n2⟩ := mul2_small (a := t.r) (by omega)
  have hla : (ladd t.r t.s).val = t.r.val + t.s.val := by rw [ladd_val, Nat.mod_eq_of_lt (by omega)]
  have hla' : (ladd t.s t.r).val = t.s.val + t.r.val := by rw [ladd_val, Nat.mod_eq_of_lt (by omega)]
  have pk : 2 ^ (t.k + 1) = 2 * 2 ^ t.k := by rw [pow_succ]; ring
  have pkF : (2 : Fq) ^ (t.k + 1) = 2 * 2 ^ t.k := by rw [pow_succ]; ring
  have hsb := h.sb
  have hrb := h.rb
  have hlin := h.lin
  have her := h.er
  have hes := h.es
  have hcop := h.cop
  have hmeas := h.meas
  unfold invStep
  by_cases hu : isEven t.u = true
  · rw [if_pos hu]
    rw [isEven_iff] at hu
    have hd := div2_val t.u
    obtain ⟨w, hw⟩ : ∃ w, t.u.val = 2 * w := ⟨t.u.val / 2, by omega⟩
    have hdw : (div2 t.u 0).val = w := by omega
    refine ⟨⟨?_, ?_, ?_, ?_, ?_, ?_, ?_, ?_, ?_, ?_, ?_⟩, rfl⟩
    · simp only [hdw]; omega
    · simp only [m1]; omega
    · simp only [hdw, m1]; rw [← hlin, hw]; ring
    · simp only [hdw]; rw [her, hw, pkF]; push_cast; ring
    · simp only [m1]; push_cast; rw [pkF]; linear_combination 2 * hes
    · simp only [hdw]; exact Nat.Coprime.coprime_dvd_left ⟨2, by rw [hw]; ring⟩ hcop
    · simp only [hdw, pk]; rw [hw] at hmeas; calc w * t.v.val * (2 * 2 ^ t.k) = 2 * w * t.v.val * 2 ^ t.k := by ring
        _ < _ := hmeas
    · simp only [m1, pk]; omega
    · simp only [pk]; omega
    · exact h.rq
    · exact h.z0
  rw [if_neg hu]
  rw [isEven_iff] at hu
  by_cases hve : isEven t.v = true
  · rw [if_pos hve]
    rw [isEven_iff] at hve
    have hd := div2_val t.v
    obtain ⟨w, hw⟩ : ∃ w, t.v.val = 2 * w := ⟨t.v.val / 2, by omega⟩
    have hdw : (div2 t.v 0).val = w := by omega
    refine ⟨⟨?_, ?_, ?_, ?_, ?_, ?_, ?_, ?_, ?_, ?_, ?_⟩, rfl⟩
    · exact h.upos
    · exact h.spos
    · simp only [hdw, n1]; rw [← hlin, hw]; ring
    · simp only [n1]; push_cast; rw [pkF]; linear_combination 2 * her
    · simp only [hdw]; rw [hes, hw, pkF]; push_cast; ring
    · simp only [hdw]; exact Nat.Coprime.coprime_dvd_right ⟨2, by rw [hw]; ring⟩ hcop
    · simp only [hdw, pk]; rw [hw] at hmeas; calc t.u.val * w * (2 * 2 ^ t.k) = t.u.val * (2 * w) * 2 ^ t.k := by ring
        _ < _ := hmeas
    · simp only [pk]; omega
    · simp only [n1, pk]; omega
    · simp only [n1]; omega
    · simp only [n2, h.z0]; rfl
  rw [if_neg hve]
  rw [isEven_iff] at hve
  have hcmp := cmp_eq t.u t.v
  by_cases hlt : t.v.val < t.u.val
  · rw [if_pos (by rw [hcmp, if_pos hlt])]
    have hd := div2_val (lsub t.u t.v)
    rw [lsub_val hlt.le] at hd
    obtain ⟨w, hw⟩ : ∃ w, t.u.val = 2 * w + t.v.val := ⟨(t.u.val - t.v.val) / 2, by omega⟩
    have hdw : (div2 (lsub t.u t.v) 0).val = w := by omega
    refine ⟨⟨?_, ?_, ?_, ?_, ?_, ?_, ?_, ?_, ?_, ?_, ?_⟩, rfl⟩
    · simp only [hdw]; omega
    · simp only [m1]; omega
    · simp only [hdw, m1, hla]; rw [← hlin, hw]; ring
    · simp only [hdw, hla]; push_cast; rw [pkF, mul_add, her, hes, hw]; push_cast; ring
    · simp only [m1]; push_cast; rw [pkF]; linear_combination 2 * hes
    · simp only [hdw]
      have h2 : Nat.Coprime (2 * w) t.v.val := by
        rw [hw] at hcop
        exact (Nat.coprime_add_self_left).mp hcop
      exact Nat.Coprime.coprime_dvd_left ⟨2, by ring⟩ h2
    · simp only [hdw, pk]
      refine lt_of_le_of_lt ?_ hmeas
      calc w * t.v.val * (2 * 2 ^ t.k) = 2 * w * t.v.val * 2 ^ t.k := by ring
        _ ≤ t.u.val * t.v.val * 2 ^ t.k := Nat.mul_le_mul_right _ (Nat.mul_le_mul_right _ (by omega))
    · simp only [m1, pk]; omega
    · simp only [hla, pk]; omega
    · simp only [hla]; omega
    · exact h.z0
  · rw [if_neg (by rw [hcmp, if_neg (by omega)]; split <;> decide)]
    have hd := div2_val (lsub t.v t.u)
    rw [lsub_val (by omega)] at hd
    obtain ⟨w, hw⟩ : ∃ w, t.v.val = 2 * w + t.u.val := ⟨(t.v.val - t.u.val) / 2, by omega⟩
    have hdw : (div2 (lsub t.v t.u) 0).val = w := by omega
    refine ⟨⟨?_, ?_, ?_, ?_, ?_, ?_, ?_, ?_, ?_, ?_, ?_⟩, rfl⟩
    · exact h.upos
    · simp only [hla']; omega
    · simp only [hdw, n1, hla']; rw [← hlin, hw]; ring
    · simp only [n1]; push_cast; rw [pkF]; linear_combination 2 * her
    · simp only [hdw, hla']; push_cast; rw [pkF, mul_add, her, hes, hw]; push_cast; ring
    · simp only [hdw]
      have h2 : Nat.Coprime t.u.val (2 * w) := by
        rw [hw] at hcop
        exact (Nat.coprime_add_self_right).mp hcop
      exact Nat.Coprime.coprime_dvd_right ⟨2, by ring⟩ h2
    · simp only [hdw, pk]
      refine lt_of_le_of_lt ?_ hmeas
      calc t.u.val * w * (2 * 2 ^ t.k) = t.u.val * (2 * w) * 2 ^ t.k := by ring
        _ ≤ t.u.val * t.v.val * 2 ^ t.k := Nat.mul_le_mul_right _ (Nat.mul_le_mul_left _ (by omega))
    · simp only [hla', pk]; omega
    · simp only [n1, pk]; omega
    · simp only [n1]; omega
    · simp only [n2, h.z0]; rfl

theorem invLoop_inv {e : ℕ} (n : ℕ) : ∀ t : Inv, PInv e t → t.k + n = 768 → t.k ≤ 762 →
    ∃ t', invLoop n t = some t' ∧ PInv e t' ∧ t'.v.val = 0 ∧ t'.k ≤ 762 := by
  induction n with
  | zero => intro t h hk hk'; omega
  | succ n ih =>
    intro t h hk hk'
    unfold invLoop
    by_cases hz : isZero t.v = true
    · rw [if_pos hz]
      exact ⟨t, rfl, h, (isZero_iff _).mp hz, hk'⟩
    · rw [if_neg hz]
      rw [isZero_iff] at hz
      obtain ⟨h1, h2⟩ := invStep_inv h (by omega)
      have hk7 := (h.bounds (by omega)).2.2
      exact ih _ h1 (by omega) (by omega)

theorem doubleN_spec (n : ℕ) : ∀ u : Fe, Red u → Red (doubleN n u) ∧ den (doubleN n u) = 2 ^ n * den u := by
  induction n with
  | zero => intro u hu; exact ⟨hu, by simp [doubleN]⟩
  | succ n ih =>
    intro u hu
    obtain ⟨h1, h2⟩ := den_double hu
    obtain ⟨h3, h4⟩ := ih _ h1
    refine ⟨h3, h4.trans ?_⟩
    rw [h2, pow_succ]; ring

theorem two_ne : (2 : Fq) ≠ 0 := by
  have := natCast_ne_zero_of (n := 2) (by decide +kernel)
  exact_mod_cast this

/-- `inverse` computes the inverse in the field (and 0 for 0). -/
theorem inverse_spec {a : Fe} (ha : Red a) : Red (inverse a) ∧ den (inverse a) = (den a)⁻¹ := by
  unfold inverse
  by_cases h0 : isZero a = true
  · rw [if_pos h0]
    refine ⟨red_zero, ?_⟩
    rw [(isZero_den ha).mp h0, inv_zero, den_zero]
  rw [if_neg h0]
  rw [isZero_iff] at h0
  have hda : den a ≠ 0 := fun h => h0 ((den_eq_zero_iff ha).mp h)
  have ha' : a.val < Q := ha
  have hone : (ofWord 1).val = 1 := rfl
  have hzero : zero.val = 0 := rfl
  have hpow : Q < 2 ^ 381 := by decide +kernel
  have init : PInv a.val ⟨modulus, a, ofWord 1, zero, 0, 0⟩ := by
    refine ⟨?_, ?_, ?_, ?_, ?_, ?_, ?_, ?_, ?_, ?_, rfl⟩
    · rw [modulus_val]; exact Q_pos
    · rw [hone]; omega
    · simp only [modulus_val, hone, hzero]; ring
    · simp only [modulus_val, hzero, ZMod.natCast_self]; simp
    · simp only [hone]; simp
    · simp only [modulus_val]
      exact (Nat.Prime.coprime_iff_not_dvd prime_Q).mpr (Nat.not_dvd_of_pos_of_lt (by omega) ha')
    · simp only [modulus_val, pow_zero, mul_one]
      calc Q * a.val < 2 ^ 381 * 2 ^ 381 := Nat.mul_lt_mul'' hpow (by omega)
        _ = 2 ^ 762 := by rw [← pow_add]
    · simp only [hone, pow_zero]; omega
    · simp only [hzero]; omega
    · simp only [hzero]; have := Q_pos; omega
  obtain ⟨t, e1, h, hv, hk⟩ := invLoop_inv 768 _ init rfl (Nat.zero_le _)
  rw [e1]
  simp only
  have hu1 : t.u.val = 1 := by
    have := h.cop
    rw [hv] at this
    simpa using this
  have hsQ : t.s.val = Q := by
    have := h.lin
    rw [hv, hu1] at this
    omega
  have hk381 : 381 ≤ t.k := by
    by_contra hc
    have h1 := h.sb
    have h2 : 2 ^ t.k ≤ 2 ^ 380 := Nat.pow_le_pow_right (by omega) (by omega)
    have h3 : 2 ^ 380 < Q := by decide +kernel
    omega
  rw [if_neg (by omega)]
  -- the reduced `r`
  obtain ⟨r', hr', hrq, hrc⟩ : ∃ r' : Fe, (if cmp t.r modulus ≠ -1 ∨ t.z > 0 then lsub t.r modulus else t.r) = r' ∧
      r'.val < Q ∧ (r'.val : Fq) = (t.r.val : Fq) := by
    refine ⟨_, rfl, ?_⟩
    have hcmp := cmp_eq t.r modulus
    rw [modulus_val] at hcmp
    have hz : ¬ t.z > 0 := by rw [h.z0]; decide
    have hrq := h.rq
    by_cases hlt : t.r.val < Q
    · rw [if_neg (by
        rw [hcmp, if_neg (by omega), if_pos hlt]; simpa using hz)]
      exact ⟨hlt, rfl⟩
    · rw [if_pos (Or.inl (by rw [hcmp]; split_ifs <;> simp))]
      have e := lsub_val (x := t.r) (y := modulus) (by rw [modulus_val]; omega)
      rw [modulus_val] at e
      refine ⟨by omega, ?_⟩
      rw [e, Nat.cast_sub (by omega), ZMod.natCast_self, sub_zero]
  rw [hr']
  have her := h.er
  rw [hu1, ← hrc, Nat.cast_one, one_mul] at her
  have hr0 : r'.val ≠ 0 := by
    intro hc
    rw [hc, Nat.cast_zero, mul_zero] at her
    exact pow_ne_zero t.k two_ne (neg_eq_zero.mp her.symm)
  have eu : (lsub modulus r').val = Q - r'.val := by
    rw [lsub_val (by rw [modulus_val]; omega), modulus_val]
  have hru : Red (lsub modulus r') := by unfold Red; omega
  obtain ⟨h5, h6⟩ := doubleN_spec (384 * 2 - t.k) _ hru
  refine ⟨h5, h6.trans ?_⟩
  apply eq_inv_of_mul_eq_one_right
  have eU : ((lsub modulus r').val : Fq) = -(r'.val : Fq) := by
    rw [eu, Nat.cast_sub (by omega), ZMod.natCast_self, zero_sub]
  have eV := val_of_den (lsub modulus r')
  rw [eU] at eV
  have eA := val_of_den a
  have hR2 : (2 : Fq) ^ (384 * 2 - t.k) * 2 ^ t.k = ((2 ^ 384 : ℕ) : Fq) * ((2 ^ 384 : ℕ) : Fq) := by
    rw [← pow_add, Nat.sub_add_cancel (by omega), Nat.cast_pow, ← pow_add]; rfl
  have hRR := mul_ne_zero R_ne R_ne
  apply mul_right_cancel₀ hRR
  have h7 : (a.val : Fq) * -(r'.val : Fq) = 2 ^ t.k := by rw [mul_neg, her, neg_neg]
  rw [one_mul]
  calc den a * (2 ^ (384 * 2 - t.k) * den (lsub modulus r')) * (((2 ^ 384 : ℕ) : Fq) * ((2 ^ 384 : ℕ) : Fq))
      = 2 ^ (384 * 2 - t.k) * ((den a * ((2 ^ 384 : ℕ) : Fq)) * (den (lsub modulus r') * ((2 ^ 384 : ℕ) : Fq))) := by ring
    _ = 2 ^ (384 * 2 - t.k) * 2 ^ t.k := by rw [← eA, ← eV, h7]
    _ = _ := hR2

end Verif.Bls.Fe
