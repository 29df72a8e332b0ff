import Verif.Bls.MulLemmas
import Mathlib.Data.ZMod.Basic
import Mathlib.Algebra.Field.ZMod
import Mathlib.FieldTheory.Finite.Basic

/-!
# The words of bls12_381/bls as elements of the prime field
-/

namespace Verif.Bls

/-- the base field. -/
abbrev Fq := ZMod Q

namespace Fe

/-- the field element whose Montgomery form is `a`. -/
def den (a : Fe) : Fq := (a.val : Fq) * ((2 ^ 384 : ℕ) : Fq)⁻¹

/-- canonical words. -/
def Red (a : Fe) : Prop := a.val < Q

/-- words of a sum of two canonical ones (`ladd`, `ldouble`). -/
def Lz (a : Fe) : Prop := a.val < 2 * Q

instance (a : Fe) : Decidable (Red a) := inferInstanceAs (Decidable (_ < _))

theorem Q_pos : 0 < Q := prime_Q.pos

theorem Q_small : 9 * Q ≤ 2 ^ 384 := by decide +kernel

theorem natCast_ne_zero_of {n : ℕ} (h : n % Q ≠ 0) : (n : Fq) ≠ 0 := by
  intro h0
  rw [ZMod.natCast_eq_zero_iff] at h0
  exact h (Nat.mod_eq_zero_of_dvd h0)

theorem R_ne : ((2 ^ 384 : ℕ) : Fq) ≠ 0 := natCast_ne_zero_of (by decide +kernel)

theorem Red.lz {a : Fe} (h : Red a) : Lz a := by unfold Lz; unfold Red at h; omega

theorem den_inj {a b : Fe} (ha : Red a) (hb : Red b) (h : den a = den b) : a = b := by
  apply val_inj
  unfold den at h
  have h' := mul_right_cancel₀ (inv_ne_zero R_ne) h
  rw [ZMod.natCast_eq_natCast_iff'] at h'
  rwa [Nat.mod_eq_of_lt ha, Nat.mod_eq_of_lt hb] at h'

theorem val_of_den (a : Fe) : (a.val : Fq) = den a * ((2 ^ 384 : ℕ) : Fq) := by
  unfold den; rw [inv_mul_cancel_right₀ R_ne]

theorem den_of_val {a : Fe} {z : Fq} (h : (a.val : Fq) = z * ((2 ^ 384 : ℕ) : Fq)) : den a = z := by
  unfold den; rw [h, mul_inv_cancel_right₀ R_ne]

theorem den_mul {a b : Fe} (ha : Lz a) (hb : Lz b) : Red (mul a b) ∧ den (mul a b) = den a * den b := by
  have hs := Q_small
  obtain ⟨h1, h2⟩ := mul_spec a b (by unfold Lz at hb; omega) (by
    have : a.val * b.val ≤ (2 * Q) * (2 * Q) := Nat.mul_le_mul (Nat.le_of_lt ha) (Nat.le_of_lt hb)
    refine this.trans ?_
    rw [← Nat.mul_assoc]
    exact Nat.mul_le_mul_right _ (by omega))
  refine ⟨h1, den_of_val ?_⟩
  have h3 := (ZMod.natCast_eq_natCast_iff _ _ _).mpr h2
  rw [Nat.cast_mul, Nat.cast_mul] at h3
  apply mul_left_cancel₀ R_ne
  rw [h3, val_of_den, val_of_den]; ring

theorem den_ladd {a b : Fe} (ha : Red a) (hb : Red b) : Lz (ladd a b) ∧ den (ladd a b) = den a + den b := by
  have hs := Q_small
  unfold Red at ha hb
  have h : (ladd a b).val = a.val + b.val := by rw [ladd_val, Nat.mod_eq_of_lt (by omega)]
  refine ⟨by unfold Lz; omega, ?_⟩
  unfold den; rw [h, Nat.cast_add, add_mul]

theorem den_ldouble {a : Fe} (ha : Red a) : Lz (ldouble a) ∧ den (ldouble a) = den a + den a :=
  den_ladd ha ha

theorem den_reduce {a : Fe} (ha : Lz a) : Red (reduce a) ∧ den (reduce a) = den a := by
  have h := reduce_val a ha
  refine ⟨by unfold Red; rw [h]; exact Nat.mod_lt _ Q_pos, ?_⟩
  unfold den
  rw [h, ZMod.natCast_mod]

theorem den_add {a b : Fe} (ha : Red a) (hb : Red b) : Red (add a b) ∧ den (add a b) = den a + den b := by
  obtain ⟨h1, h2⟩ := den_ladd ha hb
  obtain ⟨h3, h4⟩ := den_reduce h1
  exact ⟨h3, h4.trans h2⟩

theorem den_double {a : Fe} (ha : Red a) : Red (double a) ∧ den (double a) = den a + den a :=
  den_add ha ha

theorem den_sub {a b : Fe} (ha : Red a) (hb : Red b) : Red (sub a b) ∧ den (sub a b) = den a - den b := by
  obtain ⟨h1, h2⟩ := subB_val a b
  have hs := Q_small
  have hz := val_lt (subB a b).1
  unfold Red at ha hb
  unfold sub
  simp only
  have key : ∀ z : Fe, z.val + b.val = a.val ∨ z.val + b.val = a.val + Q → den z = den a - den b := by
    intro z hz
    apply den_of_val
    have e : ((z.val + b.val : ℕ) : Fq) = (a.val : Fq) := by
      rcases hz with h | h
      · rw [h]
      · rw [h, Nat.cast_add, ZMod.natCast_self, add_zero]
    rw [Nat.cast_add] at e
    rw [sub_mul, ← val_of_den, ← val_of_den, ← e]; ring
  by_cases h0 : (subB a b).2 = 0
  · rw [if_neg (by simpa using h0)]
    rw [h0] at h1
    simp only [UInt64.toNat_zero, Nat.mul_zero, Nat.add_zero] at h1
    exact ⟨by unfold Red; omega, key _ (.inl h1)⟩
  · rw [if_pos h0]
    have h01 : (subB a b).2.toNat = 1 := by
      rw [← UInt64.toNat_inj, UInt64.toNat_zero] at h0; omega
    rw [h01] at h1
    have e : (ladd (subB a b).1 modulus).val + b.val = a.val + Q := by
      rw [ladd_val, modulus_val]
      omega
    exact ⟨by unfold Red; omega, key _ (.inr e)⟩

theorem red_zero : Red zero := by decide +kernel

theorem den_zero : den zero = 0 := by
  unfold den; rw [show zero.val = 0 from rfl]; simp

theorem den_eq_zero_iff {a : Fe} (ha : Red a) : den a = 0 ↔ a.val = 0 := by
  constructor
  · intro h
    have : a = zero := den_inj ha red_zero (by rw [h, den_zero])
    rw [this]; rfl
  · intro h
    unfold den; rw [h]; simp

theorem isZero_den {a : Fe} (ha : Red a) : isZero a = true ↔ den a = 0 := by
  rw [isZero_iff, den_eq_zero_iff ha]

theorem equal_den {a b : Fe} (ha : Red a) (hb : Red b) : equal a b = true ↔ den a = den b := by
  rw [equal_iff]; exact ⟨fun h => by rw [h], den_inj ha hb⟩

theorem den_neg {a : Fe} (ha : Red a) : Red (neg a) ∧ den (neg a) = -den a := by
  unfold neg
  by_cases h : isZero a = true
  · rw [if_pos h]
    exact ⟨red_zero, by rw [den_zero, (isZero_den ha).mp h, neg_zero]⟩
  · rw [if_neg h]
    rw [isZero_iff] at h
    unfold Red at ha
    have e : (lsub modulus a).val = Q - a.val := by rw [lsub_val (by rw [modulus_val]; omega), modulus_val]
    refine ⟨by unfold Red; omega, den_of_val ?_⟩
    rw [e, Nat.cast_sub (by omega), ZMod.natCast_self, neg_mul, ← val_of_den]; ring

/-- the value of the negated words. -/
theorem neg_val {a : Fe} (ha : Red a) : (neg a).val = if a.val = 0 then 0 else Q - a.val := by
  unfold neg
  by_cases h : isZero a = true
  · rw [if_pos h, if_pos ((isZero_iff a).mp h)]; rfl
  · rw [if_neg h]
    rw [isZero_iff] at h
    unfold Red at ha
    rw [if_neg h, lsub_val (by rw [modulus_val]; omega), modulus_val]

theorem red_one : Red one := by decide +kernel

theorem den_one : den one = 1 := by
  apply den_of_val
  rw [one_mul, ZMod.natCast_eq_natCast_iff']
  decide +kernel

theorem den_toMont {a : Fe} (ha : Red a) : Red (toMont a) ∧ den (toMont a) = (a.val : Fq) := by
  have hr : Red r2 := by decide +kernel
  obtain ⟨h1, h2⟩ := den_mul ha.lz hr.lz
  refine ⟨h1, h2.trans ?_⟩
  have : den r2 = ((2 ^ 384 : ℕ) : Fq) := by
    apply den_of_val
    rw [← Nat.cast_mul, ZMod.natCast_eq_natCast_iff']
    decide +kernel
  rw [this, ← val_of_den]

theorem fromMont_val {a : Fe} (ha : Red a) : (fromMont a).val = (den a).val := by
  have hr : Red (ofWord 1) := by decide +kernel
  obtain ⟨h1, h2⟩ := den_mul ha.lz hr.lz
  have e : ((fromMont a).val : Fq) = den a := by
    rw [val_of_den]
    unfold fromMont
    rw [h2]
    have : den (ofWord 1) = ((2 ^ 384 : ℕ) : Fq)⁻¹ := by
      unfold den; rw [show (ofWord 1).val = 1 from rfl]; simp
    rw [this, inv_mul_cancel_right₀ R_ne]
  rw [← e, ZMod.val_natCast]; exact (Nat.mod_eq_of_lt h1).symm

theorem valid_iff (a : Fe) : valid a = true ↔ Red a := by
  unfold valid Red
  rw [cmp_eq, modulus_val, beq_iff_eq]
  split_ifs with h1 h2
  · simp; omega
  · simp [h2]
  · simp; omega

theorem den_square {a : Fe} (ha : Red a) :
    Red (square .amd64 a) ∧ den (square .amd64 a) = den a * den a := den_mul ha.lz ha.lz

theorem expLoop_spec {a : Fe} (ha : Red a) (e i : ℕ) : ∀ z : Fe, Red z →
    Red (expLoop a e i z) ∧
      den (expLoop a e i z) = den z ^ 2 ^ (i + 1) * den a ^ (e % 2 ^ (i + 1)) := by
  induction i with
  | zero =>
    intro z hz
    obtain ⟨h1, h2⟩ := den_mul hz.lz hz.lz
    unfold expLoop
    simp only
    rw [Nat.testBit_zero]
    rcases Nat.mod_two_eq_zero_or_one e with h | h
    · rw [if_neg (by simp [h])]
      exact ⟨h1, by rw [h2, pow_one, h, pow_zero]; ring⟩
    · rw [if_pos (by simp [h])]
      obtain ⟨h3, h4⟩ := den_mul h1.lz ha.lz
      exact ⟨h3, by rw [h4, h2, pow_one, h]; ring⟩
  | succ i ih =>
    intro z hz
    obtain ⟨h1, h2⟩ := den_mul hz.lz hz.lz
    unfold expLoop
    simp only
    have hmod : e % 2 ^ (i + 1 + 1) = 2 ^ (i + 1) * (if e.testBit (i + 1) then 1 else 0) + e % 2 ^ (i + 1) := by
      rw [Nat.mod_pow_succ, Nat.add_comm, Nat.testBit_eq_decide_div_mod_eq]
      congr 2
      rcases Nat.mod_two_eq_zero_or_one (e / 2 ^ (i + 1)) with h | h <;> simp [h]
    split
    · rename_i hb
      obtain ⟨h3, h4⟩ := den_mul h1.lz ha.lz
      obtain ⟨h5, h6⟩ := ih _ h3
      refine ⟨h5, ?_⟩
      rw [h6, h4, h2, hmod, if_pos hb, mul_one, pow_add, pow_succ 2 (i + 1), pow_mul]
      ring
    · rename_i hb
      obtain ⟨h5, h6⟩ := ih _ h1
      refine ⟨h5, ?_⟩
      rw [h6, h2, hmod, if_neg hb, mul_zero, zero_add, pow_succ 2 (i + 1), pow_mul]
      ring

theorem exp_spec {a : Fe} (ha : Red a) (e : ℕ) : Red (exp a e) ∧ den (exp a e) = den a ^ e := by
  obtain ⟨h1, h2⟩ := expLoop_spec ha e (bitLen e) one red_one
  refine ⟨h1, h2.trans ?_⟩
  rw [den_one, one_pow, one_mul, Nat.mod_eq_of_lt]
  unfold bitLen
  split
  · rename_i h; subst h; simp
  · have := Nat.lt_log2_self (n := e)
    exact this.trans_le (Nat.pow_le_pow_right (by omega) (by omega))

theorem root_pow_aux (y : Fq) (e : ℕ) (hexp : e + e = (Q - 1) / 2 + 1) (hne : e ≠ 0) :
    (y * y) ^ e * (y * y) ^ e = y * y := by
  by_cases h0 : y = 0
  · subst h0
    rw [mul_zero, zero_pow hne, mul_zero]
  · have hf := ZMod.pow_card_sub_one_eq_one h0
    have hQ : 2 * ((Q - 1) / 2) = Q - 1 := by decide +kernel
    generalize Q - 1 = q at *
    rw [← pow_add, hexp, pow_succ, ← pow_two, ← pow_mul, hQ, hf, one_mul]

theorem root_pow (y : Fq) : (y * y) ^ pPlus1Over4 * (y * y) ^ pPlus1Over4 = y * y :=
  root_pow_aux y pPlus1Over4 (by decide +kernel) (by decide +kernel)

/-- `sqrt` finds a root exactly when there is one. -/
theorem sqrt_spec {a : Fe} (ha : Red a) :
    Red (sqrt .amd64 a).1 ∧
      ((sqrt .amd64 a).2 = true ↔ ∃ y : Fq, y * y = den a) ∧
      ((sqrt .amd64 a).2 = true → den (sqrt .amd64 a).1 * den (sqrt .amd64 a).1 = den a) := by
  obtain ⟨h1, h2⟩ := exp_spec ha pPlus1Over4
  obtain ⟨h3, h4⟩ := den_square h1
  have hs1 : (sqrt .amd64 a).1 = exp a pPlus1Over4 := by simp only [sqrt]
  have hs2 : (sqrt .amd64 a).2 = equal a (square .amd64 (exp a pPlus1Over4)) := by simp only [sqrt]
  rw [hs1, hs2]
  have key : equal a (square .amd64 (exp a pPlus1Over4)) = true ↔ den (exp a pPlus1Over4) * den (exp a pPlus1Over4) = den a := by
    rw [equal_den ha h3, h4, eq_comm]
  refine ⟨h1, ?_, key.mp⟩
  constructor
  · intro h
    exact ⟨_, key.mp h⟩
  · rintro ⟨y, hy⟩
    rw [key]
    rw [h2, ← hy]
    exact root_pow y

theorem word8_aux (b : Bytes) : ∀ acc : UInt64, (acc.toNat + 1) * 256 ^ b.length ≤ 2 ^ 64 →
    (b.foldl (fun (acc : UInt64) (x : UInt8) => acc <<< 8 ||| x.toUInt64) acc).toNat = acc.toNat * 256 ^ b.length + beNat b := by
  induction b with
  | nil => intro acc _; simp
  | cons x xs ih =>
    intro acc h
    rw [List.foldl_cons]
    have hx : x.toNat < 256 := x.toNat_lt
    have hpos : 0 < 256 ^ xs.length := by positivity
    rw [List.length_cons, pow_succ] at h
    have hacc : acc.toNat + 1 ≤ 2 ^ 56 := by
      have : (acc.toNat + 1) * (1 * 256) ≤ (acc.toNat + 1) * (256 ^ xs.length * 256) :=
        Nat.mul_le_mul_left _ (Nat.mul_le_mul_right _ hpos)
      omega
    have e : (acc <<< 8 ||| x.toUInt64).toNat = acc.toNat * 256 + x.toNat := by
      rw [UInt64.toNat_or, UInt64.toNat_shiftLeft]
      simp only [UInt64.reduceToNat, Nat.reduceMod, UInt8.toNat_toUInt64, Nat.shiftLeft_eq]
      rw [Nat.mod_eq_of_lt (by omega), ← Nat.shiftLeft_eq, ← Nat.shiftLeft_add_eq_or_of_lt (by omega), Nat.shiftLeft_eq]
    rw [ih _ (by
      rw [e]
      calc (acc.toNat * 256 + x.toNat + 1) * 256 ^ xs.length
          ≤ ((acc.toNat + 1) * 256) * 256 ^ xs.length := Nat.mul_le_mul_right _ (by omega)
        _ = (acc.toNat + 1) * (256 ^ xs.length * 256) := by ring
        _ ≤ 2 ^ 64 := h), e, beNat_cons, List.length_cons, pow_succ]
    ring

theorem word8_toNat (b : Bytes) (h : b.length ≤ 8) : (word8 b).toNat = beNat b := by
  have := word8_aux b 0 (by
    simp only [UInt64.toNat_zero, zero_add, one_mul]
    calc 256 ^ b.length ≤ 256 ^ 8 := Nat.pow_le_pow_right (by omega) h
      _ = 2 ^ 64 := by norm_num)
  rw [word8, this]; simp

theorem ofBytes_val {b : Bytes} (h : b.length = 48) : (ofBytes b).val = beNat b := by
  unfold ofBytes
  simp only [h, Nat.sub_self, List.replicate_zero, List.nil_append, List.take_of_length_le h.le]
  simp only [val]
  rw [word8_toNat _ (by simp), word8_toNat _ (by simp), word8_toNat _ (by simp),
    word8_toNat _ (by simp), word8_toNat _ (by simp), word8_toNat _ (by simp)]
  have e : b = b.take 8 ++ ((b.drop 8).take 8 ++ ((b.drop 16).take 8 ++ ((b.drop 24).take 8 ++
      ((b.drop 32).take 8 ++ (b.drop 40).take 8)))) := by
    have h5 : (b.drop 40).take 8 = b.drop 40 := List.take_of_length_le (by simp [h])
    rw [h5]
    have s : ∀ n, (b.drop n).take 8 ++ b.drop (n + 8) = b.drop n := by
      intro n
      rw [← List.drop_drop, List.take_append_drop]
    rw [s 32, s 24, s 16, s 8, List.take_append_drop]
  conv_rhs => rw [e]
  simp only [beNat_append, List.length_append, List.length_take, List.length_drop, h]
  norm_num
  omega

theorem bytes8_length (w : UInt64) : (bytes8 w).length = 8 := rfl

theorem bytes8_beNat (w : UInt64) : beNat (bytes8 w) = w.toNat := by
  have hw := lt64 w
  simp only [bytes8, beNat_cons, beNat_nil, List.length_cons, List.length_nil, UInt64.toNat_toUInt8,
    UInt64.toNat_shiftRight, UInt64.reduceToNat, Nat.reduceMod, Nat.shiftRight_eq_div_pow]
  omega

theorem bytes_length (a : Fe) : (bytes a).length = 48 := rfl

theorem bytes_beNat (a : Fe) : beNat (bytes a) = a.val := by
  unfold bytes
  simp only [beNat_append, bytes8_beNat, bytes8_length]
  unfold val
  omega

/-- the 48 big-endian bytes of a number. -/
def be48 (n : ℕ) : Bytes := padLeft 48 (natBytes n)

theorem be48_length {n : ℕ} (h : n < 256 ^ 48) : (be48 n).length = 48 :=
  padLeft_length (natBytes_length_le h)

theorem beNat_be48 (n : ℕ) : beNat (be48 n) = n := by
  rw [be48, beNat_padLeft, beNat_natBytes]

theorem Q_lt_256 : Q < 256 ^ 48 := by decide +kernel

theorem toBytes_eq {a : Fe} (ha : Red a) : toBytes a = be48 (den a).val := by
  apply beNat_inj_of_length
  · rw [be48_length ((ZMod.val_lt _).trans Q_lt_256)]; rfl
  · rw [toBytes, bytes_beNat, fromMont_val ha, beNat_be48]

theorem fromBytes_spec (b : Bytes) :
    (b.length = 48 ∧ beNat b < Q → ∃ a, fromBytes b = some a ∧ Red a ∧ den a = (beNat b : Fq)) ∧
      (¬ (b.length = 48 ∧ beNat b < Q) → fromBytes b = none) := by
  unfold fromBytes
  by_cases hl : b.length = 48
  · rw [if_neg (by simpa using hl)]
    have hv := ofBytes_val hl
    by_cases hq : beNat b < Q
    · have hr : Red (ofBytes b) := by unfold Red; rwa [hv]
      rw [(valid_iff _).mpr hr]
      obtain ⟨h1, h2⟩ := den_toMont hr
      exact ⟨fun _ => ⟨_, rfl, h1, by rw [h2, hv]⟩, fun h => absurd ⟨hl, hq⟩ h⟩
    · have : valid (ofBytes b) = false := by
        rw [Bool.eq_false_iff, ne_eq, valid_iff]; unfold Red; rwa [hv]
      rw [this]
      exact ⟨fun h => absurd h.2 hq, fun _ => rfl⟩
  · rw [if_pos hl]
    exact ⟨fun h => absurd h.1 hl, fun _ => rfl⟩

/-- `signBE` is true for the smaller of the two roots. -/
theorem signBE_spec {a : Fe} (ha : Red a) : signBE a = true ↔ (den a).val ≤ (-den a).val := by
  have hr1 : Red (fromMont a) := (den_mul ha.lz (show Red (ofWord 1) by decide +kernel).lz).1
  have hv := fromMont_val ha
  unfold signBE
  simp only [decide_eq_true_eq]
  rw [cmp_eq, neg_val hr1, hv, ZMod.neg_val]
  have hz : (den a).val = 0 ↔ den a = 0 := ZMod.val_eq_zero _
  by_cases h0 : den a = 0
  · simp [h0]
  · rw [if_neg (fun h => h0 (hz.mp h)), if_neg h0]
    split_ifs <;> simp <;> omega

end Fe

end Verif.Bls
