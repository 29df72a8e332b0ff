import Verif.Pasta.FieldLemmas
import Verif.Pasta.Curve

/-!
# The Montgomery representation as field elements
-/

namespace Verif.Pasta

/-- the field element whose Montgomery form is `a`. -/
def den (p : ℕ) (a : Limbs) : ZMod p := (a.val : ZMod p) * ((2 ^ 256 : ℕ) : ZMod p)⁻¹

/-- canonical limbs. -/
def Red (p : ℕ) (a : Limbs) : Prop := a.val < p

instance (p : ℕ) (a : Limbs) : Decidable (Red p a) := inferInstanceAs (Decidable (_ < _))

/-- the constants `M` are those of the prime `p`. -/
structure Mont (M : Md) (p : ℕ) : Prop where
  ok : M.Ok
  m : M.m = p
  two : ((2 ^ 256 : ℕ) : ZMod p) ≠ 0

theorem FpM : Mont Fp c.p where
  ok := Fp_ok
  m := by decide +kernel
  two := Secp256r1.natCast_ne_zero_of _ (by decide +kernel)

theorem FqM : Mont Fq c.n where
  ok := Fq_ok
  m := by decide +kernel
  two := Secp256r1.natCast_ne_zero_of _ (by decide +kernel)

variable {M : Md} {p : ℕ} [hp : Fact p.Prime]

theorem Red.lt {a : Limbs} (h : Red p a) : a.val < p := h

theorem den_inj (H : Mont M p) {a b : Limbs} (ha : Red p a) (hb : Red p b) (h : den p a = den p b) : a = b := by
  apply Limbs.ext_val
  unfold den at h
  have h' := mul_right_cancel₀ (inv_ne_zero H.two) h
  rw [ZMod.natCast_eq_natCast_iff'] at h'
  rwa [Nat.mod_eq_of_lt ha, Nat.mod_eq_of_lt hb] at h'

theorem val_of_den (H : Mont M p) (a : Limbs) : (a.val : ZMod p) = den p a * ((2 ^ 256 : ℕ) : ZMod p) := by
  unfold den; rw [inv_mul_cancel_right₀ H.two]

theorem den_mul (H : Mont M p) (a b : Limbs) (h : Red p a ∨ Red p b) :
    Red p (mul M a b) ∧ den p (mul M a b) = den p a * den p b := by
  have hab : a.val * b.val < 2 ^ 256 * M.m := by
    rw [H.m]
    have ha := a.val_lt
    have hb := b.val_lt
    have hpos : 0 < p := hp.out.pos
    rcases h with h | h
    · rw [Nat.mul_comm]
      exact Nat.mul_lt_mul_of_lt_of_le hb h.lt.le hpos
    · exact Nat.mul_lt_mul_of_lt_of_le ha h.lt.le hpos
  obtain ⟨h1, h2⟩ := mul_spec H.ok a b hab
  rw [H.m] at h1 h2
  refine ⟨h1, ?_⟩
  have h3 := (ZMod.natCast_eq_natCast_iff _ _ _).mpr h2
  rw [Nat.cast_mul, Nat.cast_mul] at h3
  unfold den
  apply mul_right_cancel₀ H.two
  rw [inv_mul_cancel_right₀ H.two]
  apply mul_right_cancel₀ H.two
  rw [h3]
  have := inv_mul_cancel₀ H.two
  linear_combination (-(a.val : ZMod p) * b.val * (((2 ^ 256 : ℕ) : ZMod p)⁻¹ * ((2 ^ 256 : ℕ) : ZMod p)) - (a.val : ZMod p) * b.val) * this

theorem den_square (H : Mont M p) (a : Limbs) (h : Red p a) :
    Red p (square M a) ∧ den p (square M a) = den p a * den p a := den_mul H a a (.inl h)

theorem den_add (H : Mont M p) (a b : Limbs) (ha : Red p a) (hb : Red p b) :
    Red p (add M a b) ∧ den p (add M a b) = den p a + den p b := by
  have h := add_spec H.ok a b (by rw [H.m]; have := ha.lt; have := hb.lt; omega)
  rw [H.m] at h
  refine ⟨by unfold Red; rw [h]; exact Nat.mod_lt _ hp.out.pos, ?_⟩
  unfold den
  rw [h, ZMod.natCast_mod, Nat.cast_add, add_mul]

theorem den_sub (H : Mont M p) (a b : Limbs) (ha : Red p a) (hb : Red p b) :
    Red p (sub M a b) ∧ den p (sub M a b) = den p a - den p b := by
  have h := sub_spec H.ok a b (by rw [H.m]; exact ha) (by rw [H.m]; exact hb)
  rw [H.m] at h
  refine ⟨by unfold Red; rw [h]; exact Nat.mod_lt _ hp.out.pos, ?_⟩
  unfold den
  rw [h, ZMod.natCast_mod, Nat.cast_add, Nat.cast_sub hb.lt.le, ZMod.natCast_self, zero_sub]
  ring

/-- the zero limbs. -/
theorem red_zero : Red p ⟨0, 0, 0, 0⟩ := by
  have : (⟨0, 0, 0, 0⟩ : Limbs).val = 0 := by decide
  unfold Red; rw [this]; exact hp.out.pos

theorem den_zero : den p ⟨0, 0, 0, 0⟩ = 0 := by
  have : (⟨0, 0, 0, 0⟩ : Limbs).val = 0 := by decide
  unfold den; rw [this, Nat.cast_zero, zero_mul]

theorem den_opp (H : Mont M p) (a : Limbs) (ha : Red p a) :
    Red p (opp M a) ∧ den p (opp M a) = -den p a := by
  have := den_sub H ⟨0, 0, 0, 0⟩ a red_zero ha
  rw [den_zero, zero_sub] at this
  exact this

theorem den_one (H : Mont M p) : Red p M.one ∧ den p M.one = 1 := by
  have h := H.ok.one
  rw [H.m] at h
  refine ⟨by unfold Red; rw [h]; exact Nat.mod_lt _ hp.out.pos, ?_⟩
  unfold den
  rw [h, ZMod.natCast_mod]
  exact mul_inv_cancel₀ H.two

theorem den_toMont (H : Mont M p) (a : Limbs) :
    Red p (toMont M a) ∧ den p (toMont M a) = (a.val : ZMod p) := by
  obtain ⟨h1, h2⟩ := toMont_spec H.ok a
  rw [H.m] at h1 h2
  refine ⟨h1, ?_⟩
  have h3 := (ZMod.natCast_eq_natCast_iff _ _ _).mpr h2
  unfold den
  rw [h3, Nat.cast_mul, mul_inv_cancel_right₀ H.two]

theorem fromMont_val (H : Mont M p) (a : Limbs) : (fromMont M a).val = (den p a).val := by
  obtain ⟨h1, h2⟩ := fromMont_spec H.ok a
  rw [H.m] at h1 h2
  have h3 := (ZMod.natCast_eq_natCast_iff _ _ _).mpr h2
  have : den p a = ((fromMont M a).val : ZMod p) := by
    unfold den
    rw [← h3, Nat.cast_mul, mul_inv_cancel_right₀ H.two]
  rw [this, ZMod.val_natCast_of_lt h1]

omit hp in
theorem nonZero_eq_zero (a : Limbs) : nonZero a = 0 ↔ a.val = 0 := by
  unfold nonZero
  have hor : ∀ x y : UInt64, x ||| y = 0 ↔ x = 0 ∧ y = 0 := fun x y => by
    rw [← UInt64.toNat_inj, ← UInt64.toNat_inj, ← UInt64.toNat_inj, UInt64.toNat_or, UInt64.toNat_zero,
      Nat.or_eq_zero_iff]
  rw [hor, hor, hor, ← UInt64.toNat_inj, ← UInt64.toNat_inj, ← UInt64.toNat_inj, ← UInt64.toNat_inj, UInt64.toNat_zero]
  unfold Limbs.val
  omega

theorem den_eq_zero_iff (H : Mont M p) {a : Limbs} (ha : Red p a) : den p a = 0 ↔ a.val = 0 := by
  constructor
  · intro h
    have := den_inj H ha red_zero (h.trans den_zero.symm)
    rw [this]; decide
  · intro h; unfold den; rw [h, Nat.cast_zero, zero_mul]

theorem equalsZero_iff (H : Mont M p) {a : Limbs} (ha : Red p a) : equalsZero a = true ↔ den p a = 0 := by
  unfold equalsZero
  rw [decide_eq_true_iff, nonZero_eq_zero, den_eq_zero_iff H ha]

theorem equals_iff (H : Mont M p) {a b : Limbs} (ha : Red p a) (hb : Red p b) :
    equals M a b = true ↔ den p a = den p b := by
  obtain ⟨h1, h2⟩ := den_sub H a b ha hb
  unfold equals
  rw [decide_eq_true_iff, nonZero_eq_zero, ← den_eq_zero_iff H h1, h2, sub_eq_zero]

theorem equalsOne_iff {a : Limbs} (ha : Red c.p a) : equalsOne a = true ↔ den c.p a = 1 := by
  obtain ⟨h1, h2⟩ := den_sub FpM a Fp.one ha (den_one FpM).1
  unfold equalsOne
  rw [decide_eq_true_iff, nonZero_eq_zero, ← den_eq_zero_iff FpM h1, h2, (den_one FpM).2, sub_eq_zero]

/-- the number written by bits, most significant first. -/
def bitsNat (bits : List Bool) : ℕ := bits.foldl (fun acc b => 2 * acc + b.toNat) 0

theorem pow_spec (a : Limbs) (ha : Red c.p a) (bits : List Bool) :
    Red c.p (pow a bits) ∧ den c.p (pow a bits) = den c.p a ^ bitsNat bits := by
  unfold pow bitsNat
  suffices H : ∀ (bits : List Bool) (acc : Limbs) (k : ℕ), Red c.p acc → den c.p acc = den c.p a ^ k →
      Red c.p (bits.foldl (fun acc b =>
        let sq := square Fp acc
        if b then mul Fp sq a else sq) acc) ∧
      den c.p (bits.foldl (fun acc b =>
        let sq := square Fp acc
        if b then mul Fp sq a else sq) acc) =
        den c.p a ^ bits.foldl (fun acc b => 2 * acc + b.toNat) k by
    exact H bits Fp.one 0 (den_one FpM).1 (by rw [(den_one FpM).2, pow_zero])
  intro bits
  induction bits with
  | nil => intro acc k h1 h2; exact ⟨h1, h2⟩
  | cons b bs ih =>
    intro acc k h1 h2
    obtain ⟨s1, s2⟩ := den_square FpM acc h1
    rw [List.foldl_cons, List.foldl_cons]
    cases b with
    | false =>
      apply ih
      · exact s1
      · simp only [Bool.false_eq_true, if_false, Bool.toNat_false, add_zero]
        rw [s2, h2]; ring
    | true =>
      obtain ⟨t1, t2⟩ := den_mul FpM (square Fp acc) a (.inl s1)
      apply ih
      · exact t1
      · simp only [if_true, Bool.toNat_true]
        rw [t2, s2, h2]; ring

end Verif.Pasta
