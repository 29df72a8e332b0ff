import Verif.Secp256k1.Ecdsa

/-! # secp256k1: facts that hold for arbitrary coordinates, on the curve or not -/

namespace Verif.Secp256k1

open Verif.EC Verif.ECDSA

theorem affine_range (x y z : Int) :
    0 ≤ (affineFromJacobian x y z).1 ∧ (affineFromJacobian x y z).1 < P ∧
    0 ≤ (affineFromJacobian x y z).2 ∧ (affineFromJacobian x y z).2 < P := by
  have := P_pos
  unfold affineFromJacobian
  split
  · simp; exact P_pos
  · exact ⟨(mod_range _).1, (mod_range _).2, (mod_range _).1, (mod_range _).2⟩

theorem scalarMult_range (x y : Int) (k : Bytes) :
    0 ≤ (scalarMult x y k).1 ∧ (scalarMult x y k).1 < P ∧
    0 ≤ (scalarMult x y k).2 ∧ (scalarMult x y k).2 < P := affine_range _ _ _

/-- the z-coordinate is in range: `affineFromJacobian` never meets a non-invertible `z`. -/
def ZOk (t : Int × Int × Int) : Prop := 0 ≤ t.2.2 ∧ t.2.2 < P

theorem zok_zForAffine (x y : Int) : ZOk (x, y, zForAffine x y) := by
  have h1 : (1 : Int) < P := by decide +kernel
  unfold ZOk zForAffine; dsimp only; split <;> omega

theorem zok_double (x y z : Int) : ZOk (doubleJacobian x y z) := ⟨(mod_range _).1, (mod_range _).2⟩

theorem zok_add {x1 y1 z1 x2 y2 z2 : Int} (h1 : ZOk (x1, y1, z1)) (h2 : ZOk (x2, y2, z2)) :
    ZOk (addJacobian x1 y1 z1 x2 y2 z2) := by
  unfold addJacobian
  split
  · exact h2
  split
  · exact h1
  dsimp only
  have hite : ∀ (b : Bool) (t u : Int × Int × Int), ZOk t → ZOk u → ZOk (if b = true then t else u) := by
    intro b t u ht hu; cases b
    · exact hu
    · exact ht
  exact hite _ _ _ (zok_double _ _ _) ⟨(mod_range _).1, (mod_range _).2⟩

theorem zok_bitLoop (Bx By : Int) (n : Nat) (b : UInt8) (t : Int × Int × Int) (h : ZOk t) :
    ZOk (bitLoop Bx By n b t) := by
  have h1 : (1 : Int) < P := by decide +kernel
  induction n generalizing b t with
  | zero => exact h
  | succ n ih =>
    unfold bitLoop
    apply ih
    split
    · exact zok_add ⟨by simp, h1⟩ (zok_double _ _ _)
    · exact zok_double _ _ _

theorem zok_foldl (Bx By : Int) (k : Bytes) (t : Int × Int × Int) (h : ZOk t) :
    ZOk (k.foldl (fun acc byte => bitLoop Bx By 8 byte acc) t) := by
  induction k generalizing t with
  | nil => exact h
  | cons b k ih => exact ih _ (zok_bitLoop _ _ _ _ _ h)

/-- 7 is not a square modulo `p`, so no curve point has x = 0. -/
theorem xval_ne_zero {Q : Pt} (hQ : Q ≠ 0) : xval Q ≠ 0 := by
  cases Q with
  | zero => exact absurd rfl hQ
  | some x y h =>
    intro hx
    have hx0 : x = 0 := (ZMod.val_eq_zero x).mp hx
    have he := (W_equation x y).mp h.1
    have h7 : y ^ 2 = 7 := by
      have hb : ((c.b : ℕ) : ZMod c.p) = ((7 : ℕ) : ZMod c.p) := rfl
      rw [he, hx0, hb]; push_cast; ring
    have hy0 : y ≠ 0 := by
      rintro rfl
      have : ((7 : ℕ) : ZMod c.p) = 0 := by rw [zero_pow two_ne_zero] at h7; exact_mod_cast h7.symm
      rw [ZMod.natCast_eq_zero_iff] at this
      have := Nat.le_of_dvd (by norm_num) this
      have : (7 : ℕ) < c.p := by decide +kernel
      omega
    have hf := ZMod.pow_card_sub_one_eq_one hy0
    have hp : c.p - 1 = 2 * ((c.p - 1) / 2) := by decide +kernel
    rw [hp, pow_mul, h7] at hf
    have h1 : ((powMod 7 ((c.p - 1) / 2) c.p : ℕ) : ZMod c.p) = ((1 : ℕ) : ZMod c.p) := by
      rw [powMod_cast, Nat.cast_one]; exact_mod_cast hf
    rw [ZMod.natCast_eq_natCast_iff'] at h1
    revert h1
    decide +kernel

end Verif.Secp256k1
