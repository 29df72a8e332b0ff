import Verif.EC.Edwards
import Verif.Ed25519.FieldBytes
import Verif.Ed25519.ScalarLemmas
import Verif.Ed25519.Const
import Verif.Primes.Pratt

/-!
# The curve edwards25519 (RFC 8032, section 5.1)

Specification: the curve `-x² + y² = 1 + d x² y²` over the integers modulo `2^255 - 19` with `d = -121665/121666`, its base point, the
order of the base point, and the encoding of points.
-/

namespace Verif.Ed25519

open Edwards

/-- the constant of the curve. -/
def D : F := -121665 / 121666

/-- a square root of `-1`. -/
def sqrtM1 : ℕ := 0x2b8324804fc1df0b2b4d00993dfbd7a72f431806ad2fe478c4ee1b274a0ea0b0

/-- `d` as a number. -/
def dNat : ℕ := 0x52036cee2b6ffe738cc740797779e89800700a4d4141d8ab75eb4dca135978a3

theorem natCast_eq {a b : ℕ} (h : a % P = b % P) : (a : F) = (b : F) := (ZMod.natCast_eq_natCast_iff' a b P).mpr h

theorem natCast_ne {a b : ℕ} (h : a % P ≠ b % P) : (a : F) ≠ (b : F) := fun e => h ((ZMod.natCast_eq_natCast_iff' a b P).mp e)

theorem lit_ne_zero : (121666 : F) ≠ 0 := by
  have := natCast_ne (a := 121666) (b := 0) (by decide)
  simpa using this

theorem dNat_eq : (dNat : F) = D := by
  unfold D
  rw [eq_div_iff lit_ne_zero]
  have := natCast_eq (a := dNat * 121666 + 121665) (b := 0) (by decide)
  push_cast at this
  linear_combination this

theorem sqrtM1_sq : (sqrtM1 : F) * sqrtM1 = -1 := by
  have := natCast_eq (a := sqrtM1 * sqrtM1 + 1) (b := 0) (by decide)
  push_cast at this
  linear_combination this

theorem D_euler : D ^ ((P - 1) / 2) = -1 := by
  rw [← dNat_eq, ← powMod_cast, show powMod dNat ((P - 1) / 2) P = P - 1 from by decide +kernel,
    Nat.cast_sub (by decide), ZMod.natCast_self]
  simp

theorem one_ne_neg_one : (1 : F) ≠ -1 := by
  intro h
  have := natCast_ne (a := 2) (b := 0) (by decide)
  apply this
  push_cast
  linear_combination h

theorem pow_half {z : F} (hz : z ≠ 0) : (z * z) ^ ((P - 1) / 2) = 1 := by
  rw [← pow_two, ← pow_mul, show 2 * ((P - 1) / 2) = P - 1 from by decide]
  exact ZMod.pow_card_sub_one_eq_one hz

theorem D_ne_zero : D ≠ 0 := by
  intro h
  have := D_euler
  rw [h, zero_pow (by decide)] at this
  have h1 : (0 : F) ≠ -1 := by
    intro h; have : (1 : F) = 0 := by linear_combination h
    exact one_ne_zero this
  exact h1 this

instance : Complete D where
  sqrtNegOne := ⟨sqrtM1, sqrtM1_sq⟩
  nonsquare := by
    intro z hz
    have z0 : z ≠ 0 := by rintro rfl; exact D_ne_zero (by rw [← hz]; ring)
    have := pow_half z0
    rw [hz, D_euler] at this
    exact one_ne_neg_one this.symm
  two := by
    have := natCast_ne (a := 2) (b := 0) (by decide)
    simpa using this

/-- the points of the curve. -/
abbrev Pt := Point D

/-- the coordinates of the base point: `y = 4/5`, `x` even. -/
def baseX : ℕ := 0x216936d3cd6e53fec0a4e231fdd6dc5c692cc7609525a7b2c9562d608f25d51a
def baseY : ℕ := 0x6666666666666666666666666666666666666666666666666666666666666658

/-- the base point. -/
def base : Pt where
  x := baseX
  y := baseY
  on := by
    have := natCast_eq (a := baseY ^ 2) (b := baseX ^ 2 + 1 + dNat * baseX ^ 2 * baseY ^ 2) (by decide)
    push_cast at this
    rw [← dNat_eq]
    linear_combination this

theorem base_y : base.y * 5 = 4 := by
  have := natCast_eq (a := baseY * 5) (b := 4) (by decide)
  push_cast at this
  exact this

/-- the encoding of a point: `y`, and the parity of `x` in the top bit. -/
def enc (A : Pt) : ℕ := A.y.val + 2 ^ 255 * (A.x.val % 2)

/-- the point that a 32-byte string stands for: the low 255 bits are `y`, which need not be reduced; the top bit is the parity of `x`, which
is ignored if `x = 0`. -/
def Decodes (s : Bytes) (A : Pt) : Prop :=
  A.y = ((leNat s % 2 ^ 255 : ℕ) : F) ∧ (A.x = 0 ∨ A.x.val % 2 = leNat s / 2 ^ 255)

end Verif.Ed25519
