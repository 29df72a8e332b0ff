import Verif.EC.Curve

/-!
# Textbook ECDSA (FIPS 186-4 / SEC 1), independent of the model
-/

namespace Verif.ECDSA

open Verif.EC

variable {c : Params} [Fact c.p.Prime]

/-- affine x-coordinate as an integer in `[0, p)` (0 for infinity). -/
def xval : c.Pt → ℕ
  | .zero => 0
  | .some x _ _ => x.val

/-- affine y-coordinate as an integer in `[0, p)` (0 for infinity). -/
def yval : c.Pt → ℕ
  | .zero => 0
  | .some _ y _ => y.val

/-- `(e/s)·G + (r/s)·Q`, the divisions modulo the group order. -/
noncomputable def verPoint (hg : Good c) (Q : c.Pt) (e r s : ℕ) : c.Pt :=
  ((e : ZMod c.n) * (s : ZMod c.n)⁻¹).val • hg.G + ((r : ZMod c.n) * (s : ZMod c.n)⁻¹).val • Q

/-- `(r, s)` is a valid ECDSA signature of the hash integer `e` for the public key `Q`. -/
def Valid (hg : Good c) (Q : c.Pt) (e r s : ℕ) : Prop :=
  0 < r ∧ r < c.n ∧ 0 < s ∧ s < c.n ∧
  verPoint hg Q e r s ≠ 0 ∧ xval (verPoint hg Q e r s) % c.n = r

/-- the byte string is the 64-byte big-endian encoding `x ‖ y` of the point (infinity has none). -/
def Encodes (b : Bytes) (Q : c.Pt) : Prop :=
  Q ≠ 0 ∧ b.length = 64 ∧ beNat (b.take 32) = xval Q ∧ beNat (b.drop 32) = yval Q

/-- a 32-byte big-endian integer is a minimal positive DER integer of exactly 32 bytes: sign bit
clear and no superfluous leading zero byte. -/
def DerMinimal (n : ℕ) : Prop := 2 ^ 247 ≤ n ∧ n < 2 ^ 255

end Verif.ECDSA
