import Verif.Secp256k1.Refine
import Verif.ECDSA.Recover

/-!
# secp256k1 as an ECDSA curve: curve value, decompression right-hand side, and the assumptions of the
generic theorems
-/

namespace Verif.Secp256k1

open Verif.EC Verif.ECDSA

/-- the global `secp256k1` (secp256k1.go:23-37). -/
def curve : ECDSA.Curve := { impl with P := P, N := N }

/-- secp256k1.go:258-262: right-hand side `x³ + B mod P` in `secp256k1_decompress`. -/
def rhs (x : Int) : Int :=
  let x3b := x * x
  let x3b := x3b * x
  let x3b := x3b + B
  x3b % P

theorem curveGood : CurveGood c good curve (Rep c) where
  ok := curveOk
  P := P_eq
  N := by decide +kernel
  ord := N_smul_G
  p256 := by decide +kernel
  n256 := by decide +kernel
  n255 := by decide +kernel

theorem decGood : DecGood c rhs where
  p4 := by decide +kernel
  p256 := by decide +kernel
  close := by decide +kernel
  lo := fun _ => (mod_range _).1
  hi := fun _ => by rw [← P_eq]; exact (mod_range _).2
  eq := fun x => by
    have h0 : ((c.a : ℕ) : F) = 0 := by simp [c]
    have h7 : ((c.b : ℕ) : F) = ((B : Int) : F) := by simp [c, B]
    simp only [rhs, modP_cast, Int.cast_add, Int.cast_mul, Int.cast_natCast, h0, h7]
    ring

end Verif.Secp256k1
