import Verif.EC.Ref
import Verif.Primes.Certs
import Verif.ECDSA.Recover

/-!
# secp256r1: parameters, model of the decompression right-hand side

The group operations of `secp256r1` are those of the external `crypto/elliptic.CurveParams`; they are
a parameter of the model (`EC.CurveImpl`), assumed to satisfy `CurveOk` where a theorem needs it.
-/

namespace Verif.Secp256r1

open Verif.EC Verif.ECDSA

/-- SEC 2 / FIPS 186-4 domain parameters. -/
def c : Params where
  p := 0xffffffff00000001000000000000000000000000ffffffffffffffffffffffff
  n := 0xffffffff00000000ffffffffffffffffbce6faada7179e84f3b9cac2fc632551
  a := 0xffffffff00000001000000000000000000000000fffffffffffffffffffffffc
  b := 0x5ac635d8aa3a93e7b3ebbd55769886bc651d06b0cc53b0f63bce3c3e27d2604b
  gx := 0x6b17d1f2e12c4247f8bce6e563a440f277037d812deb33a0f4a13945d898c296
  gy := 0x4fe342e2fe1a7f9b8ee7eb4a7c0f9e162bce33576b315ececbb6406837bf51f5

/-- secp256r1.go:26. -/
def P : Int := 0xffffffff00000001000000000000000000000000ffffffffffffffffffffffff
/-- secp256r1.go:27. -/
def N : Int := 0xffffffff00000000ffffffffffffffffbce6faada7179e84f3b9cac2fc632551
/-- secp256r1.go:28. -/
def B : Int := 0x5ac635d8aa3a93e7b3ebbd55769886bc651d06b0cc53b0f63bce3c3e27d2604b

instance : Fact c.p.Prime := ⟨prime_secp256r1P⟩

theorem natCast_ne_zero_of {p : ℕ} (k : ℕ) (h : k % p ≠ 0) : (k : ZMod p) ≠ 0 := by
  rw [Ne, ZMod.natCast_eq_zero_iff]
  intro hd; exact h (Nat.mod_eq_zero_of_dvd hd)

theorem good : Good c where
  p3 := by decide +kernel
  np := prime_secp256r1N
  disc := by
    have := natCast_ne_zero_of (p := c.p) (4 * c.a ^ 3 + 27 * c.b ^ 2) (by decide +kernel)
    exact_mod_cast this
  b0 := natCast_ne_zero_of _ (by decide +kernel)
  gxlt := by decide +kernel
  gylt := by decide +kernel
  g := by
    have : ((c.gy ^ 2 : ℕ) : ZMod c.p) = ((c.gx ^ 3 + c.a * c.gx + c.b : ℕ) : ZMod c.p) := by
      rw [ZMod.natCast_eq_natCast_iff]
      show _ % _ = _ % _
      decide +kernel
    exact_mod_cast this

theorem ord : c.n • good.G = 0 := Ref.n_smul_G good (by decide +kernel)

/-- the global `secp256r1` (secp256r1.go:24-34) over an implementation of `crypto/elliptic`. -/
def curve (ell : CurveImpl) : ECDSA.Curve := { ell with P := P, N := N }

/-- secp256r1.go:53-59: right-hand side of the curve equation in `secp256r1_decompress`; `xa` is set from
the literal bytes of `a`. -/
def rhs (x : Int) : Int :=
  let x3b := x * x
  let x3b := x3b * x
  let xa : Int := 0xFFFFFFFF00000001000000000000000000000000FFFFFFFFFFFFFFFFFFFFFFFC
  let xa := xa * x
  let x3b := x3b + B
  let x3b := x3b + xa
  x3b % P

theorem curveGood {ell : CurveImpl} {In : Int → Int → c.Pt → Prop} (h : CurveOk c good ell In) :
    CurveGood c good (curve ell) In where
  ok := h
  P := by show P = _; decide +kernel
  N := by show N = _; decide +kernel
  ord := ord
  p256 := by decide +kernel
  n256 := by decide +kernel
  n255 := by decide +kernel

theorem P_eq : P = ((c.p : ℕ) : Int) := by decide +kernel

theorem decGood : DecGood c rhs where
  p4 := by decide +kernel
  p256 := by decide +kernel
  close := by decide +kernel
  lo := fun _ => by show 0 ≤ _ % P; rw [P_eq]; exact (Ref.mod_range _).1
  hi := fun _ => by show _ % P < _; rw [P_eq]; exact (Ref.mod_range _).2
  eq := fun x => by
    have ha : ((c.a : ℕ) : ZMod c.p) = ((0xFFFFFFFF00000001000000000000000000000000FFFFFFFFFFFFFFFFFFFFFFFC : Int) : ZMod c.p) := by
      rw [← Int.cast_natCast]; rfl
    have hb : ((c.b : ℕ) : ZMod c.p) = ((B : Int) : ZMod c.p) := by
      rw [← Int.cast_natCast]; rfl
    rw [ha, hb]
    show ((_ % P : Int) : ZMod c.p) = _
    rw [P_eq, ZMod.intCast_mod]
    generalize (0xFFFFFFFF00000001000000000000000000000000FFFFFFFFFFFFFFFFFFFFFFFC : Int) = A
    push_cast
    ring

end Verif.Secp256r1
