import Verif.EC.Ref
import Verif.EC.Order
import Verif.Primes.Certs
import Verif.Secp256r1.Curve

/-!
# The Pallas curve: published parameters, order

`y² = x³ + 5` over the Pallas base field, of prime order (the Vesta base field's prime), base point
with `x = 1` as used by Mina.
-/

namespace Verif.Pasta

open Verif.EC

/-- Pallas. -/
def c : Params where
  p := 0x40000000000000000000000000000000224698fc094cf91b992d30ed00000001
  n := 0x40000000000000000000000000000000224698fc0994a8dd8c46eb2100000001
  a := 0
  b := 5
  gx := 1
  gy := 0x1b74b5a30a12937c53dfa9f06378ee548f655bd4333d477119cf7a23caed2abb

instance : Fact c.p.Prime := ⟨prime_pastaP⟩
instance : Fact c.n.Prime := ⟨prime_pastaQ⟩

theorem good : Good c where
  p3 := by decide +kernel
  np := prime_pastaQ
  disc := by
    have := Secp256r1.natCast_ne_zero_of (p := c.p) (4 * c.a ^ 3 + 27 * c.b ^ 2) (by decide +kernel)
    exact_mod_cast this
  b0 := Secp256r1.natCast_ne_zero_of _ (by decide +kernel)
  gxlt := by decide +kernel
  gylt := by decide +kernel
  g := by
    have : ((c.gy ^ 2 : ℕ) : ZMod c.p) = ((c.gx ^ 3 + c.a * c.gx + c.b : ℕ) : ZMod c.p) := by
      rw [ZMod.natCast_eq_natCast_iff]
      show _ % _ = _ % _
      decide +kernel
    exact_mod_cast this

abbrev Pt := c.Pt

theorem ord : c.n • good.G = 0 := Ref.n_smul_G good (by decide +kernel)

theorem noRoot : Order.noRoot c ⟨0, 0, 0x1c9d0390d8e137d6525b02cf2d5b053896964f2355f63dc3bcf876ea7799b6c1⟩ := by
  decide +kernel

theorem n_smul (Q : Pt) : c.n • Q = 0 := Order.n_smul good ord (by decide +kernel) noRoot Q

theorem exists_smul (Q : Pt) : ∃ k < c.n, Q = k • good.G :=
  Order.exists_smul good ord (by decide +kernel) noRoot Q

theorem order_of (Q : Pt) (hQ : Q ≠ 0) : addOrderOf Q = c.n := by
  have h1 : addOrderOf Q ∣ c.n := addOrderOf_dvd_iff_nsmul_eq_zero.mpr (n_smul Q)
  rcases (Nat.dvd_prime prime_pastaQ).mp h1 with h | h
  · exact absurd (AddMonoid.addOrderOf_eq_one_iff.mp h) hQ
  · exact h

theorem smul_eq_zero_iff (k : ℕ) (Q : Pt) (hQ : Q ≠ 0) : k • Q = 0 ↔ c.n ∣ k := by
  rw [← addOrderOf_dvd_iff_nsmul_eq_zero, order_of Q hQ]

end Verif.Pasta
