import Verif.Bls.SexticField
import Verif.Bls.GroupSpec
import Verif.Primes.Pratt
import Mathlib.NumberTheory.LegendreSymbol.QuadraticReciprocity

/-!
# Specification: the ate pairing of BLS12-381

Independent of pairing.go, fp6.go and fp12.go.

* `Fq12 = Fq2[w] / (w⁶ - (1 + u))`.
* The points of `E2 : y² = x³ + 4(1 + u)` over `Fq2` are taken to `E1 : y² = x³ + 4` over `Fq12` by
  `ψ(x, y) = (x / w², y / w³)`.
* `miller n` is Miller's function `f_{n,Q}` at `P` without the vertical lines: `f_1 = 1`,
  `f_{2m} = f_m² · ℓ_{mQ,mQ}(P)`, `f_{2m+1} = f_{2m} · ℓ_{2mQ,Q}(P)`, with `ℓ_{A,B}` the line through `ψ(A)` and `ψ(B)`
  (the tangent when `A = B`).
* The curve parameter is `-X` with `X = 0xd201000000010000`; the pairing is `f_{-X,Q}(P) = 1 / f_{X,Q}(P)` raised to
  `(q¹² - 1)/r`, and 1 when a point is infinity.
-/

namespace Verif.Bls

open Polynomial

/-- `1 + u`. -/
def Spec.xi : Fq2 := ⟨1, 1⟩

theorem norm_aux {K : Type*} [Field K] (n : ℕ) (z : QuadraticAlgebra K (-1) 0) (h : z ^ n = ⟨1, 1⟩) :
    QuadraticAlgebra.norm z ^ n = (2 : K) := by
  rw [← map_pow, h, QuadraticAlgebra.norm_def]; norm_num

theorem xi_not_square (b : Fq2) : b ^ 2 ≠ Spec.xi := by
  intro h
  have h2 := norm_aux 2 b h
  have hs : IsSquare (2 : Fq) := ⟨_, by rw [← h2, pow_two]⟩
  have hq : Q % 8 = 3 := by decide +kernel
  rw [ZMod.exists_sq_eq_two_iff (by omega)] at hs
  omega

theorem two_pow_third : powMod 2 ((Q - 1) / 3) Q ≠ 1 := by decide +kernel

theorem Q_third : 3 * ((Q - 1) / 3) = Q - 1 := by decide +kernel

theorem xi_not_cube (b : Fq2) : b ^ 3 ≠ Spec.xi := by
  intro h
  have h2 := norm_aux 3 b h
  generalize QuadraticAlgebra.norm b = n at h2
  have hn : n ≠ 0 := by
    rintro rfl
    rw [zero_pow (by norm_num)] at h2
    have hq : Q % 8 = 3 := by decide +kernel
    have := (ZMod.natCast_eq_zero_iff 2 Q).mp (by exact_mod_cast h2.symm)
    have := Nat.le_of_dvd (by norm_num) this
    have : Q = 3 ∨ Q < 3 := by omega
    exact absurd this (by decide +kernel)
  have h1 : (2 : Fq) ^ ((Q - 1) / 3) = 1 := by
    rw [← h2, ← pow_mul, Q_third]
    exact ZMod.pow_card_sub_one_eq_one hn
  have hc := powMod_cast 2 ((Q - 1) / 3) Q
  rw [show ((2 : ℕ) : Fq) = 2 by norm_num, h1] at hc
  have hlt : powMod 2 ((Q - 1) / 3) Q < Q := powModAux_lt _ _ _ _ _ prime_Q.pos (Nat.mod_lt _ prime_Q.pos)
  have h1' : ((powMod 2 ((Q - 1) / 3) Q : ℕ) : Fq) = ((1 : ℕ) : Fq) := by rw [hc, Nat.cast_one]
  rw [ZMod.natCast_eq_natCast_iff', Nat.mod_eq_of_lt hlt, Nat.mod_eq_of_lt prime_Q.one_lt] at h1'
  exact two_pow_third h1'

instance sextic_fact : Fact (Irreducible (X ^ 6 - C Spec.xi : Fq2[X])) := ⟨sextic_irreducible xi_not_square xi_not_cube⟩

/-- `Fq2[w] / (w⁶ - (1 + u))`. -/
def Fq12 : Type := AdjoinRoot (X ^ 6 - C Spec.xi : Fq2[X])

noncomputable instance : Field Fq12 := inferInstanceAs (Field (AdjoinRoot (X ^ 6 - C Spec.xi : Fq2[X])))

noncomputable instance : DecidableEq Fq12 := Classical.decEq _

namespace Spec

/-- `w`. -/
noncomputable def w : Fq12 := AdjoinRoot.root (X ^ 6 - C xi : Fq2[X])

/-- `Fq2 ⊆ Fq12`. -/
noncomputable def emb2 : Fq2 →+* Fq12 := AdjoinRoot.of (X ^ 6 - C xi : Fq2[X])

/-- `Fq ⊆ Fq12`. -/
noncomputable def emb1 : Fq →+* Fq12 := emb2.comp (algebraMap Fq Fq2)

/-- `ψ(x, y) = (x / w², y / w³)`; infinity does not occur below. -/
noncomputable def untwist : E2.Point → Fq12 × Fq12
  | .zero => (0, 0)
  | .some x y _ => (emb2 x / w ^ 2, emb2 y / w ^ 3)

/-- the slope of the line through two points of `y² = x³ + b`, of the tangent when they are equal. -/
noncomputable def slope (A B : Fq12 × Fq12) : Fq12 :=
  if A = B then 3 * A.1 ^ 2 / (2 * A.2) else (B.2 - A.2) / (B.1 - A.1)

/-- the line through `A` and `B` at `P`. -/
noncomputable def line (A B P : Fq12 × Fq12) : Fq12 := (P.2 - A.2) - slope A B * (P.1 - A.1)

/-- Miller's function `f_{n,Q}(P)` without the vertical lines. -/
noncomputable def miller (T : E2.Point) (P : Fq12 × Fq12) (n : ℕ) : Fq12 :=
  if h : n ≤ 1 then 1
  else
    let f := miller T P (n / 2) ^ 2 * line (untwist ((n / 2) • T)) (untwist ((n / 2) • T)) P
    if n % 2 = 1 then f * line (untwist ((2 * (n / 2)) • T)) (untwist T) P else f
decreasing_by omega

/-- minus the curve parameter. -/
def X : ℕ := 0xd201000000010000

/-- the reduced ate pairing. -/
noncomputable def pairing : E1.Point → E2.Point → Fq12
  | .zero, _ => 1
  | _, .zero => 1
  | .some x y _, T => ((miller T (emb1 x, emb1 y) X)⁻¹) ^ ((Q ^ 12 - 1) / r)

end Spec

end Verif.Bls
