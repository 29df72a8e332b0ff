import Verif.Bls.GroupSpec
import Verif.Bls.XmdSpec

/-!
# Specification: hashing to G2, RFC 9380 suite BLS12381G2_XMD:SHA-256_SSWU_RO_

`hash_to_field` (section 5.2), the simplified SWU map (6.6.2, 6.6.3) to the curve
`E' : y² = x³ + 240 I x + 1012 (1 + I)` with `Z = -(2 + I)` (8.8.2), the 3-isogeny `E' → E2`
(appendix E.3; its 16 constants are small fractions, written so here) and the multiplication by the
effective cofactor (8.8.2).  The points are added on `E'` before the isogeny is applied, as section 6.6.3 allows.
-/

namespace Verif.Bls.Spec

open Verif.EC

/-- `hash_to_field`: element number `i` (of `Fq`), from the expanded bytes. -/
def fieldElem (u : Bytes) (i : ℕ) : Fq := (beNat ((u.drop (64 * i)).take 64) : ℕ)

/-- `hash_to_field` with `count = 2`, `m = 2`: the two elements of `Fq2`. -/
def hashToField (H : Bytes → Bytes) (msg dst : Bytes) : Option (Fq2 × Fq2) :=
  (expand H msg dst 256).map fun u =>
    (⟨fieldElem u 0, fieldElem u 1⟩, ⟨fieldElem u 2, fieldElem u 3⟩)

/-- `A' = 240 I`. -/
def isoA : Fq2 := ⟨0, 240⟩
/-- `B' = 1012 (1 + I)`. -/
def isoB : Fq2 := ⟨1012, 1012⟩
/-- `Z = -(2 + I)`. -/
def sswuZ : Fq2 := ⟨-2, -1⟩
/-- the imaginary unit. -/
def I : Fq2 := ⟨0, 1⟩

/-- the curve `E'`. -/
abbrev E' := sw isoA isoB

/-- the right-hand side of the equation of `E'`. -/
def g' (x : Fq2) : Fq2 := x ^ 3 + isoA * x + isoB

open Classical in
/-- section 6.6.2, `x1`. -/
noncomputable def x1 (u : Fq2) : Fq2 :=
  if sswuZ ^ 2 * u ^ 4 + sswuZ * u ^ 2 = 0 then isoB / (sswuZ * isoA)
  else (-isoB / isoA) * (1 + (sswuZ ^ 2 * u ^ 4 + sswuZ * u ^ 2)⁻¹)

open Classical in
/-- `sgn0` for `m = 2` (section 4.1). -/
noncomputable def sgn0 (z : Fq2) : ℕ := if z.re = 0 then z.im.val % 2 else z.re.val % 2

open Classical in
/-- the x-coordinate of the simplified SWU image of `u`: `x1` if `g'(x1)` is a square and `Z u² x1` if it
is not.  (RFC 9380 counts 0 as a square, here `x1` is taken for a nonzero square only; the two agree because
`g'` has no root in `Fq2`, `E'` having odd order.) -/
noncomputable def sswuX (u : Fq2) : Fq2 :=
  if IsSquare (g' (x1 u)) ∧ g' (x1 u) ≠ 0 then x1 u else sswuZ * u ^ 2 * x1 u

/-- `(x, y)` is the simplified SWU image of `u`: `y` is the square root of `g'(x)` with the sign of `u`. -/
structure Sswu (u x y : Fq2) : Prop where
  x_eq : x = sswuX u
  y_sq : y ^ 2 = g' x
  y_sgn : y = 0 ∨ sgn0 y = sgn0 u

/-- appendix E.3: the x-coordinate of the isogeny. -/
noncomputable def isoX (x : Fq2) : Fq2 :=
  (1 / 9 * x ^ 3 + 4 / 3 * (1 - I) * x ^ 2 - 8 / 3 * I * x + 304 / 9 * (1 + I)) /
    (x ^ 2 + 12 * (1 - I) * x - 72 * I)

/-- appendix E.3: the y-coordinate of the isogeny. -/
noncomputable def isoY (x y : Fq2) : Fq2 :=
  y * (-1 / 27 * x ^ 3 - 2 / 3 * (1 - I) * x ^ 2 + 88 / 9 * I * x + 752 / 27 * (1 + I)) /
    (x ^ 3 + 18 * (1 - I) * x ^ 2 - 216 * I * x - 432 * (1 + I))

/-- `h_eff` (8.8.2). -/
def hEff : ℕ :=
  0xbc69f08f2ee75b3584c6a0ea91b352888e2a8e9145ad7689986ff031508ffe1329c2f178731db956d82bf015d1212b02ec0ec69d7477c1ae954cbc06689f6a359894c0adebbf6b4e8020005aaa95551

/-- appendix E.3: the isogeny sends `R` to `T`.  (No point of `E'` other than infinity has a denominator equal to 0.) -/
def Iso2 : E'.Point → E2.Point → Prop
  | .zero, T => T = 0
  | .some x y _, T => ∃ h : E2.Nonsingular (isoX x) (isoY x y), T = .some (isoX x) (isoY x y) h

/-- `P` is the result of `hash_to_curve` for the field elements `u0`, `u1`. -/
def HashesTo (u0 u1 : Fq2) (P : E2.Point) : Prop :=
  ∃ x0 y0 x1 y1, ∃ (h0 : E'.Nonsingular x0 y0) (h1 : E'.Nonsingular x1 y1) (T : E2.Point),
    Sswu u0 x0 y0 ∧ Sswu u1 x1 y1 ∧ Iso2 (.some x0 y0 h0 + .some x1 y1 h1) T ∧ P = hEff • T

end Verif.Bls.Spec
