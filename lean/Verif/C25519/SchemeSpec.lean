import Verif.C25519.RoundTrip

/-!
# Specification of the signature scheme of CURVE25519_SHA256 (KCDSA on curve25519)

`E` is the curve `y² = x³ + 486662·x² + x` over the field with `2^255 - 19` elements, with the group of Mathlib, and `G` its point with
x-coordinate 9 and even y-coordinate, of prime order `L`.  `xc` and `yc` are the coordinates of a point (0 at infinity), `absP Q` is the one of
`Q` and `-Q` with the even y-coordinate.
-/

namespace Verif.C25519

open Verif.Ed25519 (Fe fval F P P_eq)
open WeierstrassCurve

/-- the point of a private key. -/
def keyPoint (k : Bytes) : E.Point := Spec.decodeScalar k • G

/-- the points the arithmetic of the code is right for: the x-coordinate is not 9 and neither the x-coordinate nor one of the two square roots
`±y` is among the nineteen largest field elements. -/
structure Usable (Q : E.Point) : Prop where
  x : (xc Q).val < P - 19
  nine : xc Q ≠ 9
  y : (yc Q).val < P - 19
  y' : (-yc Q).val < P - 19

/-- the signing key of a private key: the number `s` with `s·|K| = G`. -/
structure IsSigningKey (k s : Bytes) : Prop where
  len : s.length = 32
  lt : leNat s < L
  inv : leNat s • absP (keyPoint k) = G

/-- the 32 little-endian bytes of an x-coordinate. -/
def xBytes (Q : E.Point) : Bytes := (be32 (xc Q).val).reverse

end Verif.C25519
