import Verif.Bytes
import Mathlib.Data.Fin.VecNotation

/-!
# The round function shared by BLAKE (SHA-3 proposal, section 2) and BLAKE2 (RFC 7693, section 3.1), independent of the model
-/

namespace Verif.Blake.Spec

/-- the function `G` on the words `a`, `b`, `c`, `d` of `v`, with rotation constants `R` and inputs `x` and `y`. -/
def G {w : ℕ} (R : Fin 4 → ℕ) (a b c d : Fin 16) (x y : BitVec w) (v : Fin 16 → BitVec w) : Fin 16 → BitVec w :=
  let va := v a + v b + x
  let vd := (v d ^^^ va).rotateRight (R 0)
  let vc := v c + vd
  let vb := (v b ^^^ vc).rotateRight (R 1)
  let va := va + vb + y
  let vd := (vd ^^^ va).rotateRight (R 2)
  let vc := vc + vd
  let vb := (vb ^^^ vc).rotateRight (R 3)
  fun i => if i = a then va else if i = b then vb else if i = c then vc else if i = d then vd else v i

/-- one round: `G` on the four columns, then on the four diagonals; `x i` and `y i` are the inputs of the `i`-th `G`. -/
def round {w : ℕ} (R : Fin 4 → ℕ) (x y : Fin 8 → BitVec w) (v : Fin 16 → BitVec w) : Fin 16 → BitVec w :=
  let v := G R 0 4 8 12 (x 0) (y 0) v
  let v := G R 1 5 9 13 (x 1) (y 1) v
  let v := G R 2 6 10 14 (x 2) (y 2) v
  let v := G R 3 7 11 15 (x 3) (y 3) v
  let v := G R 0 5 10 15 (x 4) (y 4) v
  let v := G R 1 6 11 12 (x 5) (y 5) v
  let v := G R 2 7 8 13 (x 6) (y 6) v
  G R 3 4 9 14 (x 7) (y 7) v

/-- the ten permutations of 0 … 15. -/
def sigma : Fin 10 → Fin 16 → ℕ :=
  ![![0, 1, 2, 3, 4, 5, 6, 7, 8, 9, 10, 11, 12, 13, 14, 15],
    ![14, 10, 4, 8, 9, 15, 13, 6, 1, 12, 0, 2, 11, 7, 5, 3],
    ![11, 8, 12, 0, 5, 2, 15, 13, 10, 14, 3, 6, 7, 1, 9, 4],
    ![7, 9, 3, 1, 13, 12, 11, 14, 2, 6, 5, 10, 4, 0, 15, 8],
    ![9, 0, 5, 7, 2, 4, 10, 15, 14, 1, 11, 12, 6, 8, 3, 13],
    ![2, 12, 6, 10, 0, 11, 8, 3, 4, 13, 7, 5, 15, 14, 1, 9],
    ![12, 5, 1, 15, 14, 13, 4, 10, 0, 7, 6, 3, 9, 2, 8, 11],
    ![13, 11, 7, 14, 12, 1, 3, 9, 5, 0, 15, 4, 8, 6, 2, 10],
    ![6, 15, 14, 9, 11, 3, 0, 8, 12, 2, 13, 7, 1, 4, 10, 5],
    ![10, 2, 8, 4, 7, 6, 1, 5, 15, 11, 9, 14, 3, 12, 13, 0]]

/-- `sigma` of round `r`, taken modulo 10, at `j`. -/
def sig (r j : ℕ) : ℕ := sigma (Fin.ofNat 10 r) (Fin.ofNat 16 j)

end Verif.Blake.Spec
