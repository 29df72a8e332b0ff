import Verif.EC.Jacobian
import Verif.Bytes
import Mathlib.Data.ZMod.Basic
import Mathlib.Algebra.QuadraticAlgebra.Basic
import Verif.Bls.Fp2Lemmas

/-!
# Specification: the groups of BLS12-381 and their byte formats

Independent of g1.go / g2.go: the two curves as Mathlib elliptic curves, and the zcash serialisation
(https://docs.rs/bls12_381/latest/bls12_381/notes/serialization).

* G1: `y² = x³ + 4` over `Fq`, G2: `y² = x³ + 4(1 + u)` over `Fq2 = Fq[u]/(u² + 1)`.
* an element of `Fq` is 48 big-endian bytes, `c0 + c1 u` is the bytes of `c1` followed by those of `c0`.
* a compressed point is the bytes of `x` with three flags in the top bits of the first byte: bit 7
  (compressed) is always set, bit 6 (infinity) only for the point at infinity, whose other bits are all
  zero, bit 5 (sort) is set if `y` is the larger one of `y`, `-y`; elements of `Fq2` are compared by the
  coefficient of `u` first.
* an uncompressed point is the bytes of `x`, then those of `y`, with the infinity flag only.
-/

namespace Verif.Bls.Spec

open Verif.EC

/-- `y² = x³ + 4` over `Fq`. -/
abbrev E1 := sw (0 : Fq) 4

/-- `4 (1 + u)`. -/
def b2 : Fq2 := ⟨4, 4⟩

/-- `y² = x³ + 4 (1 + u)` over `Fq2`. -/
abbrev E2 := sw (0 : Fq2) b2

/-- the order of the subgroups. -/
def r : ℕ := 0x73eda753299d7d483339d80809a1d80553bda402fffe5bfeffffffff00000001

/-- `n` in `k` big-endian bytes. -/
def be (k n : ℕ) : Bytes := padLeft k (natBytes n)

/-- the 48 bytes of an element of `Fq`. -/
def bytes1 (x : Fq) : Bytes := be 48 x.val

/-- the 96 bytes of an element of `Fq2`. -/
def bytes2 (x : Fq2) : Bytes := be 48 x.im.val ++ be 48 x.re.val

/-- `y` is larger than `-y`. -/
def larger1 (y : Fq) : Prop := (-y).val < y.val

instance (y : Fq) : Decidable (larger1 y) := by unfold larger1; infer_instance

/-- `y` is larger than `-y`, comparing the coefficients of `u` first. -/
def larger2 (y : Fq2) : Prop := (-y).im.val < y.im.val ∨ (-y).im.val = y.im.val ∧ (-y).re.val < y.re.val

instance (y : Fq2) : Decidable (larger2 y) := by unfold larger2; infer_instance

/-- puts flags into the (clear) top bits of the first byte. -/
def setFlags (flags : UInt8) : Bytes → Bytes
  | [] => []
  | c :: t => (flags ||| c) :: t

/-- the compressed format over any field with given bytes and order. -/
def compress {F : Type} [Field F] (W : WeierstrassCurve.Affine F) (size : ℕ) (bytes : F → Bytes)
    (larger : F → Prop) [DecidablePred larger] : W.Point → Bytes
  | .zero => 0xc0 :: List.replicate (size - 1) 0
  | .some x y _ => setFlags (if larger y then 0xa0 else 0x80) (bytes x)

/-- the uncompressed format. -/
def uncompress {F : Type} [Field F] (W : WeierstrassCurve.Affine F) (size : ℕ) (bytes : F → Bytes) :
    W.Point → Bytes
  | .zero => 0x40 :: List.replicate (2 * size - 1) 0
  | .some x y _ => bytes x ++ bytes y

/-- the plain `x ‖ y` format, zeros for infinity. -/
def plain {F : Type} [Field F] (W : WeierstrassCurve.Affine F) (size : ℕ) (bytes : F → Bytes) :
    W.Point → Bytes
  | .zero => List.replicate (2 * size) 0
  | .some x y _ => bytes x ++ bytes y

/-- the 48 bytes of a point of G1. -/
def compress1 : E1.Point → Bytes := compress E1 48 bytes1 larger1

/-- the 96 bytes of a point of G2. -/
def compress2 : E2.Point → Bytes := compress E2 96 bytes2 larger2

end Verif.Bls.Spec
