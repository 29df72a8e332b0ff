import Verif.Bls.PairingSpec

/-!
# Specification: the byte format of the target field
-/

namespace Verif.Bls.Spec

/-- `s` is the encoding of `z = c0 + c1 w + … + c5 w⁵`: twelve numbers of 48 big-endian bytes, the coefficients in the order
`c5, c3, c1, c4, c2, c0`. -/
def EncodesGT (s : Bytes) (z : Fq12) : Prop := ∃ c0 c1 c2 c3 c4 c5 : Fq2,
  z = emb2 c0 + emb2 c1 * w + emb2 c2 * w ^ 2 + emb2 c3 * w ^ 3 + emb2 c4 * w ^ 4 + emb2 c5 * w ^ 5 ∧
    s = bytes2 c5 ++ bytes2 c3 ++ bytes2 c1 ++ (bytes2 c4 ++ bytes2 c2 ++ bytes2 c0)

end Verif.Bls.Spec
