import Verif.ECDSA.Spec

/-!
# Byte encodings of points accepted by the API (specification)
-/

namespace Verif.Api

open Verif.EC Verif.ECDSA

variable {c : Params} [Fact c.p.Prime]

/-- 33-byte compressed form: prefix 2 or 3 by the parity of y, then the 32-byte big-endian x. -/
def EncodesCompressed (b : Bytes) (Q : c.Pt) : Prop :=
  Q ≠ 0 ∧ b.length = 33 ∧ b.getD 0 0 = (if yval Q % 2 = 0 then 2 else 3) ∧ beNat (b.drop 1) = xval Q

/-- `b` is one of the three forms of the point that the API accepts: 64 bytes, 65 bytes (a leading
byte, whatever it is), or 33 bytes compressed. -/
def PointArg (b : Bytes) (Q : c.Pt) : Prop :=
  Encodes b Q ∨ (b.length = 65 ∧ Encodes (b.drop 1) Q) ∨ EncodesCompressed b Q

end Verif.Api
