import Verif.ECDSA.Spec
import Verif.Pasta.PoseidonSpec

/-!
# Specification: encodings of Pallas points, and Mina's Schnorr signatures
-/

namespace Verif.Pasta

open Verif.EC Verif.ECDSA

/-- the 64-byte form `x ‖ y`, big-endian; infinity is 64 zero bytes. -/
def wire (Q : Pt) : Bytes := be32 (xval Q) ++ be32 (yval Q)

/-- the 64-byte string is read as the point: the two big-endian numbers are its coordinates modulo the prime (both 0 for infinity). -/
def Reads (b : Bytes) (Q : Pt) : Prop :=
  b.length = 64 ∧ beNat (b.take 32) % c.p = xval Q ∧ beNat (b.drop 32) % c.p = yval Q

/-- a transaction as field elements. -/
structure Message where
  iv : PoseidonSpec.F × PoseidonSpec.F × PoseidonSpec.F
  pre : List PoseidonSpec.F
  suf : List PoseidonSpec.F

/-- the challenge: Poseidon, started from the message's initial state, of the message's first part, the key's coordinates, `r` and the
message's second part. -/
def challenge (m : Message) (Q : Pt) (r : PoseidonSpec.F) : ℕ :=
  (PoseidonSpec.hash m.iv (m.pre ++ ((xval Q : PoseidonSpec.F) :: (yval Q : PoseidonSpec.F) :: r :: m.suf))).val

/-- `(r, s)` is a Schnorr signature for the key `Q` and the challenge `e`: `s·G - e·Q` has x-coordinate `r` and an even y-coordinate
(infinity counts as `(0, 0)`). -/
def Schnorr (Q : Pt) (e r s : ℕ) : Prop :=
  xval (s • good.G - e • Q) = r % c.p ∧ yval (s • good.G - e • Q) % 2 = 0

instance (Q : Pt) (e r s : ℕ) : Decidable (Schnorr Q e r s) := inferInstanceAs (Decidable (_ ∧ _))

end Verif.Pasta
