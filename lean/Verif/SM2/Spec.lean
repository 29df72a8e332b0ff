import Verif.SM2.Sem
import Verif.ECDSA.Spec

/-!
# Textbook SM2 (GB/T 32918 / GM/T 0003), independent of the model

The hash function is a parameter.
-/

namespace Verif.SM2

open Verif.EC Verif.ECDSA

/-- GM/T 0003.2 section 7: `(r, s)` is a valid signature of the digest integer `e` for the public key `Q`. -/
def Valid (Q : Pt) (e r s : ℕ) : Prop :=
  0 < r ∧ r < c.n ∧ 0 < s ∧ s < c.n ∧ (r + s) % c.n ≠ 0 ∧
  (e + xval (s • good.G + ((r + s) % c.n) • Q)) % c.n = r

/-- GM/T 0003.2 section 6: `(r, s)` is what the signer with private key `d` computes from the digest `e` and some
nonce `k`, without the check `r + k ≠ n`.  The last equation is `s = (1 + d)⁻¹ (k - r d)`. -/
def Signed (d e r s : ℕ) (v : UInt8) : Prop :=
  0 < r ∧ r < c.n ∧ 0 < s ∧ s < c.n ∧ ∃ k, 0 < k ∧ k < c.n ∧ r = (e + xval (k • good.G)) % c.n ∧
  ((1 + d) * s + d * r) % c.n = k ∧ v = (if yval (k • good.G) % 2 = 1 then 1 else 0)

/-- a byte string read as a big-endian number of exactly the curve's field, 32 bytes. -/
def fieldBytes (n : ℕ) : Bytes := be32 n

/-- GM/T 0003.2 section 5.5: `Z = H(ENTL ‖ ID ‖ a ‖ b ‖ xG ‖ yG ‖ xA ‖ yA)`, for an identity of less than 8192 bytes. -/
def zOf (H : Bytes → Bytes) (Q : Pt) (ID : Bytes) : Bytes :=
  H ([UInt8.ofNat (8 * ID.length / 256), UInt8.ofNat (8 * ID.length % 256)] ++ ID ++
    fieldBytes c.a ++ fieldBytes c.b ++ fieldBytes c.gx ++ fieldBytes c.gy ++ fieldBytes (xval Q) ++ fieldBytes (yval Q))

/-- the digest integer: `H(Z ‖ M)` when an identity is given, the 32 bytes themselves (a caller's hash) otherwise. -/
def digestOf (H : Bytes → Bytes) (Q : Pt) (ID : Option Bytes) (M : Bytes) : ℕ :=
  match ID with
  | none => beNat M
  | some id => beNat (H (zOf H Q id ++ M))

/-- GM/T 0003.4 section 5.4.3 and GM/T 0003.3 section 5.4.3: the key derivation function, `klen` bytes of
`H(Z ‖ 1) ‖ H(Z ‖ 2) ‖ …`; the counter has 4 bytes. -/
def kdfSpec (H : Bytes → Bytes) (Z : Bytes) (klen : ℕ) : Bytes :=
  (((List.range ((klen + 31) / 32)).map fun i =>
    H (Z ++ [UInt8.ofNat ((i + 1) / 16777216), UInt8.ofNat ((i + 1) / 65536), UInt8.ofNat ((i + 1) / 256),
      UInt8.ofNat (i + 1)])).flatten).take klen

/-- GM/T 0003.3 section 6.1: `x̄ = 2^127 + (x mod 2^127)`. -/
def xbarOf (x : ℕ) : ℕ := 2 ^ 127 + x % 2 ^ 127

/-- GM/T 0003.3 section 6.1: the shared point of a side with secrets `d`, `r` (and `R = r G`) for the peer's `Q'`, `R'`. -/
noncomputable def sharedPoint (d r : ℕ) (R Q' R' : Pt) : Pt :=
  (d + xbarOf (xval R) * r) • (Q' + xbarOf (xval R') • R')

end Verif.SM2
