import Verif.Bytes
import Verif.Primes.Pratt

/-!
# Specification: the function X25519 of RFC 7748, section 5

The pseudo-code of the RFC, on natural numbers modulo `p = 2^255 - 19`.  `a24` is 121665 and the Montgomery ladder runs over the 255 bits
of the decoded scalar with conditional swaps.
-/

namespace Verif.C25519.Spec

/-- the prime of curve25519. -/
def p : Nat := 2 ^ 255 - 19

/-- `decodeScalar25519`: the least three bits and the top bit are cleared, bit 254 is set (`2^254` plus eight times a number below `2^251`). -/
def decodeScalar (k : Bytes) : Nat := 2 ^ 254 + 8 * (leNat k / 8 % 2 ^ 251)

structure St where
  x2 : Nat
  z2 : Nat
  x3 : Nat
  z3 : Nat
  swap : Nat

/-- subtraction modulo `p`. -/
def msub (a b : Nat) : Nat := (a + (p - b % p)) % p

/-- the body of the loop for the bit `t` of the scalar `k`; `x1` is the u-coordinate of the input point. -/
def step (x1 k : Nat) (s : St) (t : Nat) : St :=
  let kt := k / 2 ^ t % 2
  let swap := s.swap ^^^ kt
  let x2 := if swap = 1 then s.x3 else s.x2
  let x3 := if swap = 1 then s.x2 else s.x3
  let z2 := if swap = 1 then s.z3 else s.z2
  let z3 := if swap = 1 then s.z2 else s.z3
  let A := (x2 + z2) % p
  let AA := A * A % p
  let B := msub x2 z2
  let BB := B * B % p
  let E := msub AA BB
  let C := (x3 + z3) % p
  let D := msub x3 z3
  let DA := D * A % p
  let CB := C * B % p
  let s' := (DA + CB) % p
  let d' := msub DA CB
  { x3 := s' * s' % p, z3 := x1 * (d' * d' % p) % p, x2 := AA * BB % p, z2 := E * ((AA + 121665 * E) % p) % p, swap := kt }

/-- the ladder, and the division `x2 · z2^(p-2)` at its end. -/
def ladder (k u : Nat) : Nat :=
  let s := (List.range 255).reverse.foldl (step u k) ⟨1, 0, u, 1, 0⟩
  let x2 := if s.swap = 1 then s.x3 else s.x2
  let z2 := if s.swap = 1 then s.z3 else s.z2
  x2 * powMod z2 (p - 2) p % p

/-- the u-coordinate of X25519(k, u). -/
def x25519 (k : Bytes) (u : Nat) : Nat := ladder (decodeScalar k) u

/-- the 32 little-endian bytes of X25519(k, u). -/
def x25519Bytes (k : Bytes) (u : Nat) : Bytes := (be32 (x25519 k u)).reverse

end Verif.C25519.Spec
