import Mathlib.Algebra.Group.Basic
import Mathlib.Algebra.Field.Defs
import Mathlib.Logic.Function.Basic

/-!
# Specification: calls on point objects as assignments

Objects are numbered.  A store says which group element each object holds, and a call is an assignment to one object.
-/

namespace Verif.Bls.Spec

/-- a call of the point API; the first argument is the destination, and the same object may be named several times. -/
inductive Call where
  | copy (r p : Nat)
  | add (r a b : Nat)
  | sub (r a b : Nat)
  | dbl (r p : Nat)
  | neg (r p : Nat)
  | mul (r p e : Nat)
  | affine (p : Nat)

/-- the object a call writes. -/
def Call.dest : Call → Nat
  | copy r _ | add r _ _ | sub r _ _ | dbl r _ | neg r _ | mul r _ _ | affine r => r

/-- the objects a call is given. -/
def Call.args : Call → List Nat
  | copy r p | dbl r p | neg r p | mul r p _ => [r, p]
  | add r a b | sub r a b => [r, a, b]
  | affine p => [p]

variable {G : Type} [AddCommGroup G]

/-- the value a call assigns to its destination. -/
def Call.value (σ : Nat → G) : Call → G
  | copy _ p => σ p
  | add _ a b => σ a + σ b
  | sub _ a b => σ a - σ b
  | dbl _ p => σ p + σ p
  | neg _ p => -σ p
  | mul _ p e => e • σ p
  | affine p => σ p

/-- the store after a call. -/
def Call.assign (σ : Nat → G) (c : Call) : Nat → G := Function.update σ c.dest (c.value σ)

/-- the store after a sequence of calls. -/
def assigns (σ : Nat → G) (cs : List Call) : Nat → G := cs.foldl Call.assign σ

/-- a call of the target group API. -/
inductive CallT where
  | copy (c a : Nat)
  | add (c a b : Nat)
  | sub (c a b : Nat)
  | mul (c a b : Nat)
  | square (c a : Nat)
  | exp (c a s : Nat)
  | inverse (c a : Nat)

def CallT.dest : CallT → Nat
  | copy c _ | add c _ _ | sub c _ _ | mul c _ _ | square c _ | exp c _ _ | inverse c _ => c

/-- the objects a call names. -/
def CallT.args : CallT → List Nat
  | copy c a | square c a | exp c a _ | inverse c a => [c, a]
  | add c a b | sub c a b | mul c a b => [c, a, b]

variable {K : Type} [Field K]

def CallT.value (σ : Nat → K) : CallT → K
  | copy _ a => σ a
  | add _ a b => σ a + σ b
  | sub _ a b => σ a - σ b
  | mul _ a b => σ a * σ b
  | square _ a => σ a ^ 2
  | exp _ a s => σ a ^ s
  | inverse _ a => (σ a)⁻¹

def CallT.assign (σ : Nat → K) (c : CallT) : Nat → K := Function.update σ c.dest (c.value σ)

def assignsT (σ : Nat → K) (cs : List CallT) : Nat → K := cs.foldl CallT.assign σ

/-- `Square` and `Exp` are only called on elements of order dividing `r`, for which they are meant. -/
def LegalT (r : Nat) (σ : Nat → K) : List CallT → Prop
  | [] => True
  | c :: cs => (match c with
      | .square _ a => σ a ^ r = 1
      | .exp _ a _ => σ a ^ r = 1
      | _ => True) ∧ LegalT r (c.assign σ) cs

end Verif.Bls.Spec
