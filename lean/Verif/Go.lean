import Verif.Bytes

/-!
# Go control flow: results that may panic, slices, return codes
-/

namespace Verif

/-- a Go call either returns or panics (nil dereference, slice out of range). -/
inductive Go (α : Type) where
  | ret (a : α)
  | panic
  deriving Repr, DecidableEq

namespace Go

instance : Monad Go where
  pure a := .ret a
  bind x f := match x with
    | .ret a => f a
    | .panic => .panic

@[simp] theorem pure_eq {α : Type} (a : α) : (pure a : Go α) = .ret a := rfl
@[simp] theorem ret_bind {α β : Type} (a : α) (f : α → Go β) : (Go.ret a >>= f) = f a := rfl
@[simp] theorem panic_bind {α β : Type} (f : α → Go β) : (Go.panic >>= f) = .panic := rfl

end Go

/-- the slice expression `b[i:]`, which panics when `i > len(b)`. -/
def sliceFrom (b : Bytes) (i : Nat) : Go Bytes := if i ≤ b.length then .ret (b.drop i) else .panic

/-- the slice expression `b[:i]`.  Go bounds it by the capacity; here `cap = len` is assumed, so a
too short slice panics. -/
def sliceTo (b : Bytes) (i : Nat) : Go Bytes := if i ≤ b.length then .ret (b.take i) else .panic

/-- a nil `*big.Int` dereference. -/
def deref {α : Type} : Option α → Go α
  | some a => .ret a
  | none => .panic

/-! profile.go return codes -/
/-- profile.go `SUCCESS` -/
def SUCCESS : Nat := 0x0001
/-- profile.go `FAILURE` -/
def FAILURE : Nat := 0x0000
/-- profile.go `ECC_PRIKEY_ILLEGAL` -/
def ECC_PRIKEY_ILLEGAL : Nat := 0xE000
/-- profile.go `ECC_PUBKEY_ILLEGAL` -/
def ECC_PUBKEY_ILLEGAL : Nat := 0xE001
/-- profile.go `ECC_WRONG_TYPE` -/
def ECC_WRONG_TYPE : Nat := 0xE002
/-- profile.go `ECC_MISS_ID` -/
def ECC_MISS_ID : Nat := 0xE003
/-- profile.go `RAND_IS_NULL` -/
def RAND_IS_NULL : Nat := 0xE004
/-- profile.go `LENGTH_ERROR` -/
def LENGTH_ERROR : Nat := 0xE005
/-- profile.go `POINT_AT_INFINITY` -/
def POINT_AT_INFINITY : Nat := 0xE006
/-- profile.go `MESSAGE_ILLEGAL` -/
def MESSAGE_ILLEGAL : Nat := 0xE007

/-- the package's error values (ecdsa.go:31-36); `other` stands for every `errors.New` value created
elsewhere, which never compares equal to the package-level ones. -/
inductive Err where
  | privateKeyIllegal | unknownCurve | messageIllegal | publicKeyIllegal | other
  deriving Repr, DecidableEq

end Verif
