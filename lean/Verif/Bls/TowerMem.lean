import Verif.Bls.Mem
import Verif.Bls.GT

/-!
# The field tower of fp2.go, fp6.go and fp12.go on memory

`Verif.Bls.Fp2`, `Verif.Bls.Tower` and `Verif.Bls.GT` model the functions by the values they return.  Here the same functions are lists of base
field operations over a memory of base field elements, with the temporaries of the receivers as locations, so that the output may be the same
object as an input.  Each level is written over the calls of the level below, as in the code.  The `…Assign` functions have the bodies of the
functions of the same name with the output in the place of the first input, and are written as such calls.
-/

namespace Verif.Bls.Mem

open Verif.Bls

/-- locations inside larger elements: component `i` of the element at `l`, or temporary `i` of the receiver `T`. -/
inductive Cell (Λ : Type) where
  | part (l : Λ) (i : Nat)
  | t (T i : Nat)
deriving DecidableEq

/-- code: base field operations over the locations `Λ₁`. -/
abbrev Code (Λ₁ : Type) := List (Ins Λ₁ Fe)

/-- running code. -/
def ex {Λ₁ : Type} [DecidableEq Λ₁] (c : Code Λ₁) (m : Λ₁ → Fe) : Λ₁ → Fe := c.foldl Ins.exec m

theorem ex_append {Λ₁ : Type} [DecidableEq Λ₁] (c d : Code Λ₁) (m : Λ₁ → Fe) : ex (c ++ d) m = ex d (ex c m) := List.foldl_append

theorem ex_nil {Λ₁ : Type} [DecidableEq Λ₁] (m : Λ₁ → Fe) : ex [] m = m := rfl

/-- the calls into fp2.go, with `fe2` objects at the locations `Λ`. -/
structure I2 (Λ Λ₁ : Type) where
  copy : Λ → Λ → Code Λ₁
  add : Λ → Λ → Λ → Code Λ₁
  sub : Λ → Λ → Λ → Code Λ₁
  mul : Λ → Λ → Λ → Code Λ₁
  double : Λ → Λ → Code Λ₁
  neg : Λ → Λ → Code Λ₁
  square : Λ → Λ → Code Λ₁
  nonRes : Λ → Λ → Code Λ₁
  inverse : Λ → Λ → Code Λ₁

/-- the calls into fp6.go. -/
structure I6 (Λ Λ₁ : Type) where
  copy : Λ → Λ → Code Λ₁
  add : Λ → Λ → Λ → Code Λ₁
  sub : Λ → Λ → Λ → Code Λ₁
  mul : Λ → Λ → Λ → Code Λ₁
  double : Λ → Λ → Code Λ₁
  neg : Λ → Λ → Code Λ₁
  square : Λ → Λ → Code Λ₁
  nonRes : Λ → Λ → Code Λ₁
  inverse : Λ → Λ → Code Λ₁

open Cell

variable {Λ Λ₁ : Type}

/-- fp2.go:93-217 with the temporaries of the receiver `T`. -/
def fp2I (bd : Build) (T : Nat) : I2 Λ (Cell Λ) where
  -- fp2.go:93-96
  copy c a := [.un (part c 0) id (part a 0), .un (part c 1) id (part a 1)]
  -- fp2.go:98-106
  add c a b := [.bin (part c 0) Fe.add (part a 0) (part b 0), .bin (part c 1) Fe.add (part a 1) (part b 1)]
  -- fp2.go:129-137
  sub c a b := [.bin (part c 0) Fe.sub (part a 0) (part b 0), .bin (part c 1) Fe.sub (part a 1) (part b 1)]
  -- fp2.go:149-171
  mul c a b := [.bin (t T 1) Fe.mul (part a 0) (part b 0), .bin (t T 2) Fe.mul (part a 1) (part b 1),
    .bin (t T 0) Fe.add (part a 0) (part a 1), .bin (t T 3) Fe.add (part b 0) (part b 1),
    .bin (part c 0) Fe.sub (t T 1) (t T 2), .bin (t T 1) Fe.add (t T 1) (t T 2),
    .bin (t T 0) Fe.mul (t T 0) (t T 3), .bin (part c 1) Fe.sub (t T 0) (t T 1)]
  -- fp2.go:113-121
  double c a := [.un (part c 0) Fe.double (part a 0), .un (part c 1) Fe.double (part a 1)]
  -- fp2.go:139-142
  neg c a := [.un (part c 0) Fe.neg (part a 0), .un (part c 1) Fe.neg (part a 1)]
  -- fp2.go:173-189
  square c a := [.bin (t T 0) Fe.ladd (part a 0) (part a 1), .bin (t T 1) Fe.sub (part a 0) (part a 1),
    .un (t T 2) Fe.ldouble (part a 0), .bin (part c 0) Fe.mul (t T 0) (t T 1), .bin (part c 1) Fe.mul (t T 2) (part a 1)]
  -- fp2.go:191-196
  nonRes c a := [.bin (t T 0) Fe.sub (part a 0) (part a 1), .bin (part c 1) Fe.add (part a 0) (part a 1), .un (part c 0) id (t T 0)]
  -- fp2.go:208-217
  inverse c a := [.un (t T 0) (Fe.square bd) (part a 0), .un (t T 1) (Fe.square bd) (part a 1), .bin (t T 0) Fe.add (t T 0) (t T 1),
    .un (t T 0) Fe.inverse (t T 0), .bin (part c 0) Fe.mul (part a 0) (t T 0), .bin (t T 0) Fe.mul (t T 0) (part a 1),
    .un (part c 1) Fe.neg (t T 0)]

/-- fp6.go:103-340 over the calls `B` into fp2.go, with the temporaries of the receiver `T`. -/
def fp6I (B : I2 (Cell Λ) Λ₁) (T : Nat) : I6 Λ Λ₁ where
  -- fp6.go:103-108
  copy c a := B.copy (part c 0) (part a 0) ++ B.copy (part c 1) (part a 1) ++ B.copy (part c 2) (part a 2)
  -- fp6.go:110-122
  add c a b := B.add (part c 0) (part a 0) (part b 0) ++ B.add (part c 1) (part a 1) (part b 1) ++ B.add (part c 2) (part a 2) (part b 2)
  -- fp6.go:138-150
  sub c a b := B.sub (part c 0) (part a 0) (part b 0) ++ B.sub (part c 1) (part a 1) (part b 1) ++ B.sub (part c 2) (part a 2) (part b 2)
  -- fp6.go:166-220
  mul c a b :=
    B.mul (t T 0) (part a 0) (part b 0) ++
    B.mul (t T 1) (part a 1) (part b 1) ++
    B.mul (t T 2) (part a 2) (part b 2) ++
    B.add (t T 3) (part a 1) (part a 2) ++
    B.add (t T 4) (part b 1) (part b 2) ++
    B.mul (t T 3) (t T 3) (t T 4) ++
    B.add (t T 4) (t T 1) (t T 2) ++
    B.sub (t T 3) (t T 3) (t T 4) ++
    B.nonRes (t T 3) (t T 3) ++
    B.add (t T 5) (t T 0) (t T 3) ++
    B.add (t T 3) (part a 0) (part a 1) ++
    B.add (t T 4) (part b 0) (part b 1) ++
    B.mul (t T 3) (t T 3) (t T 4) ++
    B.add (t T 4) (t T 0) (t T 1) ++
    B.sub (t T 3) (t T 3) (t T 4) ++
    B.nonRes (t T 4) (t T 2) ++
    B.add (part c 1) (t T 3) (t T 4) ++
    B.add (t T 3) (part a 0) (part a 2) ++
    B.add (t T 4) (part b 0) (part b 2) ++
    B.mul (t T 3) (t T 3) (t T 4) ++
    B.add (t T 4) (t T 0) (t T 2) ++
    B.sub (t T 3) (t T 3) (t T 4) ++
    B.add (part c 2) (t T 1) (t T 3) ++
    B.copy (part c 0) (t T 5)
  -- fp6.go:124-136
  double c a := B.double (part c 0) (part a 0) ++ B.double (part c 1) (part a 1) ++ B.double (part c 2) (part a 2)
  -- fp6.go:152-157
  neg c a := B.neg (part c 0) (part a 0) ++ B.neg (part c 1) (part a 1) ++ B.neg (part c 2) (part a 2)
  -- fp6.go:222-241
  square c a :=
    B.square (t T 0) (part a 0) ++
    B.mul (t T 1) (part a 0) (part a 1) ++
    B.double (t T 1) (t T 1) ++
    B.sub (t T 2) (part a 0) (part a 1) ++
    B.add (t T 2) (t T 2) (part a 2) ++
    B.square (t T 2) (t T 2) ++
    B.mul (t T 3) (part a 1) (part a 2) ++
    B.double (t T 3) (t T 3) ++
    B.square (t T 4) (part a 2) ++
    B.nonRes (t T 5) (t T 3) ++
    B.add (part c 0) (t T 0) (t T 5) ++
    B.nonRes (t T 5) (t T 4) ++
    B.add (part c 1) (t T 1) (t T 5) ++
    B.add (t T 1) (t T 1) (t T 2) ++
    B.add (t T 1) (t T 1) (t T 3) ++
    B.add (t T 0) (t T 0) (t T 4) ++
    B.sub (part c 2) (t T 1) (t T 0)
  -- fp6.go:291-297
  nonRes c a :=
    B.copy (t T 0) (part a 0) ++
    B.nonRes (part c 0) (part a 2) ++
    B.copy (part c 2) (part a 1) ++
    B.copy (part c 1) (t T 0)
  -- fp6.go:317-340
  inverse c a :=
    B.square (t T 0) (part a 0) ++
    B.mul (t T 1) (part a 1) (part a 2) ++
    B.nonRes (t T 1) (t T 1) ++
    B.sub (t T 0) (t T 0) (t T 1) ++
    B.square (t T 1) (part a 1) ++
    B.mul (t T 2) (part a 0) (part a 2) ++
    B.sub (t T 1) (t T 1) (t T 2) ++
    B.square (t T 2) (part a 2) ++
    B.nonRes (t T 2) (t T 2) ++
    B.mul (t T 3) (part a 0) (part a 1) ++
    B.sub (t T 2) (t T 2) (t T 3) ++
    B.mul (t T 3) (part a 2) (t T 2) ++
    B.mul (t T 4) (part a 1) (t T 1) ++
    B.add (t T 3) (t T 3) (t T 4) ++
    B.nonRes (t T 3) (t T 3) ++
    B.mul (t T 4) (part a 0) (t T 0) ++
    B.add (t T 3) (t T 3) (t T 4) ++
    B.inverse (t T 3) (t T 3) ++
    B.mul (part c 0) (t T 0) (t T 3) ++
    B.mul (part c 1) (t T 2) (t T 3) ++
    B.mul (part c 2) (t T 1) (t T 3)

/-- the calls of gt.go into fp12.go. -/
structure I12 (Λ Λ₁ : Type) where
  copy : Λ → Λ → Code Λ₁
  add : Λ → Λ → Λ → Code Λ₁
  sub : Λ → Λ → Λ → Code Λ₁
  mul : Λ → Λ → Λ → Code Λ₁
  cycSquare : Λ → Λ → Code Λ₁
  inverse : Λ → Λ → Code Λ₁

/-- fp12.go:209-219 `fp4Square`; `e.t2[i]` is the temporary `6 + i` (0 to 5 are those of fp6.go). -/
def fp4Sq (B : I2 (Cell Λ) Λ₁) (T : Nat) (c0 c1 a0 a1 : Cell Λ) : Code Λ₁ :=
  B.square (t T 6) a0 ++
  B.square (t T 7) a1 ++
  B.nonRes (t T 8) (t T 7) ++
  B.add c0 (t T 8) (t T 6) ++
  B.add (t T 8) a0 a1 ++
  B.square (t T 8) (t T 8) ++
  B.sub (t T 8) (t T 8) (t T 6) ++
  B.sub c1 (t T 8) (t T 7)

/-- fp12.go:104-231 over the calls `B` into fp2.go and `D` into fp6.go. -/
def fp12I (B : I2 (Cell (Cell Λ)) Λ₁) (D : I6 (Cell Λ) Λ₁) (T : Nat) : I12 Λ Λ₁ where
  -- fp12.go:104-108
  copy c a := D.copy (part c 0) (part a 0) ++ D.copy (part c 1) (part a 1)
  -- fp12.go:110-115
  add c a b := D.add (part c 0) (part a 0) (part b 0) ++ D.add (part c 1) (part a 1) (part b 1)
  -- fp12.go:123-128
  sub c a b := D.sub (part c 0) (part a 0) (part b 0) ++ D.sub (part c 1) (part a 1) (part b 1)
  -- fp12.go:181-207
  mul c a b :=
    D.mul (t T 1) (part a 0) (part b 0) ++
    D.mul (t T 2) (part a 1) (part b 1) ++
    D.add (t T 0) (t T 1) (t T 2) ++
    D.nonRes (t T 2) (t T 2) ++
    D.add (t T 3) (t T 1) (t T 2) ++
    D.add (t T 1) (part a 0) (part a 1) ++
    D.add (t T 2) (part b 0) (part b 1) ++
    D.mul (t T 1) (t T 1) (t T 2) ++
    D.copy (part c 0) (t T 3) ++
    D.sub (part c 1) (t T 1) (t T 0)
  -- fp12.go:155-179
  cycSquare c a :=
    fp4Sq B T (t T 9) (t T 10) (part (part a 0) 0) (part (part a 1) 1) ++
    B.sub (t T 8) (t T 9) (part (part a 0) 0) ++
    B.double (t T 8) (t T 8) ++
    B.add (part (part c 0) 0) (t T 8) (t T 9) ++
    B.add (t T 8) (t T 10) (part (part a 1) 1) ++
    B.double (t T 8) (t T 8) ++
    B.add (part (part c 1) 1) (t T 8) (t T 10) ++
    fp4Sq B T (t T 9) (t T 10) (part (part a 1) 0) (part (part a 0) 2) ++
    fp4Sq B T (t T 11) (t T 12) (part (part a 0) 1) (part (part a 1) 2) ++
    B.sub (t T 8) (t T 9) (part (part a 0) 1) ++
    B.double (t T 8) (t T 8) ++
    B.add (part (part c 0) 1) (t T 8) (t T 9) ++
    B.add (t T 8) (t T 10) (part (part a 1) 2) ++
    B.double (t T 8) (t T 8) ++
    B.add (part (part c 1) 2) (t T 8) (t T 10) ++
    B.nonRes (t T 9) (t T 12) ++
    B.add (t T 8) (t T 9) (part (part a 1) 0) ++
    B.double (t T 8) (t T 8) ++
    B.add (part (part c 1) 0) (t T 8) (t T 9) ++
    B.sub (t T 8) (t T 11) (part (part a 0) 2) ++
    B.double (t T 8) (t T 8) ++
    B.add (part (part c 0) 2) (t T 8) (t T 11)
  -- fp12.go:221-231
  inverse c a :=
    D.square (t T 0) (part a 0) ++
    D.square (t T 1) (part a 1) ++
    D.nonRes (t T 1) (t T 1) ++
    D.sub (t T 1) (t T 0) (t T 1) ++
    D.inverse (t T 0) (t T 1) ++
    D.mul (part c 0) (part a 0) (t T 0) ++
    D.mul (t T 0) (t T 0) (part a 1) ++
    D.neg (part c 1) (t T 0)

/-! ## Each level does what the functional model says, whatever objects are the same -/

variable [DecidableEq Λ] [DecidableEq Λ₁]

/-- the element of `fe2` at a location. -/
def v2 (m : Cell Λ → Fe) (l : Λ) : Fe2 := ⟨m (part l 0), m (part l 1)⟩

def v6 (v : (Λ₁ → Fe) → Cell Λ → Fe2) (m : Λ₁ → Fe) (l : Λ) : Fe6 := ⟨v m (part l 0), v m (part l 1), v m (part l 2)⟩

def v12 (v : (Λ₁ → Fe) → Cell Λ → Fe6) (m : Λ₁ → Fe) (l : Λ) : Fe12 := ⟨v m (part l 0), v m (part l 1)⟩

/-- every call writes its value to its destination and leaves the other objects alone. -/
structure I2.Ok (bd : Build) (B : I2 Λ Λ₁) (v : (Λ₁ → Fe) → Λ → Fe2) : Prop where
  copy : ∀ c a m, v (ex (B.copy c a) m) = Function.update (v m) c (v m a)
  add : ∀ c a b m, v (ex (B.add c a b) m) = Function.update (v m) c (Fe2.add (v m a) (v m b))
  sub : ∀ c a b m, v (ex (B.sub c a b) m) = Function.update (v m) c (Fe2.sub (v m a) (v m b))
  mul : ∀ c a b m, v (ex (B.mul c a b) m) = Function.update (v m) c (Fe2.mul (v m a) (v m b))
  double : ∀ c a m, v (ex (B.double c a) m) = Function.update (v m) c (Fe2.double (v m a))
  neg : ∀ c a m, v (ex (B.neg c a) m) = Function.update (v m) c (Fe2.neg (v m a))
  square : ∀ c a m, v (ex (B.square c a) m) = Function.update (v m) c (Fe2.square (v m a))
  nonRes : ∀ c a m, v (ex (B.nonRes c a) m) = Function.update (v m) c (Fe2.mulByNonResidue (v m a))
  inverse : ∀ c a m, v (ex (B.inverse c a) m) = Function.update (v m) c (Fe2.inverse bd (v m a))

structure I6.Ok (bd : Build) (B : I6 Λ Λ₁) (v : (Λ₁ → Fe) → Λ → Fe6) : Prop where
  copy : ∀ c a m, v (ex (B.copy c a) m) = Function.update (v m) c (v m a)
  add : ∀ c a b m, v (ex (B.add c a b) m) = Function.update (v m) c (Fe6.add (v m a) (v m b))
  sub : ∀ c a b m, v (ex (B.sub c a b) m) = Function.update (v m) c (Fe6.sub (v m a) (v m b))
  mul : ∀ c a b m, v (ex (B.mul c a b) m) = Function.update (v m) c (Fe6.mul (v m a) (v m b))
  double : ∀ c a m, v (ex (B.double c a) m) = Function.update (v m) c (Fe6.double (v m a))
  neg : ∀ c a m, v (ex (B.neg c a) m) = Function.update (v m) c (Fe6.neg (v m a))
  square : ∀ c a m, v (ex (B.square c a) m) = Function.update (v m) c (Fe6.square (v m a))
  nonRes : ∀ c a m, v (ex (B.nonRes c a) m) = Function.update (v m) c (Fe6.mulByNonResidue (v m a))
  inverse : ∀ c a m, v (ex (B.inverse c a) m) = Function.update (v m) c (Fe6.inverse bd (v m a))

structure I12.Ok (bd : Build) (B : I12 Λ Λ₁) (v : (Λ₁ → Fe) → Λ → Fe12) : Prop where
  copy : ∀ c a m, v (ex (B.copy c a) m) = Function.update (v m) c (v m a)
  add : ∀ c a b m, v (ex (B.add c a b) m) = Function.update (v m) c (GT.add (v m a) (v m b))
  sub : ∀ c a b m, v (ex (B.sub c a b) m) = Function.update (v m) c (GT.sub (v m a) (v m b))
  mul : ∀ c a b m, v (ex (B.mul c a b) m) = Function.update (v m) c (GT.mul (v m a) (v m b))
  cycSquare : ∀ c a m, v (ex (B.cycSquare c a) m) = Function.update (v m) c (GT.square (v m a))
  inverse : ∀ c a m, v (ex (B.inverse c a) m) = Function.update (v m) c (GT.inverse bd (v m a))

/-- for functions into the elements: the destination and the other objects. -/
theorem eq_update {β : Type} {f f' : Λ → β} {c : Λ} {x : β} (h1 : f' c = x) (h2 : ∀ l, l ≠ c → f' l = f l) : f' = Function.update f c x := by
  funext l
  by_cases e : l = c
  · subst e; rw [h1, Function.update_self]
  · rw [h2 l e, Function.update_of_ne e]

theorem fp2_ok (bd : Build) (T : Nat) : (fp2I bd T : I2 Λ (Cell Λ)).Ok bd v2 where
  copy c a m := by
    refine eq_update ?_ fun l hl => ?_
    · by_cases h1 : c = a <;> simp [v2, ex, fp2I, Ins.exec, h1]
    · simp [v2, ex, fp2I, Ins.exec, hl]
  add c a b m := by
    refine eq_update ?_ fun l hl => ?_
    · by_cases h1 : c = a <;> by_cases h2 : c = b <;> simp [v2, ex, fp2I, Ins.exec, Fe2.add, h1, h2]
    · simp [v2, ex, fp2I, Ins.exec, hl]
  sub c a b m := by
    refine eq_update ?_ fun l hl => ?_
    · by_cases h1 : c = a <;> by_cases h2 : c = b <;> simp [v2, ex, fp2I, Ins.exec, Fe2.sub, h1, h2]
    · simp [v2, ex, fp2I, Ins.exec, hl]
  mul c a b m := by
    refine eq_update ?_ fun l hl => ?_
    · by_cases h1 : c = a <;> by_cases h2 : c = b <;> simp [v2, ex, fp2I, Ins.exec, Fe2.mul, h1, h2]
    · simp [v2, ex, fp2I, Ins.exec, hl]
  double c a m := by
    refine eq_update ?_ fun l hl => ?_
    · by_cases h1 : c = a <;> simp [v2, ex, fp2I, Ins.exec, Fe2.double, h1]
    · simp [v2, ex, fp2I, Ins.exec, hl]
  neg c a m := by
    refine eq_update ?_ fun l hl => ?_
    · by_cases h1 : c = a <;> simp [v2, ex, fp2I, Ins.exec, Fe2.neg, h1]
    · simp [v2, ex, fp2I, Ins.exec, hl]
  square c a m := by
    refine eq_update ?_ fun l hl => ?_
    · by_cases h1 : c = a <;> simp [v2, ex, fp2I, Ins.exec, Fe2.square, h1]
    · simp [v2, ex, fp2I, Ins.exec, hl]
  nonRes c a m := by
    refine eq_update ?_ fun l hl => ?_
    · by_cases h1 : c = a <;> simp [v2, ex, fp2I, Ins.exec, Fe2.mulByNonResidue, h1]
    · simp [v2, ex, fp2I, Ins.exec, hl]
  inverse c a m := by
    refine eq_update ?_ fun l hl => ?_
    · by_cases h1 : c = a <;> simp [v2, ex, fp2I, Ins.exec, Fe2.inverse, h1]
    · simp [v2, ex, fp2I, Ins.exec, hl]

theorem fp6_ok (bd : Build) (T : Nat) {B : I2 (Cell Λ) Λ₁} {v : (Λ₁ → Fe) → Cell Λ → Fe2} (h : B.Ok bd v) :
    (fp6I B T).Ok bd (v6 v) where
  copy c a m := by
    refine eq_update ?_ fun l hl => ?_
    · by_cases h1 : c = a <;> simp [v6, fp6I, ex_append, h.copy, h1]
    · simp [v6, fp6I, ex_append, h.copy, hl]
  add c a b m := by
    refine eq_update ?_ fun l hl => ?_
    · by_cases h1 : c = a <;> by_cases h2 : c = b <;> simp [v6, fp6I, ex_append, h.add, Fe6.add, h1, h2]
    · simp [v6, fp6I, ex_append, h.add, hl]
  sub c a b m := by
    refine eq_update ?_ fun l hl => ?_
    · by_cases h1 : c = a <;> by_cases h2 : c = b <;> simp [v6, fp6I, ex_append, h.sub, Fe6.sub, h1, h2]
    · simp [v6, fp6I, ex_append, h.sub, hl]
  mul c a b m := by
    refine eq_update ?_ fun l hl => ?_
    · by_cases h1 : c = a <;> by_cases h2 : c = b <;>
        simp [v6, fp6I, ex_append, h.copy, h.add, h.sub, h.mul, h.nonRes, Fe6.mul, h1, h2]
    · simp [v6, fp6I, ex_append, h.copy, h.add, h.sub, h.mul, h.nonRes, hl]
  double c a m := by
    refine eq_update ?_ fun l hl => ?_
    · by_cases h1 : c = a <;> simp [v6, fp6I, ex_append, h.double, Fe6.double, h1]
    · simp [v6, fp6I, ex_append, h.double, hl]
  neg c a m := by
    refine eq_update ?_ fun l hl => ?_
    · by_cases h1 : c = a <;> simp [v6, fp6I, ex_append, h.neg, Fe6.neg, h1]
    · simp [v6, fp6I, ex_append, h.neg, hl]
  square c a m := by
    refine eq_update ?_ fun l hl => ?_
    · by_cases h1 : c = a <;>
        simp [v6, fp6I, ex_append, h.square, h.mul, h.double, h.sub, h.add, h.nonRes, Fe6.square, h1]
    · simp [v6, fp6I, ex_append, h.square, h.mul, h.double, h.sub, h.add, h.nonRes, hl]
  nonRes c a m := by
    refine eq_update ?_ fun l hl => ?_
    · by_cases h1 : c = a <;> simp [v6, fp6I, ex_append, h.copy, h.nonRes, Fe6.mulByNonResidue, h1]
    · simp [v6, fp6I, ex_append, h.copy, h.nonRes, hl]
  inverse c a m := by
    refine eq_update ?_ fun l hl => ?_
    · by_cases h1 : c = a <;>
        simp [v6, fp6I, ex_append, h.square, h.mul, h.sub, h.add, h.nonRes, h.inverse, Fe6.inverse, h1]
    · simp [v6, fp6I, ex_append, h.square, h.mul, h.sub, h.add, h.nonRes, h.inverse, hl]

theorem fp12_ok (bd : Build) (T : Nat) {B : I2 (Cell (Cell Λ)) Λ₁} {v : (Λ₁ → Fe) → Cell (Cell Λ) → Fe2} (h : B.Ok bd v)
    {D : I6 (Cell Λ) Λ₁} (k : D.Ok bd (v6 v)) : (fp12I B D T).Ok bd (v12 (v6 v)) where
  copy c a m := by
    refine eq_update ?_ fun l hl => ?_
    · by_cases h1 : c = a <;> simp [v12, fp12I, ex_append, k.copy, h1]
    · simp [v12, fp12I, ex_append, k.copy, hl]
  add c a b m := by
    refine eq_update ?_ fun l hl => ?_
    · by_cases h1 : c = a <;> by_cases h2 : c = b <;> simp [v12, fp12I, ex_append, k.add, GT.add, Fe12.add, h1, h2]
    · simp [v12, fp12I, ex_append, k.add, hl]
  sub c a b m := by
    refine eq_update ?_ fun l hl => ?_
    · by_cases h1 : c = a <;> by_cases h2 : c = b <;> simp [v12, fp12I, ex_append, k.sub, GT.sub, Fe12.sub, h1, h2]
    · simp [v12, fp12I, ex_append, k.sub, hl]
  mul c a b m := by
    refine eq_update ?_ fun l hl => ?_
    · by_cases h1 : c = a <;> by_cases h2 : c = b <;>
        simp [v12, fp12I, ex_append, k.copy, k.add, k.sub, k.mul, k.nonRes, GT.mul, Fe12.mul, h1, h2]
    · simp [v12, fp12I, ex_append, k.copy, k.add, k.sub, k.mul, k.nonRes, hl]
  cycSquare c a m := by
    refine eq_update ?_ fun l hl => ?_
    · by_cases h1 : c = a <;>
        simp [v12, v6, fp12I, fp4Sq, ex_append, h.square, h.double, h.add, h.sub, h.nonRes, GT.square, Fe12.cyclotomicSquare, Fe12.fp4Square, h1]
    · simp [v12, v6, fp12I, fp4Sq, ex_append, h.square, h.double, h.add, h.sub, h.nonRes, hl]
  inverse c a m := by
    refine eq_update ?_ fun l hl => ?_
    · by_cases h1 : c = a <;>
        simp [v12, fp12I, ex_append, k.square, k.mul, k.sub, k.neg, k.nonRes, k.inverse, GT.inverse, Fe12.inverse, h1]
    · simp [v12, fp12I, ex_append, k.square, k.mul, k.sub, k.neg, k.nonRes, k.inverse, hl]

end Verif.Bls.Mem
