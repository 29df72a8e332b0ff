import Mathlib.Logic.Function.Basic

/-!
# Straight-line code with tests over a memory

The memory maps locations `Λ` to values `α`; it is used for field elements of the different fields.
-/

namespace Verif.Bls.Mem

/-- one statement: an operation with destination and operands, or the store of a constant. -/
inductive Ins (Λ α : Type) where
  | un (d : Λ) (f : α → α) (a : Λ)
  | bin (d : Λ) (f : α → α → α) (a b : Λ)
  | const (d : Λ) (c : α)

/-- a call: statements and tests. -/
inductive Prog (Λ α : Type) where
  | done
  | ins (i : Ins Λ α) (k : Prog Λ α)
  | test1 (f : α → Bool) (a : Λ) (kt kf : Prog Λ α)
  | test2 (f : α → α → Bool) (a b : Λ) (kt kf : Prog Λ α)

variable {Λ α : Type} [DecidableEq Λ]

/-- the operands are read, then the destination is written. -/
def Ins.exec (m : Λ → α) : Ins Λ α → Λ → α
  | .un d f a => Function.update m d (f (m a))
  | .bin d f a b => Function.update m d (f (m a) (m b))
  | .const d c => Function.update m d c

/-- the memory at the end. -/
def Prog.run : Prog Λ α → (Λ → α) → Λ → α
  | .done, m => m
  | .ins i k, m => k.run (i.exec m)
  | .test1 f a kt kf, m => if f (m a) then kt.run m else kf.run m
  | .test2 f a b kt kf, m => if f (m a) (m b) then kt.run m else kf.run m

omit [DecidableEq Λ] in
/-- statements one after the other. -/
def seq (l : List (Ins Λ α)) (k : Prog Λ α) : Prog Λ α := l.foldr .ins k

theorem run_seq (l : List (Ins Λ α)) (k : Prog Λ α) (m : Λ → α) : (seq l k).run m = k.run (l.foldl Ins.exec m) := by
  induction l generalizing m with
  | nil => rfl
  | cons i l ih => exact ih _

end Verif.Bls.Mem
