import Mathlib.Data.ZMod.Basic

/-!
# The division step of Bernstein and Yang (specification)

D. J. Bernstein, B.-Y. Yang, "Fast constant-time gcd computation and modular inversion", 2019, section 8, as repeated in the comments at
pasta/pasta_fp.go:1485-1513.  (The comment there has `arg4 - arg4` where the paper has `arg5 - arg4`.)
-/

namespace Verif.Pasta.DivStepSpec

/-- the integers of a division step, and the two residues that follow them. -/
structure St (m : ℕ) where
  δ : ℤ
  f : ℤ
  g : ℤ
  v : ZMod m
  r : ZMod m
deriving DecidableEq

/-- one step; `/` is the floor and `%` the remainder in {0, 1}. -/
def step {m : ℕ} (s : St m) : St m :=
  if 0 < s.δ ∧ s.g % 2 = 1 then ⟨1 - s.δ, s.g, (s.g - s.f) / 2, 2 * s.r, s.r - s.v⟩
  else ⟨1 + s.δ, s.f, (s.g + (s.g % 2) * s.f) / 2, 2 * s.v, s.r + (s.g % 2 : ℤ) * s.v⟩

/-- the start of the inversion of `a`. -/
def init (m : ℕ) (a : ℕ) : St m := ⟨1, m, a, 0, 1⟩

/-- `n` steps. -/
def steps {m : ℕ} : ℕ → St m → St m
  | 0, s => s
  | n + 1, s => step (steps n s)

end Verif.Pasta.DivStepSpec
