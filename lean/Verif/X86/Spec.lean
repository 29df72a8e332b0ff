import Verif.Bls.FeLemmas
import Verif.X86.Machine

/-!
# Specification for the assembly: what a call leaves in memory, and when the multiplications are exact
-/

namespace Verif.X86

open Verif.Bls

/-- the field element that the pointer `p` points to. -/
def load (m : UInt64 → UInt64) (p : UInt64) : Fe := ⟨m (p + 0), m (p + 8), m (p + 16), m (p + 24), m (p + 32), m (p + 40)⟩

/-- from `s` to `s'` the six words at `p` have become `r` and no other word of the memory has changed. -/
def Writes (s s' : St) (p : UInt64) (r : Fe) : Prop :=
  load s'.mem p = r ∧
  ∀ q, q ≠ p + 0 → q ≠ p + 8 → q ≠ p + 16 → q ≠ p + 24 → q ≠ p + 32 → q ≠ p + 40 → s'.mem q = s.mem q

/-- word `i` of a number. -/
def wordAt (n i : ℕ) : ℕ := n / 2 ^ (64 * i) % 2 ^ 64

/-- `-1/Q` modulo `2^384`. -/
def negInv : ℕ :=
  0xceb06106feaafc9468b316fee268cf5819ecca0e8eb2db4c16ef2ef0c8e30b48286adb92d9d113e889f3fffcfffcfffd

/-- the multiple of `Q` that clears the `i` lowest words of `t` is `quot t i * Q` (`i ≤ 6`). -/
def quot (t i : ℕ) : ℕ := t * negInv % 2 ^ (64 * i)

/-- Montgomery multiplication of numbers whose product is `t` never adds, on the way, a multiple of `Q` that carries out of word
`i + 5` and leaves 0 or 1 in that word. -/
def NoLostCarry (t : ℕ) : Prop :=
  ∀ i, 1 ≤ i → i ≤ 5 →
    (t + quot t i * Q) / 2 ^ (64 * (i + 6)) = t / 2 ^ (64 * (i + 6)) ∨ 2 ≤ wordAt (t + quot t i * Q) (i + 5)

/-- no word of the Montgomery quotient of `t` is 1. -/
def NoUnitQuotient (t : ℕ) : Prop := ∀ i, i < 6 → wordAt (quot t 6) i ≠ 1

instance (t : ℕ) : Decidable (NoUnitQuotient t) :=
  decidable_of_iff (∀ i : Fin 6, wordAt (quot t 6) i ≠ 1) ⟨fun h i hi => h ⟨i, hi⟩, fun h i => h i i.2⟩

instance (t : ℕ) : Decidable (NoLostCarry t) :=
  decidable_of_iff (∀ i : Fin 5,
    (t + quot t (i.1 + 1) * Q) / 2 ^ (64 * ((i.1 + 1) + 6)) = t / 2 ^ (64 * ((i.1 + 1) + 6)) ∨
      2 ≤ wordAt (t + quot t (i.1 + 1) * Q) ((i.1 + 1) + 5))
    ⟨fun h i h1 h2 => by
      obtain ⟨j, rfl⟩ : ∃ j, i = j + 1 := ⟨i - 1, by omega⟩
      exact h ⟨j, by omega⟩,
     fun h i => h (i.1 + 1) (by omega) (by omega)⟩

end Verif.X86
