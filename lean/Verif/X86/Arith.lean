import Verif.X86.Code
import Mathlib.Tactic.LinearCombination
import Mathlib.Tactic.Ring

/-!
# Integer equations for the instructions, and the tactic that executes one of them
-/

namespace Verif.X86

theorem run_cons (i : Instr) (is : List Instr) (s : St) : run (i :: is) s = run is (step i s) := rfl

theorem run_nil (s : St) : run [] s = s := rfl

open Lean in
/-- executes one instruction in the hypothesis `hs : run (i :: is) ⟨…⟩ = s`. -/
macro "xstep" : tactic => `(tactic| (
  rw [run_cons] at $(mkIdent `hs):ident
  simp only [step, Opd.get, Opd.set, Reg.get, Reg.set, UInt64.xor_self, Bool.false_eq_true,
    ↓reduceIte] at $(mkIdent `hs):ident))

/-- the number in a word. -/
def z (x : UInt64) : ℤ := x.toNat

/-- the number in a flag. -/
def zb (c : Bool) : ℤ := c.toNat

theorem z_zero : z 0 = 0 := rfl

theorem zb_false : zb false = 0 := rfl

theorem zb_true : zb true = 1 := rfl

theorem z_bnd (x : UInt64) : 0 ≤ z x ∧ z x ≤ 18446744073709551615 := by
  have := x.toNat_lt
  unfold z
  omega

theorem zb_bnd (c : Bool) : 0 ≤ zb c ∧ zb c ≤ 1 := by cases c <;> decide

theorem addW_specZ (x y : UInt64) (c : Bool) :
    z (addW x y c) + 18446744073709551616 * zb (addC x y c) = z x + z y + zb c := by
  have := addW_spec x y c
  unfold z zb
  omega

theorem subW_specZ (x y : UInt64) (c : Bool) :
    z (subW x y c) + z y + zb c = z x + 18446744073709551616 * zb (subC x y c) := by
  have := subW_spec x y c
  unfold z zb
  omega

theorem mul_specZ (x y : UInt64) : z (mulLo x y) + 18446744073709551616 * z (mulHi x y) = z x * z y := by
  have := mul_spec x y
  unfold z
  exact_mod_cast this

theorem mulLo_comm (x y : UInt64) : mulLo x y = mulLo y x := UInt64.mul_comm x y

theorem z_mul_le (x y : UInt64) : 0 ≤ z x * z y ∧ z x * z y ≤ 18446744073709551615 * 18446744073709551615 := by
  obtain ⟨a, b⟩ := z_bnd x
  obtain ⟨c, d⟩ := z_bnd y
  exact ⟨mul_nonneg a c, mul_le_mul b d c (by decide)⟩

theorem mulHi_le (x y : UInt64) : z (mulHi x y) ≤ 18446744073709551614 ∧ z (mulHi x y) ≤ z x ∧ z (mulHi x y) ≤ z y := by
  have h := mul_specZ x y
  have h1 := z_mul_le x y
  have h2 := z_bnd (mulLo x y)
  have hx := z_bnd x
  have hy := z_bnd y
  have h3 : z x * z y ≤ z x * 18446744073709551615 := mul_le_mul_of_nonneg_left hy.2 hx.1
  have h4 : z x * z y ≤ 18446744073709551615 * z y := mul_le_mul_of_nonneg_right hx.2 hy.1
  omega

theorem mul_sum6 (v a b c d e f : ℤ) : v * (a + 2 ^ 64 * b + 2 ^ 128 * c + 2 ^ 192 * d + 2 ^ 256 * e + 2 ^ 320 * f) =
    v * a + 2 ^ 64 * (v * b) + 2 ^ 128 * (v * c) + 2 ^ 192 * (v * d) + 2 ^ 256 * (v * e) + 2 ^ 320 * (v * f) := by ring

theorem z_l0 : z Bls.modulus.l0 = 13402431016077863595 := rfl
theorem z_l1 : z Bls.modulus.l1 = 2210141511517208575 := rfl
theorem z_l2 : z Bls.modulus.l2 = 7435674573564081700 := rfl
theorem z_l3 : z Bls.modulus.l3 = 7239337960414712511 := rfl
theorem z_l4 : z Bls.modulus.l4 = 5412103778470702295 := rfl
theorem z_l5 : z Bls.modulus.l5 = 1873798617647539866 := rfl
theorem z_c0 : z 0xb9feffffffffaaab = 13402431016077863595 := rfl
theorem z_c1 : z 0x1eabfffeb153ffff = 2210141511517208575 := rfl
theorem z_c2 : z 0x6730d2a0f6b0f624 = 7435674573564081700 := rfl
theorem z_c3 : z 0x64774b84f38512bf = 7239337960414712511 := rfl
theorem z_c4 : z 0x4b1ba7b6434bacd7 = 5412103778470702295 := rfl
theorem z_c5 : z 0x1a0111ea397fe69a = 1873798617647539866 := rfl

/-- the quotient word clears the lowest word. -/
theorem quot_spec (w : UInt64) : (z w + 13402431016077863595 * z (mulLo w Bls.inp)) % 18446744073709551616 = 0 := by
  have h : mulLo w Bls.inp = w * Bls.inp := rfl
  have hi : Bls.inp.toNat = 9940570264628428797 := rfl
  unfold z
  rw [h, UInt64.toNat_mul, hi]
  omega

theorem lowest_zero {w w' lo hi q : UInt64} {c : Bool}
    (em : z lo + 18446744073709551616 * z hi = z q * 13402431016077863595)
    (ea : z w' + 18446744073709551616 * zb c = z w + z lo)
    (hq : (z w + 13402431016077863595 * z q) % 18446744073709551616 = 0) : z w' = 0 := by
  have := z_bnd w'
  omega

/-- unless the quotient word is 1, `hi ≠ 0` is the carry out of the lowest word. -/
theorem quot_carry (w : UInt64) (hne : mulLo w Bls.inp ≠ 1) :
    18446744073709551616 * (z (mulHi Bls.modulus.l0 (mulLo w Bls.inp)) + zb (mulHi Bls.modulus.l0 (mulLo w Bls.inp) != 0)) =
      z w + 13402431016077863595 * z (mulLo w Bls.inp) := by
  have hq := quot_spec w
  have h1 : z (mulLo w Bls.inp) ≠ 1 := by
    intro h
    apply hne
    apply UInt64.toNat_inj.mp
    unfold z at h
    have : (mulLo w Bls.inp).toNat = 1 := by omega
    simpa using this
  have hw : z w = 0 → z (mulLo w Bls.inp) = 0 := by
    intro h
    have : w = 0 := UInt64.toNat_inj.mp (by unfold z at h; simpa using h)
    rw [this]
    rfl
  generalize mulLo w Bls.inp = q at *
  have e := mul_specZ Bls.modulus.l0 q
  rw [z_l0] at e
  have hg : (mulHi Bls.modulus.l0 q != 0) = decide (z (mulHi Bls.modulus.l0 q) ≠ 0) := by
    by_cases h : mulHi Bls.modulus.l0 q = 0
    · rw [h]; decide
    · have : z (mulHi Bls.modulus.l0 q) ≠ 0 := by
        intro h'
        apply h
        apply UInt64.toNat_inj.mp
        unfold z at h'
        have : (mulHi Bls.modulus.l0 q).toNat = 0 := by omega
        simpa using this
      simp [h, this]
  rw [hg]
  generalize mulHi Bls.modulus.l0 q = g at *
  generalize mulLo Bls.modulus.l0 q = l at *
  clear hg hne
  have bw := z_bnd w; have bq := z_bnd q; have bg := z_bnd g; have bl := z_bnd l
  by_cases w0 : z w = 0
  · have q0 := hw w0
    have g0 : z g = 0 := by rw [q0] at e; clear hq; omega
    simp only [g0, w0, q0, ne_eq, not_true, decide_false, zb_false]; decide
  · have hl : z w + z l = 18446744073709551616 := by rw [← e] at hq; clear h1 hw e bq; omega
    clear hq hw
    by_cases h0 : z g = 0
    · exfalso; clear bg; rw [h0] at e; omega
    · simp only [h0, ne_eq, not_false_eq_true, decide_true, zb_true]; clear h1 h0; omega

/-- if the quotient word is 1, `hi ≠ 0` misses the carry out of the lowest word. -/
theorem quot_carry' (w : UInt64) :
    18446744073709551616 * (z (mulHi Bls.modulus.l0 (mulLo w Bls.inp)) + zb (mulHi Bls.modulus.l0 (mulLo w Bls.inp) != 0) +
      zb (mulLo w Bls.inp == 1)) = z w + 13402431016077863595 * z (mulLo w Bls.inp) := by
  by_cases h : mulLo w Bls.inp = 1
  · have hq := quot_spec w
    have bw := z_bnd w
    rw [h] at hq ⊢
    have e1 : mulHi Bls.modulus.l0 1 = 0 := by decide +kernel
    have e2 : ((1 : UInt64) == 1) = true := by decide
    have e3 : ((0 : UInt64) != 0) = false := by decide
    have z1 : z 1 = 1 := rfl
    rw [e1, e2, e3, z_zero, zb_false, zb_true, z1]
    rw [z1] at hq
    omega
  · have e2 : (mulLo w Bls.inp == 1) = false := by simpa using h
    rw [e2, zb_false, add_zero]
    exact quot_carry w h

/-- the memory after six words have been stored at `p`. -/
def store6 (m : UInt64 → UInt64) (p x0 x1 x2 x3 x4 x5 : UInt64) : UInt64 → UInt64 :=
  fun q => if q = p + 40 then x5 else (fun q => if q = p + 32 then x4 else (fun q => if q = p + 24 then x3 else
    (fun q => if q = p + 16 then x2 else (fun q => if q = p + 8 then x1 else (fun q => if q = p + 0 then x0 else m q) q) q) q) q) q

end Verif.X86
