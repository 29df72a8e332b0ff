import Mathlib.Data.ZMod.Basic
import Mathlib.Data.Int.GCD
import Mathlib.Tactic.LinearCombination
import Verif.Primes.Pratt

/-!
# The parts of `math/big` the repo relies on

`*big.Int` is modelled by `Int`; Go's `Mod` is Euclidean, hence Lean's `%` on `Int`.
-/

namespace Verif

/-- extended Euclid: invariant `s_i * g ≡ r_i (mod n)`. -/
def egcd : Nat → Int → Int → Int → Int → Int × Int
  | 0, r0, s0, _, _ => (r0, s0)
  | f + 1, r0, s0, r1, s1 =>
    if r1 = 0 then (r0, s0) else egcd f r1 s1 (r0 % r1) (s0 - r0 / r1 * s1)

/-- `new(big.Int).ModInverse(g, n)` (math/big) for `n > 0`: the inverse in `[0, n)`, `none` (Go: nil)
if `g` and `n` are not coprime. -/
def modInverse (g n : Int) : Option Int :=
  let r := egcd (n.toNat + 1) n 0 (g % n) 1
  if r.1 = 1 then some (r.2 % n) else none

/-- `new(big.Int).Exp(x, e, m)` for `e ≥ 0`, `m > 0`. -/
def modExp (x : Int) (e m : Nat) : Int := (powMod (x % m).toNat e m : Nat)

/-- `new(big.Int).ModSqrt(x, p)` for a prime `p ≡ 3 (mod 4)`: Go computes `x^((p+1)/4) mod p` when the
Jacobi symbol is not -1 and returns nil otherwise.  For prime `p` the symbol is -1 exactly when the
candidate does not square to `x`, which is how the failure case is expressed here. -/
def modSqrt3 (x p : Nat) : Option Nat :=
  let c := powMod x ((p + 1) / 4) p
  if c * c % p = x % p then some c else none

theorem egcd_inv (g n : Int) (f : Nat) (r0 s0 r1 s1 : Int)
    (h0 : n ∣ s0 * g - r0) (h1 : n ∣ s1 * g - r1) :
    n ∣ (egcd f r0 s0 r1 s1).2 * g - (egcd f r0 s0 r1 s1).1 := by
  induction f generalizing r0 s0 r1 s1 with
  | zero => exact h0
  | succ f ih =>
    unfold egcd
    split
    · exact h0
    · apply ih _ _ _ _ h1
      have : (s0 - r0 / r1 * s1) * g - r0 % r1 = (s0 * g - r0) - r0 / r1 * (s1 * g - r1) := by
        have := Int.mul_ediv_add_emod r0 r1
        linear_combination -this
      rw [this]
      exact dvd_sub h0 (Dvd.dvd.mul_left h1 _)

theorem int_gcd_emod (a b : Int) : Int.gcd b (a % b) = Int.gcd b a := by
  conv_rhs => rw [← Int.mul_ediv_add_emod a b]
  rw [add_comm]
  exact (Int.gcd_add_mul_left_right _ _ _).symm

theorem egcd_gcd (f : Nat) (r0 s0 r1 s1 : Int) (h1 : 0 ≤ r1) (h0 : 0 ≤ r0) (hf : r1 < f) :
    (egcd f r0 s0 r1 s1).1 = Int.gcd r0 r1 := by
  induction f generalizing r0 s0 r1 s1 with
  | zero => simp at hf; omega
  | succ f ih =>
    unfold egcd
    split
    · rename_i h; subst h; simp [abs_of_nonneg h0]
    · rename_i h
      have hpos : 0 < r1 := by omega
      have hlt := Int.emod_lt_of_pos r0 hpos
      rw [ih _ _ _ _ (Int.emod_nonneg _ h) h1 (by push_cast at hf; omega)]
      rw [Int.gcd_comm r0 r1, int_gcd_emod]

theorem modInverse_eq_some {g n x : Int} (hn : 0 < n) (h : modInverse g n = some x) :
    0 ≤ x ∧ x < n ∧ n ∣ x * g - 1 := by
  unfold modInverse at h
  simp only at h
  split at h
  · rename_i h1
    simp only [Option.some.injEq] at h
    subst h
    refine ⟨Int.emod_nonneg _ hn.ne', Int.emod_lt_of_pos _ hn, ?_⟩
    have hinv := egcd_inv g n (n.toNat + 1) n 0 (g % n) 1 (by simp) (by
      rw [one_mul]; exact Int.dvd_self_sub_emod)
    rw [h1] at hinv
    have h2 := @Int.dvd_self_sub_emod (egcd (n.toNat + 1) n 0 (g % n) 1).2 n
    have := dvd_sub hinv (Dvd.dvd.mul_right h2 g)
    have e : ∀ a b : ℤ, a * g - 1 - (a - b) * g = b * g - 1 := fun a b => by ring
    rwa [e] at this
  · cases h

theorem modInverse_isSome {g n : Int} (hn : 0 < n) (h : Int.gcd g n = 1) :
    ∃ x, modInverse g n = some x := by
  unfold modInverse
  have := egcd_gcd (n.toNat + 1) n 0 (g % n) 1 (Int.emod_nonneg _ hn.ne') hn.le (by
    have := Int.emod_lt_of_pos g hn; omega)
  have hg : Int.gcd n (g % n) = 1 := by
    rw [int_gcd_emod, Int.gcd_comm, h]
  rw [hg] at this
  simp only
  rw [if_pos (by rw [this]; rfl)]
  exact ⟨_, rfl⟩

/-- over a prime modulus, `ModInverse` never fails on non-zero residues and is the field inverse. -/
theorem modInverse_prime {p : ℕ} [hp : Fact p.Prime] {g : Int} (hg : (g : ZMod p) ≠ 0) :
    ∃ x : Int, modInverse g p = some x ∧ 0 ≤ x ∧ x < p ∧ (x : ZMod p) = (g : ZMod p)⁻¹ := by
  have hpos : (0 : Int) < p := by exact_mod_cast hp.out.pos
  have hcop : Int.gcd g p = 1 := by
    rw [Int.gcd_comm]
    have : ¬ (p : ℤ) ∣ g := by rwa [Ne, ZMod.intCast_zmod_eq_zero_iff_dvd] at hg
    have := (Nat.Prime.coprime_iff_not_dvd hp.out (n := g.natAbs)).mpr (by
      rwa [← Int.natCast_dvd])
    simpa [Int.gcd] using this
  obtain ⟨x, hx⟩ := modInverse_isSome hpos hcop
  obtain ⟨h0, h1, h2⟩ := modInverse_eq_some hpos hx
  refine ⟨x, hx, h0, h1, ?_⟩
  have : ((x * g - 1 : ℤ) : ZMod p) = 0 := (ZMod.intCast_zmod_eq_zero_iff_dvd _ _).mpr h2
  push_cast at this
  exact eq_inv_of_mul_eq_one_left (by linear_combination this)

theorem modInverse_none_of_dvd {n g : Int} (hn : 1 < n) (h : n ∣ g) : modInverse g n = none := by
  cases hx : modInverse g n with
  | none => rfl
  | some x =>
    obtain ⟨_, _, h2⟩ := modInverse_eq_some (by omega) hx
    have : n ∣ 1 := by
      have := dvd_sub (Dvd.dvd.mul_left h x) h2
      simpa using this
    have := Int.le_of_dvd (by omega) this
    omega

theorem modExp_cast (x : Int) (e m : Nat) (hm : 0 < m) :
    ((modExp x e m : Int) : ZMod m) = (x : ZMod m) ^ e := by
  unfold modExp
  rw [Int.cast_natCast, powMod_cast]
  congr 1
  have h1 : (((x % m).toNat : ℕ) : ℤ) = x % m := Int.toNat_of_nonneg (Int.emod_nonneg _ (by omega))
  have h2 : ((((x % m).toNat : ℕ) : ℤ) : ZMod m) = (x : ZMod m) := by
    rw [h1, ZMod.intCast_mod]
  rw [← h2, Int.cast_natCast]

end Verif
