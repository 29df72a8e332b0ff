import Verif.X86.Spec
import Verif.X86.Arith
import Verif.Bls.Mont
import Mathlib.Tactic.Lift
import Mathlib.Data.Nat.ModEq
import Mathlib.Data.Int.ModEq

/-!
# Montgomery reduction word by word: the quotient is determined, and what the two conditions of Spec.lean mean for one step
-/

set_option exponentiation.threshold 1000

namespace Verif.X86

open Verif.Bls

/-- `(Q * negInv + 1) / 2^384`. -/
def negInvC : ℕ := (Q * negInv + 1) / 2 ^ 384

theorem negInv_spec : Q * negInv + 1 = 2 ^ 384 * negInvC := by decide +kernel

theorem quot_unique {t M i : ℕ} (hi : i ≤ 6) (hM : M < 2 ^ (64 * i)) (h : 2 ^ (64 * i) ∣ t + M * Q) : M = quot t i := by
  unfold quot
  have hd : 2 ^ (64 * i) ∣ 2 ^ 384 := Nat.pow_dvd_pow 2 (by omega)
  generalize 2 ^ (64 * i) = P at *
  have e : (t + M * Q) * negInv + M = t * negInv + M * (2 ^ 384 * negInvC) := by
    rw [← negInv_spec]; ring
  have h1 : (t + M * Q) * negInv ≡ 0 [MOD P] := (Nat.modEq_zero_iff_dvd).mpr (Dvd.dvd.mul_right h _)
  have h2 : M * (2 ^ 384 * negInvC) ≡ 0 [MOD P] :=
    (Nat.modEq_zero_iff_dvd).mpr (Dvd.dvd.mul_left (Dvd.dvd.mul_right hd _) _)
  have h3 : M ≡ t * negInv [MOD P] := by
    have a := h1.add_right M
    have b := h2.add_left (t * negInv)
    rw [Nat.zero_add] at a
    rw [Nat.add_zero] at b
    rw [e] at a
    exact a.symm.trans b
  have : M % P = t * negInv % P := h3
  rwa [Nat.mod_eq_of_lt hM] at this

theorem no_loss {t i : ℕ} (h : NoLostCarry t) (h1 : 1 ≤ i) (h5 : i ≤ 5) {M L w k o U R : ℕ} (hM : M < 2 ^ (64 * i))
    (hL : L < 2 ^ 320) (hw : w < 2 ^ 64) (ho : w + 2 ^ 64 * o ≤ 2 ^ 64 + 1) (ht : t = R + 2 ^ (64 * (i + 6)) * U)
    (hR : R < 2 ^ (64 * (i + 6)))
    (e : t + M * Q = 2 ^ (64 * i) * L + 2 ^ (64 * (i + 5)) * w + 2 ^ (64 * (i + 6)) * (k + o + U)) : o = 0 := by
  have p5 : 2 ^ (64 * (i + 5)) = 2 ^ (64 * i) * 2 ^ 320 := by rw [← pow_add]; congr 1
  have p6 : 2 ^ (64 * (i + 6)) = 2 ^ (64 * i) * 2 ^ 384 := by rw [← pow_add]; congr 1
  have hPpos : 0 < 2 ^ (64 * i) := by positivity
  have hq : M = quot t i := by
    refine quot_unique (by omega) hM ?_
    rw [e, p5, p6]
    exact ⟨L + 2 ^ 320 * w + 2 ^ 384 * (k + o + U), by ring⟩
  have hU : t / 2 ^ (64 * (i + 6)) = U := by
    rw [ht, Nat.add_mul_div_left _ _ (by positivity), Nat.div_eq_of_lt hR, Nat.zero_add]
  rcases h i h1 h5 with g | g
  · rw [← hq, hU, e, Nat.add_mul_div_left _ _ (by positivity)] at g
    rw [Nat.div_eq_of_lt] at g
    · omega
    · rw [p5, p6]
      calc 2 ^ (64 * i) * L + 2 ^ (64 * i) * 2 ^ 320 * w = 2 ^ (64 * i) * (L + 2 ^ 320 * w) := by ring
        _ < 2 ^ (64 * i) * 2 ^ 384 := Nat.mul_lt_mul_of_pos_left (by omega) hPpos
  · have : wordAt (t + quot t i * Q) (i + 5) = w := by
      unfold wordAt
      rw [← hq, e, p6, p5]
      have : 2 ^ (64 * i) * L + 2 ^ (64 * i) * 2 ^ 320 * w + 2 ^ (64 * i) * 2 ^ 384 * (k + o + U) =
          2 ^ (64 * i) * L + 2 ^ (64 * i) * 2 ^ 320 * (w + 2 ^ 64 * (k + o + U)) := by ring
      rw [this, Nat.add_mul_div_left _ _ (by positivity), Nat.div_eq_of_lt, Nat.zero_add,
        Nat.add_mul_mod_self_left, Nat.mod_eq_of_lt hw]
      exact Nat.mul_lt_mul_of_pos_left hL hPpos
    rw [this] at g
    omega

theorem no_lossZ {t : ℕ} (h : NoLostCarry t) {i : ℕ} (h1 : 1 ≤ i) (h5 : i ≤ 5) {M L w k o U R : ℤ} (hM : 0 ≤ M)
    (hM' : M < 2 ^ (64 * i)) (hL : 0 ≤ L) (hL' : L < 2 ^ 320) (hw : 0 ≤ w) (hw' : w < 2 ^ 64) (hk : 0 ≤ k) (ho : 0 ≤ o)
    (hU : 0 ≤ U) (hR : 0 ≤ R)
    (ho' : w + 2 ^ 64 * o ≤ 2 ^ 64 + 1) (ht : (t : ℤ) = R + 2 ^ (64 * (i + 6)) * U) (hR' : R < 2 ^ (64 * (i + 6)))
    (e : (t : ℤ) + M * Q = 2 ^ (64 * i) * L + 2 ^ (64 * (i + 5)) * w + 2 ^ (64 * (i + 6)) * (k + o + U)) : o = 0 := by
  lift M to ℕ using hM
  lift L to ℕ using hL
  lift w to ℕ using hw
  lift k to ℕ using hk
  lift o to ℕ using ho
  lift U to ℕ using hU
  lift R to ℕ using hR
  have := no_loss h h1 h5 (M := M) (L := L) (w := w) (k := k) (o := o) (U := U) (R := R) (by exact_mod_cast hM')
    (by exact_mod_cast hL') (by exact_mod_cast hw') (by exact_mod_cast ho') (by exact_mod_cast ht) (by exact_mod_cast hR')
    (by exact_mod_cast e)
  exact_mod_cast this

theorem quot_digit {t M q i : ℕ} (hi : i < 6) (hM : M < 2 ^ (64 * i)) (hq : q < 2 ^ 64)
    (h : 2 ^ (64 * (i + 1)) ∣ t + (M + 2 ^ (64 * i) * q) * Q) : q = wordAt (quot t 6) i := by
  have p1 : 2 ^ (64 * (i + 1)) = 2 ^ (64 * i) * 2 ^ 64 := by rw [← pow_add]; congr 1
  have hPpos : 0 < 2 ^ (64 * i) := by positivity
  have hlt : M + 2 ^ (64 * i) * q < 2 ^ (64 * (i + 1)) := by
    rw [p1]
    calc M + 2 ^ (64 * i) * q < 2 ^ (64 * i) + 2 ^ (64 * i) * q := Nat.add_lt_add_right hM _
      _ = 2 ^ (64 * i) * (q + 1) := by ring
      _ ≤ 2 ^ (64 * i) * 2 ^ 64 := Nat.mul_le_mul_left _ hq
  have h1 := quot_unique (i := i + 1) (by omega) hlt h
  have h2 : quot t 6 % 2 ^ (64 * (i + 1)) = quot t (i + 1) := by
    unfold quot
    exact Nat.mod_mod_of_dvd _ (Nat.pow_dvd_pow 2 (by omega))
  unfold wordAt
  have h3 := Nat.div_add_mod (quot t 6) (2 ^ (64 * (i + 1)))
  rw [h2, ← h1, p1] at h3
  generalize quot t 6 / (2 ^ (64 * i) * 2 ^ 64) = X at h3
  rw [← h3]
  have : 2 ^ (64 * i) * 2 ^ 64 * X + (M + 2 ^ (64 * i) * q) = M + 2 ^ (64 * i) * (q + 2 ^ 64 * X) := by ring
  rw [this, Nat.add_mul_div_left _ _ hPpos, Nat.div_eq_of_lt hM, Nat.zero_add, Nat.add_mul_mod_self_left, Nat.mod_eq_of_lt hq]

/-- `(Q - Q % 2^64) / 2^64`. -/
def Qhi : ℕ := Q / 2 ^ 64

theorem Q_split : Q = 13402431016077863595 + 2 ^ 64 * Qhi := by decide +kernel

theorem quot_ne_one {t : ℕ} (h : NoUnitQuotient t) {i : ℕ} (hi : i < 6) {M V : ℤ} {w : UInt64} (hM : 0 ≤ M)
    (hM' : M < 2 ^ (64 * i)) (e : (t : ℤ) + M * Q = 2 ^ (64 * i) * (z w + 2 ^ 64 * V)) : mulLo w Bls.inp ≠ 1 := by
  intro h1
  have hq := quot_spec w
  rw [h1] at hq
  have z1 : z 1 = 1 := rfl
  rw [z1] at hq
  obtain ⟨c, hc⟩ := Int.dvd_of_emod_eq_zero hq
  lift M to ℕ using hM
  have hd : 2 ^ (64 * (i + 1)) ∣ t + (M + 2 ^ (64 * i) * 1) * Q := by
    have p1 : (2 : ℤ) ^ (64 * (i + 1)) = 2 ^ (64 * i) * 2 ^ 64 := by rw [← pow_add]; congr 1
    have : (2 ^ (64 * (i + 1)) : ℤ) ∣ (t : ℤ) + (M + 2 ^ (64 * i) * 1) * Q := by
      refine ⟨c + Qhi + V, ?_⟩
      have hs : (Q : ℤ) = 13402431016077863595 + 2 ^ 64 * Qhi := by exact_mod_cast Q_split
      rw [p1]
      generalize (2 : ℤ) ^ (64 * i) = P at *
      linear_combination e + P * hs + P * hc
    exact_mod_cast this
  exact h i hi (quot_digit hi (by exact_mod_cast hM') (by norm_num) hd).symm

theorem mont_final {x y r : Fe} (hx : x.Lz) (hy : y.Lz) {M R : ℤ} (hM : 0 ≤ M) (hM' : M < 2 ^ 384)
    (e : ((x.val * y.val : ℕ) : ℤ) + M * Q = 2 ^ 384 * R) (hr : (R < Q ∧ (r.val : ℤ) = R) ∨ (r.val : ℤ) + Q = R) :
    r = Fe.mul x y := by
  have hQ : Q < 2 ^ 381 := by decide +kernel
  have hQ0 : 0 < Q := by decide +kernel
  unfold Fe.Lz at hx hy
  have hxy : x.val * y.val ≤ 2 ^ 384 * Q := by
    calc x.val * y.val ≤ (2 * Q) * (2 * Q) := Nat.mul_le_mul hx.le hy.le
      _ = (4 * Q) * Q := by ring
      _ ≤ 2 ^ 384 * Q := Nat.mul_le_mul_right _ (by omega)
  obtain ⟨m1, m2⟩ := Fe.mul_spec x y (by omega) hxy
  lift M to ℕ using hM
  have hR0 : 0 ≤ R := by
    have b1 := Int.natCast_nonneg r.val
    have b2 := Int.natCast_nonneg Q
    exact hr.elim (fun g => g.2 ▸ b1) (fun g => g ▸ Int.add_nonneg b1 b2)
  lift R to ℕ using hR0
  have e' : x.val * y.val + M * Q = 2 ^ 384 * R := by exact_mod_cast e
  have hMQ : M * Q < 2 ^ 384 * Q := Nat.mul_lt_mul_of_pos_right (by exact_mod_cast hM') hQ0
  have hR2 : R < 2 * Q := by
    have : 2 ^ 384 * R < 2 ^ 384 * (2 * Q) := by
      rw [← e']
      calc x.val * y.val + M * Q < 2 ^ 384 * Q + 2 ^ 384 * Q := by omega
        _ = 2 ^ 384 * (2 * Q) := by ring
    exact Nat.lt_of_mul_lt_mul_left this
  have hr' : r.val < Q ∧ ∃ c, R = r.val + c * Q := by
    rcases hr with ⟨g1, g2⟩ | g
    · have g1' : R < Q := by exact_mod_cast g1
      have g2' : r.val = R := by exact_mod_cast g2
      exact ⟨by omega, 0, by omega⟩
    · have g' : r.val + Q = R := by exact_mod_cast g
      exact ⟨by omega, 1, by omega⟩
  obtain ⟨r1, c, hc⟩ := hr'
  have hcong : 2 ^ 384 * r.val ≡ 2 ^ 384 * (Fe.mul x y).val [MOD Q] := by
    have a : 2 ^ 384 * (Fe.mul x y).val ≡ x.val * y.val [MOD Q] := m2
    have b : 2 ^ 384 * R ≡ x.val * y.val [MOD Q] := by
      rw [← e']
      exact (Nat.modEq_zero_iff_dvd.mpr (Dvd.intro_left M rfl)).add_left (x.val * y.val)
    have d : 2 ^ 384 * R ≡ 2 ^ 384 * r.val [MOD Q] := by
      rw [hc]
      refine Nat.ModEq.mul_left _ ?_
      exact (Nat.modEq_zero_iff_dvd.mpr (Dvd.intro_left c rfl)).add_left r.val
    exact d.symm.trans (b.trans a.symm)
  have hgcd : Nat.gcd Q (2 ^ 384) = 1 := by decide +kernel
  have := Nat.ModEq.cancel_left_of_coprime hgcd hcong
  refine Fe.val_inj ?_
  have h := this
  unfold Nat.ModEq at h
  rwa [Nat.mod_eq_of_lt r1, Nat.mod_eq_of_lt m1] at h

end Verif.X86
