import Mathlib.Tactic.Ring
import Mathlib.Tactic.Linarith
import Mathlib.Tactic.LinearCombination
import Verif.C25519.SignLemmas

/-!
# curve25519_sha256.go: `mulaSmall`, `mula32`, `divmod` and `egcd32` on numbers of any size
-/

set_option maxHeartbeats 1000000

namespace Verif.C25519

open Verif.Ed25519 (toByte toByte_toNat)

theorem leNat_take_drop (r : Bytes) (k : ℕ) (h : k ≤ r.length) : leNat r = leNat (r.take k) + 256 ^ k * leNat (r.drop k) := by
  conv_lhs => rw [← List.take_append_drop k r, leNat_append, List.length_take, min_eq_left h]

theorem leNat_drop_zero {r : Bytes} {k : ℕ} (h : leNat r < 256 ^ k) : leNat (r.drop k) = 0 := by
  rcases le_or_gt k r.length with hk | hk
  · have e := leNat_take_drop r k hk
    by_contra h0
    have : 256 ^ k * 1 ≤ 256 ^ k * leNat (r.drop k) := Nat.mul_le_mul_left _ (by omega)
    omega
  · rw [List.drop_eq_nil_of_le hk.le]; rfl

theorem leNat_take_le (r : Bytes) (k : ℕ) : leNat (r.take k) < 256 ^ k := by
  have h := leNat_lt (r.take k)
  refine lt_of_lt_of_le h (Nat.pow_le_pow_right (by norm_num) ?_)
  rw [List.length_take]; omega

theorem leNat_take_of_lt {r : Bytes} {k : ℕ} (h : leNat r < 256 ^ k) : leNat (r.take k) = leNat r := by
  rcases le_or_gt k r.length with hk | hk
  · have e := leNat_take_drop r k hk
    rw [leNat_drop_zero h] at e
    omega
  · rw [List.take_of_length_le hk.le]

theorem leNat_take_mod (r : Bytes) (k : ℕ) : leNat (r.take k) = leNat r % 256 ^ k := by
  rcases le_or_gt k r.length with hk | hk
  · rw [leNat_take_drop r k hk, Nat.add_mul_mod_self_left, Nat.mod_eq_of_lt (leNat_take_le r k)]
  · rw [List.take_of_length_le hk.le, Nat.mod_eq_of_lt]
    exact lt_of_lt_of_le (leNat_lt r) (Nat.pow_le_pow_right (by norm_num) hk.le)

/-- writing one digit. -/
theorem leNat_set (r : Bytes) (i : ℕ) (b : UInt8) (h : i < r.length) :
    ((leNat (r.set i b) : ℕ) : Int) = leNat r + 256 ^ i * (b.toNat - at' r i) := by
  induction r generalizing i with
  | nil => simp at h
  | cons c r ih =>
    cases i with
    | zero =>
      simp only [List.set_cons_zero, leNat, at', List.getD_cons_zero]
      push_cast; ring
    | succ i =>
      simp only [List.set_cons_succ, leNat, at', List.getD_cons_succ]
      have := ih i (by simpa using h)
      simp only [at'] at this
      push_cast
      rw [this]
      ring

theorem toByte_at (r : Bytes) (i : ℕ) : (toByte (at' r i)).toNat = at' r i := by
  have := toByte_toNat (at' r i)
  have h := at_bound r i
  rw [this]; omega

theorem at_set_self {r : Bytes} {i : ℕ} (h : i < r.length) (b : UInt8) : at' (r.set i b) i = b.toNat := by
  simp [at', h]

/-- the part of a number that `splice` overwrites by a multiple-and-add. -/
theorem splice_mula {r x : Bytes} {m n : ℕ} (hr : m + n ≤ r.length) (hx : n ≤ x.length) (z : Int) :
    (splice r m (mulaSmall r m x n z).1).length = r.length ∧
    ((leNat (splice r m (mulaSmall r m x n z).1) : ℕ) : Int) =
      leNat r + 256 ^ m * (z * leNat (x.take n)) - 256 ^ (m + n) * (mulaSmall r m x n z).2 ∧
    (splice r m (mulaSmall r m x n z).1).drop (m + n) = r.drop (m + n) := by
  have hq : ((r.drop m).take n).length = n := by rw [List.length_take, List.length_drop]; omega
  have hxx : (x.take n).length = n := by rw [List.length_take]; omega
  obtain ⟨h1, h2⟩ := mulaLoop_spec z ((r.drop m).take n) (x.take n) 0 (hq.trans hxx.symm)
  rw [hq] at h1 h2
  unfold mulaSmall splice
  generalize mulaLoop z ((r.drop m).take n) (x.take n) 0 = u at *
  have hm : (r.take m).length = m := by rw [List.length_take]; omega
  refine ⟨?_, ?_, ?_⟩
  · simp only [List.length_append, List.length_take, List.length_drop, h1]; omega
  · rw [h1, leNat_append, leNat_append, List.length_append, hm, h1]
    have e1 := leNat_take_drop r m (by omega)
    have e2 := leNat_take_drop (r.drop m) n (by rw [List.length_drop]; omega)
    rw [List.drop_drop] at e2
    rw [e1, e2]
    push_cast
    rw [pow_add]
    linear_combination (256 : Int) ^ m * h2
  · rw [h1, List.drop_append, List.length_append, hm, h1, List.drop_eq_nil_of_le (by rw [List.length_append, hm, h1]), Nat.sub_self, List.drop_zero, List.nil_append]

/-! ## `divmod` -/

/-- the estimate of a digit of the quotient is too large by one at most. -/
theorem estimate {R D Rh Dh B E z : ℕ} (hD : Dh * B ≤ E) (hD' : E < (Dh + 1) * B) (hR : Rh * B ≤ R) (hR' : R < (Rh + 1) * B)
    (hB : 0 < B) (hDh : 256 ≤ Dh) (hlt : R < E * 256) (hz : z = Rh / Dh) : z * E ≤ R + E ∧ R < (z + 1) * E := by
  have h1 : z * Dh ≤ Rh := by rw [hz]; exact Nat.div_mul_le_self _ _
  have h2 : Rh + 1 ≤ (z + 1) * Dh := by
    have := Nat.lt_div_mul_add (a := Rh) (b := Dh) (by omega)
    rw [hz]; nlinarith
  have h3 : Rh < 256 * (Dh + 1) := by
    by_contra hc
    have : 256 * (Dh + 1) * B ≤ Rh * B := Nat.mul_le_mul_right _ (by omega)
    nlinarith
  have h4 : z ≤ 256 := by
    by_contra hc
    have : 257 * Dh ≤ z * Dh := Nat.mul_le_mul_right _ (by omega)
    nlinarith
  constructor
  · rcases Nat.eq_zero_or_pos z with h0 | h0
    · rw [h0]; omega
    · obtain ⟨y, rfl⟩ : ∃ y, z = y + 1 := ⟨z - 1, by omega⟩
      have : y * (Dh + 1) ≤ (y + 1) * Dh := by nlinarith
      have h5 : y * E ≤ y * ((Dh + 1) * B) := Nat.mul_le_mul_left _ hD'.le
      have h6 : y * ((Dh + 1) * B) ≤ Rh * B := by
        rw [← Nat.mul_assoc]; exact Nat.mul_le_mul_right _ (this.trans h1)
      have h7 : (y + 1) * E = y * E + E := by ring
      omega
  · have h5 : (Rh + 1) * B ≤ (z + 1) * Dh * B := Nat.mul_le_mul_right _ h2
    have h6 : (z + 1) * (Dh * B) ≤ (z + 1) * E := Nat.mul_le_mul_left _ hD
    nlinarith

/-- the divisor: `t` digits, the highest of which is not zero. -/
structure Divisor (d : Bytes) (t : ℕ) (D : ℕ) : Prop where
  t1 : 1 ≤ t
  len : t ≤ d.length
  val : leNat (d.take t) = D
  low : 256 ^ (t - 1) ≤ D

theorem Divisor.high {d : Bytes} {t D : ℕ} (h : Divisor d t D) : D < 256 ^ t := by
  rw [← h.val]; exact leNat_take_le _ _

theorem at_take (d : Bytes) {t i : ℕ} (h : i < t) : at' d i = at' (d.take t) i := by
  unfold at'
  rw [List.getD_eq_getElem?_getD, List.getD_eq_getElem?_getD, List.getElem?_take_of_lt h]

/-- the two leading digits of the divisor. -/
def topD (d : Bytes) (t : ℕ) : Int := at' d (t - 1) * 2 ^ 8 + (if t > 1 then at' d (t - 2) else 0)

theorem topD_one {d : Bytes} {D : ℕ} (h : Divisor d 1 D) : topD d 1 = D * 256 := by
  have hh := h.high
  unfold topD
  rw [at_take d (t := 1) (by norm_num), at_leNat, h.val]
  norm_num at hh ⊢
  omega

theorem topD_two {d : Bytes} {t D : ℕ} (h : Divisor d t D) (ht : 2 ≤ t) : topD d t = ((D / 256 ^ (t - 2) : ℕ) : Int) := by
  have hh := h.high
  obtain ⟨s, rfl⟩ : ∃ s, t = s + 2 := ⟨t - 2, by omega⟩
  unfold topD
  rw [at_take d (t := s + 2) (by omega), at_leNat, h.val, if_pos (by omega), at_take d (t := s + 2) (by omega), at_leNat, h.val]
  rw [show s + 2 - 1 = s + 1 by omega, show s + 2 - 2 = s by omega, pow_succ, ← Nat.div_div_eq_div_mul]
  have : D / 256 ^ s < 65536 := by
    rw [Nat.div_lt_iff_lt_mul (by positivity)]
    calc D < 256 ^ (s + 2) := hh
      _ = _ := by rw [pow_add]; ring
  generalize D / 256 ^ s = x at *
  omega

/-- the three leading digits of the dividend. -/
theorem numer {r : Bytes} {n : ℕ} {rn : ℕ} (hn : 1 ≤ n) (hr : leNat r < 256 ^ (n + 1)) :
    (rn : Int) * 2 ^ 16 + at' r n * 2 ^ 8 + (if n > 0 then at' r (n - 1) else 0) =
      (((leNat r + 256 ^ (n + 1) * rn) / 256 ^ (n - 1) : ℕ) : Int) := by
  obtain ⟨s, rfl⟩ : ∃ s, n = s + 1 := ⟨n - 1, by omega⟩
  rw [if_pos (by omega), at_leNat, at_leNat, show s + 1 - 1 = s by omega, pow_succ 256 s, ← Nat.div_div_eq_div_mul]
  have e : (leNat r + 256 ^ (s + 1 + 1) * rn) / 256 ^ s = leNat r / 256 ^ s + 65536 * rn := by
    rw [show 256 ^ (s + 1 + 1) * rn = 256 ^ s * (65536 * rn) by ring, Nat.add_mul_div_left _ _ (by positivity)]
  rw [e]
  have : leNat r / 256 ^ s < 65536 := by
    rw [Nat.div_lt_iff_lt_mul (by positivity)]
    calc leNat r < 256 ^ (s + 1 + 1) := hr
      _ = _ := by ring
  generalize leNat r / 256 ^ s = x at *
  push_cast
  omega

theorem estimate_digit {d r : Bytes} {t D m rn : ℕ} (hd : Divisor d t D) (hr : leNat r < 256 ^ (t - 1 + m + 1))
    (hlt : leNat r + 256 ^ (t - 1 + m + 1) * rn < D * 256 ^ m * 256) :
    ∃ z : ℕ, ((rn : Int) * 2 ^ 16 + at' r (t - 1 + m) * 2 ^ 8 + (if t - 1 + m > 0 then at' r (t - 1 + m - 1) else 0)) / topD d t = z ∧
      z * (D * 256 ^ m) ≤ leNat r + 256 ^ (t - 1 + m + 1) * rn + D * 256 ^ m ∧
      leNat r + 256 ^ (t - 1 + m + 1) * rn < (z + 1) * (D * 256 ^ m) := by
  have hlow := hd.low
  have hD0 : 0 < D := lt_of_lt_of_le (by positivity) hlow
  have hE : 0 < D * 256 ^ m := Nat.mul_pos hD0 (by positivity)
  have hh := hd.high
  rcases Nat.lt_or_ge t 2 with ht | ht
  · have h1 := hd.t1
    obtain rfl : t = 1 := by omega
    rw [topD_one hd]
    refine ⟨(leNat r + 256 ^ (1 - 1 + m + 1) * rn) / (D * 256 ^ m), ?_, ?_, ?_⟩
    · rcases Nat.eq_zero_or_pos m with h0 | h0
      · subst h0
        have e : at' r (1 - 1 + 0) = leNat r := by
          rw [at_leNat]; norm_num at hr ⊢; omega
        rw [e, if_neg (by omega)]
        rw [show (rn : Int) * 2 ^ 16 + (leNat r : Int) * 2 ^ 8 + 0 = ((leNat r + 256 ^ (1 - 1 + 0 + 1) * rn : ℕ) : Int) * 256 by push_cast; ring,
          Int.mul_ediv_mul_of_pos_left _ _ (by norm_num)]
        simp
      · have hn := numer (r := r) (n := 1 - 1 + m) (rn := rn) (by omega) hr
        rw [hn, show (D : Int) * 256 = ((D * 256 : ℕ) : Int) by push_cast; ring, ← Int.natCast_ediv, Nat.div_div_eq_div_mul]
        congr 2
        obtain ⟨s, rfl⟩ : ∃ s, m = s + 1 := ⟨m - 1, by omega⟩
        rw [show 1 - 1 + (s + 1) - 1 = s by omega]
        ring
    · have := Nat.div_mul_le_self (leNat r + 256 ^ (1 - 1 + m + 1) * rn) (D * 256 ^ m); omega
    · have := Nat.lt_div_mul_add (a := leNat r + 256 ^ (1 - 1 + m + 1) * rn) hE
      linarith
  · rw [topD_two hd ht, numer (by omega) hr, ← Int.natCast_ediv]
    refine ⟨_, rfl, ?_⟩
    obtain ⟨s, rfl⟩ : ∃ s, t = s + 2 := ⟨t - 2, by omega⟩
    rw [show s + 2 - 2 = s by omega, show s + 2 - 1 + m - 1 = s + m by omega]
    have hB : 0 < 256 ^ (s + m) := by positivity
    have a1 := Nat.div_mul_le_self D (256 ^ s)
    have a2 := Nat.lt_div_mul_add (a := D) (b := 256 ^ s) (by positivity)
    apply estimate (D := D) (B := 256 ^ (s + m)) (Rh := (leNat r + 256 ^ (s + 2 - 1 + m + 1) * rn) / 256 ^ (s + m)) (Dh := D / 256 ^ s)
    · rw [pow_add, ← Nat.mul_assoc]; exact Nat.mul_le_mul_right _ a1
    · rw [pow_add, ← Nat.mul_assoc]
      exact Nat.mul_lt_mul_of_pos_right (by linarith) (by positivity)
    · exact Nat.div_mul_le_self _ _
    · have := Nat.lt_div_mul_add (a := leNat r + 256 ^ (s + 2 - 1 + m + 1) * rn) hB
      linarith
    · exact hB
    · rw [Nat.le_div_iff_mul_le (by positivity)]
      calc 256 * 256 ^ s = 256 ^ (s + 2 - 1) := by rw [show s + 2 - 1 = s + 1 by omega]; ring
        _ ≤ D := hlow
    · exact hlt
    · rfl

theorem divStep_spec {d q r : Bytes} {t D m rn : ℕ} (hd : Divisor d t D) (hrl : t + m ≤ r.length) (hql : m < q.length)
    (hr : leNat r < 256 ^ (t - 1 + m + 1)) (hlt : leNat r + 256 ^ (t - 1 + m + 1) * rn < D * 256 ^ m * 256) :
    ∃ (r' : Bytes) (rn' : ℕ), divStep d t (topD d t) (t - 1 + m) q r rn =
        (q.set m (UInt8.ofNat ((leNat r + 256 ^ (t - 1 + m + 1) * rn) / (D * 256 ^ m))), r', (rn' : Int)) ∧
      r'.length = r.length ∧ rn' < 256 ∧ leNat r' < 256 ^ (t - 1 + m) ∧
      leNat r' + 256 ^ (t - 1 + m) * rn' = (leNat r + 256 ^ (t - 1 + m + 1) * rn) % (D * 256 ^ m) := by
  obtain ⟨z, hz, z1, z2⟩ := estimate_digit hd hr hlt
  have ht := hd.t1
  have hmm : t - 1 + m + 1 - t = m := by omega
  have hmt : t - 1 + m + 1 = m + t := by omega
  have hD0 : 0 < D := lt_of_lt_of_le (by positivity) hd.low
  have hE : D * 256 ^ m < 256 ^ (m + t) := by
    rw [pow_add, Nat.mul_comm]; exact Nat.mul_lt_mul_of_pos_left hd.high (by positivity)
  unfold divStep
  dsimp only
  rw [hz, hmm]
  rw [hmt] at hr hlt z1 z2 ⊢
  generalize hR : leNat r + 256 ^ (m + t) * rn = R at *
  obtain ⟨a1, a2, a3⟩ := splice_mula (r := r) (x := d) (m := m) (n := t) (by omega) hd.len (-(z : Int))
  have b1 : leNat (splice r m (mulaSmall r m d t (-(z : Int))).1) < 256 ^ (m + t) := by
    have e := leNat_take_drop (splice r m (mulaSmall r m d t (-(z : Int))).1) (m + t) (by omega)
    rw [a3, leNat_drop_zero hr] at e
    rw [e]
    exact leNat_take_le _ _
  generalize (mulaSmall r m d t (-(z : Int))).2 = c at *
  generalize splice r m (mulaSmall r m d t (-(z : Int))).1 = r1 at *
  obtain ⟨c1, c2, c3⟩ := splice_mula (r := r1) (x := d) (m := m) (n := t) (by omega) hd.len (-((rn : Int) + c))
  have d1 : leNat (splice r1 m (mulaSmall r1 m d t (-((rn : Int) + c))).1) < 256 ^ (m + t) := by
    have e := leNat_take_drop (splice r1 m (mulaSmall r1 m d t (-((rn : Int) + c))).1) (m + t) (by omega)
    rw [c3, leNat_drop_zero b1] at e
    rw [e]
    exact leNat_take_le _ _
  generalize (mulaSmall r1 m d t (-((rn : Int) + c))).2 = c' at *
  generalize splice r1 m (mulaSmall r1 m d t (-((rn : Int) + c))).1 = r2 at *
  rw [hd.val] at a2 c2
  -- the values
  have hRi : ((leNat r : ℕ) : Int) + 256 ^ (m + t) * rn = R := by rw [← hR]; push_cast; ring
  have hEi : ((D : ℕ) : Int) * 256 ^ m < 256 ^ (m + t) := by exact_mod_cast hE
  have z1i : (z : Int) * (D * 256 ^ m) ≤ R + D * 256 ^ m := by exact_mod_cast z1
  have z2i : (R : Int) < (z + 1) * (D * 256 ^ m) := by exact_mod_cast z2
  have b1i : ((leNat r1 : ℕ) : Int) < 256 ^ (m + t) := by exact_mod_cast b1
  have d1i : ((leNat r2 : ℕ) : Int) < 256 ^ (m + t) := by exact_mod_cast d1
  have a2' : ((leNat r1 : ℕ) : Int) + 256 ^ (m + t) * (rn + c) = R - z * (D * 256 ^ m) := by rw [a2]; linear_combination hRi
  have c2' : ((leNat r2 : ℕ) : Int) = leNat r1 - (rn + c) * (D * 256 ^ m) - 256 ^ (m + t) * c' := by rw [c2]; ring
  have hE0 : (0 : Int) < D * 256 ^ m := by positivity
  have hEn : 0 < D * 256 ^ m := by positivity
  have hdd : (D : Int) * 256 ^ m = ((D * 256 ^ m : ℕ) : Int) := by push_cast; ring
  rw [hdd] at hEi z1i z2i a2' c2' hE0
  generalize D * 256 ^ m = E at *
  clear a2 c2 hdd
  generalize hW : (256 : Int) ^ (m + t) = W at *
  obtain ⟨k, hk⟩ : ∃ k : Int, rn + c = k := ⟨_, rfl⟩
  rw [hk] at a2' c2' ⊢
  have hk01 : k = 0 ∨ k = -1 := by
    have hl := Int.natCast_nonneg (leNat r1)
    have : k < 1 := by
      by_contra hc
      have : W * 1 ≤ W * k := Int.mul_le_mul_of_nonneg_left (by omega) (by omega)
      nlinarith
    have : -2 < k := by
      by_contra hc
      have : W * k ≤ W * (-2) := Int.mul_le_mul_of_nonneg_left (by omega) (by omega)
      nlinarith
    omega
  have hc' : c' = -k := by
    have hl1 := Int.natCast_nonneg (leNat r1)
    have hl2 := Int.natCast_nonneg (leNat r2)
    rcases hk01 with rfl | rfl
    · have h1 : c' < 1 := by
        by_contra hc
        have : W * 1 ≤ W * c' := Int.mul_le_mul_of_nonneg_left (by omega) (by omega)
        nlinarith
      have h2 : -1 < c' := by
        by_contra hc
        have : W * c' ≤ W * (-1) := Int.mul_le_mul_of_nonneg_left (by omega) (by omega)
        nlinarith
      omega
    · have h1 : c' < 2 := by
        by_contra hc
        have : W * 2 ≤ W * c' := Int.mul_le_mul_of_nonneg_left (by omega) (by omega)
        nlinarith
      have h2 : 0 < c' := by
        by_contra hc
        have : W * c' ≤ W * 0 := Int.mul_le_mul_of_nonneg_left (by omega) (by omega)
        nlinarith
      omega
  have hval : ((leNat r2 : ℕ) : Int) = R - (z + k) * E := by
    rw [c2', hc']; linear_combination a2'
  have hb : ((leNat r2 : ℕ) : Int) < E := by
    rw [hval]
    rcases hk01 with rfl | rfl
    · linarith
    · have hl1 := Int.natCast_nonneg (leNat r1)
      linarith
  obtain ⟨Q, hQ⟩ : ∃ Q : ℕ, (z : Int) + k = Q := by
    rcases hk01 with rfl | rfl
    · exact ⟨z, by omega⟩
    · rcases Nat.eq_zero_or_pos z with h0 | h0
      · exfalso
        rw [h0] at hval
        norm_num at hval
        omega
      · exact ⟨z - 1, by omega⟩
  rw [hQ] at hval ⊢
  have hRQ : R = Q * E + leNat r2 := by
    have : (R : Int) = Q * E + leNat r2 := by linarith
    exact_mod_cast this
  have hb' : leNat r2 < E := by exact_mod_cast hb
  have hQ1 : R / E = Q := by
    rw [hRQ, Nat.add_comm, Nat.add_mul_div_right _ _ hEn, Nat.div_eq_of_lt hb', Nat.zero_add]
  have hQ2 : R % E = leNat r2 := by
    rw [hRQ, Nat.add_comm, Nat.add_mul_mod_self_right, Nat.mod_eq_of_lt hb']
  have hQ256 : Q < 256 := by
    rw [← hQ1, Nat.div_lt_iff_lt_mul hEn]; linarith
  refine ⟨r2.set (t - 1 + m) 0, (r2.getD (t - 1 + m) 0).toNat, ?_, ?_, (r2.getD _ 0).toNat_lt, ?_, ?_⟩
  · rw [hQ1]
    refine Prod.ext ?_ rfl
    dsimp only
    congr 1
    unfold toByte
    congr 1
    omega
  · rw [List.length_set]; omega
  · have e := leNat_set r2 (t - 1 + m) 0 (by omega)
    have ea := at_leNat r2 (t - 1 + m)
    have e2 : leNat r2 / 256 ^ (t - 1 + m) < 256 := by
      rw [Nat.div_lt_iff_lt_mul (by positivity)]
      calc leNat r2 < 256 ^ (m + t) := d1
        _ = _ := by rw [← hmt]; ring
    rw [Nat.mod_eq_of_lt e2] at ea
    rw [ea] at e
    have e3 : ((leNat (r2.set (t - 1 + m) 0) : ℕ) : Int) = ((leNat r2 % 256 ^ (t - 1 + m) : ℕ) : Int) := by
      rw [e]
      have := Nat.div_add_mod (leNat r2) (256 ^ (t - 1 + m))
      have h' : ((256 ^ (t - 1 + m) * (leNat r2 / 256 ^ (t - 1 + m)) + leNat r2 % 256 ^ (t - 1 + m) : ℕ) : Int) = leNat r2 := by rw [this]
      push_cast at h' ⊢
      linarith
    have e4 : leNat (r2.set (t - 1 + m) 0) = leNat r2 % 256 ^ (t - 1 + m) := by exact_mod_cast e3
    rw [e4]
    exact Nat.mod_lt _ (by positivity)
  · rw [hQ2]
    have e := leNat_set r2 (t - 1 + m) 0 (by omega)
    have : ((leNat (r2.set (t - 1 + m) 0) + 256 ^ (t - 1 + m) * (r2.getD (t - 1 + m) 0).toNat : ℕ) : Int) = leNat r2 := by
      push_cast
      rw [e]
      unfold at'
      rw [show ((0 : UInt8).toNat : Int) = 0 from rfl]
      ring
    exact_mod_cast this

theorem divLoop_spec {d : Bytes} {t D : ℕ} (hd : Divisor d t D) (c : ℕ) {q r : Bytes} {rn : ℕ} (hrl : t - 1 + c ≤ r.length) (hql : c ≤ q.length)
    (hr : leNat r < 256 ^ (t - 1 + c)) (hrn : leNat r + 256 ^ (t - 1 + c) * rn < D * 256 ^ c) :
    ∃ (q' r' : Bytes) (rn' : ℕ), divLoop d t (topD d t) c q r rn = (q', r', (rn' : Int)) ∧
      q'.length = q.length ∧ leNat (q'.take c) = (leNat r + 256 ^ (t - 1 + c) * rn) / D ∧ q'.drop c = q.drop c ∧
      r'.length = r.length ∧ (1 ≤ c → rn' < 256) ∧ leNat r' < 256 ^ (t - 1) ∧
      leNat r' + 256 ^ (t - 1) * rn' = (leNat r + 256 ^ (t - 1 + c) * rn) % D := by
  have hD0 : 0 < D := lt_of_lt_of_le (by positivity) hd.low
  induction c generalizing q r rn with
  | zero =>
    refine ⟨q, r, rn, rfl, rfl, ?_, rfl, rfl, by omega, hr, ?_⟩
    · rw [List.take_zero, Nat.div_eq_of_lt (by simpa using hrn)]; rfl
    · rw [Nat.mod_eq_of_lt (by simpa using hrn)]; rfl
  | succ c ih =>
    have ht := hd.t1
    obtain ⟨r1, rn1, e, l1, hn1, hr1, hv1⟩ := divStep_spec (q := q) (rn := rn) hd (m := c) (r := r) (by omega) (by omega) hr
      (by rw [show t - 1 + c + 1 = t - 1 + (c + 1) by omega, Nat.mul_assoc, ← pow_succ]; exact hrn)
    rw [show t - 1 + c + 1 = t - 1 + (c + 1) by omega] at e hv1
    have hE : 0 < D * 256 ^ c := by positivity
    generalize leNat r + 256 ^ (t - 1 + (c + 1)) * rn = R at *
    set Q := R / (D * 256 ^ c) with hQ
    have hQ256 : Q < 256 := by
      rw [hQ, Nat.div_lt_iff_lt_mul hE]
      calc R < D * 256 ^ (c + 1) := hrn
        _ = _ := by ring
    obtain ⟨q', r', rn', e', lq, hq', hqd, l', hn', hr', hv'⟩ := ih (q := q.set c (UInt8.ofNat Q)) (r := r1) (rn := rn1) (by omega)
      (by rw [List.length_set]; omega) hr1 (by rw [hv1]; exact Nat.mod_lt _ hE)
    rw [hv1] at hq' hv'
    refine ⟨q', r', rn', ?_, ?_, ?_, ?_, by omega, ?_, hr', ?_⟩
    · show divLoop d t (topD d t) c (divStep d t (topD d t) (t - 1 + c) q r rn).1 (divStep d t (topD d t) (t - 1 + c) q r rn).2.1
        (divStep d t (topD d t) (t - 1 + c) q r rn).2.2 = _
      rw [e]; exact e'
    · rw [lq, List.length_set]
    · have hc : c < q'.length := by rw [lq, List.length_set]; omega
      have hdig : q'[c] = UInt8.ofNat Q := by
        have h1 : q'[c]? = some (UInt8.ofNat Q) := by
          have := congrArg (fun l => l[0]?) hqd
          simp only [List.getElem?_drop, Nat.add_zero] at this
          rw [this, List.getElem?_set_self (by omega)]
        rw [List.getElem?_eq_getElem hc] at h1
        exact Option.some.inj h1
      rw [List.take_add_one, List.getElem?_eq_getElem hc, hdig, leNat_append, hq', List.length_take, min_eq_left hc.le]
      have hv : leNat (Option.some (UInt8.ofNat Q)).toList = Q := by
        simp only [Option.toList_some, leNat, UInt8.toNat_ofNat', Nat.mul_zero, Nat.add_zero]
        exact Nat.mod_eq_of_lt hQ256
      rw [hv]
      have hR := Nat.div_add_mod R (D * 256 ^ c)
      rw [← hQ] at hR
      conv_rhs => rw [← hR, show D * 256 ^ c * Q = D * (256 ^ c * Q) by ring, Nat.add_comm, Nat.add_mul_div_left _ _ hD0]
    · have := congrArg (List.drop 1) hqd
      rw [List.drop_drop, List.drop_drop] at this
      rw [this, List.drop_set_of_lt (by omega)]
    · intro _
      rcases Nat.eq_zero_or_pos c with h0 | h0
      · subst h0
        have : divLoop d t (topD d t) 0 (q.set 0 (UInt8.ofNat Q)) r1 rn1 = (q.set 0 (UInt8.ofNat Q), r1, (rn1 : Int)) := rfl
        rw [this] at e'
        have : (rn1 : Int) = rn' := congrArg (fun x => x.2.2) e'
        omega
      · exact hn' h0
    · rw [hv']
      exact Nat.mod_mul_right_mod R D (256 ^ c)

/-- `divmod(q, r, n, d, t)` leaves the quotient in the low `n - t + 1` digits of `q` and the remainder in `r`. -/
theorem divmod_spec {q r d : Bytes} {n t D : ℕ} (hd : Divisor d t D) (htn : t ≤ n) (hrl : n ≤ r.length) (hql : n + 1 - t ≤ q.length)
    (hr : leNat r < 256 ^ n) :
    (divmod q r n d t).1.length = q.length ∧ (divmod q r n d t).2.length = r.length ∧
    leNat ((divmod q r n d t).1.take (n + 1 - t)) = leNat r / D ∧ leNat (divmod q r n d t).2 = leNat r % D := by
  have ht := hd.t1
  have hn : t - 1 + (n + 1 - t) = n := by omega
  obtain ⟨q', r', rn', e, lq, hq, -, lr, hn', hr', hv⟩ := divLoop_spec hd (n + 1 - t) (q := q) (r := r) (rn := 0) (by omega) hql
    (by rw [hn]; exact hr)
    (by
      rw [Nat.mul_zero, Nat.add_zero]
      refine lt_of_lt_of_le hr ?_
      calc 256 ^ n = 256 ^ (t - 1) * 256 ^ (n + 1 - t) := by rw [← pow_add]; congr 1; omega
        _ ≤ _ := Nat.mul_le_mul_right _ hd.low)
  rw [Nat.mul_zero, Nat.add_zero] at hq hv
  have key : divmod q r n d t = (q', r'.set (t - 1) (toByte rn')) := by
    unfold divmod
    dsimp only
    have : divLoop d t (topD d t) (n + 1 - t) q r (0 : ℕ) = divLoop d t (topD d t) (n + 1 - t) q r 0 := rfl
    rw [this] at e
    unfold topD at e
    rw [e]
  rw [key]
  refine ⟨lq, by rw [List.length_set, lr], hq, ?_⟩
  have h256 := hn' (by omega)
  have e2 := leNat_set r' (t - 1) (toByte rn') (by omega)
  have e3 : at' r' (t - 1) = 0 := by rw [at_leNat, Nat.div_eq_of_lt hr']; rfl
  rw [e3, toByte_toNat] at e2
  show leNat (r'.set (t - 1) (toByte rn')) = _
  rw [← hv]
  have : ((leNat (r'.set (t - 1) (toByte rn')) : ℕ) : Int) = ((leNat r' + 256 ^ (t - 1) * rn' : ℕ) : Int) := by
    rw [e2]; push_cast
    rw [show (rn' : Int) % 256 = rn' by omega]; ring
  exact_mod_cast this

/-! ## `mula32` -/

theorem mula32Loop_spec {x : Bytes} (hx : 32 ≤ x.length) (z : Int) (ys : Bytes) (i : ℕ) {p : Bytes} (w : Int) (hp : i + ys.length + 31 ≤ p.length) :
    (mula32Loop x z ys i p w).1.length = p.length ∧
    ((leNat (mula32Loop x z ys i p w).1 : ℕ) : Int) + 256 ^ (i + ys.length + 31) * (mula32Loop x z ys i p w).2 =
      leNat p + 256 ^ (i + 31) * w + 256 ^ i * (z * leNat ys * leNat (x.take 32)) := by
  induction ys generalizing i p w with
  | nil => simp [mula32Loop, leNat]
  | cons y ys ih =>
    rw [List.length_cons] at hp
    obtain ⟨a1, a2, a3⟩ := splice_mula (r := p) (x := x) (m := i) (n := 31) (by omega) (by omega) (z * y.toNat)
    simp only [mula32Loop]
    generalize (mulaSmall p i x 31 (z * y.toNat)).2 = c at *
    generalize splice p i (mulaSmall p i x 31 (z * y.toNat)).1 = p1 at *
    generalize hw : w + (c + at' p1 (i + 31) + z * y.toNat * at' x 31) = w'
    obtain ⟨b1, b2⟩ := ih (i + 1) (p := p1.set (i + 31) (toByte w')) (w' / 2 ^ 8) (by rw [List.length_set]; omega)
    generalize mula32Loop x z ys (i + 1) (p1.set (i + 31) (toByte w')) (w' / 2 ^ 8) = res at *
    refine ⟨by rw [b1, List.length_set, a1], ?_⟩
    rw [List.length_cons, show i + (ys.length + 1) + 31 = i + 1 + ys.length + 31 by omega, b2]
    have e := leNat_set p1 (i + 31) (toByte w') (by omega)
    rw [e, a2, toByte_toNat]
    have hx32 : (leNat (x.take 32) : Int) = leNat (x.take 31) + 256 ^ 31 * at' x 31 := by
      have h1 := leNat_take_drop (x.take 32) 31 (by rw [List.length_take]; omega)
      rw [List.take_take] at h1
      norm_num at h1
      have h2 : (x.take 32).drop 31 = [x.getD 31 0] := by
        rw [List.drop_take, List.drop_eq_getElem_cons (by omega : 31 < x.length), List.getD_eq_getElem?_getD,
          List.getElem?_eq_getElem (by omega : 31 < x.length)]
        rfl
      rw [h2] at h1
      simp only [leNat, Nat.mul_zero, Nat.add_zero] at h1
      unfold at'
      rw [h1]; push_cast; ring
    rw [hx32]
    have hdm := Int.mul_ediv_add_emod w' 256
    simp only [leNat]
    push_cast
    rw [show i + 1 + 31 = i + 31 + 1 by omega, pow_succ (256 : Int) (i + 31), pow_succ (256 : Int) i, pow_add (256 : Int) i 31]
    norm_num
    generalize w' / 256 = u at *
    generalize w' % 256 = v at *
    rw [← hw] at hdm
    linear_combination (256 : Int) ^ i * 256 ^ 31 * hdm

/-- `mula32` adds `z·x·y` modulo `256^(t+32)`; `x` is a number of 32 digits and `y` one of `t` digits. -/
theorem mula32_spec {p x y : Bytes} {t : ℕ} (hx : 32 ≤ x.length) (hy : t ≤ y.length) (hp : t + 32 ≤ p.length) (z : Int) :
    (mula32 p x y t z).length = p.length ∧
    (256 : Int) ^ (t + 32) ∣ leNat (mula32 p x y t z) - (leNat p + z * leNat (y.take t) * leNat (x.take 32)) := by
  have hl : (y.take t).length = t := by rw [List.length_take]; omega
  obtain ⟨a1, a2⟩ := mula32Loop_spec hx z (y.take t) 0 (p := p) 0 (by rw [hl]; omega)
  rw [hl] at a2
  unfold mula32
  dsimp only
  generalize mula32Loop x z (y.take t) 0 p 0 = res at *
  refine ⟨by rw [List.length_set, a1], ?_⟩
  rw [leNat_set _ _ _ (by omega), toByte_toNat]
  have hdm := Int.mul_ediv_add_emod (res.2 + at' res.1 (t + 31)) 256
  refine ⟨-((res.2 + at' res.1 (t + 31)) / 256), ?_⟩
  generalize (res.2 + at' res.1 (t + 31)) / 256 = u at *
  generalize (res.2 + at' res.1 (t + 31)) % 256 = v at *
  simp only [Nat.zero_add, zero_add, mul_zero, add_zero, pow_zero, one_mul] at a2
  rw [show t + 32 = t + 31 + 1 by omega, pow_succ]
  linear_combination (256 : Int) ^ (t + 31) * hdm + a2

end Verif.C25519
