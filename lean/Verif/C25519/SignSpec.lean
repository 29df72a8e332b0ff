import Verif.C25519.Group
import Verif.C25519.Egcd

/-!
# curve25519_sha256.go: `Keygen` with a signing key, and `Sign`
-/

set_option maxHeartbeats 1000000

namespace Verif.C25519

open Verif.Ed25519 (Fe i64 i64_eq fval ival F P P_eq intCast_P)
open WeierstrassCurve

theorem order_div : Divisor order 32 L :=
  ⟨by norm_num, le_refl _, by rw [List.take_of_length_le (le_refl 32), order_leNat], by unfold L; norm_num⟩

theorem divmod_order {q r : Bytes} {n : ℕ} (hn : 32 ≤ n) (hr : r.length = n) (hq : n ≤ q.length) :
    (divmod q r n order 32).1.length = q.length ∧ (divmod q r n order 32).2.length = n ∧ leNat (divmod q r n order 32).2 = leNat r % L := by
  have hlt := leNat_lt r
  rw [hr] at hlt
  obtain ⟨h1, h2, -, h4⟩ := divmod_spec (q := q) (r := r) order_div hn hr.ge (by omega) hlt
  exact ⟨h1, by omega, h4⟩

theorem L_lt256 : L < 256 ^ 31 * 32 := by unfold L; norm_num

/-- `Sign`: `(x - h)·s` modulo the order. -/
theorem signV_spec {h x s : Bytes} (hh : h.length = 32) (hx : x.length = 32) (hs : s.length = 32) :
    (signV h x s).length = 32 ∧ leNat (signV h x s) = (leNat x % L + L - leNat h % L) * leNat s % L := by
  unfold signV
  dsimp only
  have hL := L_lt256
  obtain ⟨a1, a2, a3⟩ := divmod_order (q := List.replicate 32 0) (r := h) (le_refl _) hh (by simp)
  generalize divmod (List.replicate 32 0) h 32 order 32 = a at *
  obtain ⟨-, b2, b3⟩ := divmod_order (q := a.1) (r := x) (le_refl _) hx (by rw [a1]; simp)
  generalize (divmod a.1 x 32 order 32).2 = x1 at *
  obtain ⟨c1, c2⟩ := mulaSmall_full b2 a2 (-1)
  have d0 := leNat_lt (mulaSmall x1 0 a.2 32 (-1)).1
  generalize hm : mulaSmall x1 0 a.2 32 (-1) = m at *
  obtain ⟨d1, d2⟩ := mulaSmall_full c1 (x := order) rfl 1
  have e0 := leNat_lt (mulaSmall m.1 0 order 32 1).1
  generalize hw : mulaSmall m.1 0 order 32 1 = w at *
  rw [order_leNat] at d2
  rw [b3, a3] at c2
  rw [c1] at d0
  rw [d1] at e0
  have hxl : leNat x % L < L := Nat.mod_lt _ (by unfold L; norm_num)
  have hhl : leNat h % L < L := Nat.mod_lt _ (by unfold L; norm_num)
  have hv : leNat w.1 = leNat x % L + L - leNat h % L := by
    generalize leNat x % L = X at *
    generalize leNat h % L = H at *
    generalize leNat w.1 = W at *
    generalize leNat m.1 = M at *
    have e : (W : Int) - (X + L - H) = 256 ^ 32 * (-(w.2) - m.2) := by linear_combination d2 + c2
    generalize -(w.2) - m.2 = z at *
    omega
  obtain ⟨f1, f2⟩ := mula32_spec (p := List.replicate 64 0) (x := w.1) (y := s) (t := 32) (by omega) (by omega) (by simp) 1
  have f3 := leNat_lt (mula32 (List.replicate 64 0) w.1 s 32 1)
  rw [List.length_replicate] at f1
  rw [f1] at f3
  have z0 : leNat (List.replicate 64 (0 : UInt8)) = 0 := by decide +kernel
  rw [z0, List.take_of_length_le hs.le, List.take_of_length_le d1.le, hv] at f2
  have hsl := leNat_lt s
  rw [hs] at hsl
  generalize mula32 (List.replicate 64 0) w.1 s 32 1 = p at *
  have hp : leNat p = (leNat x % L + L - leNat h % L) * leNat s := by
    rw [hv] at e0
    generalize leNat x % L + L - leNat h % L = V at *
    have hlt : V * leNat s < 256 ^ 64 := by
      calc V * leNat s < 256 ^ 32 * 256 ^ 32 := Nat.mul_lt_mul'' e0 hsl
        _ = 256 ^ 64 := by norm_num
    have f2' : ((256 ^ 64 : ℕ) : Int) ∣ ((leNat p : ℕ) : Int) - ((V * leNat s : ℕ) : Int) := by
      push_cast
      have e : (leNat p : Int) - (((0 : ℕ) : Int) + 1 * leNat s * V) = leNat p - V * leNat s := by push_cast; ring
      rw [e] at f2
      exact f2
    have := (Nat.modEq_iff_dvd.2 f2').symm
    unfold Nat.ModEq at this
    rw [Nat.mod_eq_of_lt f3, Nat.mod_eq_of_lt hlt] at this
    exact this
  obtain ⟨-, g2, g3⟩ := divmod_order (q := List.replicate 64 0) (r := p) (n := 64) (by norm_num) f1 (by simp)
  refine ⟨by rw [List.length_take]; omega, ?_⟩
  rw [leNat_take_of_lt, g3, hp]
  rw [g3]
  exact lt_trans (Nat.mod_lt _ (by unfold L; norm_num)) (lt_trans hL (by norm_num))

/-! ## The signing key -/

theorem clamped {k : Bytes} (h : k.length = 32) :
    ∃ m, leNat (clamp k) = 8 * m ∧ 2 ^ 251 ≤ m ∧ m < 2 ^ 252 := by
  rw [clamp_leNat h]
  unfold Spec.decodeScalar
  exact ⟨2 ^ 251 + leNat k / 8 % 2 ^ 251, by omega, by omega, by omega⟩

theorem clamped_lt {k : Bytes} (h : k.length = 32) : leNat (clamp k) < 2 ^ 255 := by
  obtain ⟨m, h1, h2, h3⟩ := clamped h
  omega

/-- a clamped number is not a multiple of the order. -/
theorem clamped_ndvd {k : Bytes} (h : k.length = 32) : ¬ L ∣ leNat (clamp k) := by
  obtain ⟨m, h1, h2, h3⟩ := clamped h
  rintro ⟨j, hj⟩
  rw [h1] at hj
  have hL1 : 2 ^ 252 < L := by unfold L; norm_num
  have hj8 : j < 8 := by
    by_contra hc
    have := Nat.mul_le_mul_left L (not_lt.1 hc)
    omega
  have hc : Nat.Coprime 8 L := by unfold L; norm_num
  have hd : 8 ∣ j := hc.dvd_of_dvd_mul_left ⟨m, hj.symm⟩
  have h0 : j = 0 := by omega
  rw [h0] at hj
  omega

theorem orderTimes8_leNat : leNat orderTimes8 = 8 * L := by decide +kernel

/-- the number the signing key inverts. -/
def signedScalar (K : ℕ) (e : Bool) : ℕ := if e then K else 8 * L - K

theorem coreS_spec {k : Bytes} (hk : k.length = 32) (t1 : Fe) :
    (coreS (clamp k) t1).length = 32 ∧ leNat (coreS (clamp k) t1) < L ∧
    leNat (coreS (clamp k) t1) * signedScalar (leNat (clamp k)) (isNegative t1 ≠ 0) % L = 1 := by
  have hlt := clamped_lt hk
  have hnd := clamped_ndvd hk
  have hlen : (clamp k).length = 32 := by rw [clamp_length, hk]
  generalize clamp k = c at *
  have h8L : 8 * L < 2 ^ 256 ∧ 2 ^ 255 < 8 * L := by unfold L; norm_num
  unfold coreS
  dsimp only
  obtain ⟨s0, hs0, hl, hv⟩ : ∃ s0 : Bytes, (if isNegative t1 ≠ 0 then c else (mulaSmall orderTimes8 0 c 32 (-1)).1) = s0 ∧ s0.length = 32 ∧
      leNat s0 = signedScalar (leNat c) (isNegative t1 ≠ 0) := by
    refine ⟨_, rfl, ?_, ?_⟩
    · split
      · exact hlen
      · exact (mulaSmall_full rfl hlen _).1
    · unfold signedScalar
      by_cases hj : isNegative t1 ≠ 0
      · simp only [hj, if_true, decide_true, ne_eq, not_false_eq_true]
      · simp only [hj, if_false, decide_false, Bool.false_eq_true]
        obtain ⟨h1, h2⟩ := mulaSmall_full (q := orderTimes8) (n := 32) rfl hlen (-1)
        have h3 := leNat_lt (mulaSmall orderTimes8 0 c 32 (-1)).1
        rw [h1] at h3
        rw [orderTimes8_leNat] at h2
        generalize mulaSmall orderTimes8 0 c 32 (-1) = w at *
        push_cast at h2
        generalize leNat w.1 = W at *
        generalize w.2 = z at *
        omega
  rw [hs0, ← hv]
  have hnd0 : ¬ L ∣ leNat s0 := by
    rw [hv]
    unfold signedScalar
    split
    · exact hnd
    · intro hd
      apply hnd
      have := (Nat.dvd_sub_iff_right (by omega : leNat c ≤ 8 * L) (Dvd.intro_left 8 rfl)).1 hd
      exact this
  have h0 : leNat s0 ≠ 0 := by intro e; apply hnd0; rw [e]; exact dvd_zero _
  have hc : Nat.Coprime (leNat s0) L := ((Nat.Prime.coprime_iff_not_dvd L_prime).2 hnd0).symm
  obtain ⟨S, e0, e1, e2, e3, e4⟩ := egcd32_spec hl h0 hc
  generalize egcd32 s0 order = y at *
  unfold IsMod at e1
  have hyl : (y.take 32).length = 32 := by rw [List.length_take]; omega
  generalize y.take 32 = s at *
  have hslt := leNat_lt s
  rw [hyl] at hslt
  have hL0 := L_lt
  have hL1 : 2 ^ 252 < L := by unfold L; norm_num
  -- the result is `S` or `S + L`
  have fin : ∀ {r : Bytes} {R : Int}, (leNat r : Int) = R → 0 ≤ R → R ≤ L → (L : Int) ∣ R * leNat s0 - 1 →
      leNat r < L ∧ leNat r * leNat s0 % L = 1 := by
    intro r R h1 h2 h3 h4
    rw [← h1] at h3 h4
    have hmod : leNat r * leNat s0 % L = 1 := by
      have h5 : ((1 : ℕ) : Int) ≡ ((leNat r * leNat s0 : ℕ) : Int) [ZMOD (L : Int)] := by
        rw [Int.modEq_iff_dvd]; push_cast; exact h4
      have h6 := (Int.natCast_modEq_iff.1 h5)
      unfold Nat.ModEq at h6
      rw [← h6]
      exact Nat.mod_eq_of_lt (by omega)
    refine ⟨?_, hmod⟩
    rcases Nat.lt_or_ge (leNat r) L with h | h
    · exact h
    · have : leNat r = L := by omega
      rw [this, Nat.mul_mod_right] at hmod
      omega
  have hbit : (s.getD 31 0).toNat = leNat s / 256 ^ 31 := by
    rw [← leNat_digit]
    apply Nat.mod_eq_of_lt
    rw [Nat.div_lt_iff_lt_mul (by positivity)]
    rw [← pow_succ'] ; exact hslt
  obtain ⟨z, hz⟩ := e1
  rcases lt_or_ge S 0 with hS | hS
  · have hval : (leNat s : Int) = 256 ^ 32 + S := by omega
    rw [if_pos (by rw [hbit]; omega)]
    obtain ⟨g1, g2⟩ := mulaSmall_full hyl (x := order) rfl 1
    have g3 := leNat_lt (mulaSmall s 0 order 32 1).1
    rw [g1] at g3
    rw [order_leNat] at g2
    have := fin (r := (mulaSmall s 0 order 32 1).1) (R := S + L) ?_ (by omega) (by omega) ?_
    · exact ⟨g1, this⟩
    · generalize mulaSmall s 0 order 32 1 = w at *
      generalize leNat w.1 = W at *
      generalize w.2 = u at *
      omega
    · obtain ⟨u, hu⟩ := e4
      exact ⟨u + leNat s0, by linear_combination hu⟩
  · have hval : (leNat s : Int) = S := by omega
    rw [if_neg (by rw [hbit]; omega)]
    exact ⟨hyl, fin hval hS e3 e4⟩
end Verif.C25519
