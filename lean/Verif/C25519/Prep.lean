import Verif.C25519.Chain

/-!
# curve25519_sha256.go: the bits that `Verify` prepares for its chain
-/

set_option maxHeartbeats 1000000

namespace Verif.C25519

/-- one line `di ^= nvh & ((di & 2^k) << 1)`: it changes the bit `k + 1`. -/
def line (n k d : ℕ) : ℕ := d ^^^ n &&& ((d &&& 2 ^ k) * 2)

theorem line_bit (n k d j : ℕ) :
    (line n k d).testBit j = if j = k + 1 then (d.testBit j ^^ (n.testBit j && d.testBit k)) else d.testBit j := by
  unfold line
  rw [Nat.testBit_xor, Nat.testBit_and]
  have e : ((d &&& 2 ^ k) * 2).testBit j = (decide (j = k + 1) && d.testBit k) := by
    cases j with
    | zero => simp [Nat.testBit_zero]
    | succ j =>
      rw [Nat.testBit_succ, Nat.mul_div_cancel _ (by norm_num), Nat.testBit_and, Nat.testBit_two_pow]
      by_cases h : k = j
      · subst h; simp
      · simp [h, Ne.symm h]
  rw [e]
  by_cases h : j = k + 1
  · simp [h]
  · simp [h]

/-- the seven lines after the first. -/
def lines (n d : ℕ) : ℕ := line n 6 (line n 5 (line n 4 (line n 3 (line n 2 (line n 1 (line n 0 d))))))

theorem lines_zero (n d : ℕ) : (lines n d).testBit 0 = d.testBit 0 := by
  unfold lines
  simp [line_bit, -Nat.testBit_zero]

theorem lines_succ (n d : ℕ) (j : ℕ) (hj : j < 7) : (lines n d).testBit (j + 1) = (d.testBit (j + 1) ^^ (n.testBit (j + 1) && (lines n d).testBit j)) := by
  unfold lines
  interval_cases j <;> simp [line_bit, -Nat.testBit_zero]

theorem prepStep_eq (s : ℕ × ℕ × ℕ) (vb hb : UInt8) : prepStep s vb hb =
    (s.1 / 2 ^ 8 ^^^ vb.toNat ^^^ vb.toNat * 2, s.2.1 / 2 ^ 8 ^^^ hb.toNat ^^^ hb.toNat * 2,
      lines (0xFFFF ^^^ ((s.1 / 2 ^ 8 ^^^ vb.toNat ^^^ vb.toNat * 2) ^^^ (s.2.1 / 2 ^ 8 ^^^ hb.toNat ^^^ hb.toNat * 2)))
        ((0xFFFF ^^^ ((s.1 / 2 ^ 8 ^^^ vb.toNat ^^^ vb.toNat * 2) ^^^ (s.2.1 / 2 ^ 8 ^^^ hb.toNat ^^^ hb.toNat * 2))) &&& ((s.2.2 &&& 0x80) / 2 ^ 7) ^^^
          (s.1 / 2 ^ 8 ^^^ vb.toNat ^^^ vb.toNat * 2))) := rfl

/-- the number with the previous bit below it. -/
def hat (V : ℕ) (c : Bool) : ℕ := 2 * V + c.toNat

theorem hat_zero (V : ℕ) (c : Bool) : (hat V c).testBit 0 = c := by
  unfold hat
  cases c <;> simp [Nat.testBit_zero, Nat.add_mod]

theorem hat_succ (V : ℕ) (c : Bool) (j : ℕ) : (hat V c).testBit (j + 1) = V.testBit j := by
  unfold hat
  rw [Nat.testBit_succ]
  congr 1
  cases c <;> simp <;> omega

theorem vi_lt {s : ℕ} (hs : s < 512) (b : UInt8) : s / 2 ^ 8 ^^^ b.toNat ^^^ b.toNat * 2 < 512 := by
  have := b.toNat_lt
  have h512 : (512 : ℕ) = 2 ^ 9 := rfl
  rw [h512]
  apply Nat.xor_lt_two_pow
  · apply Nat.xor_lt_two_pow <;> omega
  · omega

/-- the bits of `vi`. -/
theorem vi_bit {s : ℕ} (hs : s < 512) (b : UInt8) (j : ℕ) :
    (s / 2 ^ 8 ^^^ b.toNat ^^^ b.toNat * 2).testBit j = ((hat b.toNat (s.testBit 8)).testBit (j + 1) ^^ (hat b.toNat (s.testBit 8)).testBit j) := by
  rw [Nat.testBit_xor, Nat.testBit_xor, hat_succ]
  cases j with
  | zero =>
    rw [hat_zero]
    have e1 : (b.toNat * 2).testBit 0 = false := by simp [Nat.testBit_zero]
    have e2 : (s / 2 ^ 8).testBit 0 = s.testBit 8 := by rw [Nat.testBit_div_two_pow]
    rw [e1, e2]
    simp [Bool.xor_comm]
  | succ j =>
    rw [hat_succ]
    have e1 : (b.toNat * 2).testBit (j + 1) = b.toNat.testBit j := by rw [Nat.testBit_succ, Nat.mul_div_cancel _ (by norm_num)]
    have e2 : (s / 2 ^ 8).testBit (j + 1) = false := by
      apply Nat.testBit_lt_two_pow
      have : s / 2 ^ 8 < 2 := by omega
      calc s / 2 ^ 8 < 2 ^ 1 := this
        _ ≤ 2 ^ (j + 1) := Nat.pow_le_pow_right (by norm_num) (by omega)
    rw [e1, e2]
    simp

/-- the bit that follows `d` in the chain. -/
def nxt (e f d : Bool) : Bool := e ^^ (!(e ^^ f) && d)

theorem nvh_bit (v h j : ℕ) (hj : j < 16) : (0xFFFF ^^^ (v ^^^ h)).testBit j = !(v.testBit j ^^ h.testBit j) := by
  rw [Nat.testBit_xor, Nat.testBit_xor]
  have : Nat.testBit 0xFFFF j = true := by
    rw [show 0xFFFF = 2 ^ 16 - 1 by norm_num, Nat.testBit_two_pow_sub_one]; simpa using hj
  rw [this]; simp

/-- one byte of the preparation. -/
theorem prepStep_spec {s : ℕ × ℕ × ℕ} (h1 : s.1 < 512) (h2 : s.2.1 < 512) (vb hb : UInt8) :
    (prepStep s vb hb).1 < 512 ∧ (prepStep s vb hb).2.1 < 512 ∧ (prepStep s vb hb).1.testBit 8 = vb.toNat.testBit 7 ∧
    (prepStep s vb hb).2.1.testBit 8 = hb.toNat.testBit 7 ∧
    ∀ j < 8, (prepStep s vb hb).2.2.testBit j =
      nxt ((hat vb.toNat (s.1.testBit 8)).testBit (j + 1) ^^ (hat vb.toNat (s.1.testBit 8)).testBit j)
        ((hat hb.toNat (s.2.1.testBit 8)).testBit (j + 1) ^^ (hat hb.toNat (s.2.1.testBit 8)).testBit j)
        ((hat ((prepStep s vb hb).2.2) (s.2.2.testBit 7)).testBit j) := by
  have top : ∀ b : UInt8, b.toNat.testBit 8 = false := fun b => Nat.testBit_lt_two_pow b.toNat_lt
  rw [prepStep_eq]
  dsimp only
  have bv := vi_bit h1 vb
  have bh := vi_bit h2 hb
  have lv := vi_lt h1 vb
  have lh := vi_lt h2 hb
  generalize s.1 / 2 ^ 8 ^^^ vb.toNat ^^^ vb.toNat * 2 = vi at *
  generalize s.2.1 / 2 ^ 8 ^^^ hb.toNat ^^^ hb.toNat * 2 = hi at *
  refine ⟨lv, lh, ?_, ?_, ?_⟩
  · rw [bv, hat_succ, hat_succ, top]; simp
  · rw [bh, hat_succ, hat_succ, top]; simp
  · intro j hj
    rw [← bv, ← bh]
    cases j with
    | zero =>
      rw [lines_zero, hat_zero, Nat.testBit_xor, Nat.testBit_and, nvh_bit _ _ _ (by norm_num)]
      have : ((s.2.2 &&& 0x80) / 2 ^ 7).testBit 0 = s.2.2.testBit 7 := by
        rw [Nat.testBit_div_two_pow, Nat.testBit_and]; simp [Nat.testBit]
      rw [this]
      unfold nxt
      exact Bool.xor_comm _ _
    | succ j =>
      rw [lines_succ _ _ _ (by omega), hat_succ, Nat.testBit_xor, Nat.testBit_and, nvh_bit _ _ _ (by omega)]
      have : ((s.2.2 &&& 0x80) / 2 ^ 7).testBit (j + 1) = false := by
        apply Nat.testBit_lt_two_pow
        have h : s.2.2 &&& 0x80 < 2 ^ 8 := Nat.and_lt_two_pow _ (by norm_num)
        calc (s.2.2 &&& 0x80) / 2 ^ 7 < 2 := by omega
          _ = 2 ^ 1 := rfl
          _ ≤ 2 ^ (j + 1) := Nat.pow_le_pow_right (by norm_num) (by omega)
      rw [this]
      unfold nxt
      simp

theorem hat_cons (b : UInt8) (v : Bytes) (c : Bool) (j : ℕ) (hj : j ≤ 8) :
    (hat (leNat (b :: v)) c).testBit j = (hat b.toNat c).testBit j := by
  have := b.toNat_lt
  cases j with
  | zero => rw [hat_zero, hat_zero]
  | succ j =>
    rw [hat_succ, hat_succ]
    simp only [leNat]
    rw [show b.toNat + 256 * leNat v = 2 ^ 8 * leNat v + b.toNat by ring, Nat.testBit_two_pow_mul_add _ (by omega), if_pos (by omega)]

theorem hat_cons_shift (b : UInt8) (v : Bytes) (c : Bool) (j : ℕ) :
    (hat (leNat (b :: v)) c).testBit (j + 8) = (hat (leNat v) (b.toNat.testBit 7)).testBit j := by
  have := b.toNat_lt
  cases j with
  | zero =>
    rw [hat_zero, Nat.zero_add, hat_cons _ _ _ _ (le_refl _), hat_succ]
  | succ j =>
    rw [show j + 1 + 8 = (j + 8) + 1 by omega, hat_succ, hat_succ]
    simp only [leNat]
    rw [show b.toNat + 256 * leNat v = 2 ^ 8 * leNat v + b.toNat by ring, Nat.testBit_two_pow_mul_add _ (by omega), if_neg (by omega), Nat.add_sub_cancel]

theorem prepLoop_spec {v h : Bytes} (hl : v.length = h.length) {s : ℕ × ℕ × ℕ} (h1 : s.1 < 512) (h2 : s.2.1 < 512) :
    (prepLoop v h s).1.length = v.length ∧ (prepLoop v h s).2.1 < 512 ∧ (prepLoop v h s).2.2.1 < 512 ∧
    (prepLoop v h s).2.1.testBit 8 = (hat (leNat v) (s.1.testBit 8)).testBit (8 * v.length) ∧
    (prepLoop v h s).2.2.1.testBit 8 = (hat (leNat h) (s.2.1.testBit 8)).testBit (8 * v.length) ∧
    (prepLoop v h s).2.2.2.testBit 7 = (hat (leNat (prepLoop v h s).1) (s.2.2.testBit 7)).testBit (8 * v.length) ∧
    ∀ t < 8 * v.length, (hat (leNat (prepLoop v h s).1) (s.2.2.testBit 7)).testBit (t + 1) =
      nxt ((hat (leNat v) (s.1.testBit 8)).testBit (t + 1) ^^ (hat (leNat v) (s.1.testBit 8)).testBit t)
        ((hat (leNat h) (s.2.1.testBit 8)).testBit (t + 1) ^^ (hat (leNat h) (s.2.1.testBit 8)).testBit t)
        ((hat (leNat (prepLoop v h s).1) (s.2.2.testBit 7)).testBit t) := by
  induction v generalizing h s with
  | nil =>
    have : h = [] := by cases h with | nil => rfl | cons => simp at hl
    subst this
    refine ⟨rfl, h1, h2, ?_, ?_, ?_, ?_⟩
    · rw [List.length_nil, Nat.mul_zero, hat_zero]; rfl
    · rw [List.length_nil, Nat.mul_zero, hat_zero]; rfl
    · rw [List.length_nil, Nat.mul_zero, hat_zero]; rfl
    · intro t ht; simp at ht
  | cons vb v ih =>
    cases h with
    | nil => simp at hl
    | cons hb h =>
      obtain ⟨a1, a2, a3, a4, a5⟩ := prepStep_spec h1 h2 vb hb
      simp only [prepLoop]
      generalize prepStep s vb hb = s' at *
      obtain ⟨b1, b2, b3, b4, b5, b6, b7⟩ := ih (h := h) (s := s') (by simpa using hl) a1 a2
      rw [a3] at b4 b7
      rw [a4] at b5 b7
      have hd8 : s'.2.2.testBit 7 = (UInt8.ofNat s'.2.2).toNat.testBit 7 := by
        rw [UInt8.toNat_ofNat', Nat.testBit_mod_two_pow]; simp
      have hdj : ∀ j < 8, (UInt8.ofNat s'.2.2).toNat.testBit j = s'.2.2.testBit j := by
        intro j hj
        rw [UInt8.toNat_ofNat', Nat.testBit_mod_two_pow]; simp [hj]
      rw [hd8] at b6 b7
      generalize prepLoop v h s' = r at *
      refine ⟨by simp only [List.length_cons, b1], b2, b3, ?_, ?_, ?_, ?_⟩
      · rw [List.length_cons, Nat.mul_add, Nat.mul_one, hat_cons_shift]; exact b4
      · rw [List.length_cons, Nat.mul_add, Nat.mul_one, hat_cons_shift]; exact b5
      · rw [List.length_cons, Nat.mul_add, Nat.mul_one, hat_cons_shift]; exact b6
      · intro t ht
        rw [List.length_cons] at ht
        rcases Nat.lt_or_ge t 8 with h8 | h8
        · rw [hat_cons _ _ _ _ (by omega), hat_cons _ _ _ _ (by omega), hat_cons _ _ _ _ (by omega), hat_cons _ _ _ _ (by omega),
            hat_cons _ _ _ _ (by omega), hat_cons _ _ _ _ (by omega), hat_succ _ _ t, hdj t h8, a5 t h8]
          congr 1
          cases t with
          | zero => rw [hat_zero, hat_zero]
          | succ t => rw [hat_succ, hat_succ, hdj t (by omega)]
        · obtain ⟨u, rfl⟩ : ∃ u, t = u + 8 := ⟨t - 8, by omega⟩
          rw [show u + 8 + 1 = (u + 1) + 8 by omega]
          simp only [hat_cons_shift]
          exact b7 u (by omega)

theorem bit_nat (n t : ℕ) : n / 2 ^ t % 2 = (n.testBit t).toNat := by
  rw [Nat.testBit_eq_decide_div_mod_eq]
  rcases (by omega : n / 2 ^ t % 2 = 0 ∨ n / 2 ^ t % 2 = 1) with e | e <;> simp [e]

/-- the bits that `Verify` prepares are right. -/
theorem prep_good {v h : Bytes} (hv : v.length = 32) (hh : h.length = 32) :
    (prep v h).2 < 2 ∧ leNat (prep v h).1 < 2 ^ 256 ∧ GoodD (leNat v) (leNat h) (leNat (prep v h).1 + 2 ^ 256 * (prep v h).2) ∧
    (leNat (prep v h).1 + 2 ^ 256 * (prep v h).2) % 2 = leNat v % 2 := by
  obtain ⟨b1, b2, b3, b4, b5, b6, b7⟩ := prepLoop_spec (v := v) (h := h) (s := (0, 0, 0)) (by omega) (by norm_num) (by norm_num)
  have z : Nat.testBit 0 8 = false := by simp
  have z7 : Nat.testBit 0 7 = false := by simp
  simp only [z, z7] at b4 b5 b6 b7
  have lv := leNat_lt v
  have lh := leNat_lt h
  have ld := leNat_lt (prepLoop v h (0, 0, 0)).1
  rw [hv] at b1 b4 b5 b6 b7 lv
  rw [hh] at lh
  rw [b1] at ld
  rw [show (256 : ℕ) ^ 32 = 2 ^ 256 by norm_num] at lv lh ld
  unfold prep
  dsimp only
  generalize prepLoop v h (0, 0, 0) = r at *
  obtain ⟨d, vi, hi, di⟩ := r
  dsimp only at *
  generalize hN : 0xFFFF ^^^ (vi ^^^ hi) = n at *
  have hb8 : (n &&& ((di &&& 0x80) * 2) ^^^ vi).testBit 8 = nxt (vi.testBit 8) (hi.testBit 8) (di.testBit 7) := by
    rw [Nat.testBit_xor, Nat.testBit_and, ← hN, nvh_bit _ _ _ (by norm_num)]
    have : ((di &&& 0x80) * 2).testBit 8 = di.testBit 7 := by
      rw [Nat.testBit_succ, Nat.mul_div_cancel _ (by norm_num), Nat.testBit_and]; simp [Nat.testBit]
    rw [this]; unfold nxt; exact Bool.xor_comm _ _
  have hlt : n &&& ((di &&& 0x80) * 2) ^^^ vi < 512 := by
    have h512 : (512 : ℕ) = 2 ^ 9 := rfl
    rw [h512]
    apply Nat.xor_lt_two_pow
    · apply Nat.and_lt_two_pow
      have h : di &&& 0x80 < 2 ^ 8 := Nat.and_lt_two_pow _ (by norm_num)
      omega
    · omega
  generalize hx : (n &&& ((di &&& 0x80) * 2) ^^^ vi) / 2 ^ 8 = x at *
  have hx2 : x < 2 := by omega
  have hxb : x = (nxt (vi.testBit 8) (hi.testBit 8) (di.testBit 7)).toNat := by
    rw [← hb8, ← bit_nat, hx]; omega
  have dbit : ∀ t < 256, (leNat d + 2 ^ 256 * x).testBit t = (leNat d).testBit t := by
    intro t ht
    rw [show leNat d + 2 ^ 256 * x = 2 ^ 256 * x + leNat d by ring, Nat.testBit_two_pow_mul_add _ ld, if_pos ht]
  have dtop : (leNat d + 2 ^ 256 * x).testBit 256 = nxt (vi.testBit 8) (hi.testBit 8) (di.testBit 7) := by
    rw [show leNat d + 2 ^ 256 * x = 2 ^ 256 * x + leNat d by ring, Nat.testBit_two_pow_mul_add _ ld, if_neg (by omega), Nat.sub_self, hxb]
    cases nxt (vi.testBit 8) (hi.testBit 8) (di.testBit 7) <;> rfl
  have vtop : (leNat v).testBit 256 = false := Nat.testBit_lt_two_pow lv
  have htop : (leNat h).testBit 256 = false := Nat.testBit_lt_two_pow lh
  have rec' : ∀ t < 256, (leNat d + 2 ^ 256 * x).testBit (t + 1) = nxt ((leNat v).testBit (t + 1) ^^ (leNat v).testBit t)
      ((leNat h).testBit (t + 1) ^^ (leNat h).testBit t) ((leNat d + 2 ^ 256 * x).testBit t) := by
    intro t ht
    rw [dbit t ht]
    rcases Nat.lt_or_ge t 255 with h5 | h5
    · rw [dbit _ (by omega)]
      have := b7 (t + 1) (by omega)
      simp only [hat_succ] at this
      exact this
    · obtain rfl : t = 255 := by omega
      have k4 : vi.testBit 8 = (leNat v).testBit 255 := by rw [b4]; exact hat_succ _ _ 255
      have k5 : hi.testBit 8 = (leNat h).testBit 255 := by rw [b5]; exact hat_succ _ _ 255
      have k6 : di.testBit 7 = (leNat d).testBit 255 := by rw [b6]; exact hat_succ _ _ 255
      rw [dtop, k4, k5, k6, vtop, htop, Bool.false_xor, Bool.false_xor]
  refine ⟨hx2, ld, ?_, ?_⟩
  · intro t ht
    simp only [bit_nat]
    rw [rec' t ht]
    cases (leNat d + 2 ^ 256 * x).testBit t <;> cases (leNat v).testBit (t + 1) <;> cases (leNat v).testBit t <;>
      cases (leNat h).testBit (t + 1) <;> cases (leNat h).testBit t <;> rfl
  · have h0 := b7 0 (by norm_num)
    rw [hat_succ, hat_succ, hat_succ, hat_zero, hat_zero, hat_zero] at h0
    have e1 := bit_nat (leNat d + 2 ^ 256 * x) 0
    have e2 := bit_nat (leNat v) 0
    rw [pow_zero, Nat.div_one] at e1 e2
    rw [e1, e2, dbit 0 (by norm_num), h0]
    congr 1
    unfold nxt
    simp

end Verif.C25519
