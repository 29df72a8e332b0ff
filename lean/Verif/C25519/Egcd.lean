import Verif.C25519.ByteArith

/-!
# curve25519_sha256.go: `egcd32` computes the inverse modulo the order
-/

set_option maxHeartbeats 1000000

namespace Verif.C25519

theorem numsize_spec (x : Bytes) (n : ℕ) (h : leNat x < 256 ^ n) :
    numsize x n ≤ n ∧ leNat x < 256 ^ numsize x n ∧ (numsize x n = 0 → leNat x = 0) ∧ (0 < numsize x n → 256 ^ (numsize x n - 1) ≤ leNat x) := by
  induction n with
  | zero => exact ⟨le_refl _, h, fun _ => by simpa using h, fun h0 => absurd h0 (lt_irrefl 0)⟩
  | succ n ih =>
    unfold numsize
    have hd := at_leNat x n
    have hlt : leNat x / 256 ^ n < 256 := by
      rw [Nat.div_lt_iff_lt_mul (by positivity)]; rw [pow_succ, Nat.mul_comm] at h; exact h
    rw [Nat.mod_eq_of_lt hlt] at hd
    unfold at' at hd
    by_cases h0 : x.getD n 0 ≠ 0
    · rw [if_pos h0]
      refine ⟨le_refl _, h, fun e => absurd e (by omega), fun _ => ?_⟩
      rw [Nat.add_sub_cancel]
      have : leNat x / 256 ^ n ≠ 0 := by
        intro e
        rw [e] at hd
        apply h0
        apply UInt8.toNat_inj.1
        exact_mod_cast hd
      by_contra hc
      exact this (Nat.div_eq_of_lt (by omega))
    · rw [if_neg h0]
      rw [not_not] at h0
      rw [h0] at hd
      have e : leNat x / 256 ^ n = 0 := by exact_mod_cast hd.symm
      have hl : leNat x < 256 ^ n := by
        rcases Nat.div_eq_zero_iff.1 e with h | h
        · exact absurd h (by positivity)
        · exact h
      obtain ⟨a, b⟩ := ih hl
      exact ⟨by omega, b⟩

/-- the low 32 bytes of `x` are the integer `X` modulo `256^32`. -/
def IsMod (x : Bytes) (X : Int) : Prop := (256 : Int) ^ 32 ∣ leNat (x.take 32) - X

theorem isMod_mula32 {p x y : Bytes} {t : ℕ} (hx : x.length = 64) (hy : t ≤ y.length) (hp : p.length = 64) (ht : t ≤ 32) {X Y : Int}
    (hX : IsMod x X) (hY : IsMod p Y) : (mula32 p x y t (-1)).length = 64 ∧ IsMod (mula32 p x y t (-1)) (Y - leNat (y.take t) * X) := by
  obtain ⟨h1, h2⟩ := mula32_spec (p := p) (x := x) (y := y) (t := t) (by omega) hy (by omega) (-1)
  refine ⟨by omega, ?_⟩
  unfold IsMod at *
  have h3 : (256 : Int) ^ 32 ∣ (256 : Int) ^ (t + 32) := pow_dvd_pow _ (by omega)
  have h4 := h3.trans h2
  have low : ∀ b : Bytes, (256 : Int) ^ 32 ∣ (leNat b : Int) - leNat (b.take 32) := by
    intro b
    rw [leNat_take_mod]
    refine ⟨((leNat b / 256 ^ 32 : ℕ) : Int), ?_⟩
    have := Nat.div_add_mod (leNat b) (256 ^ 32)
    have h' : ((256 ^ 32 * (leNat b / 256 ^ 32) + leNat b % 256 ^ 32 : ℕ) : Int) = leNat b := by rw [this]
    push_cast at h' ⊢
    linarith
  have l1 := low (mula32 p x y t (-1))
  have l2 := low p
  obtain ⟨a, ha⟩ := h4
  obtain ⟨b, hb⟩ := l1
  obtain ⟨c, hc⟩ := l2
  obtain ⟨d, hd⟩ := hX
  obtain ⟨e, he⟩ := hY
  refine ⟨a - b + c + e - leNat (y.take t) * d, ?_⟩
  linear_combination ha - hb + hc + he - (leNat (y.take t) : Int) * hd

/-- the state of the loop of `egcd32`, for the number `A0` and the modulus `M`. -/
structure EInv (A0 M : ℕ) (x y a b : Bytes) (an bn : ℕ) (tmp : Bytes) (X Y : Int) : Prop where
  lx : x.length = 64
  ly : y.length = 64
  la : a.length = 32
  lb : b.length = 32
  lt : tmp.length = 32
  an1 : 1 ≤ an
  anb : an ≤ bn
  bn32 : bn ≤ 32
  alt : leNat a < 256 ^ an
  ale : 256 ^ (an - 1) ≤ leNat a
  blt : leNat b < 256 ^ bn
  b1 : 1 ≤ leNat b
  ex : IsMod x X
  ey : IsMod y Y
  x0 : 0 ≤ X
  y0 : Y ≤ 0
  det : X * leNat b - Y * leNat a = M
  cx : (M : Int) ∣ X * A0 - leNat a
  cy : (M : Int) ∣ Y * A0 - leNat b
  cop : Nat.Coprime (leNat a) (leNat b)

theorem coprime_zero_mod {a b : ℕ} (h : Nat.Coprime a b) (h0 : b % a = 0) : a = 1 := by
  have : a ∣ b := Nat.dvd_of_mod_eq_zero h0
  have := Nat.gcd_eq_left this
  rw [Nat.Coprime, this] at h
  exact h

theorem egcdLoop_spec {A0 M : ℕ} (f : ℕ) {x y a b : Bytes} {an bn : ℕ} {tmp : Bytes} {X Y : Int} (h : EInv A0 M x y a b an bn tmp X Y)
    (hf : leNat a < 2 ^ f) :
    ∃ S : Int, (egcdLoop f x y a b an bn tmp).length = 64 ∧ IsMod (egcdLoop f x y a b an bn tmp) S ∧ -M ≤ S ∧ S ≤ M ∧ (M : Int) ∣ S * A0 - 1 := by
  induction f generalizing x y a b an bn tmp X Y with
  | zero =>
    have := h.ale
    have h2 : 0 < 256 ^ (an - 1) := by positivity
    simp at hf
    omega
  | succ f ih =>
    obtain ⟨lx, ly, la, lb, lt, an1, anb, bn32, alt, ale, blt, b1, ex, ey, x0, y0, det, cx, cy, cop⟩ := h
    have hd1 : Divisor a an (leNat a) := ⟨an1, by omega, leNat_take_of_lt alt, ale⟩
    obtain ⟨d1, d2, d3, d4⟩ := divmod_spec (q := tmp) (r := b) hd1 anb (by omega) (by omega) blt
    simp only [egcdLoop]
    generalize divmod tmp b bn a an = s at *
    have ha0 : 0 < leNat a := lt_of_lt_of_le (by positivity) ale
    have hb'lt : leNat s.2 < leNat a := by rw [d4]; exact Nat.mod_lt _ ha0
    have hb'an : leNat s.2 < 256 ^ an := hb'lt.trans alt
    obtain ⟨n1, n2, n3, n4⟩ := numsize_spec s.2 bn (hb'an.trans_le (Nat.pow_le_pow_right (by norm_num) anb))
    by_cases hz : numsize s.2 bn = 0
    · rw [if_pos hz]
      have e1 := coprime_zero_mod cop (by rw [← d4]; exact n3 hz)
      refine ⟨X, lx, ex, by omega, ?_, ?_⟩
      · have : X * 1 ≤ X * leNat b := Int.mul_le_mul_of_nonneg_left (by omega) x0
        have : 0 ≤ -Y * leNat a := Int.mul_nonneg (by omega) (by omega)
        nlinarith
      · rw [e1] at cx; exact_mod_cast cx
    · rw [if_neg hz]
      have hbpos : 1 ≤ leNat s.2 := by
        have := n4 (by omega)
        exact le_trans (Nat.one_le_pow _ _ (by norm_num)) this
      have hbn_an : numsize s.2 bn ≤ an := by
        by_contra hc
        have h1 := n4 (by omega)
        have : 256 ^ an ≤ 256 ^ (numsize s.2 bn - 1) := Nat.pow_le_pow_right (by norm_num) (by omega)
        omega
      obtain ⟨ly', ey'⟩ := isMod_mula32 (p := y) (x := x) (y := s.1) (t := bn + 1 - an) lx (by omega) ly (by omega) ex ey
      rw [d3] at ey'
      have hdb := Nat.div_add_mod (leNat b) (leNat a)
      rw [← d4] at hdb
      have hq0 : 0 ≤ ((leNat b / leNat a : ℕ) : Int) := by omega
      generalize leNat b / leNat a = q at *
      have hdbi : (leNat a : Int) * q + leNat s.2 = leNat b := by exact_mod_cast hdb
      generalize mula32 y x s.1 (bn + 1 - an) (-1) = y' at *
      obtain ⟨Y', hY'⟩ : ∃ Y' : Int, Y - q * X = Y' := ⟨_, rfl⟩
      rw [hY'] at ey'
      have y0' : Y' ≤ 0 := by
        have : 0 ≤ (q : Int) * X := Int.mul_nonneg hq0 x0
        omega
      have det' : X * leNat s.2 - Y' * leNat a = M := by rw [← hY']; linear_combination det + X * hdbi
      have cy' : (M : Int) ∣ Y' * A0 - leNat s.2 := by
        obtain ⟨u, hu⟩ := cx
        obtain ⟨v, hv⟩ := cy
        exact ⟨v - q * u, by rw [← hY']; linear_combination hv - (q : Int) * hu - hdbi⟩
      have cop' : Nat.Coprime (leNat a) (leNat s.2) := by
        rw [d4]; unfold Nat.Coprime at *; rw [Nat.gcd_comm, ← Nat.gcd_rec]; exact cop
      generalize hbn' : numsize s.2 bn = bn' at *
      have hd2 : Divisor s.2 bn' (leNat s.2) := ⟨by omega, by omega, leNat_take_of_lt n2, n4 (by omega)⟩
      obtain ⟨e1, e2, e3, e4⟩ := divmod_spec (q := s.1) (r := a) hd2 hbn_an (by omega) (by omega) alt
      generalize divmod s.1 a an s.2 bn' = w at *
      have ha'lt : leNat w.2 < leNat s.2 := by rw [e4]; exact Nat.mod_lt _ hbpos
      have ha'bn : leNat w.2 < 256 ^ bn' := ha'lt.trans n2
      obtain ⟨m1, m2, m3, m4⟩ := numsize_spec w.2 an (ha'bn.trans_le (Nat.pow_le_pow_right (by norm_num) hbn_an))
      by_cases hz' : numsize w.2 an = 0
      · rw [if_pos hz']
        have e1 := coprime_zero_mod cop'.symm (by rw [← e4]; exact m3 hz')
        refine ⟨Y', ly', ey', ?_, by omega, ?_⟩
        · have : -Y' * 1 ≤ -Y' * leNat a := Int.mul_le_mul_of_nonneg_left (by omega) (by omega)
          have : 0 ≤ X * leNat s.2 := Int.mul_nonneg x0 (by omega)
          nlinarith
        · rw [e1] at cy'; exact_mod_cast cy'
      · rw [if_neg hz']
        have hapos : 1 ≤ leNat w.2 := le_trans (Nat.one_le_pow _ _ (by norm_num)) (m4 (by omega))
        have han_bn : numsize w.2 an ≤ bn' := by
          by_contra hc
          have h1 := m4 (by omega)
          have : 256 ^ bn' ≤ 256 ^ (numsize w.2 an - 1) := Nat.pow_le_pow_right (by norm_num) (by omega)
          omega
        obtain ⟨lx', ex'⟩ := isMod_mula32 (p := x) (x := y') (y := w.1) (t := an + 1 - bn') ly' (by omega) lx (by omega) ey' ex
        rw [e3] at ex'
        have hda := Nat.div_add_mod (leNat a) (leNat s.2)
        rw [← e4] at hda
        have hq0' : 0 ≤ ((leNat a / leNat s.2 : ℕ) : Int) := by omega
        have hqn : 1 ≤ leNat a / leNat s.2 := by rw [Nat.le_div_iff_mul_le hbpos]; omega
        generalize leNat a / leNat s.2 = q' at *
        have hdai : (leNat s.2 : Int) * q' + leNat w.2 = leNat a := by exact_mod_cast hda
        generalize mula32 x y' w.1 (an + 1 - bn') (-1) = x' at *
        have hxq : 0 ≤ X - q' * Y' := by
          have : 0 ≤ (q' : Int) * -Y' := Int.mul_nonneg hq0' (by omega)
          nlinarith
        refine ih (X := X - q' * Y') (Y := Y') ⟨lx', ly', by omega, by omega, by omega, by omega, han_bn, by omega, m2, m4 (by omega), n2, hbpos, ex', ey', hxq, y0',
          ?_, ?_, cy', ?_⟩ ?_
        · linear_combination det' - Y' * hdai
        · obtain ⟨u, hu⟩ := cx
          obtain ⟨v, hv⟩ := cy'
          exact ⟨u - q' * v, by linear_combination hu - (q' : Int) * hv - hdai⟩
        · rw [e4]; unfold Nat.Coprime at *; rw [← Nat.gcd_rec, Nat.gcd_comm]; exact cop'
        · have : leNat s.2 * 1 ≤ leNat s.2 * q' := Nat.mul_le_mul_left _ hqn
          rw [pow_succ] at hf
          omega

/-- `egcd32(s, order)` is an inverse of `s`, as a signed number of 32 bytes. -/
theorem egcd32_spec {s : Bytes} (hl : s.length = 32) (h0 : leNat s ≠ 0) (hc : Nat.Coprime (leNat s) L) :
    ∃ S : Int, (egcd32 s order).length = 64 ∧ IsMod (egcd32 s order) S ∧ -L ≤ S ∧ S ≤ L ∧ (L : Int) ∣ S * leNat s - 1 := by
  have hlt := leNat_lt s
  rw [hl] at hlt
  obtain ⟨n1, n2, n3, n4⟩ := numsize_spec s 32 hlt
  unfold egcd32
  dsimp only
  have hn0 : numsize s 32 ≠ 0 := fun e => h0 (n3 e)
  rw [if_neg hn0]
  have hol : order.length = 32 := rfl
  have ho := leNat_lt order
  rw [hol] at ho
  refine egcdLoop_spec 512 (A0 := leNat s) (M := L) (X := 1) (Y := 0)
    ⟨by simp, by simp, hl, hol, by simp, by omega, n1, le_refl _, n2, n4 (by omega), ho, ?_, ?_, ?_, by norm_num, le_refl _, ?_, ?_, ?_, ?_⟩ ?_
  · rw [order_leNat]; unfold L; norm_num
  · have : leNat (((List.replicate 64 (0 : UInt8)).set 0 1).take 32) = 1 := by decide +kernel
    unfold IsMod
    rw [this]; norm_num
  · have : leNat ((List.replicate 64 (0 : UInt8)).take 32) = 0 := by decide +kernel
    unfold IsMod
    rw [this]; norm_num
  · rw [order_leNat]; ring
  · exact ⟨0, by ring⟩
  · rw [order_leNat]; exact ⟨-1, by ring⟩
  · rw [order_leNat]; exact hc
  · exact hlt.trans (by rw [show (256 : ℕ) = 2 ^ 8 from rfl, ← pow_mul]; exact Nat.pow_lt_pow_right (by norm_num) (by norm_num))

end Verif.C25519
