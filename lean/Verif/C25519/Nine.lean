import Verif.C25519.SchemeLemmas

/-!
# The private key `5L - 1`, whose public key is 9

`core` recovers the y-coordinate from the difference of the point to the base point, which is degenerate here: the sign comes out wrong.
-/

namespace Verif.C25519

open Verif.Ed25519 (Fe fval F P P_eq)
open WeierstrassCurve

/-- the 32 bytes of `5L - 1`. -/
def kNine : Bytes := [160, 35, 205, 208, 131, 239, 91, 184, 47, 16, 214, 46, 89, 225, 90, 104, 0, 0, 0, 0, 0, 0, 0, 0, 0, 0, 0, 0, 0, 0, 0, 80]

theorem kNine_scalar : Spec.decodeScalar kNine = 5 * L - 1 := by decide +kernel

theorem kNine_clamp : clamp kNine = kNine := by decide +kernel

theorem kNine_leNat : leNat (clamp kNine) = 5 * L - 1 := by rw [kNine_clamp]; decide +kernel

theorem kNine_point : keyPoint kNine = -G := by
  unfold keyPoint
  rw [kNine_scalar, eq_neg_iff_add_eq_zero]
  have : (5 * L - 1) • G + G = (5 * L - 1 + 1) • G := by rw [add_nsmul, one_nsmul]
  rw [this, smul_zero_iff]
  exact ⟨5, by unfold L; norm_num⟩

theorem gy_val : gy.val = 43114425171068552920764898935933967039370386198203806730763910166200978582548 := by
  have : gy = ((43114425171068552920764898935933967039370386198203806730763910166200978582548 : ℕ) : F) := by unfold gy; norm_num
  rw [this, ZMod.val_natCast, Nat.mod_eq_of_lt]
  rw [P_eq]; norm_num

theorem yc_G : yc G = gy := rfl

theorem xc_G : xc G = 9 := rfl

theorem kNine_abs : absP (keyPoint kNine) = G := by
  have h0 : gy ≠ 0 := by
    intro h
    have := gy_val
    rw [h, ZMod.val_zero] at this
    norm_num at this
  rw [kNine_point]
  unfold absP
  rw [yc_neg, yc_G, neg_val h0, gy_val, neg_neg, if_neg]
  have hP := P_eq
  omega

/-- `coreY` of an x-coordinate 9, whatever the other coordinate is. -/
theorem coreY_nine {px x1 z1 : Fe} (hp : Red px) (h9 : fval px = 9) (h1 : Red (affine x1 z1)) :
    Red (coreY px x1 z1) ∧ fval (coreY px x1 z1) = -gy := by
  have a := xToY2_spec hp
  unfold affine at h1
  have b := bump_add h1 hp (n := 9 + 486662) (by norm_num) (by norm_num)
  have c := bump_red hp (n := -9) (by norm_num) (by norm_num)
  have d := sqr_spec c.1
  have e := mul_spec0 b.1 d.1.lo
  have f := bump_sub e.1 a.1 (n := -39420360) (by norm_num) (by norm_num)
  have g := mul_spec f.1 baseR2y_red.lo
  unfold coreY
  dsimp only
  refine ⟨g.1, ?_⟩
  rw [g.2, f.2, e.2, d.2, c.2, a.2, h9]
  have hg := gy_sq
  have hb := baseR2y_fval
  push_cast
  linear_combination 2 * fval baseR2y * hg - gy * hb

/-- the signing key the code computes for the private key `5L - 1` is -1 instead of 1. -/
theorem nine_s {k : Bytes} (hk : k.length = 32) (hx9 : xc (leNat (clamp k) • G) = 9) (hK : leNat (clamp k) = 5 * L - 1) :
    (keygenS k).2.length = 32 ∧ leNat (keygenS k).2 = L - 1 := by
  have hlt := clamped_lt hk
  have hl := ladder_rep (k := clamp k) (lt_trans hlt (Nat.pow_lt_pow_right (by norm_num) (by norm_num)))
  have hpx := affine_xc hl.p0
  have hp1 := affine_xc hl.p1
  unfold keygenS
  dsimp only
  obtain ⟨c1, c2, c3⟩ := coreS_spec hk (coreY (affine (ladder (set 9) (clamp k)).x0 (ladder (set 9) (clamp k)).z0) (ladder (set 9) (clamp k)).x1 (ladder (set 9) (clamp k)).z1)
  refine ⟨c1, ?_⟩
  have hy := coreY_nine (x1 := (ladder (set 9) (clamp k)).x1) (z1 := (ladder (set 9) (clamp k)).z1) hpx.1 (by rw [hpx.2, hx9]) hp1.1
  have h0 : gy ≠ 0 := by
    intro h
    have := gy_val
    rw [h, ZMod.val_zero] at this
    norm_num at this
  have hP := P_eq
  have hv : (-gy).val = P - 43114425171068552920764898935933967039370386198203806730763910166200978582548 := by rw [neg_val h0, gy_val]
  have hneg := isNegative_spec hy.1 (by rw [hy.2, hv]; omega)
  rw [hy.2, hv] at hneg
  have h1 : (P - 43114425171068552920764898935933967039370386198203806730763910166200978582548) % 2 = 1 := by omega
  rw [h1] at hneg
  rw [hneg, hK] at c3
  generalize leNat (coreS (clamp k) _) = s at c2 c3
  have hs1 : ∀ K, signedScalar K (decide (1 ≠ 0)) = K := fun K => by unfold signedScalar; simp
  rw [hs1] at c3
  have hd : L ∣ s + 1 := by
    have hL : 1 < L := by unfold L; norm_num
    have e : s * (5 * L - 1) + s = 5 * s * L := by
      have : 1 ≤ 5 * L := by omega
      zify [this]; ring
    have := Nat.div_add_mod (s * (5 * L - 1)) L
    rw [c3] at this
    have h2 : s + 1 + L * (s * (5 * L - 1) / L) = 5 * s * L := by omega
    exact (Nat.dvd_add_left (Dvd.intro _ rfl)).1 (h2 ▸ Dvd.intro_left _ rfl)
  obtain ⟨c, hc⟩ := hd
  rcases Nat.eq_zero_or_pos c with h | h
  · rw [h] at hc; omega
  · have : L * 1 ≤ L * c := Nat.mul_le_mul_left _ h
    rcases Nat.lt_or_ge c 2 with h2 | h2
    · have : c = 1 := by omega
      rw [this] at hc; omega
    · have : L * 2 ≤ L * c := Nat.mul_le_mul_left _ h2
      omega

theorem kNine_s : (keygenS kNine).2.length = 32 ∧ leNat (keygenS kNine).2 = L - 1 :=
  nine_s (k := kNine) rfl (by rw [← keyPoint_eq (k := kNine) rfl, kNine_point, xc_neg, xc_G]) kNine_leNat

/-- a signature made with the private key `5L - 1` solves the equation of another nonce. -/
theorem kNine_sign {sha256 : Bytes → Bytes} (hsha : ∀ b, (sha256 b).length = 32) (m : Bytes) :
    ∃ v x : Bytes, let h := sha256 (sha256 m ++ (keygen x).1)
      v.length = 32 ∧ x = sha256 (sha256 m ++ (keygenS kNine).2) ∧ sign sha256 kNine m = .ok (v ++ h) ∧
      leNat v • absP (keyPoint kNine) + leNat h • G + keyPoint x = (2 * leNat h) • G := by
  have hxl := hsha (sha256 m ++ (keygenS kNine).2)
  refine ⟨_, _, ?_, rfl, by unfold sign; rw [if_neg (by simp [kNine])], ?_⟩
  · exact (signV_spec (hsha _) (by show (clamp _).length = 32; rw [clamp_length, hxl]) kNine_s.1).1
  · have hv := (signV_spec (h := sha256 (sha256 m ++ (keygen (sha256 (sha256 m ++ (keygenS kNine).2))).1))
      (x := (keygen (sha256 (sha256 m ++ (keygenS kNine).2))).2) (s := (keygenS kNine).2) (hsha _)
      (by show (clamp _).length = 32; rw [clamp_length, hxl]) kNine_s.1).2
    rw [hv, kNine_abs, keyPoint_eq hxl, kNine_s.2, ← add_nsmul, ← add_nsmul, smul_eq_iff]
    have : (keygen (sha256 (sha256 m ++ (keygenS kNine).2))).2 = clamp (sha256 (sha256 m ++ (keygenS kNine).2)) := rfl
    rw [this]
    generalize leNat (clamp (sha256 (sha256 m ++ (keygenS kNine).2))) = X
    generalize leNat (sha256 (sha256 m ++ _)) = h
    have hL : 1 < L := by unfold L; norm_num
    have hh := Nat.mod_lt h (by omega : 0 < L)
    show _ ≡ _ [MOD L]
    have e1 : (X % L + L - h % L) * (L - 1) % L + h + X ≡ (X % L + L - h % L) * (L - 1) + h + X [MOD L] :=
      ((Nat.mod_modEq _ _).add_right _).add_right _
    refine e1.trans ?_
    rw [← Int.natCast_modEq_iff]
    have e2 : (((X % L + L - h % L) * (L - 1) + h + X : ℕ) : ℤ) = ((X % L : ℕ) + L - (h % L : ℕ)) * (L - 1) + h + X := by
      push_cast [Nat.cast_sub (by omega : h % L ≤ X % L + L), Nat.cast_sub (by omega : 1 ≤ L)]
      ring
    rw [e2]
    have hX := Nat.div_add_mod X L
    have hH := Nat.div_add_mod h L
    zify at hX hH
    rw [Int.modEq_iff_dvd]
    refine ⟨(h / L : ℕ) - (X / L : ℕ) - ((X % L : ℕ) + L - (h % L : ℕ)) + 1, ?_⟩
    push_cast
    linear_combination hX - hH
end Verif.C25519
