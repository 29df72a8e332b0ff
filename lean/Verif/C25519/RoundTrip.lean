import Verif.C25519.SignSpec

/-!
# curve25519_sha256.go: `Verify` in the group, and signatures made by `Sign`
-/

set_option maxHeartbeats 1000000

namespace Verif.C25519

open Verif.Ed25519 (Fe i64 i64_eq fval ival F P P_eq intCast_P)
open WeierstrassCurve

/-- the y-coordinate, 0 for the point at infinity. -/
def yc : E.Point → F
  | .zero => 0
  | .some _ y _ => y

/-- the one of `Q` and `-Q` with the even y-coordinate (as a number below `2^255 - 19`). -/
def absP (Q : E.Point) : E.Point := if (yc Q).val % 2 = 0 then Q else -Q

theorem unpack_red {m : Bytes} (h : m.length = 32) (hlt : leNat m < 2 ^ 255 - 19) : Red (unpack m) ∧ fval (unpack m) = leNat m := by
  obtain ⟨hn, h9⟩ := unpack_nn m
  have hi := unpack_ival h
  refine ⟨?_, by unfold fval; rw [hi]; push_cast; rfl⟩
  have hi' : ival (unpack m) < 2 ^ 255 - 19 := by rw [hi]; omega
  generalize unpack m = x at *
  obtain ⟨l0, u0, l1, u1, l2, u2, l3, u3, l4, u4, l5, u5, l6, u6, l7, u7, l8, u8, l9, u9⟩ := hn
  unfold ival at hi'
  refine ⟨?_, ?_, ?_, ?_, ?_, ?_, ?_, ?_, ?_, ?_, ?_, ?_, ?_, ?_, ?_, ?_, ?_, ?_, ?_, ?_⟩ <;> omega

/-- `Verify` computes the x-coordinate of `v·Q + h·G`. -/
theorem verifyY_spec {v h pk : Bytes} (hv : v.length = 32) (hh : h.length = 32) (hp : pk.length = 32) (hlt : leNat pk < 2 ^ 255 - 19) {y : F}
    (hn : E.Nonsingular (leNat pk : ℕ) y) (he : y.val % 2 = 0) (hm : Mid y) (h9 : leNat pk ≠ 9) (h0 : leNat pk ≠ 0)
    (hs : xc (Affine.Point.some _ y hn + G) ≠ 0) (hd : xc (Affine.Point.some _ y hn - G) ≠ 0) :
    ∃ f : Fe, verifyY v h pk = pack f ∧ Red f ∧ fval f = xc (leNat v • Affine.Point.some _ y hn + leNat h • G) := by
  obtain ⟨u1, u2⟩ := unpack_red hp hlt
  unfold verifyY
  dsimp only
  generalize unpack pk = p1 at *
  have hc : ∀ n : ℕ, n < P → leNat pk ≠ n → fval p1 ≠ (n : ℕ) := by
    intro n hn' hne he'
    rw [u2] at he'
    have := congrArg ZMod.val he'
    rw [ZMod.val_natCast, ZMod.val_natCast, Nat.mod_eq_of_lt hn', Nat.mod_eq_of_lt (by rw [P_eq]; exact hlt)] at this
    exact hne this
  have f9 : fval p1 ≠ 9 := by have := hc 9 (by rw [P_eq]; norm_num) h9; exact_mod_cast this
  have f0 : fval p1 ≠ 0 := by have := hc 0 (by rw [P_eq]; norm_num) h0; exact_mod_cast this
  clear hc
  obtain ⟨x, hx⟩ : ∃ x : F, x = (leNat pk : ℕ) := ⟨_, rfl⟩
  rw [← hx] at u2
  revert hn
  rw [← hx]
  intro hn hs hd
  clear hx
  subst u2
  obtain ⟨s1, s2, ⟨sy, sn, es⟩, ⟨dy, dn, ed⟩⟩ := sumDiff_spec u1 hn he hm f9
  generalize sumDiff p1 = s at *
  have hq : Quad (set 9) p1 s.1 s.2 (Affine.Point.some _ y hn) G := by
    refine ⟨set9.1, u1, s1, s2, ?_, ⟨_, _, rfl⟩, ⟨_, _, es⟩, ⟨_, _, ed⟩, ?_, f0, ?_, ?_⟩
    · rw [set9.2]; exact ⟨_, _, rfl⟩
    · rw [set9.2]; exact nine_ne
    · rw [es] at hs; exact hs
    · rw [ed] at hd; exact hd
  obtain ⟨g1, g2, g3, g4⟩ := prep_good hv hh
  generalize prep v h = d at *
  have hvlt := leNat_lt v
  have hhlt := leNat_lt h
  rw [hv] at hvlt
  rw [hh] at hhlt
  have e256 : (256 : ℕ) ^ 32 = 2 ^ 256 := by norm_num
  rw [e256] at hvlt hhlt
  have hdiv : (leNat d.1 + 2 ^ 256 * d.2) / 2 ^ 256 = d.2 := by
    rw [Nat.add_mul_div_left _ _ (by positivity), Nat.div_eq_of_lt g2, zero_add]
  have hdl : leNat d.1 + 2 ^ 256 * d.2 < 2 ^ 257 := by
    have : d.2 ≤ 1 := by omega
    have := Nat.mul_le_mul_left (2 ^ 256) this
    rw [pow_succ]
    omega
  have ht := triLoop_spec hq hvlt hhlt g3 g4 hdl
  rw [hdiv] at ht
  have ha := affine_xc ht
  exact ⟨_, rfl, ha.1, ha.2⟩

/-! ## Multiples of the base point -/

theorem order_two {x y : F} {hn : E.Nonsingular x y} {n : ℕ} (e : n • G = Affine.Point.some x y hn) : x ≠ 0 ∧ y ≠ 0 := by
  have hy : y ≠ 0 := by
    intro h
    have h2 : (n + n) • G = 0 := by
      rw [add_nsmul, e]
      apply Affine.Point.add_self_of_Y_eq
      rw [mont_negY, h]; simp
    rw [smul_zero_iff] at h2
    have hc : Nat.Coprime L 2 := by unfold L; norm_num
    have hd : L ∣ n := hc.dvd_of_dvd_mul_left (by rw [two_mul]; exact h2)
    rw [← smul_zero_iff, e] at hd
    cases hd
  refine ⟨?_, hy⟩
  intro hx
  have := mont_eq.1 hn.1
  rw [hx] at this
  apply hy
  have h2 : y ^ 2 = 0 := by linear_combination this
  exact pow_eq_zero_iff (two_ne_zero) |>.1 h2

theorem xc_neg (Q : E.Point) : xc (-Q) = xc Q := by
  cases Q with
  | zero => rfl
  | some x y hn => obtain ⟨h', e⟩ := mont_neg hn; rw [e]; rfl

theorem yc_neg (Q : E.Point) : yc (-Q) = -yc Q := by
  cases Q with
  | zero => show (0 : F) = -0; simp
  | some x y hn => obtain ⟨h', e⟩ := mont_neg hn; rw [e]; rfl

theorem xc_ne {n : ℕ} (h : ¬ L ∣ n) : xc (n • G) ≠ 0 ∧ yc (n • G) ≠ 0 := by
  rw [← smul_zero_iff] at h
  generalize hQ : n • G = Q at *
  cases Q with
  | zero => exact absurd rfl h
  | some x y hn => exact order_two hQ

/-- what `Keygen` computes: the x-coordinate of `K·G`, and the inverse of the number of the point with the even y-coordinate. -/
theorem keygenS_spec {k : Bytes} (hk : k.length = 32) (h9 : xc (leNat (clamp k) • G) ≠ 9) (hm : Mid (yc (leNat (clamp k) • G))) :
    (keygenS k).2.length = 32 ∧ leNat (keygenS k).2 < L ∧ ∃ e : ℕ, absP (leNat (clamp k) • G) = e • G ∧ 0 < e ∧ leNat (keygenS k).2 * e % L = 1 := by
  have hlt := clamped_lt hk
  have hnd := clamped_ndvd hk
  have hl := ladder_rep (k := clamp k) (lt_trans hlt (Nat.pow_lt_pow_right (by norm_num) (by norm_num)))
  unfold keygenS
  dsimp only
  have hpx := affine_xc hl.p0
  have hyne := (xc_ne hnd).2
  obtain ⟨c1, c2, c3⟩ := coreS_spec hk (coreY (affine (ladder (set 9) (clamp k)).x0 (ladder (set 9) (clamp k)).z0) (ladder (set 9) (clamp k)).x1 (ladder (set 9) (clamp k)).z1)
  refine ⟨c1, c2, _, ?_, ?_, c3⟩
  · have hP1 := hl.p1
    rw [add_nsmul, one_nsmul] at hP1
    unfold absP signedScalar
    have hy : fval (coreY (affine (ladder (set 9) (clamp k)).x0 (ladder (set 9) (clamp k)).z0) (ladder (set 9) (clamp k)).x1 (ladder (set 9) (clamp k)).z1)
        = -yc (leNat (clamp k) • G) ∧ Red (coreY (affine (ladder (set 9) (clamp k)).x0 (ladder (set 9) (clamp k)).z0) (ladder (set 9) (clamp k)).x1 (ladder (set 9) (clamp k)).z1) := by
      clear c1 c2 c3
      rw [← smul_zero_iff] at hnd
      generalize leNat (clamp k) • G = Q at *
      cases Q with
      | zero => exact absurd rfl hnd
      | some x y hn =>
        have hx : fval (affine (ladder (set 9) (clamp k)).x0 (ladder (set 9) (clamp k)).z0) = x := hpx.2
        subst hx
        have := coreY_spec hpx.1 hn h9 hP1
        exact ⟨this.2, this.1⟩
    have hneg := isNegative_spec hy.2 (by rw [hy.1]; exact hm.2)
    rw [hy.1, neg_val hyne] at hneg
    rw [hneg]
    have hvl := ZMod.val_lt (yc (leNat (clamp k) • G))
    have hodd := P_odd
    by_cases hev : (yc (leNat (clamp k) • G)).val % 2 = 0
    · have : (P - (yc (leNat (clamp k) • G)).val) % 2 = 1 := by omega
      rw [if_pos hev, this]; simp
    · have : (P - (yc (leNat (clamp k) • G)).val) % 2 = 0 := by omega
      rw [if_neg hev, this]
      simp only [ne_eq, not_true_eq_false, decide_false, Bool.false_eq_true, if_false]
      have h8 : leNat (clamp k) ≤ 8 * L := by
        have : 2 ^ 255 < 8 * L := by unfold L; norm_num
        omega
      symm
      rw [eq_neg_iff_add_eq_zero, ← add_nsmul, Nat.sub_add_cancel h8, smul_zero_iff]
      exact Dvd.intro_left 8 rfl
  · unfold signedScalar
    have : 2 ^ 255 < 8 * L := by unfold L; norm_num
    split
    · rcases Nat.eq_zero_or_pos (leNat (clamp k)) with h | h
      · rw [h] at hnd; exact absurd (dvd_zero _) hnd
      · exact h
    · omega

theorem pack_xc {k : Bytes} (hk : k.length = 32) (hx : (xc (leNat (clamp k) • G)).val < P - 19) :
    (keygen k).1.length = 32 ∧ leNat (keygen k).1 = (xc (leNat (clamp k) • G)).val := by
  have hlt := clamped_lt hk
  have hl := ladder_rep (k := clamp k) (lt_trans hlt (Nat.pow_lt_pow_right (by norm_num) (by norm_num)))
  have hpx := affine_xc hl.p0
  refine ⟨rfl, ?_⟩
  unfold keygen corePx
  dsimp only
  rw [pack_spec hpx.1 (by rw [hpx.2]; exact hx), hpx.2]

theorem absP_or (Q : E.Point) : (absP Q = Q ∨ absP Q = -Q) := by
  unfold absP; split
  · exact Or.inl rfl
  · exact Or.inr rfl

theorem absP_xc (Q : E.Point) : xc (absP Q) = xc Q := by
  rcases absP_or Q with h | h <;> rw [h]
  exact xc_neg Q

theorem absP_even {Q : E.Point} (h : yc Q ≠ 0) : (yc (absP Q)).val % 2 = 0 := by
  unfold absP
  split
  · assumption
  · rename_i h'
    rw [yc_neg, neg_val h]
    have := P_odd
    have := ZMod.val_lt (yc Q)
    omega

theorem mid_neg {y : F} (h : Mid y) : Mid (-y) := by
  obtain ⟨a, b⟩ := h
  exact ⟨b, by rw [neg_neg]; exact a⟩

theorem absP_mid {Q : E.Point} (h : Mid (yc Q)) : Mid (yc (absP Q)) := by
  rcases absP_or Q with h' | h' <;> rw [h']
  · exact h
  · rw [yc_neg]; exact mid_neg h

theorem sign_mod {v e h X s : ℕ} (hv : v = (X % L + L - h % L) * s % L) (hs : s * e % L = 1) : (v * e + h) % L = X % L := by
  have hL0 : 0 < L := by unfold L; norm_num
  have hle : h % L < L := Nat.mod_lt _ hL0
  have hse : s * e ≡ 1 [MOD L] := by
    unfold Nat.ModEq; rw [hs]; exact (Nat.mod_eq_of_lt (by unfold L; norm_num)).symm
  show v * e + h ≡ X [MOD L]
  have h1 : v ≡ (X % L + L - h % L) * s [MOD L] := by rw [hv]; exact Nat.mod_modEq _ _
  have h2 : v * e ≡ X % L + L - h % L [MOD L] := by
    have := (h1.mul_right e)
    rw [mul_assoc] at this
    refine this.trans ?_
    have := hse.mul_left (X % L + L - h % L)
    rwa [mul_one] at this
  have h3 : v * e + h ≡ (X % L + L - h % L) + h % L [MOD L] := h2.add (Nat.mod_modEq h L).symm
  rw [Nat.sub_add_cancel (by omega)] at h3
  refine h3.trans ?_
  have h4 : X % L + L ≡ X % L [MOD L] := by unfold Nat.ModEq; rw [Nat.add_mod_right]
  exact h4.trans (Nat.mod_modEq X L)

/-- a signature made by `Sign` is accepted. -/
theorem sign_verify {sha256 : Bytes → Bytes} (hsha : ∀ b, (sha256 b).length = 32) {k m : Bytes} (hk : k.length = 32) (hm0 : m ≠ [])
    (hx : (xc (leNat (clamp k) • G)).val < P - 19) (h9 : xc (leNat (clamp k) • G) ≠ 9) (hm : Mid (yc (leNat (clamp k) • G)))
    (hX : (xc (leNat (clamp (sha256 (sha256 m ++ (keygenS k).2))) • G)).val < P - 19) :
    ∃ pub sig, genPub k = .ok pub ∧ sign sha256 k m = .ok sig ∧ verify sha256 pub m sig = true := by
  obtain ⟨s1, s2, e, he, he0, hse⟩ := keygenS_spec hk h9 hm
  obtain ⟨p1, p2⟩ := pack_xc hk hx
  refine ⟨(keygen k).1, _, by unfold genPub; rw [if_neg (by simpa using hk)], by unfold sign; rw [if_neg (by simpa using hk)], ?_⟩
  have hxl := hsha (sha256 m ++ (keygenS k).2)
  generalize sha256 (sha256 m ++ (keygenS k).2) = x at *
  obtain ⟨q1, q2⟩ := pack_xc hxl hX
  have hh := hsha (sha256 m ++ (keygen x).1)
  generalize hhd : sha256 (sha256 m ++ (keygen x).1) = h at *
  have hcx : (keygen x).2 = clamp x := rfl
  rw [hcx]
  have hcl : (clamp x).length = 32 := by rw [clamp_length, hxl]
  obtain ⟨v1, v2⟩ := signV_spec (h := h) (x := clamp x) (s := (keygenS k).2) hh hcl s1
  generalize (keygenS k).2 = s at *
  generalize signV h (clamp x) s = v at *
  have hL0 : 0 < L := by unfold L; norm_num
  have hvL : leNat v < L := by rw [v2]; exact Nat.mod_lt _ hL0
  unfold verify
  have ht : (v ++ h).take 32 = v := by rw [← v1]; exact List.take_left
  have hd : (v ++ h).drop 32 = h := by rw [← v1]; exact List.drop_left
  have hcs : isCanonicalSignature (v ++ h) = true := by
    rw [isCanonicalSignature_iff (by rw [List.length_append]; omega), ht]; exact hvL
  have hP := P_eq
  have hcp : isCanonicalPublicKey (keygen k).1 = true := by
    rw [isCanonicalPublicKey_iff]; exact ⟨p1, by rw [p2]; omega⟩
  rw [if_neg (by
      rw [List.length_append, v1, hh, p1]
      have : m.length ≠ 0 := by simpa using hm0
      simp [hm0])]
  rw [hcs, hcp]
  simp only [not_true_eq_false, if_false]
  rw [ht, hd]
  -- the point of the public key with the even y-coordinate
  have hnd := clamped_ndvd hk
  have hyne := (xc_ne hnd).2
  have hxne := (xc_ne hnd).1
  have aev := absP_even hyne
  have amid := absP_mid hm
  have axc := absP_xc (leNat (clamp k) • G)
  have hene : ¬ L ∣ e := by
    intro hd
    rw [Nat.mul_mod, Nat.mod_eq_zero_of_dvd hd, mul_zero, Nat.zero_mod] at hse
    omega
  have key : ∃ y hn, e • G = Affine.Point.some ((leNat (keygen k).1 : ℕ) : F) y hn ∧ y.val % 2 = 0 ∧ Mid y := by
    have hc : ((leNat (keygen k).1 : ℕ) : F) = xc (e • G) := by
      rw [p2, ← he, axc, ZMod.natCast_zmod_val]
    rw [hc]
    rw [he] at aev amid
    rw [← smul_zero_iff] at hene
    generalize e • G = Q at *
    cases Q with
    | zero => exact absurd rfl hene
    | some x y hn => exact ⟨y, hn, rfl, aev, amid⟩
  obtain ⟨y, hn, eQ, yev, ymid⟩ := key
  have n9 : leNat (keygen k).1 ≠ 9 := by
    intro hc
    apply h9
    rw [← ZMod.natCast_zmod_val (xc (leNat (clamp k) • G)), ← p2, hc]; norm_num
  have n0 : leNat (keygen k).1 ≠ 0 := by
    intro hc
    apply hxne
    rw [← ZMod.natCast_zmod_val (xc (leNat (clamp k) • G)), ← p2, hc]; norm_num
  have x9 : xc (e • G) ≠ 9 := by rw [← he, axc]; exact h9
  have hg9 : xc G = 9 := rfl
  have hsum : ¬ L ∣ e + 1 := by
    rw [← smul_zero_iff, add_nsmul, one_nsmul, add_eq_zero_iff_eq_neg]
    intro hc
    apply x9
    rw [hc, xc_neg, hg9]
  have hdif : ¬ L ∣ e - 1 := by
    intro hc
    obtain ⟨e', rfl⟩ : ∃ e', e = e' + 1 := ⟨e - 1, by omega⟩
    rw [Nat.add_sub_cancel, ← smul_zero_iff] at hc
    apply x9
    rw [add_nsmul, hc, zero_add, one_nsmul, hg9]
  have hS : e • G + G = (e + 1) • G := by rw [add_nsmul, one_nsmul]
  have hD : e • G - G = (e - 1) • G := by
    obtain ⟨e', rfl⟩ : ∃ e', e = e' + 1 := ⟨e - 1, by omega⟩
    rw [Nat.add_sub_cancel, add_nsmul, one_nsmul, add_sub_cancel_right]
  obtain ⟨f, f1, f2, f3⟩ := verifyY_spec v1 hh p1 (by rw [p2]; omega) hn yev ymid n9 n0
    (by rw [← eQ, hS]; exact (xc_ne hsum).1) (by rw [← eQ, hD]; exact (xc_ne hdif).1)
  have hpt : leNat v • Affine.Point.some ((leNat (keygen k).1 : ℕ) : F) y hn + leNat h • G = leNat (clamp x) • G := by
    rw [← eQ, smul_smul, ← add_nsmul, smul_eq_iff]
    exact sign_mod v2 hse
  rw [hpt] at f3
  have hY : verifyY v h (keygen k).1 = (keygen x).1 := by
    apply leNat_inj_of_length
    · rw [f1, q1]; rfl
    · rw [f1, pack_spec f2 (by rw [f3]; exact hX), f3, q2]
  rw [hY, hhd]
  simp
end Verif.C25519
