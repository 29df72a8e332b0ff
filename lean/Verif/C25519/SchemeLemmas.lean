import Verif.C25519.SchemeSpec

/-!
# curve25519_sha256.go: the signature scheme
-/

set_option maxHeartbeats 1000000

namespace Verif.C25519

open Verif.Ed25519 (Fe fval F P P_eq)
open WeierstrassCurve

theorem keyPoint_eq {k : Bytes} (hk : k.length = 32) : keyPoint k = leNat (clamp k) • G := by
  unfold keyPoint; rw [clamp_leNat hk]

/-- the ladder of RFC 7748 computes the x-coordinate of the multiple of the base point. -/
theorem x25519_xc {k : Bytes} (hk : k.length = 32) : Spec.x25519 k 9 = (xc (keyPoint k)).val := by
  have hlt := clamped_lt hk
  have hl := ladder_rep (k := clamp k) (lt_trans hlt (Nat.pow_lt_pow_right (by norm_num) (by norm_num)))
  have hpx := affine_xc hl.p0
  have hc := core_spec hlt
  rw [clamp_leNat hk] at hc hpx
  have := hc.2.symm.trans hpx.2
  unfold keyPoint
  rw [← this, ZMod.val_natCast, Nat.mod_eq_of_lt (spec_ladder_lt _ _)]
  rfl

theorem x25519Bytes_xc {k : Bytes} (hk : k.length = 32) : Spec.x25519Bytes k 9 = xBytes (keyPoint k) := by
  unfold Spec.x25519Bytes xBytes
  rw [x25519_xc hk]

theorem xBytes_leNat (Q : E.Point) : (xBytes Q).length = 32 ∧ leNat (xBytes Q) = (xc Q).val := by
  have h256 : (xc Q).val < 256 ^ 32 := by
    have := ZMod.val_lt (xc Q)
    have hP := P_eq
    omega
  unfold xBytes
  exact ⟨by rw [List.length_reverse]; exact be32_length h256, by rw [leNat_reverse, beNat_be32]⟩

theorem pack_xBytes {f : Fe} (h : Red f) {Q : E.Point} (hf : fval f = xc Q) (hx : (xc Q).val < P - 19) : pack f = xBytes Q := by
  obtain ⟨h1, h2⟩ := xBytes_leNat Q
  apply leNat_inj_of_length
  · rw [h1]; rfl
  · rw [h2, pack_spec h (by rw [hf]; exact hx), hf]

theorem keygen_xBytes {k : Bytes} (hk : k.length = 32) (hx : (xc (keyPoint k)).val < P - 19) : (keygen k).1 = xBytes (keyPoint k) := by
  rw [keyPoint_eq hk] at *
  obtain ⟨h1, h2⟩ := pack_xc hk hx
  obtain ⟨h3, h4⟩ := xBytes_leNat (leNat (clamp k) • G)
  apply leNat_inj_of_length
  · rw [h1, h3]
  · rw [h2, h4]

theorem keyPoint_mod {k : Bytes} (hk : k.length = 32) : keyPoint k ≠ 0 ∧ ∃ e : ℕ, 0 < e ∧ ¬ L ∣ e ∧ absP (keyPoint k) = e • G := by
  have hnd := clamped_ndvd hk
  rw [keyPoint_eq hk]
  have h8 : leNat (clamp k) < 8 * L := by
    have : 2 ^ 255 < 8 * L := by unfold L; norm_num
    have := clamped_lt hk
    omega
  refine ⟨by rwa [Ne, smul_zero_iff], ?_⟩
  have hpos : 0 < leNat (clamp k) := by
    rcases Nat.eq_zero_or_pos (leNat (clamp k)) with h | h
    · rw [h] at hnd; exact absurd (dvd_zero _) hnd
    · exact h
  rcases absP_or (leNat (clamp k) • G) with h | h
  · exact ⟨_, hpos, hnd, h⟩
  · refine ⟨8 * L - leNat (clamp k), by omega, ?_, ?_⟩
    · intro hd
      exact hnd ((Nat.dvd_sub_iff_right h8.le (Dvd.intro_left 8 rfl)).1 hd)
    · rw [h]
      symm
      rw [eq_neg_iff_add_eq_zero, ← add_nsmul, Nat.sub_add_cancel h8.le, smul_zero_iff]
      exact Dvd.intro_left 8 rfl

/-- the signing key is determined by the private key. -/
theorem signingKey_unique {k s s' : Bytes} (hk : k.length = 32) (h : IsSigningKey k s) (h' : IsSigningKey k s') : s = s' := by
  obtain ⟨-, e, -, hne, he⟩ := keyPoint_mod hk
  apply leNat_inj_of_length
  · rw [h.len, h'.len]
  · have h1 := h.inv.trans h'.inv.symm
    rw [he, smul_smul, smul_smul, smul_eq_iff] at h1
    have h2 : leNat s ≡ leNat s' [MOD L] := by
      refine Nat.ModEq.cancel_right_of_coprime ?_ h1
      exact (Nat.Prime.coprime_iff_not_dvd L_prime).2 hne
    unfold Nat.ModEq at h2
    rwa [Nat.mod_eq_of_lt h.lt, Nat.mod_eq_of_lt h'.lt] at h2

theorem keygenS_signingKey {k : Bytes} (hk : k.length = 32) (hu : Usable (keyPoint k)) : IsSigningKey k (keygenS k).2 := by
  have e := keyPoint_eq hk
  obtain ⟨h1, h2, n, h3, -, h5⟩ := keygenS_spec hk (by rw [← e]; exact hu.nine) (by rw [← e]; exact ⟨hu.y, hu.y'⟩)
  refine ⟨h1, h2, ?_⟩
  rw [e, h3, smul_smul]
  have : leNat (keygenS k).2 * n % L = 1 % L := by rw [h5]; exact (Nat.mod_eq_of_lt (by unfold L; norm_num)).symm
  rw [(smul_eq_iff _ 1).2 this, one_nsmul]

/-- what `Sign` returns. -/
theorem sign_spec {sha256 : Bytes → Bytes} (hsha : ∀ b, (sha256 b).length = 32) {k m s : Bytes} (hk : k.length = 32) (hu : Usable (keyPoint k))
    (hs : IsSigningKey k s) (hX : (xc (keyPoint (sha256 (sha256 m ++ s)))).val < P - 19) :
    ∃ v : Bytes, v.length = 32 ∧ leNat v < L ∧
      sign sha256 k m = .ok (v ++ sha256 (sha256 m ++ xBytes (keyPoint (sha256 (sha256 m ++ s))))) ∧
      leNat v • absP (keyPoint k) + leNat (sha256 (sha256 m ++ xBytes (keyPoint (sha256 (sha256 m ++ s))))) • G = keyPoint (sha256 (sha256 m ++ s)) := by
  have hks := signingKey_unique hk hs (keygenS_signingKey hk hu)
  have hxl := hsha (sha256 m ++ s)
  have hY := keygen_xBytes hxl hX
  unfold sign
  rw [if_neg (by simpa using hk), ← hks]
  dsimp only
  generalize sha256 (sha256 m ++ s) = x at *
  rw [hY]
  have hh := hsha (sha256 m ++ xBytes (keyPoint x))
  generalize sha256 (sha256 m ++ xBytes (keyPoint x)) = h at *
  have hcx : (keygen x).2 = clamp x := rfl
  rw [hcx]
  have hcl : (clamp x).length = 32 := by rw [clamp_length, hxl]
  obtain ⟨v1, v2⟩ := signV_spec (h := h) (x := clamp x) (s := s) hh hcl hs.len
  have hL0 : 0 < L := by unfold L; norm_num
  refine ⟨_, v1, by rw [v2]; exact Nat.mod_lt _ hL0, rfl, ?_⟩
  obtain ⟨-, e, -, hne, he⟩ := keyPoint_mod hk
  have hse := hs.inv
  rw [he, smul_smul] at hse
  have hse' : leNat s * e % L = 1 := by
    have h1 : (leNat s * e) • G = 1 • G := by rw [hse, one_nsmul]
    rw [smul_eq_iff] at h1
    rw [h1]; exact Nat.mod_eq_of_lt (by unfold L; norm_num)
  rw [he, smul_smul, ← add_nsmul, keyPoint_eq hxl, smul_eq_iff]
  exact sign_mod v2 hse'

/-- what `Verify` checks, for a public key that is the x-coordinate of a point of the curve. -/
theorem verify_spec {sha256 : Bytes → Bytes} {Q : E.Point} (hQ : Q ≠ 0) (hu : Usable Q) (h0 : xc Q ≠ 0) (hs : xc (absP Q + G) ≠ 0)
    (hd : xc (absP Q - G) ≠ 0) {m v h : Bytes} (hv : v.length = 32) (hh : h.length = 32)
    (hR : (xc (leNat v • absP Q + leNat h • G)).val < P - 19) :
    verify sha256 (xBytes Q) m (v ++ h) = true ↔
      leNat v < L ∧ m ≠ [] ∧ h = sha256 (sha256 m ++ xBytes (leNat v • absP Q + leNat h • G)) := by
  obtain ⟨p1, p2⟩ := xBytes_leNat Q
  have ht : (v ++ h).take 32 = v := by rw [← hv]; exact List.take_left
  have hdr : (v ++ h).drop 32 = h := by rw [← hv]; exact List.drop_left
  have hcs : isCanonicalSignature (v ++ h) = true ↔ leNat v < L := by
    rw [isCanonicalSignature_iff (by rw [List.length_append]; omega), ht]
  have hP := P_eq
  have hx := hu.x
  have hcp : isCanonicalPublicKey (xBytes Q) = true := by
    rw [isCanonicalPublicKey_iff]; exact ⟨p1, by rw [p2]; omega⟩
  have hyne : yc Q ≠ 0 ∨ yc Q = 0 := (ne_or_eq _ _)
  have key : ∃ y hn, absP Q = Affine.Point.some ((leNat (xBytes Q) : ℕ) : F) y hn ∧ y.val % 2 = 0 ∧ Mid y := by
    have hc : ((leNat (xBytes Q) : ℕ) : F) = xc (absP Q) := by
      rw [p2, absP_xc, ZMod.natCast_zmod_val]
    have aev : (yc (absP Q)).val % 2 = 0 := by
      rcases hyne with h | h
      · exact absP_even h
      · unfold absP
        rw [h]
        have : (0 : F).val = 0 := ZMod.val_zero
        rw [if_pos (by rw [this]), h, this]
    have amid : Mid (yc (absP Q)) := absP_mid ⟨hu.y, hu.y'⟩
    have ane : absP Q ≠ 0 := by
      rcases absP_or Q with h | h <;> rw [h]
      · exact hQ
      · rwa [Ne, neg_eq_zero]
    rw [hc]
    generalize absP Q = Q' at *
    cases Q' with
    | zero => exact absurd rfl ane
    | some x y hn => exact ⟨y, hn, rfl, aev, amid⟩
  obtain ⟨y, hn, eQ, yev, ymid⟩ := key
  have n9 : leNat (xBytes Q) ≠ 9 := by
    intro hc
    apply hu.nine
    rw [← ZMod.natCast_zmod_val (xc Q), ← p2, hc]; norm_num
  have n0 : leNat (xBytes Q) ≠ 0 := by
    intro hc
    apply h0
    rw [← ZMod.natCast_zmod_val (xc Q), ← p2, hc]; norm_num
  obtain ⟨f, f1, f2, f3⟩ := verifyY_spec hv hh p1 (by rw [p2]; omega) hn yev ymid n9 n0
    (by rw [← eQ]; exact hs) (by rw [← eQ]; exact hd)
  rw [← eQ] at f3
  have hY : verifyY v h (xBytes Q) = xBytes (leNat v • absP Q + leNat h • G) := by
    rw [f1]; exact pack_xBytes f2 f3 hR
  unfold verify
  by_cases hm0 : m = []
  · rw [if_pos (by simp [hm0])]
    simp [hm0]
  · rw [if_neg (by rw [List.length_append, hv, hh, p1]; simp [hm0])]
    rw [hcp, ht, hdr]
    dsimp only
    rw [hY]
    by_cases hc : isCanonicalSignature (v ++ h) = true
    · rw [hc]
      simp [hcs.1 hc, hm0]
    · rw [if_pos (by simpa using hc)]
      have : ¬ leNat v < L := fun c => hc (hcs.2 c)
      simp [this]

theorem keyPoint_ok {k : Bytes} (hk : k.length = 32) (hu : Usable (keyPoint k)) :
    xc (keyPoint k) ≠ 0 ∧ xc (absP (keyPoint k) + G) ≠ 0 ∧ xc (absP (keyPoint k) - G) ≠ 0 := by
  obtain ⟨-, e, he0, hne, he⟩ := keyPoint_mod hk
  have x9 : xc (e • G) ≠ 9 := by rw [← he, absP_xc]; exact hu.nine
  have hg9 : xc G = 9 := rfl
  have hsum : ¬ L ∣ e + 1 := by
    rw [← smul_zero_iff, add_nsmul, one_nsmul, add_eq_zero_iff_eq_neg]
    intro hc
    apply x9
    rw [hc, xc_neg, hg9]
  have hdif : ¬ L ∣ e - 1 := by
    intro hc
    obtain ⟨e', rfl⟩ : ∃ e', e = e' + 1 := ⟨e - 1, by omega⟩
    rw [Nat.add_sub_cancel, ← smul_zero_iff] at hc
    apply x9
    rw [add_nsmul, hc, zero_add, one_nsmul, hg9]
  have hS : e • G + G = (e + 1) • G := by rw [add_nsmul, one_nsmul]
  have hD : e • G - G = (e - 1) • G := by
    obtain ⟨e', rfl⟩ : ∃ e', e = e' + 1 := ⟨e - 1, by omega⟩
    rw [Nat.add_sub_cancel, add_nsmul, one_nsmul, add_sub_cancel_right]
  refine ⟨?_, ?_, ?_⟩
  · rw [← absP_xc, he]; exact (xc_ne hne).1
  · rw [he, hS]; exact (xc_ne hsum).1
  · rw [he, hD]; exact (xc_ne hdif).1

/-- points with the same x-coordinate are equal or opposite. -/
theorem xc_inj {Q R : E.Point} (hQ : Q ≠ 0) (hR : R ≠ 0) (h : xc Q = xc R) : Q = R ∨ Q = -R := by
  cases Q with
  | zero => exact absurd rfl hQ
  | some x y hn =>
    cases R with
    | zero => exact absurd rfl hR
    | some x' y' hn' =>
      have hx : x = x' := h
      subst hx
      have c1 := mont_eq.1 hn.1
      have c2 := mont_eq.1 hn'.1
      have : (y - y') * (y + y') = 0 := by linear_combination c1 - c2
      rcases mul_eq_zero.1 this with h | h
      · left
        have : y = y' := sub_eq_zero.1 h
        subst this; rfl
      · right
        have : y = -y' := by linear_combination h
        subst this
        obtain ⟨h', e⟩ := mont_neg hn'
        rw [e]

theorem xBytes_inj {Q R : E.Point} (h : xBytes Q = xBytes R) : xc Q = xc R := by
  have h1 := (xBytes_leNat Q).2
  have h2 := (xBytes_leNat R).2
  rw [h, h2] at h1
  exact (ZMod.val_injective P h1).symm
end Verif.C25519
