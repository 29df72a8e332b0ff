import Verif.ECDSA.Lemmas

/-!
# Lemmas: signing
-/

namespace Verif.ECDSA

open Verif.EC WeierstrassCurve

theorem and80 : ∀ b : Fin 256, ((UInt8.ofNat b.val &&& 0x80 == 0) = decide ((UInt8.ofNat b.val).toNat < 128)) ∧
    ((UInt8.ofNat b.val == 0) = decide ((UInt8.ofNat b.val).toNat = 0)) := by
  decide +kernel

theorem and80' (b : UInt8) : ((b &&& 0x80 == 0) = decide (b.toNat < 128)) ∧
    ((b == 0) = decide (b.toNat = 0)) := by
  have := and80 ⟨b.toNat, b.toNat_lt⟩
  simpa only [UInt8.ofNat_toNat] using this

/-- the byte-level test of utils.go:87/113 is `2^247 ≤ n < 2^255`. -/
theorem canonical_be32 {n : ℕ} (hn : n < 2 ^ 256) : canonical (be32 n) = true ↔ DerMinimal n := by
  have hl : (be32 n).length = 32 := be32_length (by norm_num; omega)
  have hv := beNat_be32 n
  match hb : be32 n, hl with
  | b0 :: b1 :: t, hl =>
    have ht : t.length = 30 := by simpa using hl
    rw [hb, beNat_cons, beNat_cons] at hv
    have hlt := beNat_lt t
    simp only [List.length_cons, ht] at hv hlt
    unfold canonical DerMinimal
    simp only [List.getD_cons_zero, List.getD_cons_succ]
    rw [(and80' b0).1, (and80' b0).2, (and80' b1).1]
    have h0 := b0.toNat_lt
    have h1 := b1.toNat_lt
    simp only [Bool.and_eq_true, decide_eq_true_eq, Bool.not_eq_true', Bool.and_eq_false_iff,
      decide_eq_false_iff_not]
    norm_num at hv hlt ⊢
    omega

variable {c : Params} [hp : Fact c.p.Prime] {hg : Good c} {C : Curve} {In : Int → Int → c.Pt → Prop}

theorem yval_ne_zero (hord : c.n • hg.G = 0) (hn2 : 2 < c.n) {m : ℕ} (hm : m • hg.G ≠ 0) : yval (m • hg.G) ≠ 0 := by
  intro h0
  have hdbl : m • hg.G + m • hg.G = 0 := by
    generalize m • hg.G = R at *
    cases R with
    | zero => exact absurd rfl hm
    | some x y h =>
      have : y = 0 := (ZMod.val_eq_zero y).mp h0
      apply Affine.Point.add_self_of_Y_eq
      rw [this]; simp [Affine.negY, Params.W, sw]
  rw [← add_nsmul, ← two_mul, smul_eq_zero_iff hord] at hdbl
  rw [Ne, smul_eq_zero_iff hord] at hm
  have : Fact c.n.Prime := ⟨hg.np⟩
  rw [Nat.cast_mul] at hdbl
  rcases mul_eq_zero.mp hdbl with h | h
  · rw [ZMod.natCast_eq_zero_iff] at h
    have := Nat.le_of_dvd (by norm_num) h; omega
  · exact hm h

theorem yval_neg {Q : c.Pt} (hy : yval Q ≠ 0) : yval (-Q) = c.p - yval Q := by
  have : NeZero c.p := ⟨hp.out.ne_zero⟩
  cases Q with
  | zero => exact absurd rfl hy
  | some x y h =>
    show (c.W.negY x y).val = c.p - y.val
    have : c.W.negY x y = -y := by simp [Affine.negY, Params.W, sw]
    rw [this, ZMod.neg_val]
    rw [if_neg]
    intro h0; apply hy; show y.val = 0; rw [h0]; exact ZMod.val_zero

/-- Everything about a signature that leaves the retry loop: there is a nonce `k` (the drawn one, or
`n - k` when `s` was replaced by `n - s`) satisfying the textbook signing equation, and `v` is the
parity of the y-coordinate of `k·G`. -/
structure SignedBy (hg : Good c) (D e r s : ℕ) (v : UInt8) : Prop where
  ex : ∃ k : ℕ, 0 < k ∧ k < c.n ∧ r = xval (k • hg.G) % c.n ∧
    (k : ZMod c.n) * (s : ZMod c.n) = (D : ZMod c.n) * r + e ∧ v.toNat = yval (k • hg.G) % 2
  rpos : 0 < r
  rlt : r < c.n
  rder : DerMinimal r
  spos : 0 < s
  shalf : s ≤ c.n / 2
  sder : DerMinimal s

theorem n_gt_2 (h : CurveGood c hg C In) : 2 < c.n := by
  have := h.n255; have : (2:ℕ) < 2 ^ 255 := by norm_num
  omega

theorem signTry_spec (h : CurveGood c hg C In) {D e : ℕ} {b : Bytes} {r' s' : Int} {v : UInt8}
    (ht : signTry C D e b = some (r', s', v)) :
    ∃ r s : ℕ, r' = r ∧ s' = s ∧ SignedBy hg D e r s v := by
  have hf := h.fact
  have hn2 := n_gt_2 h
  have hn256 := h.n256
  unfold signTry at ht
  rw [h.N] at ht
  -- the nonce
  obtain ⟨k, hk, hk0, hkn⟩ : ∃ k : ℕ, randFieldElement (c.n : Int) b = (k : Int) ∧ 0 < k ∧ k < c.n := by
    have h1 := Int.emod_nonneg (beNat b : Int) (show ((c.n : Int) - 1) ≠ 0 by omega)
    have h2 := Int.emod_lt_of_pos (beNat b : Int) (show 0 < ((c.n : Int) - 1) by omega)
    refine ⟨((beNat b : Int) % (c.n - 1) + 1).toNat, ?_, ?_, ?_⟩
    · unfold randFieldElement; omega
    · omega
    · omega
  have hkz : (k : ZMod c.n) ≠ 0 := by
    rw [Ne, ZMod.natCast_eq_zero_iff]
    intro hd; have := Nat.le_of_dvd hk0 hd; omega
  -- its inverse
  have hkinv : ((fermatInverse (k : Int) (c.n : Int) : Int) : ZMod c.n) = (k : ZMod c.n)⁻¹ := by
    unfold fermatInverse
    have e1 : ((c.n : Int) - 2).toNat = c.n - 2 := by omega
    rw [e1, Int.toNat_natCast, modExp_cast _ _ _ hg.np.pos, Int.cast_natCast]
    have := ZMod.pow_card_sub_one_eq_one hkz
    apply eq_inv_of_mul_eq_one_left
    rw [← pow_succ, ← this]; congr 1; omega
  rw [hk] at ht
  simp only [Int.natAbs_natCast] at ht
  have hbm : C.scalarBaseMult (natBytes k) = ((xval (k • hg.G) : Int), (yval (k • hg.G) : Int)) := by
    rw [h.ok.baseMul, beNat_natBytes, enc_eq]
  simp only [hbm, ← Int.natCast_mod] at ht
  set R := k • hg.G with hR
  set r := xval R % c.n with hr
  split at ht
  · cases ht
  rename_i hr0
  split at ht
  · cases ht
  rename_i hcr
  split at ht
  · cases ht
  rename_i hs0
  have hrlt : r < c.n := Nat.mod_lt _ hg.np.pos
  have hrpos : 0 < r := by omega
  have hrder : DerMinimal r := by
    rw [← canonical_be32 (by omega)]
    simpa using hcr
  -- s before the low-s step
  obtain ⟨s, hs, hslt⟩ : ∃ s : ℕ, ((D : Int) * r + e) * fermatInverse (k : Int) (c.n : Int) % (c.n : Int) = (s : Int) ∧ s < c.n := by
    refine ⟨(((D : Int) * r + e) * fermatInverse (k : Int) (c.n : Int) % (c.n : Int)).toNat, ?_, ?_⟩
    · rw [Int.toNat_of_nonneg (Int.emod_nonneg _ (by omega))]
    · have := Int.emod_lt_of_pos (((D : Int) * r + e) * fermatInverse (k : Int) (c.n : Int)) (show 0 < (c.n : Int) by omega)
      omega
  have hsc : (s : ZMod c.n) = ((D : ZMod c.n) * r + e) * (k : ZMod c.n)⁻¹ := by
    have : ((s : Int) : ZMod c.n) = _ := congrArg (Int.cast : Int → ZMod c.n) hs.symm
    rw [Int.cast_natCast, ZMod.intCast_mod] at this
    rw [this]; push_cast; rw [hkinv]
  rw [hs] at ht hs0
  have hspos : 0 < s := by omega
  have hRne : R ≠ 0 := by
    intro h0; rw [h0] at hr; rw [hr] at hrpos; simp [xval] at hrpos
  have hyne : yval R ≠ 0 := yval_ne_zero h.ord hn2 hRne
  have hv : ((if ((yval R : ℕ) : Int) % 2 = 1 then 1 else 0 : UInt8)).toNat = yval R % 2 := by
    split
    · have : yval R % 2 = 1 := by omega
      rw [this]; rfl
    · have : yval R % 2 = 0 := by omega
      rw [this]; rfl
  have hhalf : ((c.n : Int) / 2) = ((c.n / 2 : ℕ) : Int) := by omega
  rw [hhalf] at ht
  by_cases hbig : s > c.n / 2
  · -- s replaced by n - s
    have hc : ((s : ℕ) : Int) > ((c.n / 2 : ℕ) : Int) := by omega
    simp only [hc, if_true] at ht
    split at ht
    · cases ht
    rename_i hcs
    simp only [Option.some.injEq, Prod.mk.injEq] at ht
    obtain ⟨rfl, rfl, rfl⟩ := ht
    have e1 : (c.n : Int) - (s : Int) = ((c.n - s : ℕ) : Int) := by omega
    have podd : c.p % 2 = 1 := by
      rcases hp.out.eq_two_or_odd with h2 | h2
      · have := hg.p3; omega
      · exact h2
    have hneg : (c.n - k) • hg.G = -R := by
      rw [eq_neg_iff_add_eq_zero, hR, ← add_nsmul, Nat.sub_add_cancel hkn.le, h.ord]
    refine ⟨r, c.n - s, rfl, e1, ⟨⟨c.n - k, by omega, by omega, ?_, ?_, ?_⟩, hrpos, hrlt, hrder, by omega, by omega, ?_⟩⟩
    · rw [hneg, xval_neg]
    · rw [Nat.cast_sub hkn.le, Nat.cast_sub hslt.le, ZMod.natCast_self, hsc]; field_simp; ring
    · rw [hneg, yval_neg hyne]
      have hyl := yval_lt R
      split
      · have : (c.p - yval R) % 2 = 0 := by omega
        rw [this]; rfl
      · have : (c.p - yval R) % 2 = 1 := by omega
        rw [this]; rfl
    · rw [e1, Int.natAbs_natCast] at hcs
      rw [← canonical_be32 (by omega)]; simpa using hcs
  · have hc : ¬ (((s : ℕ) : Int) > ((c.n / 2 : ℕ) : Int)) := by omega
    simp only [hc, if_false] at ht
    split at ht
    · cases ht
    rename_i hcs
    simp only [Option.some.injEq, Prod.mk.injEq] at ht
    obtain ⟨rfl, rfl, rfl⟩ := ht
    refine ⟨r, s, rfl, rfl, ⟨⟨k, hk0, hkn, rfl, ?_, hv⟩, hrpos, hrlt, hrder, hspos, by omega, ?_⟩⟩
    · rw [hsc]; field_simp
    · rw [Int.natAbs_natCast] at hcs
      rw [← canonical_be32 (by omega)]; simpa using hcs

theorem signGeneric_spec (h : CurveGood c hg C In) {D e : ℕ} {bs : List Bytes} {r' s' : Int} {v : UInt8}
    (ht : signGeneric C D e bs = some (r', s', v)) :
    ∃ r s : ℕ, r' = r ∧ s' = s ∧ SignedBy hg D e r s v := by
  induction bs with
  | nil => simp [signGeneric] at ht
  | cons b bs ih =>
    unfold signGeneric at ht
    split at ht
    · rename_i t hb
      cases ht
      exact signTry_spec h hb
    · exact ih ht

/-- what `sign` returns when it succeeds. -/
theorem sign_spec (h : CurveGood c hg C In) {priv hash : Bytes} {rnd : List Bytes} {sig : Bytes} {v : UInt8}
    (hs : sign C priv hash rnd = some (.ok (sig, v))) :
    priv.length = 32 ∧ hash.length = 32 ∧ 0 < beNat priv ∧ beNat priv < c.n ∧
    ∃ r s : ℕ, sig = be32 r ++ be32 s ∧ SignedBy hg (beNat priv) (beNat hash) r s v := by
  unfold sign at hs
  split at hs
  · cases hs
  rename_i h1
  split at hs
  · cases hs
  rename_i h2
  dsimp only at hs
  split at hs
  · cases hs
  rename_i h3
  split at hs
  · cases hs
  rename_i h4
  rw [h.N] at h4
  split at hs
  · cases hs
  rename_i r' s' v' heq
  simp only [Option.some.injEq, Except.ok.injEq, Prod.mk.injEq] at hs
  obtain ⟨rfl, rfl⟩ := hs
  simp only [not_not] at h1 h2
  rw [hashToInt_eq h hash h2] at heq
  obtain ⟨r, s, rfl, rfl, hb⟩ := signGeneric_spec h heq
  refine ⟨h1, h2, by omega, by omega, r, s, ?_, hb⟩
  simp

/-- the textbook correctness argument: the verification point of a signature is `k·G`. -/
theorem SignedBy.verPoint {D e r s : ℕ} {v : UInt8} (hb : SignedBy hg D e r s v) (hord : c.n • hg.G = 0)
    {k : ℕ} (hk : (k : ZMod c.n) * (s : ZMod c.n) = (D : ZMod c.n) * r + e) :
    verPoint hg (D • hg.G) e r s = k • hg.G := by
  have : Fact c.n.Prime := ⟨hg.np⟩
  have hs0 : (s : ZMod c.n) ≠ 0 := by
    rw [Ne, ZMod.natCast_eq_zero_iff]
    intro hd; have := Nat.le_of_dvd hb.spos hd; have := hb.shalf; have := hb.spos; omega
  unfold ECDSA.verPoint
  rw [← mul_nsmul, ← add_nsmul]
  apply smul_congr hord
  push_cast
  rw [ZMod.natCast_zmod_val, ZMod.natCast_zmod_val]
  field_simp
  linear_combination -hk

theorem SignedBy.valid {D e r s : ℕ} {v : UInt8} (hb : SignedBy hg D e r s v) (hord : c.n • hg.G = 0) :
    Valid hg (D • hg.G) e r s := by
  obtain ⟨k, hk0, hkn, hr, hk, hv⟩ := hb.ex
  have hvp := hb.verPoint hord hk
  refine ⟨hb.rpos, hb.rlt, hb.spos, ?_, ?_, ?_⟩
  · have := hb.shalf; have := hb.spos; omega
  · rw [hvp, Ne, smul_eq_zero_iff hord, ZMod.natCast_eq_zero_iff]
    intro hd; have := Nat.le_of_dvd hk0 hd; omega
  · rw [hvp, hr]

end Verif.ECDSA
