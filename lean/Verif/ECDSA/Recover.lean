import Verif.ECDSA.Sign

/-!
# Lemmas: point decompression and public key recovery
-/

namespace Verif

/-- `ModSqrt` for `p ≡ 3 (mod 4)`: finds a root of every square. -/
theorem modSqrt3_some {p : ℕ} [hp : Fact p.Prime] (h4 : p % 4 = 3) {x : ℕ} {z : ZMod p}
    (hz : z ^ 2 = (x : ZMod p)) :
    ∃ r, modSqrt3 x p = some r ∧ r < p ∧ ((r : ℕ) : ZMod p) ^ 2 = x := by
  have hpos := hp.out.pos
  have hc : ((powMod x ((p + 1) / 4) p : ℕ) : ZMod p) ^ 2 = (x : ZMod p) := by
    rw [powMod_cast, ← hz]
    by_cases h0 : z = 0
    · subst h0
      have : (p + 1) / 4 ≠ 0 := by omega
      rw [zero_pow two_ne_zero, zero_pow this, zero_pow two_ne_zero]
    · have h1 := ZMod.pow_card_sub_one_eq_one h0
      rw [← pow_mul, ← pow_mul]
      have : 2 * ((p + 1) / 4 * 2) = (p - 1) + 2 := by omega
      rw [this, pow_add, h1, one_mul]
  refine ⟨powMod x ((p + 1) / 4) p, ?_, ?_, hc⟩
  · unfold modSqrt3
    rw [if_pos]
    have : ((powMod x ((p + 1) / 4) p * powMod x ((p + 1) / 4) p : ℕ) : ZMod p) = (x : ℕ) := by
      rw [Nat.cast_mul, ← sq, hc]
    exact (ZMod.natCast_eq_natCast_iff _ _ _).mp this
  · rw [powMod_eq _ _ _ hpos]; exact Nat.mod_lt _ hpos

theorem modSqrt3_sq {p : ℕ} {x r : ℕ} (h : modSqrt3 x p = some r) : ((r : ℕ) : ZMod p) ^ 2 = x := by
  unfold modSqrt3 at h
  dsimp only at h
  split at h
  · rename_i h1
    cases h
    have := (ZMod.natCast_eq_natCast_iff _ _ _).mpr h1
    rw [sq]; exact_mod_cast this
  · cases h

theorem modSqrt3_lt {p : ℕ} {x r : ℕ} (hpos : 0 < p) (h : modSqrt3 x p = some r) : r < p := by
  unfold modSqrt3 at h
  dsimp only at h
  split at h
  · cases h
    rw [powMod_eq _ _ _ hpos]; exact Nat.mod_lt _ hpos
  · cases h

end Verif

namespace Verif.ECDSA

open Verif.EC WeierstrassCurve

/-- assumptions about the square-root part of a curve value. -/
structure DecGood (c : Params) [Fact c.p.Prime] (rhs : Int → Int) : Prop where
  p4 : c.p % 4 = 3
  p256 : c.p < 2 ^ 256
  close : c.p < c.n + 2 ^ 247
  lo : ∀ x : ℕ, 0 ≤ rhs x
  hi : ∀ x : ℕ, rhs x < c.p
  eq : ∀ x : ℕ, ((rhs x : Int) : ZMod c.p) = (x : ZMod c.p) ^ 3 + c.a * x + c.b

variable {c : Params} [hp : Fact c.p.Prime] {hg : Good c} {C : Curve} {In : Int → Int → c.Pt → Prop}
  {rhs : Int → Int}

theorem val_of_lt {m : ℕ} (hm : m < c.p) : ((m : ℕ) : ZMod c.p).val = m := by
  rw [ZMod.val_natCast, Nat.mod_eq_of_lt hm]

/-- `decompress` returns the point with the given x and the parity of the prefix. -/
theorem decompressTail_point (hd : DecGood c rhs) {x y : ZMod c.p} (hn : c.W.Nonsingular x y)
    (xb : Bytes) (ybit : ℕ) (hyb : y.val % 2 = ybit) (hx : beNat xb = x.val) :
    decompressTail (c.p : Int) ybit xb (rhs (beNat xb)) = .ok (0x04 :: xb ++ be32 y.val) := by
  have : NeZero c.p := ⟨hp.out.ne_zero⟩
  have hodd : c.p % 2 = 1 := by have := hd.p4; omega
  have heq := (W_equation x y).mp hn.1
  have hr0 := hd.lo (beNat xb)
  have hrc : (((rhs (beNat xb)).toNat : ℕ) : ZMod c.p) = y ^ 2 := by
    have h1 : (((rhs (beNat xb)).toNat : ℕ) : Int) = rhs (beNat xb) := Int.toNat_of_nonneg hr0
    have h2 : ((((rhs (beNat xb)).toNat : ℕ) : Int) : ZMod c.p) = y ^ 2 := by
      rw [h1, hd.eq, hx, ZMod.natCast_zmod_val, heq]
    rw [← h2, Int.cast_natCast]
  obtain ⟨r, hr, hrlt, hsq⟩ := modSqrt3_some hd.p4 hrc.symm
  unfold decompressTail
  simp only [Int.toNat_natCast, hr, Option.getD_some]
  -- r = y or r = -y
  have hcase : r = y.val ∨ (y.val ≠ 0 ∧ r = c.p - y.val) := by
    have : ((r : ZMod c.p) - y) * ((r : ZMod c.p) + y) = 0 := by
      rw [hrc] at hsq; linear_combination hsq
    rcases mul_eq_zero.mp this with h | h
    · left; rw [← sub_eq_zero.mp h, val_of_lt hrlt]
    · by_cases h0 : y = 0
      · left; subst h0; rw [add_zero] at h
        rw [← val_of_lt hrlt, h]
      · right
        refine ⟨fun h' => h0 ((ZMod.val_eq_zero y).mp h'), ?_⟩
        have h1 : (r : ZMod c.p) = -y := by linear_combination h
        rw [← val_of_lt hrlt, h1, ZMod.neg_val, if_neg h0]
  have hyl := ZMod.val_lt y
  rcases hcase with h | ⟨hy0, h⟩
  · have : ¬ ((r : Int) % 2 ≠ ybit) := by omega
    simp only [this, if_false]
    rw [h, Int.natAbs_natCast]
  · have h1 : ((r : Int) % 2 ≠ ybit) := by omega
    have h2 : (c.p : Int) - r = (y.val : Int) := by omega
    have h3 : ¬ ((y.val : Int) % 2 ≠ ybit) := by omega
    rw [if_pos h1, h2, if_neg h3, Int.natAbs_natCast]

theorem decompress_point (hd : DecGood c rhs) {x y : ZMod c.p} (hn : c.W.Nonsingular x y)
    (xb : Bytes) (hl : xb.length = 32) (hx : beNat xb = x.val) (pre : UInt8)
    (hpre : pre = if y.val % 2 = 0 then 2 else 3) :
    decompress (c.p : Int) rhs (pre :: xb) = .ok (0x04 :: xb ++ be32 y.val) := by
  unfold decompress
  have h1 : ¬ ((pre :: xb).length ≠ 33 ∨ (pre ≠ 0x02 ∧ pre ≠ 0x03)) := by
    simp only [List.length_cons, hl]
    subst hpre
    split <;> simp
  simp only [h1, if_false]
  apply decompressTail_point hd hn _ _ _ hx
  subst hpre
  split
  · rename_i h; simp [h]
  · rename_i h; have : y.val % 2 = 1 := by omega
    simp [this]

/-- `decompress` never errors on a 33-byte string with prefix 02/03. -/
theorem decompressTail_ok (P : ℕ) (hodd : P % 2 = 1) (ybit : ℕ) (hy : ybit < 2) (xb : Bytes) (rv : Int) :
    ∃ y : ℕ, y ≤ P ∧ y % 2 = ybit ∧ decompressTail (P : Int) ybit xb rv = .ok (0x04 :: xb ++ be32 y) := by
  unfold decompressTail
  simp only [Int.toNat_natCast]
  obtain ⟨r, hr⟩ : ∃ r, r = (modSqrt3 rv.toNat P).getD 0 := ⟨_, rfl⟩
  have hrle : r ≤ P := by
    cases h : modSqrt3 rv.toNat P with
    | none => rw [h] at hr; simp at hr; omega
    | some q => rw [h] at hr; simp at hr; subst hr; exact (modSqrt3_lt (by omega) h).le
  rw [← hr]
  by_cases h1 : ((r : Int) % 2 ≠ ybit)
  · refine ⟨P - r, by omega, by omega, ?_⟩
    have h2 : (P : Int) - r = ((P - r : ℕ) : Int) := by omega
    have h3 : ¬ (((P - r : ℕ) : Int) % 2 ≠ ybit) := by omega
    rw [if_pos h1, h2, if_neg h3, Int.natAbs_natCast]
  · refine ⟨r, hrle, by omega, ?_⟩
    rw [if_neg h1, if_neg h1, Int.natAbs_natCast]

theorem enc_neg {Q : c.Pt} (hy : yval Q ≠ 0) : enc c (-Q) = ((xval Q : Int), (c.p : Int) - (yval Q : Int)) := by
  rw [enc_eq, xval_neg, yval_neg hy]
  have := yval_lt Q
  rw [Nat.cast_sub this.le]

/-- one iteration of the recovery loop, for a decompressed point `T`. -/
theorem recoverStep_eq (h : CurveGood c hg C In) (hd : DecGood c rhs) {T : c.Pt} (hT : T ≠ 0)
    {rb sb hash : Bytes} (hrl : rb.length = 32) (hhl : hash.length = 32)
    {pre : UInt8} (hx : beNat rb = xval T) (hpre : pre = if yval T % 2 = 0 then 2 else 3)
    (he : ((beNat hash : ℕ) : ZMod c.n) ≠ 0)
    {w : ℕ} (s : ℕ)
    (hne : s • T - beNat hash • hg.G ≠ 0) (hne2 : w • (s • T - beNat hash • hg.G) ≠ 0) :
    ∃ b : Bool, recoverStep C rhs (some (w : Int)) rb sb hash pre s =
      .ret (if b then some (encode64 (enc c (w • (s • T - beNat hash • hg.G)))) else none) ∧
      (b = true ↔ Valid hg (w • (s • T - beNat hash • hg.G)) (beNat hash) (beNat rb) (beNat sb)) := by
  have hn2 := n_gt_2 h
  have hdec : decompress C.P rhs (pre :: rb) = .ok (0x04 :: rb ++ be32 (yval T)) := by
    rw [h.P]
    cases T with
    | zero => exact absurd rfl hT
    | some x y hn => exact decompress_point hd hn rb hrl hx pre hpre
  have e256 : (2 : ℕ) ^ 256 = 256 ^ 32 := by norm_num
  have hyl : (be32 (yval T)).length = 32 := be32_length (by have := yval_lt T; have := h.p256; omega)
  unfold recoverStep
  rw [hdec]
  have hlen : (0x04 :: rb ++ be32 (yval T)).length = 65 := by simp [hrl, hyl]
  have ht : sliceTo (0x04 :: rb ++ be32 (yval T)) 33 = .ret (0x04 :: rb) := by
    unfold sliceTo
    rw [if_pos (by omega), List.take_append_of_le_length (by simp [hrl]), List.take_of_length_le (by simp [hrl])]
  have hf : sliceFrom (0x04 :: rb ++ be32 (yval T)) 33 = .ret (be32 (yval T)) := by
    unfold sliceFrom
    rw [if_pos (by omega), List.drop_append_of_le_length (by simp [hrl]), List.drop_of_length_le (by simp [hrl])]
    rfl
  simp only [ht, hf, Go.ret_bind, deref, List.drop_one, List.tail_cons, Int.natAbs_natCast]
  have hinT : In (beNat rb : ℕ) (beNat (be32 (yval T)) : ℕ) T := by
    have := h.ok.in_enc T
    rw [enc_eq] at this
    rw [hx, beNat_be32]; exact this
  rw [h.ok.mul _ hT hinT, beNat_natBytes, h.ok.baseMul]
  have heG : beNat hash • hg.G ≠ 0 := by rwa [Ne, smul_eq_zero_iff h.ord]
  have hyne := yval_ne_zero h.ord hn2 heG
  have hneg : ((enc c (beNat hash • hg.G)).1, C.P - (enc c (beNat hash • hg.G)).2) = enc c (-(beNat hash • hg.G)) := by
    rw [enc_neg hyne, enc_eq, h.P]
  have hin2 : In (enc c (beNat hash • hg.G)).1 (C.P - (enc c (beNat hash • hg.G)).2) (-(beNat hash • hg.G)) := by
    have := h.ok.in_enc (-(beNat hash • hg.G))
    rw [← hneg] at this; exact this
  rw [h.ok.add (h.ok.in_enc _) hin2, ← sub_eq_add_neg, h.ok.mul _ hne (h.ok.in_enc _), beNat_natBytes]
  obtain ⟨b, hb, hiff⟩ := verifyesdsa_iff h hne2 (h.ok.in_enc _) hash hhl (beNat rb) (beNat sb)
  refine ⟨b, ?_, hiff⟩
  rw [hb]
  cases b <;> rfl

/-- the parity prefix picks `R` or `-R`. -/
theorem exists_parity {R : c.Pt} (hp2 : c.p % 2 = 1) (hy : yval R ≠ 0) (hR : R ≠ 0) (pre : UInt8) (b : ℕ)
    (hb : b < 2) (hpre : pre = if b = 0 then 2 else 3) :
    ∃ T : c.Pt, T ≠ 0 ∧ xval T = xval R ∧ pre = (if yval T % 2 = 0 then 2 else 3) ∧
      T = (if yval R % 2 = b then R else -R) := by
  by_cases h : yval R % 2 = b
  · exact ⟨R, hR, rfl, by rw [h, hpre], by rw [if_pos h]⟩
  · refine ⟨-R, neg_ne_zero.mpr hR, xval_neg R, ?_, by rw [if_neg h]⟩
    rw [yval_neg hy, hpre]
    have := yval_lt R
    have : (c.p - yval R) % 2 = b := by omega
    rw [this]

/-- `RecoverPubkey` on a signature produced by the signing loop, for hashes that are not 0 mod N. -/
theorem recover_signed (h : CurveGood c hg C In) (hd : DecGood c rhs) {D r s : ℕ} {v : UInt8} {hash : Bytes}
    (hhl : hash.length = 32) (hb : SignedBy hg D (beNat hash) r s v)
    (hD : ((D : ℕ) : ZMod c.n) ≠ 0) (he : ((beNat hash : ℕ) : ZMod c.n) ≠ 0) :
    recoverPublic C rhs (be32 r ++ be32 s ++ [v]) hash = .ret (.ok (encode64 (enc c (D • hg.G)))) := by
  have hf := h.fact
  have hn2 := n_gt_2 h
  have e256 : (2 : ℕ) ^ 256 = 256 ^ 32 := by norm_num
  have hn256 := h.n256
  have hp2 : c.p % 2 = 1 := by have := hd.p4; omega
  have hslt : s < c.n := by have := hb.shalf; have := hb.spos; omega
  have hrl : (be32 r).length = 32 := be32_length (by have := hb.rlt; omega)
  have hsl : (be32 s).length = 32 := be32_length (by omega)
  have hvalid := hb.valid h.ord
  obtain ⟨k, hk0, hkn, hr, hk, hv⟩ := hb.ex
  set R := k • hg.G with hR
  have hRne : R ≠ 0 := by
    rw [hR, Ne, smul_eq_zero_iff h.ord, ZMod.natCast_eq_zero_iff]
    intro hdv; have := Nat.le_of_dvd hk0 hdv; omega
  have hyne : yval R ≠ 0 := yval_ne_zero h.ord hn2 hRne
  -- x(R) = r without reduction
  have hxr : xval R = r := by
    have h1 := xval_lt R
    have h2 := hd.close
    have h3 := hb.rder.1
    have h4 : (2:ℕ) ^ 247 ≤ c.n := le_trans (by norm_num) h.n255
    rcases Nat.lt_or_ge (xval R) c.n with hlt | hge
    · rw [hr, Nat.mod_eq_of_lt hlt]
    · exfalso
      have : xval R % c.n = xval R - c.n := by
        rw [Nat.mod_eq_sub_mod hge, Nat.mod_eq_of_lt (by omega)]
      omega
  have hrz : ((r : ℕ) : ZMod c.n) ≠ 0 := by
    rw [Ne, ZMod.natCast_eq_zero_iff]
    intro hdv; have := Nat.le_of_dvd hb.rpos hdv; have := hb.rlt; omega
  obtain ⟨w', hw, hw0, -, hwc⟩ := modInverse_prime (p := c.n) (g := (r : ℕ)) (by rwa [Int.cast_natCast])
  obtain ⟨w, rfl⟩ : ∃ w : ℕ, w' = w := ⟨w'.toNat, by omega⟩
  rw [Int.cast_natCast, Int.cast_natCast] at hwc
  -- pieces of the input
  have htake : (be32 r ++ be32 s ++ [v]).take 32 = be32 r := by
    rw [List.append_assoc, List.take_append_of_le_length (by omega), List.take_of_length_le (by omega)]
  have hdrop : ((be32 r ++ be32 s ++ [v]).drop 32).take 32 = be32 s := by
    rw [List.append_assoc, List.drop_append_of_le_length (by omega), List.drop_of_length_le (by omega),
      List.nil_append, List.take_append_of_le_length (by omega), List.take_of_length_le (by omega)]
  have hget : (be32 r ++ be32 s ++ [v]).getD 64 0 = v := by
    rw [List.getD_eq_getElem?_getD, List.getElem?_append_right (by simp [hrl, hsl])]
    simp [hrl, hsl]
  unfold recoverPublic
  rw [if_neg (by simp [hrl, hsl, hhl])]
  simp only [htake, hdrop, hget, beNat_be32, h.N, hw]
  have hsub : (c.n : Int) - (s : Int) = ((c.n - s : ℕ) : Int) := by omega
  rw [hsub]
  -- the successful computation
  have hmain : ∀ T : c.Pt, T = -R → w • ((c.n - s) • T - beNat hash • hg.G) = D • hg.G ∧
      (c.n - s) • T - beNat hash • hg.G ≠ 0 := by
    intro T hT
    have e1 : (c.n - s) • T = (s * k) • hg.G := by
      have h1 : (c.n - s) • T + s • T = 0 := by
        rw [← add_nsmul, Nat.sub_add_cancel hslt.le, hT, hR, neg_nsmul, smul_smul, mul_nsmul, h.ord,
          nsmul_zero, neg_zero]
      have h2 : (c.n - s) • T = - (s • T) := eq_neg_of_add_eq_zero_left h1
      rw [h2, hT, neg_nsmul, neg_neg, hR, smul_smul]
    have e2 : (c.n - s) • T - beNat hash • hg.G = (D * r) • hg.G := by
      rw [e1, sub_eq_iff_eq_add, ← add_nsmul]
      apply smul_congr h.ord
      push_cast
      linear_combination hk
    rw [e2]
    constructor
    · rw [smul_smul]
      apply smul_congr h.ord
      push_cast
      rw [hwc]; field_simp
    · rw [Ne, smul_eq_zero_iff h.ord, Nat.cast_mul]
      exact mul_ne_zero hD hrz
  have hDG : D • hg.G ≠ 0 := by rwa [Ne, smul_eq_zero_iff h.ord]
  have hv2 : v = 0 ∨ v = 1 := by
    have : v.toNat < 2 := by omega
    have h3 : v.toNat = 0 ∨ v.toNat = 1 := by omega
    rcases h3 with h3 | h3
    · left; exact UInt8.toNat_inj.mp h3
    · right; exact UInt8.toNat_inj.mp h3
  rcases hv2 with rfl | rfl
  · -- even R: first attempt uses s = 0 and fails, second succeeds
    have hpar : yval R % 2 = 0 := by rw [← hv]; rfl
    obtain ⟨T0, hT0, hx0, hpre0, hT0e⟩ := exists_parity hp2 hyne hRne 2 0 (by norm_num) (by simp)
    obtain ⟨T1, hT1, hx1, hpre1, hT1e⟩ := exists_parity hp2 hyne hRne 3 1 (by norm_num) (by simp)
    rw [if_neg (by omega)] at hT1e
    have hfail : (0 : ℕ) • T0 - beNat hash • hg.G ≠ 0 := by
      rw [zero_nsmul, zero_sub, neg_ne_zero, Ne, smul_eq_zero_iff h.ord]; exact he
    have hwz : (w : ZMod c.n) ≠ 0 := by rw [hwc]; exact inv_ne_zero hrz
    have hfail2 : w • ((0 : ℕ) • T0 - beNat hash • hg.G) ≠ 0 := by
      rw [zero_nsmul, zero_sub, neg_nsmul, neg_ne_zero, smul_smul, Ne, smul_eq_zero_iff h.ord, Nat.cast_mul]
      exact mul_ne_zero hwz he
    obtain ⟨b0, hs0, hi0⟩ := recoverStep_eq h hd hT0 (sb := be32 s) (rb := be32 r) hrl hhl
      (by rw [beNat_be32, hx0, hxr]) hpre0 he 0 hfail hfail2
    have hb0 : b0 = false := by
      rw [← Bool.not_eq_true, hi0]
      intro hval
      apply hval.2.2.2.2.1
      unfold verPoint
      rw [zero_nsmul, zero_sub, neg_nsmul, neg_nsmul, add_neg_eq_zero, smul_smul, smul_smul]
      apply smul_congr h.ord
      push_cast
      rw [ZMod.natCast_zmod_val, ZMod.natCast_zmod_val, beNat_be32, beNat_be32, hwc]
      field_simp
    rw [hb0] at hs0
    obtain ⟨hm1, hm2⟩ := hmain T1 hT1e
    obtain ⟨b1, hs1, hi1⟩ := recoverStep_eq h hd hT1 (sb := be32 s) (rb := be32 r) (w := w) hrl hhl
      (by rw [beNat_be32, hx1, hxr]) hpre1 he (c.n - s) hm2 (by rw [hm1]; exact hDG)
    have hb1 : b1 = true := by
      rw [hi1, hm1, beNat_be32, beNat_be32]; exact hvalid
    rw [hb1, hm1] at hs1
    have h01 : ¬ ((0 : UInt8) = 1) := by decide
    simp only [if_neg h01, if_true]
    rw [show ((0 : Int)) = ((0 : ℕ) : Int) from rfl, hs0]
    simp only [Go.ret_bind, hs1, Bool.false_eq_true, if_false, if_true, Go.pure_eq]
  · -- odd R: first attempt succeeds
    have hpar : yval R % 2 = 1 := by rw [← hv]; rfl
    obtain ⟨T0, hT0, hx0, hpre0, hT0e⟩ := exists_parity hp2 hyne hRne 2 0 (by norm_num) (by simp)
    rw [if_neg (by omega)] at hT0e
    obtain ⟨hm1, hm2⟩ := hmain T0 hT0e
    obtain ⟨b1, hs1, hi1⟩ := recoverStep_eq h hd hT0 (sb := be32 s) (rb := be32 r) (w := w) hrl hhl
      (by rw [beNat_be32, hx0, hxr]) hpre0 he (c.n - s) hm2 (by rw [hm1]; exact hDG)
    have hb1 : b1 = true := by
      rw [hi1, hm1, beNat_be32, beNat_be32]; exact hvalid
    rw [hb1, hm1] at hs1
    simp only [if_true]
    simp only [hs1, Go.ret_bind, if_true, Go.pure_eq]

end Verif.ECDSA
