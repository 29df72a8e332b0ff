import Mathlib.Tactic.Ring
import Mathlib.Tactic.FieldSimp
import Mathlib.Algebra.Field.ZMod
import Mathlib.FieldTheory.Finite.Basic
import Verif.ECDSA.Model
import Verif.ECDSA.Spec

/-!
# Lemmas: the ECDSA model on a curve that computes the group law
-/

namespace Verif.ECDSA

open Verif.EC WeierstrassCurve

/-- everything the generic ECDSA theorems assume about a curve value. -/
structure CurveGood (c : Params) [Fact c.p.Prime] (hg : Good c) (C : Curve)
    (In : Int → Int → c.Pt → Prop) : Prop where
  ok : CurveOk c hg C.toCurveImpl In
  P : C.P = c.p
  N : C.N = c.n
  ord : c.n • hg.G = 0
  p256 : c.p < 2 ^ 256
  n256 : c.n < 2 ^ 256
  n255 : 2 ^ 255 ≤ c.n

variable {c : Params} [hp : Fact c.p.Prime] {hg : Good c} {C : Curve} {In : Int → Int → c.Pt → Prop}

theorem CurveGood.fact (h : CurveGood c hg C In) : Fact c.n.Prime := ⟨hg.np⟩

theorem enc_eq (Q : c.Pt) : enc c Q = ((xval Q : Int), (yval Q : Int)) := by
  cases Q <;> rfl

theorem encode64_enc (Q : c.Pt) : encode64 (enc c Q) = be32 (xval Q) ++ be32 (yval Q) := by
  rw [enc_eq]; simp [encode64]

theorem xval_lt (Q : c.Pt) : xval Q < c.p := by
  have := (enc_range Q).2.1
  rw [enc_eq] at this; exact Int.ofNat_lt.mp this

theorem yval_lt (Q : c.Pt) : yval Q < c.p := by
  have := (enc_range Q).2.2.2
  rw [enc_eq] at this; exact Int.ofNat_lt.mp this

theorem encodes_encode64 (hp256 : c.p < 2 ^ 256) {Q : c.Pt} (hQ : Q ≠ 0) : Encodes (encode64 (enc c Q)) Q := by
  have e : (2 : ℕ) ^ 256 = 256 ^ 32 := by norm_num
  have hx : xval Q < 256 ^ 32 := by have := xval_lt Q; omega
  have hy : yval Q < 256 ^ 32 := by have := yval_lt Q; omega
  have lx := be32_length hx
  have ly := be32_length hy
  rw [encode64_enc]
  refine ⟨hQ, by simp [lx, ly], ?_, ?_⟩
  · rw [List.take_append_of_le_length (by omega), List.take_of_length_le (by omega), beNat_be32]
  · rw [List.drop_append_of_le_length (by omega), List.drop_of_length_le (by omega), List.nil_append,
      beNat_be32]

theorem Encodes.unique {b b' : Bytes} {Q : c.Pt} (h : Encodes b Q) (h' : Encodes b' Q) : b = b' := by
  obtain ⟨-, l, x, y⟩ := h
  obtain ⟨-, l', x', y'⟩ := h'
  rw [← List.take_append_drop 32 b, ← List.take_append_drop 32 b']
  congr 1
  · exact beNat_inj_of_length (by simp; omega) (x.trans x'.symm)
  · exact beNat_inj_of_length (by simp; omega) (y.trans y'.symm)

theorem Encodes.enc {b : Bytes} {Q : c.Pt} (h : Encodes b Q) :
    EC.enc c Q = (((beNat (b.take 32) : ℕ) : Int), ((beNat (b.drop 32) : ℕ) : Int)) := by
  rw [enc_eq, h.2.2.1, h.2.2.2]

theorem Encodes.inj {b : Bytes} {Q Q' : c.Pt} (h : Encodes b Q) (h' : Encodes b Q') (hg : Good c) : Q = Q' :=
  hg.enc_inj (h.enc.trans h'.enc.symm)

section zmod
variable (h : c.n • hg.G = 0)
include h

theorem smul_val (k : ZMod c.n) (m : ℕ) (hm : (m : ZMod c.n) = k) : k.val • hg.G = m • hg.G := by
  subst hm
  rw [ZMod.val_natCast]
  conv_rhs => rw [← Nat.div_add_mod m c.n, add_nsmul, mul_comm, mul_nsmul', h, nsmul_zero, zero_add]

theorem smul_congr {m m' : ℕ} (hm : (m : ZMod c.n) = (m' : ZMod c.n)) : m • hg.G = m' • hg.G := by
  rw [← smul_val h _ m rfl, ← smul_val h _ m' rfl, hm]

theorem smul_eq_zero_iff (m : ℕ) : m • hg.G = 0 ↔ (m : ZMod c.n) = 0 := by
  have := hg.np
  have hG : hg.G ≠ 0 := Affine.Point.some_ne_zero _
  constructor
  · intro hm
    rw [ZMod.natCast_eq_zero_iff]
    have ho : addOrderOf hg.G = c.n :=
      ((Nat.dvd_prime hg.np).mp (addOrderOf_dvd_of_nsmul_eq_zero h)).resolve_left
        (fun h1 => hG (AddMonoid.addOrderOf_eq_one_iff.mp h1))
    rw [← ho]; exact addOrderOf_dvd_of_nsmul_eq_zero hm
  · intro hm
    rw [smul_congr h (m' := 0) (by simpa using hm), zero_nsmul]

theorem smul_inj {m m' : ℕ} : m • hg.G = m' • hg.G ↔ (m : ZMod c.n) = (m' : ZMod c.n) := by
  refine ⟨fun he => ?_, smul_congr h⟩
  have hn0 : 0 < c.n := hg.np.pos
  -- (m + (n-1) m') G = 0
  have h1 : (m + (c.n - 1) * m') • hg.G = 0 := by
    rw [add_nsmul, he, ← add_nsmul]
    have : m' + (c.n - 1) * m' = m' * c.n := by
      obtain ⟨q, hq⟩ : ∃ q, c.n = q + 1 := ⟨c.n - 1, by omega⟩
      rw [hq]; simp; ring
    rw [this, mul_nsmul', h, nsmul_zero]
  rw [smul_eq_zero_iff h] at h1
  rw [Nat.cast_add, Nat.cast_mul, Nat.cast_sub (by omega)] at h1
  simp at h1
  linear_combination h1

end zmod

theorem xval_neg (Q : c.Pt) : xval (-Q) = xval Q := by
  cases Q with
  | zero => rfl
  | some x y h => rfl

theorem rep_of_encodes {b : Bytes} {Q : c.Pt} (h : Encodes b Q) :
    Rep c (beNat (b.take 32) : ℕ) (beNat (b.drop 32) : ℕ) Q := by
  have := rep_enc Q
  rwa [h.enc] at this

theorem CurveGood.in_of_encodes (h : CurveGood c hg C In) {b : Bytes} {Q : c.Pt} (hb : Encodes b Q) :
    In (beNat (b.take 32) : ℕ) (beNat (b.drop 32) : ℕ) Q := by
  have := h.ok.in_enc Q
  rwa [hb.enc] at this

/-- 32-byte hashes are not truncated. -/
theorem hashToInt_eq (h : CurveGood c hg C In) (hash : Bytes) (hl : hash.length = 32) :
    hashToInt C.N hash = (beNat hash : ℕ) := by
  have hlog : C.N.toNat.log2 = 255 := by
    rw [h.N]
    simp only [Int.toNat_natCast]
    rw [Nat.log2_eq_iff (by have := hg.np.pos; omega)]
    exact ⟨h.n255, h.n256⟩
  unfold hashToInt
  simp [hlog, hl]

theorem pt_eq_zero_of_coords {Q : c.Pt} (hg : Good c) : ((enc c Q).1 = 0 ∧ (enc c Q).2 = 0) ↔ Q = 0 := by
  rw [← hg.enc_zero_iff Q, Prod.ext_iff]

theorem cast_emod_val (h : c.n ≠ 0) (x : Int) (y : ZMod c.n) (hxy : (x : ZMod c.n) = y) :
    (x % (c.n : Int)).natAbs = y.val := by
  have : NeZero c.n := ⟨h⟩
  have : x % (c.n : Int) = (y.val : Int) := by
    rw [← hxy, ZMod.val_intCast]
  rw [this, Int.natAbs_natCast]

/-- `verifyGeneric` computes the textbook equation. -/
theorem verifyGeneric_iff (h : CurveGood c hg C In) {X Y : Int} {Q : c.Pt} (hQ : Q ≠ 0) (hin : In X Y Q)
    (e r s : ℕ) (hs : 0 < s) (hsn : s < c.n) :
    verifyGeneric C X Y e r s =
      .ret (decide (verPoint hg Q e r s ≠ 0 ∧ (xval (verPoint hg Q e r s) : Int) % (c.n : Int) = r)) := by
  have := h.fact
  have hn0 : c.n ≠ 0 := hg.np.ne_zero
  have hs0 : ((s : Int) : ZMod c.n) ≠ 0 := by
    rw [Int.cast_natCast, Ne, ZMod.natCast_eq_zero_iff]
    intro hd; have := Nat.le_of_dvd hs hd; omega
  obtain ⟨w, hw, -, -, hwc⟩ := modInverse_prime hs0
  rw [Int.cast_natCast] at hwc
  unfold verifyGeneric
  rw [h.N, hw]
  simp only [deref, Go.ret_bind]
  have e1 : ((e : Int) * w % (c.n : Int)).natAbs = ((e : ZMod c.n) * (s : ZMod c.n)⁻¹).val :=
    cast_emod_val hn0 _ _ (by push_cast; rw [hwc])
  have e2 : ((r : Int) * w % (c.n : Int)).natAbs = ((r : ZMod c.n) * (s : ZMod c.n)⁻¹).val :=
    cast_emod_val hn0 _ _ (by push_cast; rw [hwc])
  rw [e1, e2, h.ok.baseMul, h.ok.mul _ hQ hin, h.ok.add (h.ok.in_enc _) (h.ok.in_enc _), beNat_natBytes,
    beNat_natBytes]
  show _ = Go.ret (decide (verPoint hg Q e r s ≠ 0 ∧ _))
  have hv : ((e : ZMod c.n) * (s : ZMod c.n)⁻¹).val • hg.G + ((r : ZMod c.n) * (s : ZMod c.n)⁻¹).val • Q
    = verPoint hg Q e r s := rfl
  rw [hv]
  by_cases h0 : verPoint hg Q e r s = 0
  · rw [if_pos ((pt_eq_zero_of_coords hg).mpr h0)]
    simp [h0]
  · rw [if_neg (fun hh => h0 ((pt_eq_zero_of_coords hg).mp hh))]
    simp only [Go.pure_eq, Go.ret.injEq, enc_eq]
    rw [Bool.eq_iff_iff]
    simp [h0]

theorem verifyesdsa_iff (h : CurveGood c hg C In) {X Y : Int} {Q : c.Pt} (hQ : Q ≠ 0) (hin : In X Y Q)
    (hash : Bytes) (hl : hash.length = 32) (r s : ℕ) :
    ∃ b, verifyesdsa C X Y hash r s = .ret b ∧ (b = true ↔ Valid hg Q (beNat hash) r s) := by
  unfold verifyesdsa Valid
  rw [h.N]
  by_cases h1 : r = 0 ∨ s = 0
  · rw [if_pos (by omega)]
    exact ⟨_, rfl, by simp; omega⟩
  rw [if_neg (by omega)]
  by_cases h2 : r ≥ c.n ∨ s ≥ c.n
  · rw [if_pos (by omega)]
    exact ⟨_, rfl, by simp; omega⟩
  rw [if_neg (by omega), ← h.N, hashToInt_eq h hash hl, verifyGeneric_iff h hQ hin _ _ _ (by omega) (by omega)]
  refine ⟨_, rfl, ?_⟩
  rw [decide_eq_true_iff]
  have : ∀ x : ℕ, (x : Int) % (c.n : Int) = (r : Int) ↔ x % c.n = r := fun x => by
    rw [← Int.natCast_mod]; omega
  rw [this]
  constructor
  · intro hh; exact ⟨by omega, by omega, by omega, by omega, hh.1, hh.2⟩
  · intro hh; exact hh.2.2.2.2

end Verif.ECDSA
