import Verif.Bls.GT
import Verif.Bls.GTSpec
import Verif.Bls.VerifyLemmas

/-!
# The target group: bytes, membership and operations
-/

namespace Verif.Bls

open Spec

theorem coords_eq {c0 c1 c2 c3 c4 c5 d0 d1 d2 d3 d4 d5 : Fq2}
    (h : emb2 c0 + emb2 c1 * w + emb2 c2 * w ^ 2 + emb2 c3 * w ^ 3 + emb2 c4 * w ^ 4 + emb2 c5 * w ^ 5 =
      emb2 d0 + emb2 d1 * w + emb2 d2 * w ^ 2 + emb2 d3 * w ^ 3 + emb2 d4 * w ^ 4 + emb2 d5 * w ^ 5) :
    c0 = d0 ∧ c1 = d1 ∧ c2 = d2 ∧ c3 = d3 ∧ c4 = d4 ∧ c5 = d5 := by
  obtain ⟨e0, e1, e2, e3, e4, e5⟩ := ind (c0 := c0 - d0) (c1 := c1 - d1) (c2 := c2 - d2) (c3 := c3 - d3) (c4 := c4 - d4)
    (c5 := c5 - d5) (by simp only [map_sub]; linear_combination h)
  exact ⟨sub_eq_zero.mp e0, sub_eq_zero.mp e1, sub_eq_zero.mp e2, sub_eq_zero.mp e3, sub_eq_zero.mp e4, sub_eq_zero.mp e5⟩

theorem bytes2_length (z : Fq2) : (bytes2 z).length = 96 := by rw [bytes2_eq, Fe2.enc_length]

theorem fe2_toBytes {a : Fe2} {x : Fq2} (h : Fe2.Is a x) : Fe2.toBytes a = bytes2 x := by
  rw [Fe2.toBytes_eq h.1, h.2, bytes2_eq]

theorem fe2_of_bytes (x : Fq2) : ∃ a, Fe2.fromBytes (bytes2 x) = some a ∧ Fe2.Is a x := by
  obtain ⟨a, h1, h2, h3⟩ := Fe2.fromBytes_enc x
  exact ⟨a, by rw [bytes2_eq]; exact h1, h2, h3⟩

theorem fe2_some {b : Bytes} {a : Fe2} (h : Fe2.fromBytes b = some a) : ∃ x, Fe2.Is a x ∧ b = bytes2 x := by
  obtain ⟨h1, h2⟩ := Fe2.fromBytes_some h
  exact ⟨_, ⟨h1, rfl⟩, by rw [bytes2_eq, h2]⟩

/-- every element has exactly one encoding. -/
theorem encodesGT_exists (z : Fq12) : ∃ s, EncodesGT s z := by
  obtain ⟨c0, c1, c2, c3, c4, c5, h⟩ := span z
  exact ⟨_, c0, c1, c2, c3, c4, c5, h, rfl⟩

theorem Spec.EncodesGT.unique {s t : Bytes} {z : Fq12} (h : EncodesGT s z) (k : EncodesGT t z) : s = t := by
  obtain ⟨c0, c1, c2, c3, c4, c5, e, hs⟩ := h
  obtain ⟨d0, d1, d2, d3, d4, d5, e', ht⟩ := k
  obtain ⟨f0, f1, f2, f3, f4, f5⟩ := coords_eq (e.symm.trans e')
  rw [hs, ht, f0, f1, f2, f3, f4, f5]

theorem Spec.EncodesGT.length {s : Bytes} {z : Fq12} (h : EncodesGT s z) : s.length = 576 := by
  obtain ⟨c0, c1, c2, c3, c4, c5, -, hs⟩ := h
  rw [hs]
  simp only [List.length_append, bytes2_length]

theorem Fe12.Is.encodes {a : Fe12} {z : Fq12} (h : Fe12.Is a z) : EncodesGT (Fe12.toBytes a) z := by
  obtain ⟨c0, c1, c2, c3, c4, c5, h0, h1, h2, h3, h4, h5, e⟩ := h.coords
  refine ⟨c0, c1, c2, c3, c4, c5, e, ?_⟩
  rw [Fe12.toBytes, Fe6.toBytes, Fe6.toBytes, fe2_toBytes h0, fe2_toBytes h1, fe2_toBytes h2, fe2_toBytes h3, fe2_toBytes h4, fe2_toBytes h5]

theorem append_split {α : Type*} {a b c : List α} {n m : ℕ} (ha : a.length = n) (hb : b.length = m) :
    (a ++ b ++ c).take n = a ∧ ((a ++ b ++ c).drop n).take m = b ∧ (a ++ b ++ c).drop (n + m) = c := by
  subst ha hb
  refine ⟨?_, ?_, ?_⟩
  · rw [List.append_assoc, List.take_left]
  · rw [List.append_assoc, List.drop_left, List.take_left]
  · rw [← List.length_append, List.drop_left]

theorem fe6_of_bytes (x0 x1 x2 : Fq2) : ∃ a, Fe6.fromBytes (bytes2 x2 ++ bytes2 x1 ++ bytes2 x0) = some a ∧
    Fe2.Is a.c0 x0 ∧ Fe2.Is a.c1 x1 ∧ Fe2.Is a.c2 x2 := by
  obtain ⟨a0, e0, h0⟩ := fe2_of_bytes x0
  obtain ⟨a1, e1, h1⟩ := fe2_of_bytes x1
  obtain ⟨a2, e2, h2⟩ := fe2_of_bytes x2
  obtain ⟨s1, s2, s3⟩ := append_split (c := bytes2 x0) (bytes2_length x2) (bytes2_length x1)
  refine ⟨⟨a0, a1, a2⟩, ?_, h0, h1, h2⟩
  rw [Fe6.fromBytes, if_neg (by simp only [List.length_append, bytes2_length]; decide), s1, e2]
  dsimp only
  rw [s2, e1]
  dsimp only
  rw [s3, e0]

theorem fe6_some {b : Bytes} {a : Fe6} (hb : b.length = 288) (h : Fe6.fromBytes b = some a) : ∃ x0 x1 x2, Fe2.Is a.c0 x0 ∧ Fe2.Is a.c1 x1 ∧
    Fe2.Is a.c2 x2 ∧ b = bytes2 x2 ++ bytes2 x1 ++ bytes2 x0 := by
  rw [Fe6.fromBytes, if_neg (by omega)] at h
  cases h2 : Fe2.fromBytes (b.take 96) with
  | none => rw [h2] at h; cases h
  | some a2 =>
    rw [h2] at h
    cases h1 : Fe2.fromBytes ((b.drop 96).take 96) with
    | none => rw [h1] at h; cases h
    | some a1 =>
      rw [h1] at h
      cases h0 : Fe2.fromBytes (b.drop 192) with
      | none => rw [h0] at h; cases h
      | some a0 =>
        rw [h0] at h
        dsimp only at h
        rw [Option.some.injEq] at h
        obtain ⟨x2, i2, b2⟩ := fe2_some h2
        obtain ⟨x1, i1, b1⟩ := fe2_some h1
        obtain ⟨x0, i0, b0⟩ := fe2_some h0
        rw [← h]
        refine ⟨x0, x1, x2, i0, i1, i2, ?_⟩
        rw [← b2, ← b1, ← b0, List.append_assoc]
        have : b.drop 192 = (b.drop 96).drop 96 := by rw [List.drop_drop]
        rw [this, List.take_append_drop, List.take_append_drop]

theorem fe12_of_bytes {s : Bytes} {z : Fq12} (h : EncodesGT s z) : ∃ a, Fe12.fromBytes s = some a ∧ Fe12.Is a z := by
  have hl := h.length
  obtain ⟨c0, c1, c2, c3, c4, c5, e, hs⟩ := h
  obtain ⟨b0, e0, h0, h2, h4⟩ := fe6_of_bytes c0 c2 c4
  obtain ⟨b1, e1, h1, h3, h5⟩ := fe6_of_bytes c1 c3 c5
  have hb : (bytes2 c5 ++ bytes2 c3 ++ bytes2 c1).length = 288 := by simp only [List.length_append, bytes2_length]
  refine ⟨⟨b0, b1⟩, ?_, Fe12.Is.ofCoords h0 h1 h2 h3 h4 h5 e.symm⟩
  rw [Fe12.fromBytes, if_neg (by simpa using hl)]
  have t : s.take 288 = bytes2 c5 ++ bytes2 c3 ++ bytes2 c1 := by rw [hs, ← hb, List.take_left]
  have d : s.drop 288 = bytes2 c4 ++ bytes2 c2 ++ bytes2 c0 := by rw [hs, ← hb, List.drop_left]
  rw [t, d, e1]
  dsimp only
  rw [e0]

theorem fe12_some {s : Bytes} {a : Fe12} (h : Fe12.fromBytes s = some a) : ∃ z, Fe12.Is a z ∧ EncodesGT s z := by
  rw [Fe12.fromBytes] at h
  split_ifs at h with hl
  rw [not_not] at hl
  cases h1 : Fe6.fromBytes (s.take 288) with
  | none => rw [h1] at h; cases h
  | some b1 =>
    rw [h1] at h
    cases h0 : Fe6.fromBytes (s.drop 288) with
    | none => rw [h0] at h; cases h
    | some b0 =>
      rw [h0] at h
      dsimp only at h
      rw [Option.some.injEq] at h
      obtain ⟨c1, c3, c5, i1, i3, i5, e1⟩ := fe6_some (by rw [List.length_take]; omega) h1
      obtain ⟨c0, c2, c4, i0, i2, i4, e0⟩ := fe6_some (by rw [List.length_drop]; omega) h0
      rw [← h]
      refine ⟨_, Fe12.Is.ofCoords i0 i1 i2 i3 i4 i5 rfl, c0, c1, c2, c3, c4, c5, rfl, ?_⟩
      rw [← e1, ← e0, List.take_append_drop]

theorem Spec.EncodesGT.inj {s : Bytes} {y z : Fq12} (h : EncodesGT s y) (k : EncodesGT s z) : y = z := by
  obtain ⟨a, e, ha⟩ := fe12_of_bytes h
  obtain ⟨b, e', hb⟩ := fe12_of_bytes k
  rw [e, Option.some.injEq] at e'
  rw [← ha.2, ← hb.2, e']

theorem fe2_ext {a b : Fe2} {x : Fq2} (ha : Fe2.Is a x) (hb : Fe2.Is b x) : a = b := Fe2.den_inj ha.1 hb.1 (ha.2.trans hb.2.symm)

theorem Fe12.Is.ext {a b : Fe12} {z : Fq12} (ha : Fe12.Is a z) (hb : Fe12.Is b z) : a = b := by
  obtain ⟨c0, c1, c2, c3, c4, c5, h0, h1, h2, h3, h4, h5, e⟩ := ha.coords
  obtain ⟨d0, d1, d2, d3, d4, d5, k0, k1, k2, k3, k4, k5, e'⟩ := hb.coords
  obtain ⟨f0, f1, f2, f3, f4, f5⟩ := coords_eq (e.symm.trans e')
  rw [f0] at h0; rw [f1] at h1; rw [f2] at h2; rw [f3] at h3; rw [f4] at h4; rw [f5] at h5
  obtain ⟨⟨a0, a2, a4⟩, ⟨a1, a3, a5⟩⟩ := a
  obtain ⟨⟨b0, b2, b4⟩, ⟨b1, b3, b5⟩⟩ := b
  dsimp only at h0 h1 h2 h3 h4 h5 k0 k1 k2 k3 k4 k5
  rw [fe2_ext h0 k0, fe2_ext h1 k1, fe2_ext h2 k2, fe2_ext h3 k3, fe2_ext h4 k4, fe2_ext h5 k5]

theorem isValid_iff {a : Fe12} {z : Fq12} (h : Fe12.Is a z) : Fe12.isValid a = true ↔ z ^ r = 1 := by
  rw [Fe12.isValid, (h.exp order).equal_iff Fe12.is_one, order_eq]

/-- what `FromBytes` does. -/
theorem gt_fromBytes {s : Bytes} {z : Fq12} (h : EncodesGT s z) : ∃ a, Fe12.Is a z ∧
    GT.fromBytes s = (some a, if z ^ r = 1 then false else true) := by
  obtain ⟨a, e, ha⟩ := fe12_of_bytes h
  refine ⟨a, ha, ?_⟩
  rw [GT.fromBytes, e]
  dsimp only
  by_cases hz : z ^ r = 1
  · rw [if_pos hz, (isValid_iff ha).mpr hz]; rfl
  · rw [if_neg hz]
    have : Fe12.isValid a = false := by rw [← Bool.not_eq_true, isValid_iff ha]; exact hz
    rw [this]; rfl

theorem gt_fromBytes_none {s : Bytes} (h : ∀ z, ¬ EncodesGT s z) : GT.fromBytes s = (none, true) := by
  rw [GT.fromBytes]
  cases e : Fe12.fromBytes s with
  | none => rfl
  | some a =>
    obtain ⟨z, -, hz⟩ := fe12_some e
    exact absurd hz (h z)

/-! ## operations -/

theorem Fe12.is_zero : Fe12.Is Fe12.zero 0 := by
  rw [Fe12.zero]
  exact Fe12.Is.mk Fe6.is_zero Fe6.is_zero (by rw [zero_mul, zero_add])

theorem Fe12.Is.addF {a b : Fe12} {x y : Fq12} (ha : Fe12.Is a x) (hb : Fe12.Is b y) : Fe12.Is (Fe12.add a b) (x + y) := by
  obtain ⟨a0, a1, h0, h1, e⟩ := ha.dest
  obtain ⟨b0, b1, k0, k1, e'⟩ := hb.dest
  rw [Fe12.add]
  exact Fe12.Is.mk (h0.add k0) (h1.add k1) (by rw [e, e']; ring)

theorem Fe12.Is.subF {a b : Fe12} {x y : Fq12} (ha : Fe12.Is a x) (hb : Fe12.Is b y) : Fe12.Is (Fe12.sub a b) (x - y) := by
  obtain ⟨a0, a1, h0, h1, e⟩ := ha.dest
  obtain ⟨b0, b1, k0, k1, e'⟩ := hb.dest
  rw [Fe12.sub]
  exact Fe12.Is.mk (h0.sub k0) (h1.sub k1) (by rw [e, e']; ring)

theorem cyc_dvd : Q ^ 4 + 1 = Q ^ 2 + Spec.r * ((Q ^ 4 - Q ^ 2 + 1) / Spec.r) := by decide +kernel

theorem pow_cyc {K : Type*} [Field K] {x : K} {a b r k : ℕ} (h : a + 1 = b + r * k) (hx : x ^ r = 1) : x ^ a * x = x ^ b := by
  rw [← pow_succ, h, pow_add, pow_mul, hx, one_pow, mul_one]

/-- the elements of order `r` are in the cyclotomic subgroup. -/
theorem cy_of_pow {z : Fq12} (h : z ^ r = 1) : Cy z := by
  rw [Cy, phi_def, phi_def]
  exact pow_cyc cyc_dvd h

end Verif.Bls
