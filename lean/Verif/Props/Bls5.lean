import Verif.Bls.HashG1Fields
import Verif.Bls.KyberHash
import Verif.Props.Bls4

/-!
# BLS12-381: C94–C97 (hashing to G1, encoding to G2, the cofactors, `Hash`, `Pick` and `String` of the point objects)

Specification: `Verif/Bls/HashG1Spec.lean` (RFC 9380, the G1 suites and the NU suite of G2) and `Verif/Bls/GroupSpec.lean`.
-/

namespace Verif.Props

open Verif.EC Verif.Bls Verif.Api Verif.Bls.Spec

set_option linter.constructorNameAsVariable false

variable {H : Bytes → Bytes}

/-! ## C94: hashing and encoding to G1 -/

/-- the inputs of hashing for which the two SWU points are different and their sum is not one of the ten points the isogeny sends to
infinity. -/
def Regular1 (u0 u1 : Fq) : Prop := ∀ P0 P1, Sswu1 u0 P0 → Sswu1 u1 P1 → P0 ≠ P1 ∧ ¬ Exceptional (P0 + P1)

/-- C94, `HashToCurve`, the part that holds: for field elements with `Regular1`, hashing returns the point of RFC 9380, which is in the
subgroup.  Missing: equal SWU points (the code doubles with the formula of another curve) and a sum in the kernel of the isogeny (the code
divides by 0, as in `C94_false_kernel`). -/
theorem C94_hash_partial (hH : ∀ m, (H m).length = 32) (msg dst : Bytes) (u0 u1 : Fq) (hu : hashToField1 H msg dst = some (u0, u1))
    (hr : Regular1 u0 u1) :
    ∃ p P, hashToG1 .amd64 H msg dst = .ret (some p) ∧ HashesTo1 u0 u1 P ∧ r • P = 0 ∧ (g1 .amd64).toCompressed p = compress1 P := by
  obtain ⟨a0, a1, h, r0, r1, rfl, rfl⟩ := hashToG1_fields hH msg dst .amd64 hu
  obtain ⟨P, hP, hR⟩ := mapToG1_spec r0 r1 hr
  refine ⟨_, P, h, hP, ?_, (Sem.toCompressed_eq hR).trans (comp1_eq P)⟩
  obtain ⟨_, _, T, _, _, _, rfl⟩ := hP
  exact hEff1_clear T

/-- C94, `EncodeToPoint`, the part that holds: when the SWU point is not in the kernel of the isogeny. -/
theorem C94_encode_partial (hH : ∀ m, (H m).length = 32) (msg dst : Bytes) (u : Fq) (hu : encodeToField1 H msg dst = some u)
    (hr : ∀ P, Sswu1 u P → ¬ Exceptional P) :
    ∃ p P, encodeToG1 .amd64 H msg dst = .ret (some p) ∧ EncodesTo1 u P ∧ r • P = 0 ∧ (g1 .amd64).toCompressed p = compress1 P := by
  obtain ⟨a, h, ra, rfl⟩ := encodeToG1_fields hH msg dst .amd64 hu
  obtain ⟨P, hP, hR⟩ := encodeG1_spec ra hr
  refine ⟨_, P, h, hP, ?_, (Sem.toCompressed_eq hR).trans (comp1_eq P)⟩
  obtain ⟨_, T, _, _, rfl⟩ := hP
  exact hEff1_clear T

/-- C94, `MapToCurve`, the part that holds: the 48 bytes of a field element whose SWU point is not in the kernel of the isogeny. -/
theorem C94_map_partial (s : Bytes) (hl : s.length = 48) (hs : beNat s < Q) (hr : ∀ P, Sswu1 (beNat s : Fq) P → ¬ Exceptional P) :
    ∃ p P, mapToCurveG1 .amd64 s = some p ∧ EncodesTo1 (beNat s : Fq) P ∧ r • P = 0 ∧ (g1 .amd64).toCompressed p = compress1 P := by
  obtain ⟨a, h, ra, e⟩ := (Fe.fromBytes_spec s).1 ⟨hl, hs⟩
  rw [← e] at hr ⊢
  obtain ⟨P, hP, hR⟩ := encodeG1_spec ra hr
  refine ⟨_, P, by rw [mapToCurveG1, h]; rfl, hP, ?_, (Sem.toCompressed_eq hR).trans (comp1_eq P)⟩
  obtain ⟨_, T, _, _, rfl⟩ := hP
  exact hEff1_clear T

/-- C94: `MapToCurve` returns an error for every other string. -/
theorem C94_map_errors (s : Bytes) (bd : Build) : mapToCurveG1 bd s = none ↔ ¬ (s.length = 48 ∧ beNat s < Q) := by
  constructor
  · intro h hs
    obtain ⟨a, h', -⟩ := (Fe.fromBytes_spec s).1 hs
    rw [mapToCurveG1, h'] at h
    exact absurd h (by simp)
  · intro h
    rw [mapToCurveG1, (Fe.fromBytes_spec s).2 h]
    rfl

/-- C94: hashing and encoding with a tag of at most 255 bytes return a point. -/
theorem C94_total (hH : ∀ m, (H m).length = 32) (msg dst : Bytes) (hd : dst.length ≤ 255) (bd : Build) :
    (∃ p, hashToG1 bd H msg dst = .ret (some p)) ∧ ∃ p, encodeToG1 bd H msg dst = .ret (some p) := by
  obtain ⟨⟨u0, u1⟩, hu⟩ := hashToField1_some H msg dst hd
  obtain ⟨u, hu'⟩ := encodeToField1_some H msg dst hd
  obtain ⟨a0, a1, h, -⟩ := hashToG1_fields hH msg dst bd hu
  obtain ⟨a, h', -⟩ := encodeToG1_fields hH msg dst bd hu'
  exact ⟨⟨_, h⟩, _, h'⟩

/-- C94: the specification allows one point only. -/
theorem C94_unique (u0 u1 : Fq) (P P' : E1.Point) :
    (HashesTo1 u0 u1 P → HashesTo1 u0 u1 P' → P = P') ∧ (EncodesTo1 u0 P → EncodesTo1 u0 P' → P = P') :=
  ⟨HashesTo1_unique, EncodesTo1_unique⟩

/-- C94: the specification gives a point for all field elements. -/
theorem C94_exists (u0 u1 : Fq) : (∃ P, HashesTo1 u0 u1 P) ∧ ∃ P, EncodesTo1 u0 P := by
  obtain ⟨P0, s0⟩ := Sswu1_exists u0
  obtain ⟨P1, s1⟩ := Sswu1_exists u1
  obtain ⟨T, hT⟩ := Iso1_exists (P0 + P1)
  obtain ⟨T', hT'⟩ := Iso1_exists P0
  exact ⟨⟨_, P0, P1, T, s0, s1, hT, rfl⟩, _, P0, T', s0, hT', rfl⟩

/-- the 48 bytes of a field element that is mapped to the kernel of the isogeny. -/
def kernelBytes : Bytes := be 48 excU

theorem kernelBytes_val : kernelBytes.length = 48 ∧ beNat kernelBytes = excU := by decide +kernel

/-- C94 is false: for these 48 bytes RFC 9380 gives the point at infinity; `MapToCurve` returns, without an error, coordinates that are not
on the curve. -/
theorem C94_false_kernel : EncodesTo1 (beNat kernelBytes : Fq) 0 ∧ ∃ p, mapToCurveG1 .amd64 kernelBytes = some p ∧ (g1 .amd64).isOnCurve p = false ∧
    (g1 .amd64).toCompressed p ≠ compress1 0 := by
  obtain ⟨hl, hv⟩ := kernelBytes_val
  refine ⟨by rw [hv]; exact exc_encodes, ?_⟩
  obtain ⟨a, h, ra, e⟩ := (Fe.fromBytes_spec kernelBytes).1 ⟨hl, by rw [hv]; decide +kernel⟩
  rw [hv] at e
  refine ⟨⟨Fe.zero, Fe.zero, Fe.one⟩, ?_, by decide +kernel, ?_⟩
  · rw [mapToCurveG1, h, Option.map_some, exc_encodeG1 ra e]
  · have e0 : (g1 .amd64).toCompressed (g1 .amd64).infinity = compress1 0 :=
      (Sem.toCompressed_eq (S := sem1) Sem.rep_infinity).trans (comp1_eq 0)
    rw [← e0]
    decide +kernel

theorem sample_hashToField1 (msg dst : Bytes) (hd : dst.length ≤ 255) : hashToField1 sampleH msg dst = some (1, 2) := by
  rw [hashToField1, Spec.expand]
  simp only []
  rw [if_neg (by omega)]
  generalize hb : sampleH _ = b0
  have h0 : b0.length = 32 := by rw [← hb]; exact sampleH_length _
  generalize dst ++ Spec.i2osp dst.length 1 = d
  have hr : List.range ((128 + 31) / 32) = [0, 1, 2, 3] := by decide
  have B := fun i hi => (sample_block b0 d h0 i hi).2
  rw [hr]
  simp only [List.flatMap_cons, List.flatMap_nil]
  rw [B 0 (by decide), B 1 (by decide), B 2 (by decide), B 3 (by decide), Option.map_some]
  unfold Spec.fieldElem
  rw [show ((1 : Fq), (2 : Fq)) = (((1 : ℕ) : Fq), ((2 : ℕ) : Fq)) from by rw [Nat.cast_one, Nat.cast_ofNat]]
  congr 3 <;> decide +kernel

theorem sample_encodeToField1 (msg dst : Bytes) (hd : dst.length ≤ 255) : encodeToField1 sampleH msg dst = some 1 := by
  rw [encodeToField1, Spec.expand]
  simp only []
  rw [if_neg (by omega)]
  generalize hb : sampleH _ = b0
  have h0 : b0.length = 32 := by rw [← hb]; exact sampleH_length _
  generalize dst ++ Spec.i2osp dst.length 1 = d
  have hr : List.range ((64 + 31) / 32) = [0, 1] := by decide
  have B := fun i hi => (sample_block b0 d h0 i hi).2
  rw [hr]
  simp only [List.flatMap_cons, List.flatMap_nil]
  rw [B 0 (by decide), B 1 (by decide), Option.map_some]
  unfold Spec.fieldElem
  rw [show (1 : Fq) = ((1 : ℕ) : Fq) from by rw [Nat.cast_one]]
  congr 2

example : (∀ m, (sampleH m).length = 32) ∧ ∀ msg, hashToField1 sampleH msg hashDomain = some (1, 2) ∧ Regular1 1 2 ∧
    encodeToField1 sampleH msg hashDomain = some 1 ∧ ∀ P, Sswu1 1 P → ¬ Exceptional P :=
  ⟨sampleH_length, fun msg => ⟨sample_hashToField1 msg _ (by decide +kernel), fun _ _ => sample_regular1,
    sample_encodeToField1 msg _ (by decide +kernel), fun _ => sample_encode1⟩⟩

example : ∃ p P, mapToCurveG1 .amd64 (List.replicate 47 0 ++ [1]) = some p ∧ EncodesTo1 (beNat (List.replicate 47 0 ++ [1]) : Fq) P ∧ r • P = 0 ∧
    (g1 .amd64).toCompressed p = compress1 P := by
  have hv : beNat (List.replicate 47 0 ++ [1]) = 1 := by decide +kernel
  refine C94_map_partial _ (by decide +kernel) (by rw [hv]; decide +kernel) ?_
  rw [hv, Nat.cast_one]
  exact fun _ => sample_encode1

/-! ## C95: the cofactors -/

/-- C95: `ClearCofactor` and `MulByCofactor` of G1 and `ClearCofactor` of G2 take every point of the curve to a multiple of it that is in the
subgroup of order `r`, and the group check accepts the result. -/
theorem C95_clear (p : P3 Fe) (P : E1.Point) (hp : Jac1 p P) (q : P3 Fe2) (T : E2.Point) (hq : Jac2 q T) :
    (Jac1 (clearCofactorG1 .amd64 p) (hEff1 • P) ∧ r • (hEff1 • P) = 0 ∧ (g1 .amd64).inSubgroup (clearCofactorG1 .amd64 p) = true) ∧
    (Jac1 (mulByCofactorG1 .amd64 p) (cofactorG1 • P) ∧ r • (cofactorG1 • P) = 0 ∧ (g1 .amd64).inSubgroup (mulByCofactorG1 .amd64 p) = true) ∧
    (Jac2 (clearCofactorG2 .amd64 q) (hEff • T) ∧ r • (hEff • T) = 0 ∧ (g2 .amd64).inSubgroup (clearCofactorG2 .amd64 q) = true) := by
  rw [jac1_iff] at hp
  rw [jac2_iff] at hq
  have e1 : sem1.Rep (clearCofactorG1 .amd64 p) (hEff1 • P) := by rw [← cofactor1_eq]; exact Sem.rep_mul hp _
  have e2 : sem1.Rep (mulByCofactorG1 .amd64 p) (cofactorG1 • P) := Sem.rep_mul hp _
  have e3 : sem2.Rep (clearCofactorG2 .amd64 q) (hEff • T) := by rw [← cofactor_eq]; exact Sem.rep_mul hq _
  have k3 : r • (hEff • T) = 0 := clear hEff_dvd T
  refine ⟨⟨(jac1_iff _ _).mpr e1, hEff1_clear P, (Sem.inSubgroup_iff e1).mpr ?_⟩, ⟨(jac1_iff _ _).mpr e2, cofactorG1_clear P, (Sem.inSubgroup_iff e2).mpr ?_⟩,
    (jac2_iff _ _).mpr e3, k3, (Sem.inSubgroup_iff e3).mpr ?_⟩
  · rw [order_eq]; exact hEff1_clear P
  · rw [order_eq]; exact cofactorG1_clear P
  · rw [order_eq]; exact k3

/-- C95: the constants: the number of points of G1's curve is `cofactorG1 * r`; `hEff1` is not a multiple of the cofactor but divides it
three-fold up to a square: `hEff1² = 3 · cofactorG1`. -/
theorem C95_constants : Nat.card E1.Point = cofactorG1 * r ∧ hEff1 ^ 2 = 3 * cofactorG1 ∧ ¬ cofactorG1 ∣ hEff1 := by
  refine ⟨by rw [cofactorG1_eq]; exact card_E1, by decide +kernel, fun h => absurd (Nat.le_of_dvd (by decide) h) (by decide +kernel)⟩

example : ∃ p P, Jac1 p P ∧ r • P ≠ 0 := by
  obtain ⟨P, hP, -⟩ := C91_false_subgroup
  obtain ⟨p, -, hp⟩ := Sem.fromBytesPt_plain (S := sem1) bytes1_zero P
  exact ⟨p, P, (jac1_iff _ _).mpr hp, hP⟩

example : ∃ q T, Jac2 q T ∧ T ≠ 0 := by
  obtain ⟨p, -, hp⟩ := Sem.fromBytesPt_plain (S := sem2) bytes2_zero gen2
  exact ⟨p, gen2, (jac2_iff _ _).mpr hp, gen2_ne⟩

/-! ## C96: encoding to G2 -/

/-- C96, `EncodeToCurve` of G2, the part that holds: for a field element that is not 0 it returns the point of RFC 9380, which is in the
subgroup.  Missing: for `u = 0` the map to the curve is wrong (`C80_false_zero`). -/
theorem C96_encode_partial (hH : ∀ m, (H m).length = 32) (msg dst : Bytes) (u : Fq2) (hu : encodeToField2 H msg dst = some u) (h0 : u ≠ 0) :
    ∃ p P, encodeToG2 .amd64 H msg dst = .ret (some p) ∧ EncodesTo2 u P ∧ r • P = 0 ∧ (g2 .amd64).toCompressed p = compress2 P := by
  obtain ⟨a, h, ra, rfl⟩ := encodeToG2_fields hH msg dst .amd64 hu
  obtain ⟨P, hP, hR⟩ := encodeG2_spec ra h0
  refine ⟨_, P, h, hP, ?_, (Sem.toCompressed_eq hR).trans (comp2_eq P)⟩
  obtain ⟨x, y, hn, -, e⟩ := hP
  rw [e]
  generalize (WeierstrassCurve.Affine.Point.some (isoX x) (isoY x y) hn : E2.Point) = T
  exact clear hEff_dvd T

/-- C96: encoding with a tag of at most 255 bytes returns a point. -/
theorem C96_total (hH : ∀ m, (H m).length = 32) (msg dst : Bytes) (hd : dst.length ≤ 255) (bd : Build) :
    ∃ p, encodeToG2 bd H msg dst = .ret (some p) := by
  obtain ⟨u, hu⟩ := encodeToField2_some H msg dst hd
  obtain ⟨a, h, -⟩ := encodeToG2_fields hH msg dst bd hu
  exact ⟨_, h⟩

theorem sample_encodeToField2 (msg dst : Bytes) (hd : dst.length ≤ 255) : encodeToField2 sampleH msg dst = some (Fe2.den sampleU0) := by
  have h := sample_hashToField1 msg dst hd
  rw [hashToField1] at h
  obtain ⟨u, h1, h2⟩ := Option.map_eq_some_iff.mp h
  rw [Prod.mk.injEq] at h2
  rw [encodeToField2, h1, Option.map_some, h2.1, h2.2, sampleU0_spec.2, Nat.cast_one, Nat.cast_ofNat]

example : (∀ m, (sampleH m).length = 32) ∧ ∀ msg, ∃ u, encodeToField2 sampleH msg hashDomain = some u ∧ u ≠ 0 :=
  ⟨sampleH_length, fun msg => ⟨_, sample_encodeToField2 msg _ (by decide +kernel), sampleU0_ne⟩⟩

/-! ## C97: `Hash`, `Pick` and `String` of the point objects -/

/-- C97, G1: `Hash` returns the RFC 9380 hash with the tag of the augmented signature scheme of G2, whatever the object held, and `Pick`
hashes the first 32 bytes of the stream; for regular field elements the result is in the subgroup. -/
theorem C97_g1_partial (hH : ∀ m, (H m).length = 32) (k : Option (P3 Fe)) (m : Bytes) (u0 u1 : Fq) (hu : hashToField1 H m AUG_SCHEME_DST = some (u0, u1))
    (hr : Regular1 u0 u1) :
    (∃ p P, owG1Hash .amd64 H k m = .ret (some p) ∧ HashesTo1 u0 u1 P ∧ r • P = 0 ∧ (g1 .amd64).toCompressed p = compress1 P) ∧
      ∀ stream : ℕ → UInt8, (List.range 32).map stream = m → owG1Pick .amd64 H k stream = owG1Hash .amd64 H k m := by
  refine ⟨C94_hash_partial hH m _ u0 u1 hu hr, ?_⟩
  rintro stream rfl
  rfl

/-- C97: with a 32-byte hash `Hash` of G1 always returns a point. -/
theorem C97_g1_total (hH : ∀ m, (H m).length = 32) (k : Option (P3 Fe)) (m : Bytes) (bd : Build) : ∃ p, owG1Hash bd H k m = .ret (some p) :=
  (C94_total hH m hashDomain (by decide +kernel) bd).1

/-- C97 is false for G2: `Pick` returns the point it is called on, for every stream. -/
theorem C97_false_pick (bd : Build) (k : Option (P3 Fe2)) (stream : ℕ → UInt8) : owG2Pick bd H k stream = .ret k := by
  have hl : (streamBytes stream).length = 32 := by rw [streamBytes, List.length_map, List.length_range]
  have no : ∀ d : Bytes, d.length = 43 → d.isPrefixOf (streamBytes stream) = false := by
    intro d hd
    rw [Bool.eq_false_iff, ne_eq, List.isPrefixOf_iff_prefix]
    intro h
    have := h.length_le
    omega
  rw [owG2Pick, owG2Hash, no _ basicDst_length, no _ augDst_length]
  rfl

/-- C97 is false for G2: `Hash` of a message that starts with neither of the two tags leaves the point unchanged, so all such messages have
the same hash. -/
theorem C97_false_hash (bd : Build) (k : Option (P3 Fe2)) (m : Bytes) (h : ¬ BASIC_SCHEME_DST <+: m) (h' : ¬ AUG_SCHEME_DST <+: m) :
    owG2Hash bd H k m = .ret k := by
  have h1 : ¬ basicDst.isPrefixOf m = true := fun e => h (List.isPrefixOf_iff_prefix.mp e)
  have h2 : ¬ augDst.isPrefixOf m = true := fun e => h' (List.isPrefixOf_iff_prefix.mp e)
  rw [owG2Hash, if_neg h1, if_neg h2]

theorem hexDigit_inj : ∀ a < 16, ∀ b < 16, hexDigit a = hexDigit b → a = b := by decide +kernel

theorem hexString_inj : ∀ a b : Bytes, hexString a = hexString b → a = b
  | [], [], _ => rfl
  | [], c :: b, h => by simp [hexString] at h
  | c :: a, [], h => by simp [hexString] at h
  | c :: a, d :: b, h => by
    rw [hexString, hexString, List.flatMap_cons, List.flatMap_cons] at h
    simp only [List.cons_append, List.nil_append, List.cons.injEq] at h
    obtain ⟨h1, h2, h3⟩ := h
    have hc := c.toNat_lt
    have hd := d.toNat_lt
    have e1 := hexDigit_inj _ (by omega) _ (by omega) h1
    have e2 := hexDigit_inj _ (by omega) _ (by omega) h2
    have e : c = d := UInt8.toNat_inj.mp (by omega)
    rw [e, hexString_inj a b h3]

/-- C97, `String`: two objects of one group that hold points have the same text exactly when the points are equal. -/
theorem C97_string (p p' : P3 Fe) (P P' : E1.Point) (hp : Jac1 p P) (hp' : Jac1 p' P') (q q' : P3 Fe2) (T T' : E2.Point) (hq : Jac2 q T) (hq' : Jac2 q' T') :
    (owG1String .amd64 (some p) = owG1String .amd64 (some p') ↔ P = P') ∧ (owG2String .amd64 (some q) = owG2String .amd64 (some q') ↔ T = T') := by
  rw [jac1_iff] at hp hp'
  rw [jac2_iff] at hq hq'
  rw [owG1String, owG1String, owG2String, owG2String]
  rw [(Sem.toCompressed_eq hp).trans (comp1_eq P), (Sem.toCompressed_eq hp').trans (comp1_eq P'), (Sem.toCompressed_eq hq).trans (comp2_eq T),
    (Sem.toCompressed_eq hq').trans (comp2_eq T')]
  constructor
  · refine ⟨fun h => ?_, fun h => by rw [h]⟩
    injection h with h
    exact C78_injective.1 (hexString_inj _ _ (List.append_cancel_left h))
  · refine ⟨fun h => ?_, fun h => by rw [h]⟩
    injection h with h
    exact C78_injective.2 (hexString_inj _ _ (List.append_cancel_left h))

/-- C97 is false for `String` of G2: the text names the group G1. -/
theorem C97_false_string (q : P3 Fe2) : ∃ t, owG2String .amd64 (some q) = .ret ("bls12-381.G1: ".toList ++ t) := ⟨_, rfl⟩

example : ∀ m, hashToField1 sampleH m AUG_SCHEME_DST = some (1, 2) ∧ Regular1 1 2 :=
  fun m => ⟨sample_hashToField1 m _ (by decide +kernel), fun _ _ => sample_regular1⟩

example : ¬ BASIC_SCHEME_DST <+: [1, 2, 3] ∧ ¬ AUG_SCHEME_DST <+: [1, 2, 3] := by decide +kernel

end Verif.Props
