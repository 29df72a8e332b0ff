import Verif.Bls.Text
import Verif.Props.Bls4
import Verif.Props.FeText

/-!
# C122: texts and sizes of BLS12-381 group elements

`Jac1`, `Jac2` and `ReadsAs` say which element the words stand for; `compress1` and `compress2` are the published encodings; `Spells` is the
reading of hexadecimal digits.
-/

namespace Verif.Props

open Verif.Bls Verif.Bls.Spec Verif.Bls.Text

theorem hexDigit_spec (d : UInt8) (h : d < 16) : IsHexDigit (hexDigit d) d.toNat ∧ IsLowerHex (hexDigit d) := by
  have key : ∀ d : UInt8, d < 16 → IsHexDigit (hexDigit d) d.toNat ∧ IsLowerHex (hexDigit d) := by
    intro d h
    have hd : d = UInt8.ofNat d.toNat := (UInt8.ofNat_toNat).symm
    have hn : d.toNat < 16 := UInt8.lt_iff_toNat_lt.mp h
    have key : ∀ i : Fin 16, IsHexDigit (hexDigit (UInt8.ofNat i.1)) i.1 ∧ IsLowerHex (hexDigit (UInt8.ofNat i.1)) := by
      unfold IsHexDigit IsLowerHex
      decide +kernel
    have := key ⟨d.toNat, hn⟩
    rw [← hd] at this
    exact this
  exact key d h

theorem hexEncode_spec : ∀ b : Bytes, Spells (hexEncode b) b ∧ (hexEncode b).length = 2 * b.length ∧ ∀ c ∈ hexEncode b, IsLowerHex c
  | [] => ⟨.nil, rfl, by simp [hexEncode]⟩
  | x :: b => by
    obtain ⟨h1, h2, h3⟩ := hexEncode_spec b
    have d1 := hexDigit_spec (x / 16) (by rw [UInt8.lt_iff_toNat_lt, UInt8.toNat_div]; have := x.toNat_lt; show _ / 16 < 16; omega)
    have d2 := hexDigit_spec (x % 16) (by rw [UInt8.lt_iff_toNat_lt, UInt8.toNat_mod]; show _ % 16 < 16; omega)
    rw [UInt8.toNat_div] at d1
    rw [UInt8.toNat_mod] at d2
    refine ⟨.cons d1.1 d2.1 h1, by simp only [hexEncode, List.length_cons, h2]; omega, ?_⟩
    intro c hc
    rw [hexEncode] at hc
    rcases List.mem_cons.mp hc with rfl | hc
    · exact d1.2
    · rcases List.mem_cons.mp hc with rfl | hc
      · exact d2.2
      · exact h3 c hc

theorem hexEncode_inj {a b : Bytes} (h : hexEncode a = hexEncode b) : a = b := by
  have h1 := (hexDecode_spec _ _).mpr (hexEncode_spec a).1
  have h2 := (hexDecode_spec _ _).mpr (hexEncode_spec b).1
  rw [h, h2] at h1
  exact (Option.some_inj.mp h1).symm

/-- C122, G1: `String` is the name of the group and the lower-case hexadecimal digits of the published encoding; it leaves the point as it was; two points
have the same text exactly if they are equal; `MarshalBinary` has the length that `PointLen` says. -/
theorem C122_g1 (p q : P3 Fe) (P T : E1.Point) (hp : Jac1 p P) (hq : Jac1 q T) :
    (∃ t, (stringG1 .amd64 p).1 = groupG1.string ++ ": ".toUTF8.toList ++ t ∧ Spells t (compress1 P) ∧ ∀ c ∈ t, IsLowerHex c) ∧
      Jac1 (stringG1 .amd64 p).2 P ∧ ((stringG1 .amd64 p).1 = (stringG1 .amd64 q).1 ↔ P = T) ∧
      ((g1 .amd64).toCompressed p).length = groupG1.pointLen := by
  rw [jac1_iff] at hp hq
  have e : (g1 .amd64).toCompressed p = compress1 P := (Sem.toCompressed_eq hp).trans (comp1_eq P)
  have e' : (g1 .amd64).toCompressed q = compress1 T := (Sem.toCompressed_eq hq).trans (comp1_eq T)
  obtain ⟨h1, -, h3⟩ := hexEncode_spec (compress1 P)
  refine ⟨⟨hexEncode (compress1 P), ?_, h1, h3⟩, (jac1_iff _ _).mpr (Sem.rep_affine_of hp), ?_, ?_⟩
  · rw [stringG1, e]
    exact congrArg (· ++ _) (by decide +kernel)
  · rw [stringG1, stringG1, e, e']
    constructor
    · intro h
      exact C78_injective.1 (hexEncode_inj (List.append_cancel_left h))
    · rintro rfl; rfl
  · rw [e, compress1_length]; rfl

/-- C122, G2, but for the name: the text begins with `bls12-381.G1: `. -/
theorem C122_g2_partial (p q : P3 Fe2) (P T : E2.Point) (hp : Jac2 p P) (hq : Jac2 q T) :
    (∃ t, (stringG2 .amd64 p).1 = groupG1.string ++ ": ".toUTF8.toList ++ t ∧ Spells t (compress2 P) ∧ ∀ c ∈ t, IsLowerHex c) ∧
      Jac2 (stringG2 .amd64 p).2 P ∧ ((stringG2 .amd64 p).1 = (stringG2 .amd64 q).1 ↔ P = T) ∧
      ((g2 .amd64).toCompressed p).length = groupG2.pointLen := by
  rw [jac2_iff] at hp hq
  have e : (g2 .amd64).toCompressed p = compress2 P := (Sem.toCompressed_eq hp).trans (comp2_eq P)
  have e' : (g2 .amd64).toCompressed q = compress2 T := (Sem.toCompressed_eq hq).trans (comp2_eq T)
  obtain ⟨h1, -, h3⟩ := hexEncode_spec (compress2 P)
  refine ⟨⟨hexEncode (compress2 P), ?_, h1, h3⟩, (jac2_iff _ _).mpr (Sem.rep_affine_of hp), ?_, ?_⟩
  · rw [stringG2, e]
    exact congrArg (· ++ _) (by decide +kernel)
  · rw [stringG2, stringG2, e, e']
    constructor
    · intro h
      exact C78_injective.2 (hexEncode_inj (List.append_cancel_left h))
    · rintro rfl; rfl
  · rw [e, compress2_length]; rfl

/-- C122, the target group. -/
theorem C122_gt (a b : Fe12) (x y : Fq12) (ha : ReadsAs a x) (hb : ReadsAs b y) :
    (∃ t s, stringGT a = groupGT.string ++ ": ".toUTF8.toList ++ t ∧ Spells t s ∧ EncodesGT s x ∧ ∀ c ∈ t, IsLowerHex c) ∧
      (stringGT a = stringGT b ↔ x = y) ∧ (OwGT.marshal a).length = groupGT.pointLen := by
  have ea : EncodesGT (OwGT.marshal a) x := ha.is.encodes
  have eb : EncodesGT (OwGT.marshal b) y := hb.is.encodes
  obtain ⟨h1, -, h3⟩ := hexEncode_spec (OwGT.marshal a)
  refine ⟨⟨hexEncode (OwGT.marshal a), _, ?_, h1, ea, h3⟩, ?_, ?_⟩
  · exact congrArg (· ++ _) (by decide +kernel)
  · constructor
    · intro h
      have := hexEncode_inj (List.append_cancel_left h)
      rw [← this] at eb
      exact (C90_encoding.2 _ _ _ ea eb).2
    · rintro rfl
      obtain ⟨s, -, hu⟩ := C90_encoding.1 x
      rw [stringGT, stringGT, hu _ ea, hu _ eb]
  · exact (C90_encoding.2 _ _ _ ea ea).1

/-- C122: elements of different groups have different texts, even though G2 uses the name of G1. -/
theorem C122_groups (p : P3 Fe) (q : P3 Fe2) (a : Fe12) (P : E1.Point) (T : E2.Point) (x : Fq12) (hp : Jac1 p P) (hq : Jac2 q T) (ha : ReadsAs a x) :
    (stringG1 .amd64 p).1 ≠ (stringG2 .amd64 q).1 ∧ (stringG1 .amd64 p).1 ≠ stringGT a ∧ (stringG2 .amd64 q).1 ≠ stringGT a := by
  have l1 : (stringG1 .amd64 p).1.length = 14 + 2 * 48 := by
    rw [stringG1, List.length_append, (hexEncode_spec _).2.1, (C122_g1 p p P P hp hp).2.2.2]
    exact congrArg (· + _) (by decide +kernel)
  have l2 : (stringG2 .amd64 q).1.length = 14 + 2 * 96 := by
    rw [stringG2, List.length_append, (hexEncode_spec _).2.1, (C122_g2_partial q q T T hq hq).2.2.2]
    exact congrArg (· + _) (by decide +kernel)
  have l3 : (stringGT a).length = 14 + 2 * 576 := by
    rw [stringGT, List.length_append, (hexEncode_spec _).2.1, (C122_gt a a x x ha ha).2.2]
    exact congrArg (· + _) (by decide +kernel)
  refine ⟨fun h => ?_, fun h => ?_, fun h => ?_⟩ <;>
    · have := congrArg List.length h
      omega

/-- C122 is false for the name of G2: the text of an element of G2 never begins with the name of G2, but with that of G1. -/
theorem C122_false_name (p : P3 Fe2) : ¬ groupG2.string <+: (stringG2 .amd64 p).1 ∧ groupG1.string <+: (stringG2 .amd64 p).1 := by
  have e : "bls12-381.G1: ".toUTF8.toList = groupG1.string ++ ": ".toUTF8.toList := by decide +kernel
  constructor
  · rintro ⟨t, h⟩
    have := congrArg (List.take 12) h
    rw [stringG2, List.take_append_of_le_length (by decide +kernel), List.take_append_of_le_length (by decide +kernel)] at this
    revert this
    decide +kernel
  · exact ⟨": ".toUTF8.toList ++ hexEncode ((g2 .amd64).toCompressed p), by rw [← List.append_assoc, ← e]; rfl⟩

/-- the hypotheses are met: the generators and one. -/
example : Jac1 (g1 .amd64).gen gen1 ∧ Jac2 (g2 .amd64).gen gen2 ∧ ∃ a, ReadsAs a 1 :=
  ⟨(jac1_iff _ _).mpr rep_gen1, (jac2_iff _ _).mpr rep_gen2, by
    obtain ⟨s, hs, -⟩ := C90_encoding.1 (1 : Fq12)
    obtain ⟨b, _, e⟩ := gt_fromBytes hs
    exact ⟨b, s, hs, by rw [e]⟩⟩

end Verif.Props
