import Verif.Bls.FeText
import Verif.Props.Bls3
import Verif.Props.Pasta2

/-!
# C117, C118: field elements as numbers and text; the methods of target group elements

`Fe.val` is the number of the six words (least significant first), `beNat` the number of big-endian bytes; `Spells` and `IsHexDigit`
(Props/Pasta2.lean) say what a hexadecimal spelling is.
-/

namespace Verif.Props

open Verif.Bls

/-! ## C117 -/

theorem ofBytes_take (b : Bytes) : (Fe.ofBytes b).val = beNat (b.take 48) := by
  have hl : (List.replicate (48 - b.length) 0 ++ b.take 48).length = 48 := by
    rw [List.length_append, List.length_replicate, List.length_take]; omega
  have e : Fe.ofBytes b = Fe.ofBytes (List.replicate (48 - b.length) 0 ++ b.take 48) := by
    conv_rhs => rw [Fe.ofBytes]
    simp only [hl, Nat.sub_self, List.replicate_zero, List.nil_append, List.take_of_length_le hl.le]
    rfl
  rw [e, Fe.ofBytes_val hl, beNat_append, beNat_replicate_zero, zero_mul, zero_add]

/-- the leading bytes of a number. -/
theorem beNat_take (b : Bytes) (k : ℕ) : beNat (b.take k) = beNat b / 256 ^ (b.length - k) := by
  conv_rhs => rw [← List.take_append_drop k b, beNat_append]
  rw [List.length_drop, ← List.length_drop]
  have := beNat_lt (b.drop k)
  have hlen : ((List.take k b ++ List.drop k b).length - k) = (b.drop k).length := by
    rw [List.take_append_drop, List.length_drop]
  rw [hlen, mul_comm, Nat.mul_add_div (by positivity), Nat.div_eq_of_lt this, add_zero]

theorem natBytes_length_ge {n k : ℕ} (h : 256 ^ k ≤ n) : k < (natBytes n).length := by
  by_contra hk
  have := beNat_lt (natBytes n)
  rw [beNat_natBytes] at this
  have h2 : 256 ^ (natBytes n).length ≤ 256 ^ k := Nat.pow_le_pow_right (by omega) (by omega)
  omega

/-- C117: the conversions between field elements, numbers and bytes, for every argument.  `SetBig` keeps a number of at most 48 bytes
exactly; of a longer one it keeps the 48 leading bytes (`k` more bytes are dropped), and it drops the sign.  `FromBytes` reads the
first 48 bytes.  `Bytes` and `FromBytes`, `Big` and `SetBig` invert each other on every element. -/
theorem C117_numbers_partial (x : Fe) (z : ℤ) (b : Bytes) (w : UInt64) :
    (z.natAbs < 2 ^ 384 → (Fe.setBig z).val = z.natAbs) ∧
      (∀ k, 256 ^ (47 + k) ≤ z.natAbs → z.natAbs < 256 ^ (48 + k) → (Fe.setBig z).val = z.natAbs / 256 ^ k) ∧
      (Fe.ofBytes b).val = beNat (b.take 48) ∧ Fe.big x = x.val ∧ (Fe.bytes x).length = 48 ∧ beNat (Fe.bytes x) = x.val ∧
      Fe.setBig (Fe.big x) = x ∧ Fe.ofBytes (Fe.bytes x) = x ∧ (Fe.ofWord w).val = w.toNat ∧ Fe.zero.val = 0 := by
  have hb := Fe.bytes_beNat x
  have hl := Fe.bytes_length x
  have hx := Fe.val_lt x
  have small : ∀ n : ℤ, n.natAbs < 2 ^ 384 → (Fe.setBig n).val = n.natAbs := by
    intro n hn
    have h48 : (natBytes n.natAbs).length ≤ 48 := natBytes_length_le (by rw [show (256 : ℕ) ^ 48 = 2 ^ 384 by decide +kernel]; exact hn)
    rw [Fe.setBig, ofBytes_take, List.take_of_length_le h48, beNat_natBytes]
  refine ⟨small z, ?_, ofBytes_take b, hb, hl, hb, ?_, ?_, ?_, rfl⟩
  · intro k h1 h2
    have l1 := natBytes_length_ge h1
    have l2 := natBytes_length_le h2
    rw [Fe.setBig, ofBytes_take, beNat_take, beNat_natBytes, show (natBytes z.natAbs).length - 48 = k by omega]
  · apply Fe.val_inj
    have e : ((Fe.big x : ℕ) : ℤ).natAbs = x.val := by rw [Int.natAbs_natCast, Fe.big, hb]
    rw [small _ (by rw [e]; exact hx), e]
  · apply Fe.val_inj
    rw [Fe.ofBytes_val hl, hb]
  · simp [Fe.ofWord, Fe.val]

/-- C117: the tests are those of the number of the words: `Cmp` is the numerical order, `Equals` equality, `IsOdd` and `IsEven` the parity,
`IsZero` and `IsOne` compare it with 0 and 1. -/
theorem C117_tests_partial (x y : Fe) :
    Fe.cmp x y = (if x.val > y.val then 1 else if x.val < y.val then -1 else 0) ∧ (Fe.equal x y = true ↔ x.val = y.val) ∧
      (Fe.isOdd x = true ↔ x.val % 2 = 1) ∧ (Fe.isEven x = true ↔ x.val % 2 = 0) ∧ (Fe.isZero x = true ↔ x.val = 0) ∧
      (Fe.isOne x = true ↔ x.val = 1) := by
  refine ⟨Fe.cmp_eq x y, ?_, ?_, Fe.isEven_iff x, Fe.isZero_iff x, ?_⟩
  · rw [Fe.equal_iff]
    exact ⟨fun h => by rw [h], Fe.val_inj⟩
  · have h := Fe.isEven_iff x
    have e : Fe.isOdd x = !Fe.isEven x := rfl
    rw [e]
    cases hc : Fe.isEven x
    · rw [hc] at h
      simp only [Bool.not_false, true_iff]
      have : ¬ x.val % 2 = 0 := fun h' => by simpa using h.mpr h'
      omega
    · have := h.mp hc
      simp only [Bool.not_true, Bool.false_eq_true, false_iff]
      omega
  · rw [Fe.isOne]
    simp only [Bool.and_eq_true, beq_iff_eq]
    have h0 := Fe.lt64 x.l0
    simp only [Fe.val, ← UInt64.toNat_inj, UInt64.toNat_zero, UInt64.toNat_one]
    omega

theorem digit_spec (d : UInt64) (h : d.toNat < 16) : IsHexDigit (Fe.digit d) d.toNat := by
  have hd : d = UInt64.ofNat d.toNat := (UInt64.ofNat_toNat).symm
  have key : ∀ i : Fin 16, IsHexDigit (Fe.digit (UInt64.ofNat i.1)) i.1 := by
    unfold IsHexDigit
    decide +kernel
  have := key ⟨d.toNat, h⟩
  rw [← hd] at this
  exact this

theorem spells_append {s b : Bytes} (h : Spells s b) : ∀ {s' b' : Bytes}, Spells s' b' → Spells (s ++ s') (b ++ b') := by
  induction h with
  | nil => intro s' b' h'; exact h'
  | cons h1 h2 _ ih => intro s' b' h'; exact .cons h1 h2 (ih h')

theorem nib (w s : UInt64) (hs : s.toNat < 64) : ((w >>> s) &&& 15).toNat = w.toNat / 2 ^ s.toNat % 16 := by
  rw [UInt64.toNat_and, UInt64.toNat_shiftRight, Nat.mod_eq_of_lt hs, Nat.shiftRight_eq_div_pow]
  exact Nat.and_two_pow_sub_one_eq_mod _ 4

theorem hex_pair (w : UInt64) (x : UInt8) (sh sl : UInt64) (hh : sh.toNat < 64) (hl : sl.toNat < 64)
    (e1 : w.toNat / 2 ^ sh.toNat % 16 = x.toNat / 16) (e2 : w.toNat / 2 ^ sl.toNat % 16 = x.toNat % 16) {s b : Bytes} (h : Spells s b) :
    Spells (Fe.digit ((w >>> sh) &&& 15) :: Fe.digit ((w >>> sl) &&& 15) :: s) (x :: b) := by
  refine .cons ?_ ?_ h
  · rw [← e1, ← nib w sh hh]
    exact digit_spec _ (by rw [nib w sh hh]; omega)
  · rw [← e2, ← nib w sl hl]
    exact digit_spec _ (by rw [nib w sl hl]; omega)

theorem hex16_spells (w : UInt64) : Spells (Fe.hex16 w) (Fe.bytes8 w) := by
  have hw := Fe.lt64 w
  have t : ∀ s : UInt64, s.toNat < 64 → (w >>> s).toUInt8.toNat = w.toNat / 2 ^ s.toNat % 256 := by
    intro s hs
    rw [UInt64.toNat_toUInt8, UInt64.toNat_shiftRight, Nat.mod_eq_of_lt hs, Nat.shiftRight_eq_div_pow]
  have t0 : w.toUInt8.toNat = w.toNat % 256 := UInt64.toNat_toUInt8 w
  show Spells [Fe.digit ((w >>> 60) &&& 15), Fe.digit ((w >>> 56) &&& 15), Fe.digit ((w >>> 52) &&& 15), Fe.digit ((w >>> 48) &&& 15),
    Fe.digit ((w >>> 44) &&& 15), Fe.digit ((w >>> 40) &&& 15), Fe.digit ((w >>> 36) &&& 15), Fe.digit ((w >>> 32) &&& 15),
    Fe.digit ((w >>> 28) &&& 15), Fe.digit ((w >>> 24) &&& 15), Fe.digit ((w >>> 20) &&& 15), Fe.digit ((w >>> 16) &&& 15),
    Fe.digit ((w >>> 12) &&& 15), Fe.digit ((w >>> 8) &&& 15), Fe.digit ((w >>> 4) &&& 15), Fe.digit ((w >>> 0) &&& 15)] _
  unfold Fe.bytes8
  refine hex_pair w _ 60 56 (by decide) (by decide) ?_ ?_ (hex_pair w _ 52 48 (by decide) (by decide) ?_ ?_
    (hex_pair w _ 44 40 (by decide) (by decide) ?_ ?_ (hex_pair w _ 36 32 (by decide) (by decide) ?_ ?_
    (hex_pair w _ 28 24 (by decide) (by decide) ?_ ?_ (hex_pair w _ 20 16 (by decide) (by decide) ?_ ?_
    (hex_pair w _ 12 8 (by decide) (by decide) ?_ ?_ (hex_pair w _ 4 0 (by decide) (by decide) ?_ ?_ .nil)))))))
  all_goals first
    | rw [t0]
    | rw [t _ (by decide)]
  all_goals simp only [UInt64.reduceToNat]
  all_goals omega

/-- a digit, or a letter from a to f. -/
def IsLowerHex (c : UInt8) : Prop := (48 ≤ c ∧ c ≤ 57) ∨ (97 ≤ c ∧ c ≤ 102)

theorem digit_lower (d : UInt64) (h : d.toNat < 16) : IsLowerHex (Fe.digit d) := by
  have hd : d = UInt64.ofNat d.toNat := (UInt64.ofNat_toNat).symm
  have key : ∀ i : Fin 16, IsLowerHex (Fe.digit (UInt64.ofNat i.1)) := by
    unfold IsLowerHex
    decide +kernel
  have := key ⟨d.toNat, h⟩
  rw [← hd] at this
  exact this

theorem hex16_lower (w : UInt64) : ∀ c ∈ Fe.hex16 w, IsLowerHex c := by
  intro c hc
  rw [Fe.hex16, List.mem_map] at hc
  obtain ⟨i, -, rfl⟩ := hc
  apply digit_lower
  rw [UInt64.toNat_and]
  exact lt_of_le_of_lt Nat.and_le_right (by decide)

theorem toText_spells (x : Fe) : ∃ s, Fe.toText x = 48 :: 120 :: s ∧ Spells s (Fe.bytes x) ∧ s.length = 96 ∧ ∀ c ∈ s, IsLowerHex c := by
  refine ⟨_, rfl, spells_append (spells_append (spells_append (spells_append (spells_append (hex16_spells _) (hex16_spells _)) (hex16_spells _))
    (hex16_spells _)) (hex16_spells _)) (hex16_spells _), rfl, ?_⟩
  intro c hc
  change c ∈ Fe.hex16 x.l5 ++ Fe.hex16 x.l4 ++ Fe.hex16 x.l3 ++ Fe.hex16 x.l2 ++ Fe.hex16 x.l1 ++ Fe.hex16 x.l0 at hc
  simp only [List.mem_append] at hc
  rcases hc with ((((hc | hc) | hc) | hc) | hc) | hc <;> exact hex16_lower _ c hc

/-- the string without one prefix `0x`. -/
def unprefixed (s : Bytes) : Bytes := if s.take 2 = "0x".toUTF8.toList then s.drop 2 else s

/-- C117: `SetString` panics exactly for strings of fewer than two bytes; otherwise, without one optional prefix `0x`, the string has to be
a spelling of whole bytes (digits of both cases, no other prefix), of which the first 48 are read; all other strings are an error.
`String` is `0x` with 96 lower-case digits, and `SetString` reads it back, for every element. -/
theorem C117_text (s : Bytes) (x : Fe) :
    (Fe.setString s = .panic ↔ s.length < 2) ∧
      (Fe.setString s = .ret (some x) ↔ 2 ≤ s.length ∧ ∃ b, Spells (unprefixed s) b ∧ x.val = beNat (b.take 48)) ∧
      (Fe.setString s = .ret none ↔ 2 ≤ s.length ∧ ¬ ∃ b, Spells (unprefixed s) b) ∧
      Fe.setString (Fe.toText x) = .ret (some x) ∧
      (∃ t, Fe.toText x = "0x".toUTF8.toList ++ t ∧ t.length = 96 ∧ Spells t (Fe.bytes x) ∧ ∀ c ∈ t, IsLowerHex c) := by
  have hp : ("0x".toUTF8.toList : Bytes) = [48, 120] := by decide +kernel
  have main : ∀ s : Bytes, ¬ s.length < 2 → Fe.setString s = match Pasta.hexDecode (unprefixed s) with
      | none => .ret none
      | some b => .ret (some (Fe.ofBytes b)) := by
    intro s h
    rw [Fe.setString, if_neg h, unprefixed, hp]
    cases Pasta.hexDecode (if s.take 2 = [48, 120] then s.drop 2 else s) <;> rfl
  have one : ∀ (s : Bytes) (x : Fe), Fe.setString s = .ret (some x) ↔ 2 ≤ s.length ∧ ∃ b, Spells (unprefixed s) b ∧ x.val = beNat (b.take 48) := by
    intro s x
    by_cases h : s.length < 2
    · rw [Fe.setString, if_pos h]
      exact ⟨fun h' => by simp at h', fun h' => by omega⟩
    · rw [main s h]
      cases hd : Pasta.hexDecode (unprefixed s) with
      | none =>
        refine ⟨fun h' => by simp at h', ?_⟩
        rintro ⟨_, b, hb, _⟩
        rw [(hexDecode_spec _ _).mpr hb] at hd
        cases hd
      | some b =>
        simp only [Go.ret.injEq, Option.some.injEq]
        constructor
        · rintro rfl
          exact ⟨by omega, b, (hexDecode_spec _ _).mp hd, ofBytes_take b⟩
        · rintro ⟨_, b', hb, hv⟩
          rw [(hexDecode_spec _ _).mpr hb] at hd
          obtain rfl := Option.some_inj.mp hd
          exact Fe.val_inj (by rw [ofBytes_take, hv])
  obtain ⟨t, ht, hsp, hlen, hlow⟩ := toText_spells x
  refine ⟨?_, one s x, ?_, ?_, ⟨t, by rw [ht, hp]; rfl, hlen, hsp, hlow⟩⟩
  · by_cases h : s.length < 2
    · rw [Fe.setString, if_pos h]; simp [h]
    · rw [main s h]
      cases Pasta.hexDecode (unprefixed s) <;> simp [h]
  · by_cases h : s.length < 2
    · rw [Fe.setString, if_pos h]
      exact ⟨fun h' => by simp at h', fun h' => by omega⟩
    · rw [main s h]
      cases hd : Pasta.hexDecode (unprefixed s) with
      | none =>
        refine ⟨fun _ => ⟨by omega, ?_⟩, fun _ => rfl⟩
        rintro ⟨b, hb⟩
        rw [(hexDecode_spec _ _).mpr hb] at hd
        cases hd
      | some b =>
        refine ⟨fun h' => by simp at h', ?_⟩
        rintro ⟨_, hn⟩
        exact absurd ⟨b, (hexDecode_spec _ _).mp hd⟩ hn
  · rw [one]
    refine ⟨by rw [ht]; simp, Fe.bytes x, ?_, ?_⟩
    · rw [unprefixed, hp, ht]
      simpa using hsp
    · rw [List.take_of_length_le (Fe.bytes_length x).le, Fe.bytes_beNat]

/-- C117 is false for one: `SetOne` stores the words of one, `2^384 mod q`, and `IsOne` compares the words with the number 1.  So `IsOne`
is false after `SetOne`, and true for words that are not those of one; the same words show that `Big` of a coordinate is not the coordinate. -/
theorem C117_false_one : Fe.isOne Fe.setOne = false ∧ Fe.den Fe.setOne = 1 ∧ Fe.isOne (Fe.ofWord 1) = true ∧ Fe.den (Fe.ofWord 1) ≠ 1 ∧
    Fe.big Fe.setOne ≠ 1 := by
  refine ⟨by decide +kernel, Fe.den_one, by decide +kernel, ?_, by decide +kernel⟩
  intro h
  rw [← Fe.den_one] at h
  have := Fe.den_inj (by decide +kernel) Fe.red_one h
  revert this
  decide +kernel

/-- C117: what `Big` gives for a coordinate: decoding the 48 bytes of `n` gives an element whose number is `n · 2^384 mod q`. -/
theorem C117_montgomery (b : Bytes) (x : Fe) (h : Fe.fromBytes b = some x) :
    Fe.big x = beNat b * 2 ^ 384 % Q ∧ Fe.big (Fe.fromMont x) = beNat b := by
  by_cases hv : b.length = 48 ∧ beNat b < Q
  · obtain ⟨a, ha, hr, hd⟩ := (Fe.fromBytes_spec b).1 hv
    rw [h] at ha
    obtain rfl := Option.some_inj.mp ha
    constructor
    · rw [Fe.big, Fe.bytes_beNat]
      have e := Fe.val_of_den x
      rw [hd] at e
      have e2 : ((x.val : ℕ) : Fq) = ((beNat b * 2 ^ 384 : ℕ) : Fq) := by rw [e]; push_cast; ring
      rw [ZMod.natCast_eq_natCast_iff', Nat.mod_eq_of_lt hr] at e2
      exact e2
    · rw [Fe.big, Fe.bytes_beNat, Fe.fromMont_val hr, hd, ZMod.val_natCast, Nat.mod_eq_of_lt hv.2]
  · rw [(Fe.fromBytes_spec b).2 hv] at h
    cases h

example : ∃ x, Fe.fromBytes (Fe.be48 7) = some x :=
  ((Fe.fromBytes_spec (Fe.be48 7)).1 ⟨by decide +kernel, by rw [Fe.beNat_be48]; decide +kernel⟩).imp fun _ h => h.1

/-- C117 is false for `SetBig` then `Big` on every number: the sign and all but the 48 leading bytes are lost. -/
theorem C117_false_range : Fe.big (Fe.setBig (-1)) = 1 ∧ Fe.big (Fe.setBig (2 ^ 384)) = 2 ^ 376 := by
  have h1 := (C117_numbers_partial Fe.zero (-1) [] 0).1 (by norm_num)
  have h2 := (C117_numbers_partial Fe.zero (2 ^ 384) [] 0).2.1 1 (by decide +kernel) (by decide +kernel)
  rw [Fe.big, Fe.bytes_beNat, Fe.big, Fe.bytes_beNat, h1, h2]
  decide +kernel

/-- what `C117_numbers_partial` and `C117_text` say on concrete strings: `SetString("0x")` is 0, `SetString("0X10")` an error, `SetString("ff")` 255,
`SetString("0xf")` an error. -/
example : Fe.setString "0x".toUTF8.toList = .ret (some Fe.zero) ∧ Fe.setString "0X10".toUTF8.toList = .ret none ∧
    Fe.setString "ff".toUTF8.toList = .ret (some (Fe.ofWord 255)) ∧ Fe.setString "0xf".toUTF8.toList = .ret none ∧
    Fe.setString "f".toUTF8.toList = .panic := by decide +kernel

/-! ## C118: `Set`, `One`, `IsOne`, `Equal` of target group elements -/

theorem fe2_isZero (a : Fe2) : Fe2.isZero a = true ↔ a = Fe2.zero := by
  obtain ⟨a0, a1⟩ := a
  simp only [Fe2.isZero, Bool.and_eq_true, Fe.isZero_iff, Fe2.zero, Fe2.mk.injEq]
  have e : ∀ a : Fe, a.val = 0 ↔ a = Fe.zero := fun a => ⟨fun h => Fe.val_inj (by rw [h]; rfl), fun h => by rw [h]; rfl⟩
  rw [e, e]

theorem fe12_isOne (a : Fe12) : Fe12.isOne a = true ↔ a = Fe12.one := by
  obtain ⟨⟨⟨a0, a1⟩, a2, a3⟩, ⟨a4, a5, a6⟩⟩ := a
  simp only [Fe12.isOne, Fe6.isOne, Fe2.isOne, Fe.isMontOne, Fe6.isZero, Bool.and_eq_true, Fe.equal_iff, Fe.isZero_iff, fe2_isZero, Fe12.one,
    Fe6.one, Fe2.one, Fe6.zero, Fe12.mk.injEq, Fe6.mk.injEq, Fe2.mk.injEq]
  have e : ∀ a : Fe, a.val = 0 ↔ a = Fe.zero := fun a => ⟨fun h => Fe.val_inj (by rw [h]; rfl), fun h => by rw [h]; rfl⟩
  rw [e]
  show _ ↔ ((a0 = r1 ∧ a1 = Fe.zero) ∧ _) ∧ _
  tauto

theorem fe12_equal (a b : Fe12) : Fe12.equal a b = true ↔ a = b := by
  obtain ⟨⟨⟨a0, a1⟩, ⟨a2, a3⟩, ⟨a4, a5⟩⟩, ⟨⟨a6, a7⟩, ⟨a8, a9⟩, ⟨a10, a11⟩⟩⟩ := a
  obtain ⟨⟨⟨b0, b1⟩, ⟨b2, b3⟩, ⟨b4, b5⟩⟩, ⟨⟨b6, b7⟩, ⟨b8, b9⟩, ⟨b10, b11⟩⟩⟩ := b
  simp only [Fe12.equal, Fe6.equal, Fe2.equal, Bool.and_eq_true, Fe.equal_iff, Fe12.mk.injEq, Fe6.mk.injEq, Fe2.mk.injEq]
  tauto

/-- C118: for all words, reduced or not, `Set` copies, `e.IsOne()`, `g.IsOne(e)` and `Equal` with the one of the group agree and hold exactly for the
words of one, and `Equal` for equal words; for reduced words they say whether the elements of the field are one, and equal. -/
theorem C118_partial (e f : Fe12) :
    E.set e f = f ∧ (E.isOne e = true ↔ e = Fe12.one) ∧ GT.isOne e = E.isOne e ∧ (E.equal e f = true ↔ e = f) ∧
      (E.one e).2 = Fe12.one ∧
      (∀ x y : Fq12, ReadsAs e x → ReadsAs f y → (E.isOne e = true ↔ x = 1) ∧ (GT.isOne e = true ↔ x = 1) ∧ (E.equal e f = true ↔ x = y)) := by
  have h1 : GT.isOne e = E.isOne e := by
    rw [Bool.eq_iff_iff, E.isOne, fe12_isOne, GT.isOne, fe12_equal]
  refine ⟨rfl, fe12_isOne e, h1, fe12_equal e f, rfl, ?_⟩
  intro x y hx hy
  have h2 : GT.isOne e = true ↔ x = 1 := hx.is.equal_iff Fe12.is_one
  exact ⟨by rw [← h1]; exact h2, h2, hx.is.equal_iff hy.is⟩

/-- C118 is false for `One`: `e.One()` returns one and leaves `e` as it was, so that `e.One(); e.IsOne()` is true only if `e` was one before. -/
theorem C118_false_one (e : Fe12) : (E.isOne (E.one e).1 = true ↔ e = Fe12.one) ∧ E.isOne (E.one e).2 = true ∧
    E.isOne (E.one Fe12.zero).1 = false := by
  refine ⟨fe12_isOne e, (fe12_isOne _).mpr rfl, by decide +kernel⟩

end Verif.Props
