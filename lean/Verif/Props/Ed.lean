import Verif.Ed25519.FieldBytes
import Verif.Ed25519.ScalarLemmas

/-!
# Properties of the Ed25519 scalar and field arithmetic: C47, C48
-/

namespace Verif.Props

open Verif.Ed25519

/-! ## C47 -/

/-- the order of the base point (RFC 8032, section 5.1). -/
def edOrder : ℕ := 2 ^ 252 + 27742317777372353535851937790883648493

theorem edOrder_eq : edOrder = L := L_eq.symm

/-- C47: `ScReduce` of any 64 bytes is the 32-byte little-endian representative below the order. -/
theorem C47_reduce (s : Bytes) (h : s.length = 64) :
    (scReduce s).length = 32 ∧ leNat (scReduce s) = leNat s % edOrder ∧ leNat (scReduce s) < edOrder := by
  rw [edOrder_eq]
  refine ⟨scReduce_length s, scReduce_spec h, ?_⟩
  rw [scReduce_spec h]
  exact Nat.mod_lt _ (by unfold L; norm_num)

example : (List.replicate 64 (255 : UInt8)).length = 64 := rfl

/-- C47: `ScMulAdd` of any three 32-byte strings, reduced or not. -/
theorem C47_mulAdd (a b c : Bytes) (ha : a.length = 32) (hb : b.length = 32) (hc : c.length = 32) :
    (scMulAdd a b c).length = 32 ∧ leNat (scMulAdd a b c) = (leNat a * leNat b + leNat c) % edOrder ∧
      leNat (scMulAdd a b c) < edOrder := by
  rw [edOrder_eq]
  refine ⟨scMulAdd_length a b c, scMulAdd_spec ha hb hc, ?_⟩
  rw [scMulAdd_spec ha hb hc]
  exact Nat.mod_lt _ (by unfold L; norm_num)

example : (List.replicate 32 (255 : UInt8)).length = 32 := rfl

/-! ## C48 -/

/-- the prime of the field. -/
def edPrime : ℕ := 2 ^ 255 - 19

theorem edPrime_eq : edPrime = P := P_eq.symm

/-- the limbs of a field element. -/
def limbs (f : Fe) : List Int := [f.a0, f.a1, f.a2, f.a3, f.a4, f.a5, f.a6, f.a7, f.a8, f.a9]

/-- the integer a limb vector stands for: limb `i` weighs `2 ^ ⌈25.5 i⌉`. -/
def feInt (f : Fe) : Int := ((limbs f).mapIdx (fun i x => 2 ^ ((51 * i + 1) / 2) * x)).sum

/-- bounds as the comments in the Go code give them: `|limb| ≤ c·2^26` at even places, `≤ c·2^25` at odd places, for `c = n / 100`. -/
def Within (n : ℕ) (f : Fe) : Prop := ∀ i, 100 * |(limbs f).getD i 0| ≤ n * 2 ^ (if i % 2 = 0 then 26 else 25)

theorem feInt_eq (f : Fe) : feInt f = ival f := by
  simp [feInt, limbs, List.mapIdx, List.mapIdx.go, ival]
  ring

theorem modEq_iff {a b : Int} : a ≡ b [ZMOD edPrime] ↔ (a : F) = (b : F) := by
  rw [edPrime_eq, fcast_iff]; rfl

theorem feInt_modEq {f : Fe} {b : Int} : feInt f ≡ b [ZMOD edPrime] ↔ fval f = (b : F) := by
  rw [modEq_iff, feInt_eq]; rfl

theorem within_iff {n : ℕ} {f : Fe} {E O : Int} (hE : E = n * 2 ^ 26 / 100) (hO : O = n * 2 ^ 25 / 100) : Within n f ↔ Bd E O f := by
  constructor
  · intro h
    have h0 := h 0; have h1 := h 1; have h2 := h 2; have h3 := h 3; have h4 := h 4
    have h5 := h 5; have h6 := h 6; have h7 := h 7; have h8 := h 8; have h9 := h 9
    simp [limbs] at h0 h1 h2 h3 h4 h5 h6 h7 h8 h9
    subst hE hO
    constructor <;> simp only [abs_le, Int.mul_comm 100] at * <;> grind
  · intro h i
    obtain ⟨l0, u0, l1, u1, l2, u2, l3, u3, l4, u4, l5, u5, l6, u6, l7, u7, l8, u8, l9, u9⟩ := h
    have key : ∀ (x B : Int), -(B / 100) ≤ x → x ≤ B / 100 → 100 * |x| ≤ B := by
      intro x B h1 h2
      have := abs_le.mpr ⟨h1, h2⟩
      omega
    subst hE hO
    rcases i with _ | _ | _ | _ | _ | _ | _ | _ | _ | _ | i
    · exact key _ _ l0 u0
    · exact key _ _ l1 u1
    · exact key _ _ l2 u2
    · exact key _ _ l3 u3
    · exact key _ _ l4 u4
    · exact key _ _ l5 u5
    · exact key _ _ l6 u6
    · exact key _ _ l7 u7
    · exact key _ _ l8 u8
    · exact key _ _ l9 u9
    · simp [limbs]
      positivity

theorem Within.loose {f : Fe} (h : Within 165 f) : Loose f := by
  have := (within_iff (E := 110729625) (O := 55364812) (by norm_num) (by norm_num)).mp h
  exact this.mono (by norm_num) (by norm_num)

theorem Within.mid {f : Fe} (h : Within 110 f) : Bd 73819750 36909875 f :=
  (within_iff (by norm_num) (by norm_num)).mp h

theorem Within.half {f : Fe} (h : Within 55 f) : Bd 36909875 18454937 f :=
  (within_iff (by norm_num) (by norm_num)).mp h

theorem within_of_tight {f : Fe} (h : Tight f) : Within 51 f :=
  (within_iff (E := 34225520) (O := 17112760) (by norm_num) (by norm_num)).mpr (h.mono (by norm_num) (by norm_num))

/-- C48: `FeAdd`, `FeSub` and `FeNeg` within the documented bounds: the value, and the bound on the result. -/
theorem C48_linear (f g : Fe) (hf : Within 55 f) (hg : Within 55 g) :
    (feInt (feAdd f g) = feInt f + feInt g ∧ Within 110 (feAdd f g)) ∧
    (feInt (feSub f g) = feInt f - feInt g ∧ Within 110 (feSub f g)) ∧
    (feInt (feNeg f) = -feInt f ∧ Within 55 (feNeg f)) := by
  have a := hf.half
  have b := hg.half
  refine ⟨⟨?_, ?_⟩, ⟨?_, ?_⟩, ?_, ?_⟩
  · rw [feInt_eq, feInt_eq, feInt_eq, feAdd_eq a b]; simp only [ival]; ring
  · exact (within_iff (by norm_num) (by norm_num)).mpr ((feAdd_bd a b).mono (E' := 73819750) (O' := 36909875) (by norm_num) (by norm_num))
  · rw [feInt_eq, feInt_eq, feInt_eq, feSub_eq a b]; simp only [ival]; ring
  · exact (within_iff (by norm_num) (by norm_num)).mpr ((feSub_bd a b).mono (E' := 73819750) (O' := 36909875) (by norm_num) (by norm_num))
  · rw [feInt_eq, feInt_eq, feNeg_eq a]; simp only [ival]; ring
  · exact (within_iff (by norm_num) (by norm_num)).mpr (feNeg_bd a)

/-- C48: `FeMul`, `FeSquare` and `FeSquare2` within the documented bounds: the product modulo the prime, and limbs small enough for
any of the other operations. -/
theorem C48_mul (f g : Fe) (hf : Within 165 f) (hg : Within 165 g) :
    (feInt (feMul f g) ≡ feInt f * feInt g [ZMOD edPrime] ∧ Within 51 (feMul f g)) ∧
    (feInt (feSquare f) ≡ feInt f * feInt f [ZMOD edPrime] ∧ Within 51 (feSquare f)) ∧
    (feInt (feSquare2 f) ≡ 2 * (feInt f * feInt f) [ZMOD edPrime] ∧ Within 51 (feSquare2 f)) := by
  have a := hf.loose
  have b := hg.loose
  refine ⟨⟨?_, within_of_tight (feMul_tight a b)⟩, ⟨?_, within_of_tight (feSquare_tight a)⟩, ?_, within_of_tight (feSquare2_tight a)⟩
  · rw [feInt_modEq, feMul_val a b, Int.cast_mul, feInt_eq, feInt_eq]; rfl
  · rw [feInt_modEq, (feSquare_spec a).2, Int.cast_mul, feInt_eq]; rfl
  · rw [feInt_modEq, (feSquare2_spec a).2, Int.cast_mul, Int.cast_mul, feInt_eq]; rfl

/-- C48: `FeInvert` of an element that is not zero modulo the prime is its inverse; of zero it is zero. -/
theorem C48_invert (f : Fe) (hf : Within 165 f) :
    Within 51 (feInvert f) ∧ (feInt f ≡ 0 [ZMOD edPrime] → feInt (feInvert f) ≡ 0 [ZMOD edPrime]) ∧
    (¬ feInt f ≡ 0 [ZMOD edPrime] → feInt (feInvert f) * feInt f ≡ 1 [ZMOD edPrime]) := by
  obtain ⟨ht, hv⟩ := feInvert_spec hf.loose
  have e : ∀ g : Fe, ((feInt g : Int) : F) = fval g := fun g => by rw [feInt_eq]; rfl
  simp only [modEq_iff, Int.cast_mul, e, hv, Int.cast_zero, Int.cast_one]
  refine ⟨within_of_tight ht, fun h => ?_, fun h => inv_mul_cancel₀ h⟩
  simp [h]

/-- C48: `FeToBytes` is the canonical little-endian encoding, so equal elements have equal encodings. -/
theorem C48_toBytes (f : Fe) (hf : Within 110 f) :
    (feToBytes f).length = 32 ∧ (leNat (feToBytes f) : Int) = feInt f % edPrime := by
  have a : Loose f := hf.mid.mono (by norm_num) (by norm_num)
  refine ⟨feToBytes_length f, ?_⟩
  rw [feToBytes_spec a, ← ival_reduce a, (feReduce_spec a).2, feInt_eq, edPrime_eq]

/-- C48: `FeFromBytes` ignores the top bit and takes any other value, canonical or not. -/
theorem C48_fromBytes (s : Bytes) (h : s.length = 32) :
    Within 51 (feFromBytes s) ∧ feInt (feFromBytes s) ≡ ((leNat s % 2 ^ 255 : ℕ) : Int) [ZMOD edPrime] := by
  obtain ⟨a, b⟩ := feFromBytes_spec h
  refine ⟨within_of_tight a, feInt_modEq.mpr ?_⟩
  rw [b, Int.cast_natCast]

/-- C48: encoding what was decoded gives the string back exactly when it was canonical, and decoding what was encoded the element. -/
theorem C48_roundTrip (s : Bytes) (h : s.length = 32) : feToBytes (feFromBytes s) = s ↔ leNat s < edPrime := by
  obtain ⟨a, b⟩ := feFromBytes_spec h
  have e : leNat (feToBytes (feFromBytes s)) = leNat s % 2 ^ 255 % edPrime := by
    rw [feToBytes_spec a.loose, b, ZMod.val_natCast, edPrime_eq]
  have hp : edPrime < 2 ^ 255 := by unfold edPrime; norm_num
  constructor
  · intro hs
    rw [← hs, e]
    exact Nat.mod_lt _ (by unfold edPrime; norm_num)
  · intro hs
    refine leNat_inj_of_length (by rw [feToBytes_length, h]) ?_
    rw [e, Nat.mod_eq_of_lt (lt_trans hs hp), Nat.mod_eq_of_lt hs]

/-- limbs at the documented limit for multiplication, none of them zero. -/
def wideLimbs : Fe := ⟨110729625, -55364812, 110729625, 55364812, -110729625, 55364812, 110729625, 55364812, 110729625, 55364812⟩

example : Within 165 wideLimbs := (within_iff (E := 110729625) (O := 55364812) (by norm_num) (by norm_num)).mpr (by constructor <;> decide)
example : ¬ feInt wideLimbs ≡ 0 [ZMOD edPrime] := by decide +kernel
example : Within 110 (feFromBytes (List.replicate 32 255)) := by
  have := (C48_fromBytes (List.replicate 32 255) rfl).1
  intro i
  refine (this i).trans ?_
  split <;> norm_num
example : feInt feZero ≡ 0 [ZMOD edPrime] := by decide

end Verif.Props
