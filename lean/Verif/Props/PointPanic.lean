import Verif.Props.Pasta
import Verif.Props.Sm2Bad

/-!
# C46 for every curve identifier

Exactly which arguments crash `Point_mul` and `Point_add` (eccset.go:427-549), for each of the 2^32 values of the curve identifier.
-/

namespace Verif.Props
open Verif.Api Verif.Pasta

/-- the point arguments that crash, per curve identifier: never on ED25519 and Pasta, 33 bytes with a prefix other than 02/03 on the
three short Weierstrass curves of 256 bits, and every 33-byte string for all other identifiers, known or not. -/
def CrashArg (t : UInt32) (b : Bytes) : Prop :=
  b.length = 33 ∧ t ≠ ECC_CURVE_ED25519 ∧ t ≠ ECC_CURVE_PASTA ∧
    (t = ECC_CURVE_SECP256K1 ∨ t = ECC_CURVE_SECP256R1 ∨ t = ECC_CURVE_SM2_STANDARD → b.getD 0 0 ≠ 2 ∧ b.getD 0 0 ≠ 3)

section
variable {E : Env} {parse : Bytes → Option MinaMessage} {draws : List Bytes}

theorem norm_pasta (hE : PastaEnv E parse draws) (b : Bytes) :
    (b.length ≠ 33 ∧ b.length ≠ 64 ∧ b.length ≠ 65 ∧ normPoint E b PST = .ret none) ∨
      ∃ b', b'.length = 64 ∧ normPoint E b PST = .ret (some b') := by
  unfold normPoint
  by_cases h33 : b.length = 33
  · obtain ⟨y, e, -⟩ := C57_decompress hE b h33
    refine .inr ⟨be32 (beNat (b.drop 1) % Pasta.c.p) ++ be32 y.val, ?_, ?_⟩
    · have h1 : Pasta.c.p ≤ 2 ^ 256 := by decide +kernel
      have h0 : 0 < Pasta.c.p := by decide +kernel
      rw [List.length_append, be32_length (lt_of_lt_of_le (Nat.mod_lt _ h0) h1),
        be32_length (lt_of_lt_of_le (ZMod.val_lt y) h1)]
    · rw [if_pos h33, e]
      show (sliceFrom (4 :: _) 1 >>= fun s => pure (some s)) = _
      unfold sliceFrom
      rw [if_pos (by rw [List.length_cons]; omega)]
      rfl
  · rw [if_neg h33]
    by_cases h65 : b.length = 65
    · rw [if_pos h65]
      exact .inr ⟨_, by rw [List.length_drop]; omega, rfl⟩
    · rw [if_neg h65]
      by_cases h64 : b.length = 64
      · rw [if_neg (by simpa using h64)]
        exact .inr ⟨b, h64, rfl⟩
      · rw [if_pos h64]
        exact .inl ⟨h33, h64, h65, rfl⟩

theorem parse64_any {b : Bytes} (h : b.length = 64) : ∃ a, parsePoint b = .ret (.ok a) := by
  unfold parsePoint
  rw [if_neg (by omega), if_neg (by omega), if_pos h]
  exact ⟨_, rfl⟩

/-- C46 on Pasta: neither call crashes, whatever the arguments. -/
theorem C46_pasta (hE : PastaEnv E parse draws) (b1 b2 k : Bytes) :
    Api.pointMul E b1 k PST ≠ .panic ∧ Api.pointAdd E b1 b2 PST ≠ .panic := by
  constructor
  · rcases norm_pasta hE b1 with ⟨-, -, -, e⟩ | ⟨p, hp, e⟩
    · unfold Api.pointMul
      rw [if_neg (by decide), e]
      simp
    · by_cases hk : k.length = 32
      · obtain ⟨a, ha⟩ := parse64_any hp
        rw [mul_pasta hE e hk]
        unfold Pasta.pointMul dropErr
        rw [if_neg (by omega), ha]
        simp
      · unfold Api.pointMul
        rw [if_neg (by decide), e, Go.ret_bind]
        dsimp only
        rw [if_pos hk]
        simp
  · rcases norm_pasta hE b1 with ⟨-, -, -, e⟩ | ⟨p, hp, e⟩
    · unfold Api.pointAdd
      rw [if_neg (by decide), e]
      simp
    · rcases norm_pasta hE b2 with ⟨-, -, -, e2⟩ | ⟨q, hq, e2⟩
      · unfold Api.pointAdd
        rw [if_neg (by decide), e, Go.ret_bind]
        dsimp only
        rw [e2]
        simp
      · obtain ⟨a, ha⟩ := parse64_any hp
        obtain ⟨a2, ha2⟩ := parse64_any hq
        rw [add_pasta hE e e2]
        unfold Pasta.pointAdd dropErr
        rw [ha, Go.ret_bind]
        dsimp only
        rw [ha2]
        simp

end

/-- C46 on ED25519: neither call crashes, whatever the arguments. -/
theorem C46_ed25519 {E : Env} {sha512 : Bytes → Bytes} {rnd rnd64 : Bytes} (hE : EdEnv E sha512 rnd rnd64) (b1 b2 k : Bytes) :
    Api.pointMul E b1 k EDR ≠ .panic ∧ Api.pointAdd E b1 b2 EDR ≠ .panic := by
  constructor
  · unfold Api.pointMul
    rw [if_pos rfl]
    simp
  · unfold Api.pointAdd
    rw [if_pos rfl, hE.add]
    split <;> simp

/-- C46 for the identifiers that `PointDecompress` does not know: the 33-byte arguments crash, and nothing else does. -/
theorem C46_other (E : Env) (t : UInt32) (h1 : t ≠ ECC_CURVE_SECP256K1) (h2 : t ≠ ECC_CURVE_SECP256R1)
    (h3 : t ≠ ECC_CURVE_SM2_STANDARD) (h4 : t ≠ ECC_CURVE_ED25519) (h5 : t ≠ ECC_CURVE_PASTA) (b1 b2 k : Bytes) :
    (Api.pointMul E b1 k t = .panic ↔ b1.length = 33) ∧
    (Api.pointAdd E b1 b2 t = .panic ↔ b1.length = 33 ∨ ((b1.length = 64 ∨ b1.length = 65) ∧ b2.length = 33)) := by
  have hn : ∀ b : Bytes, (b.length = 33 ∧ normPoint E b t = .panic) ∨ (b.length ≠ 33 ∧ b.length ≠ 64 ∧ b.length ≠ 65 ∧
      normPoint E b t = .ret none) ∨ (b.length ≠ 33 ∧ (b.length = 64 ∨ b.length = 65) ∧ ∃ p, normPoint E b t = .ret (some p)) := by
    intro b
    unfold normPoint
    by_cases h33 : b.length = 33
    · refine .inl ⟨h33, ?_⟩
      rw [if_pos h33]
      unfold Api.pointDecompress
      rw [if_neg (by omega), if_neg h1, if_neg h2, if_neg h3, if_neg h5]
      rfl
    · rw [if_neg h33]
      by_cases h65 : b.length = 65
      · rw [if_pos h65]
        exact .inr (.inr ⟨h33, .inr h65, _, rfl⟩)
      · rw [if_neg h65]
        by_cases h64 : b.length = 64
        · rw [if_neg (by simpa using h64)]
          exact .inr (.inr ⟨h33, .inl h64, _, rfl⟩)
        · rw [if_pos h64]
          exact .inr (.inl ⟨h33, h64, h65, rfl⟩)
  constructor
  · unfold Api.pointMul
    rw [if_neg h4]
    rcases hn b1 with ⟨hl, e⟩ | ⟨hl, -, -, e⟩ | ⟨hl, -, p, e⟩
    · rw [e]; simp [hl]
    · rw [e]; simp [hl]
    · rw [e]
      simp only [Go.ret_bind, hl, iff_false]
      rw [if_neg h1, if_neg h2, if_neg h3, if_neg h5]
      split <;> simp
  · unfold Api.pointAdd
    rw [if_neg h4]
    rcases hn b1 with ⟨hl, e⟩ | ⟨hl, h64, h65, e⟩ | ⟨hl, hl', p, e⟩
    · rw [e]; simp [hl]
    · rw [e]; simp [hl, h64, h65]
    · rw [e]
      simp only [Go.ret_bind, hl, false_or, hl', true_and]
      rcases hn b2 with ⟨hm, e2⟩ | ⟨hm, -, -, e2⟩ | ⟨hm, -, q, e2⟩
      · rw [e2]; simp [hm]
      · rw [e2]; simp [hm]
      · rw [e2]
        simp only [Go.ret_bind, hm, iff_false]
        rw [if_neg h1, if_neg h2, if_neg h3, if_neg h5]
        simp

/-- a BLS identifier and an unknown one meet the hypotheses: there `Point_mul` crashes on well-formed compressed points too. -/
example (E : Env) (k : Bytes) : Api.pointMul E (2 :: be32 1) k ECC_CURVE_BLS_NUL = .panic ∧ Api.pointMul E (2 :: be32 1) k 7 = .panic :=
  have hl : (2 :: be32 1 : Bytes).length = 33 := by rw [List.length_cons, be32_length (by decide)]
  ⟨(C46_other E _ (by decide) (by decide) (by decide) (by decide) (by decide) _ [] k).1.mpr hl,
   (C46_other E _ (by decide) (by decide) (by decide) (by decide) (by decide) _ [] k).1.mpr hl⟩

/-- C46: exactly when `Point_mul` and `Point_add` crash, for every curve identifier and all byte strings.  (For secp256r1 this assumes
that the backend returns on points off the curve.) -/
theorem C46_panics_iff_all {E : Env} {sha512 : Bytes → Bytes} {rnd rnd64 : Bytes} {parse : Bytes → Option MinaMessage}
    {draws : List Bytes} (hS : Sm2Env E) (hEd : EdEnv E sha512 rnd rnd64) (hP : PastaEnv E parse draws) (t : UInt32)
    (b1 b2 k : Bytes) :
    (Api.pointMul E b1 k t = .panic ↔ CrashArg t b1) ∧
    (Api.pointAdd E b1 b2 t = .panic ↔ CrashArg t b1 ∨
      ((b1.length = 33 ∨ b1.length = 64 ∨ b1.length = 65) ∧ CrashArg t b2)) := by
  by_cases hw : t = ECC_CURVE_SECP256K1 ∨ t = ECC_CURVE_SECP256R1 ∨ t = ECC_CURVE_SM2_STANDARD
  · have hc : ∀ b, CrashArg t b ↔ BadCompressed b := by
      intro b
      have h4 : t ≠ ECC_CURVE_ED25519 := by rcases hw with rfl | rfl | rfl <;> decide
      have h5 : t ≠ ECC_CURVE_PASTA := by rcases hw with rfl | rfl | rfl <;> decide
      unfold CrashArg BadCompressed
      exact ⟨fun h => ⟨h.1, h.2.2.2 hw⟩, fun h => ⟨h.1, h4, h5, fun _ => h.2⟩⟩
    rw [hc, hc]
    rcases hw with rfl | rfl | rfl
    · exact C46_panics_iff E _ (.inl rfl) b1 b2 k
    · exact C46_panics_iff E _ (.inr rfl) b1 b2 k
    · exact C46_panics_iff_sm2 E hS b1 b2 k
  · by_cases h4 : t = ECC_CURVE_ED25519
    · subst h4
      obtain ⟨hm, ha⟩ := C46_ed25519 hEd b1 b2 k
      simp only [CrashArg, ne_eq, not_true_eq_false, false_and, and_false, or_false, iff_false]
      exact ⟨hm, ha⟩
    · by_cases h5 : t = ECC_CURVE_PASTA
      · subst h5
        obtain ⟨hm, ha⟩ := C46_pasta hP b1 b2 k
        simp only [CrashArg, ne_eq, not_true_eq_false, false_and, and_false, or_false, iff_false]
        exact ⟨hm, ha⟩
      · have hc : ∀ b, CrashArg t b ↔ b.length = 33 := fun b => ⟨fun h => h.1, fun h => ⟨h, h4, h5, fun h' => absurd h' hw⟩⟩
        rw [hc, hc]
        push Not at hw
        obtain ⟨hm, ha⟩ := C46_other E t hw.1 hw.2.1 hw.2.2 h4 h5 b1 b2 k
        refine ⟨hm, ha.trans ?_⟩
        constructor
        · rintro (h | ⟨h, h'⟩)
          · exact .inl h
          · exact .inr ⟨.inr h, h'⟩
        · rintro (h | ⟨h | h, h'⟩)
          · exact .inl h
          · exact .inl h
          · exact .inr ⟨h, h'⟩

/-- the three hypotheses can be met together, and under them `Point_add` crashes through its second argument. -/
example : ∃ (E : Env) (sha512 : Bytes → Bytes) (rnd rnd64 : Bytes) (parse : Bytes → Option MinaMessage) (draws : List Bytes),
    Sm2Env E ∧ EdEnv E sha512 rnd rnd64 ∧ PastaEnv E parse draws ∧
      Api.pointAdd E (List.replicate 64 1) (List.replicate 33 1) SM = .panic ∧
      Api.pointAdd E (List.replicate 64 1) (List.replicate 33 1) PST ≠ .panic := by
  let E : Env := { sm2Env with
    edNormal := Ed25519.edNormalScheme (fun m => m.take 0 ++ List.replicate 64 7),
    ed := Ed25519.edScheme (fun m => m.take 0 ++ List.replicate 64 7) [1],
    x25519 := Ed25519.xScheme (fun m => m.take 0 ++ List.replicate 64 7) [2],
    edMulBaseAdd := fun a b => .ret (Ed25519.edMulBaseAdd a b), edAdd := fun a b => .ret (Ed25519.edAdd a b),
    pasta := scheme (fun _ => none) [], pastaMulBaseAdd := fun a b => dropErr (Pasta.pointMulBaseGAdd a b),
    pastaAdd := fun a b => dropErr (Pasta.pointAdd a b), pastaMul := fun a b => dropErr (Pasta.pointMul a b),
    pastaDecompress := Pasta.pointDecompress }
  have hS : Sm2Env E := rfl
  have hEd : EdEnv E (fun m => m.take 0 ++ List.replicate 64 7) [1] [2] := ⟨rfl, rfl, rfl, rfl, rfl, fun _ => by simp⟩
  have hP : PastaEnv E (fun _ => none) [] := ⟨rfl, rfl, rfl, rfl, rfl, by simp, rfl⟩
  refine ⟨E, _, _, _, _, _, hS, hEd, hP, ?_, ?_⟩
  · exact (C46_panics_iff_all hS hEd hP SM _ _ []).2.mpr
      (.inr ⟨by simp, by simp, by decide, by decide, fun _ => by decide⟩)
  · exact fun h => absurd ((C46_panics_iff_all hS hEd hP PST _ _ []).2.mp h) (by simp [CrashArg])

end Verif.Props
