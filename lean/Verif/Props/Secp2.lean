import Verif.Props.Secp

/-!
# C14–C21, C45, C46: recovery, compression, key derivation, dispatch
-/

namespace Verif.Props

open Verif.EC Verif.ECDSA Verif.Api WeierstrassCurve

/-! ## C14 -/

theorem key_ne_zero {c : Params} {D : ℕ} (h0 : 0 < D) (hn : D < c.n) :
    ((D : ℕ) : ZMod c.n) ≠ 0 := by
  rw [Ne, ZMod.natCast_eq_zero_iff]; intro hd; have := Nat.le_of_dvd h0 hd; omega

theorem recoverPubkey_k1 (E : Env) (sig msg : Bytes) : recoverPubkey E sig msg K1 =
    (recoverPublic Secp256k1.curve Secp256k1.rhs sig msg >>= fun r => .ret (match r with
      | .ok b => (b, SUCCESS)
      | .error _ => ([], FAILURE))) := rfl

theorem recoverPubkey_r1 (E : Env) (sig msg : Bytes) : recoverPubkey E sig msg R1 =
    (recoverPublic (Secp256r1.curve E.ell) Secp256r1.rhs sig msg >>= fun r => .ret (match r with
      | .ok b => (b, SUCCESS)
      | .error _ => ([], FAILURE))) := rfl

/-- C14 for secp256k1, except for hashes that are 0 modulo `N` (see `C14_false_at_zero_hash`). -/
theorem C14_recover_signer_k1_partial (E : Env) (key hash sig : Bytes) (ID : Option Bytes) (rnd : List Bytes) (v : UInt8)
    (h : signature E key ID hash K1 rnd = some (.ret (sig, v, SUCCESS)))
    (hh : ¬ Secp256k1.c.n ∣ beNat hash) :
    ∃ pub, genPubkey E key K1 = .ret (pub, SUCCESS) ∧
      recoverPubkey E (sig ++ [v]) hash K1 = .ret (pub, SUCCESS) := by
  have hs := signature_k1_ok h
  obtain ⟨hkl, hhl, hk0, hkn, r, s, rfl, hb⟩ := sign_spec Secp256k1.curveGood hs
  refine ⟨_, by rw [genPubkey_k1, genPublicKey_ok Secp256k1.curveGood hkl hk0 hkn]; rfl, ?_⟩
  have hr := recover_signed Secp256k1.curveGood Secp256k1.decGood hhl hb (key_ne_zero hk0 hkn)
    (by rw [Ne, ZMod.natCast_eq_zero_iff]; exact hh)
  rw [recoverPubkey_k1, hr]; rfl

/-- C14 for secp256r1. -/
theorem C14_recover_signer_r1_partial (E : Env) {In} (hE : CurveOk Secp256r1.c Secp256r1.good E.ell In)
    (key hash sig : Bytes) (ID : Option Bytes) (rnd : List Bytes) (v : UInt8)
    (h : signature E key ID hash R1 rnd = some (.ret (sig, v, SUCCESS)))
    (hh : ¬ Secp256r1.c.n ∣ beNat hash) :
    ∃ pub, genPubkey E key R1 = .ret (pub, SUCCESS) ∧
      recoverPubkey E (sig ++ [v]) hash R1 = .ret (pub, SUCCESS) := by
  have hC := Secp256r1.curveGood hE
  have hs := signature_r1_ok h
  obtain ⟨hkl, hhl, hk0, hkn, r, s, rfl, hb⟩ := sign_spec hC hs
  refine ⟨_, by rw [genPubkey_r1, genPublicKey_ok hC hkl hk0 hkn]; rfl, ?_⟩
  have hr := recover_signed hC Secp256r1.decGood hhl hb (key_ne_zero hk0 hkn)
    (by rw [Ne, ZMod.natCast_eq_zero_iff]; exact hh)
  rw [recoverPubkey_r1, hr]; rfl

-- the hypotheses: `sample_signature_k1`, `sample_signature_r1` sign `hash1`
example : ¬ Secp256k1.c.n ∣ beNat hash1 ∧ ¬ Secp256r1.c.n ∣ beNat hash1 := by decide +kernel

/-- a signature of the all-zero hash. -/
def sig0 : Bytes := be32 32981575699056473106773566901675637271269451625125269474179346406201928088849 ++
  be32 52835649287463589875660225121117251451632818457357910976200510621417165292696

set_option maxRecDepth 1000000 in
/-- C14 is false of the code: the signature of the all-zero hash is valid but its key is not recovered. -/
theorem C14_false_at_zero_hash :
    ∃ key hash sig : Bytes, ∃ rnd : List Bytes, ∃ v : UInt8,
      signature sampleEnv key none hash K1 rnd = some (.ret (sig, v, SUCCESS)) ∧
      recoverPubkey sampleEnv (sig ++ [v]) hash K1 = .ret ([], FAILURE) := by
  refine ⟨key1, List.replicate 32 0, sig0, [draw1], 1, by decide +kernel, by decide +kernel⟩

/-! ## C15, C16 -/

/-- C15: a key returned by `RecoverPubkey` verifies the signature it was recovered from. -/
theorem C15_recover_sound (E : Env) (sig msg pub : Bytes) (ID : Option Bytes)
    (h : recoverPubkey E sig msg K1 = .ret (pub, SUCCESS)) :
    sig.length = 65 ∧ msg.length = 32 ∧ pub.length = 64 ∧
    verify E pub ID msg (sig.take 64) K1 = .ret SUCCESS := by
  have hdef := recoverPubkey_k1 E sig msg
  rw [hdef] at h
  rcases recover_char Secp256k1.curveGood Secp256k1.decGood sig msg with ⟨-, -, -, h'⟩ | ⟨-, ⟨e, h'⟩ | ⟨hl, hm, X, Y, k, w, hk, h', hv⟩⟩
  · rw [h'] at h; cases h
  · rw [h'] at h
    simp only [Go.ret_bind, Go.ret.injEq, Prod.mk.injEq] at h
    exact absurd h.2 (by decide)
  · rw [h'] at h
    simp only [Go.ret_bind, Go.ret.injEq, Prod.mk.injEq] at h
    have hp := h.1
    have hr := Secp256k1.scalarMult_range k.1 k.2 w
    have hk' : (X, Y) = Secp256k1.scalarMult k.1 k.2 w := hk
    rw [← hk'] at hr
    simp only at hr
    have hP256 : Secp256k1.P < 2 ^ 256 := by decide +kernel
    have hX : X.natAbs < 2 ^ 256 := by omega
    have hY : Y.natAbs < 2 ^ 256 := by omega
    have hpl : pub.length = 64 := by
      rw [← hp]; unfold encode64
      rw [List.length_append, be32_length (by norm_num at hX ⊢; exact hX), be32_length (by norm_num at hY ⊢; exact hY)]
    refine ⟨hl, hm, hpl, ?_⟩
    rw [verify_k1]
    have : ECDSA.verify Secp256k1.curve pub msg (sig.take 64) = .ret true := by
      unfold ECDSA.verify
      rw [if_neg (by omega), if_neg (by simp; omega), if_neg (by omega)]
      have e1 : ((beNat (pub.take 32) : ℕ) : Int) = X := by
        rw [← hp]; unfold encode64; rw [be32_take hX, beNat_be32]; simp; omega
      have e2 : ((beNat (pub.drop 32) : ℕ) : Int) = Y := by
        rw [← hp]; unfold encode64; rw [be32_drop hX, beNat_be32]; simp; omega
      have e3 : (sig.take 64).take 32 = sig.take 32 := by rw [List.take_take]; rfl
      have e4 : (sig.take 64).drop 32 = (sig.drop 32).take 32 := by rw [List.drop_take]
      rw [e1, e2, e3, e4]
      exact hv
    rw [this]; rfl

-- recovery does succeed on a signature: `C14_recover_signer_k1_partial` applied to `sample_signature_k1`
example : ∃ sig pub, recoverPubkey sampleEnv sig hash1 K1 = .ret (pub, SUCCESS) := by
  obtain ⟨sig, v, h⟩ := sample_signature_k1
  obtain ⟨pub, -, hp⟩ := C14_recover_signer_k1_partial sampleEnv key1 hash1 sig none _ v h (by decide +kernel)
  exact ⟨_, pub, hp⟩

/-- C16: `RecoverPubkey` panics exactly when the lengths are right and `r` is a multiple of `N`. -/
theorem C16_recover_panics_iff (E : Env) (sig msg : Bytes) :
    recoverPubkey E sig msg K1 = .panic ↔
      sig.length = 65 ∧ msg.length = 32 ∧ Secp256k1.c.n ∣ beNat (sig.take 32) := by
  have hdef := recoverPubkey_k1 E sig msg
  rw [hdef]
  rcases recover_char Secp256k1.curveGood Secp256k1.decGood sig msg with ⟨h1, h2, h3, h'⟩ | ⟨hn, ⟨e, h'⟩ | ⟨hl, hm, X, Y, k, w, hk, h', hv⟩⟩
  · rw [h']; simp [h1, h2, h3]
  · rw [h']; simp only [Go.ret_bind, reduceCtorEq, false_iff]; exact hn
  · rw [h']; simp only [Go.ret_bind, reduceCtorEq, false_iff]; exact hn

/-- C16 as far as it holds: no crash unless `r ≡ 0 (mod N)`. -/
theorem C16_recover_returns_partial (E : Env) (sig msg : Bytes) (h : ¬ Secp256k1.c.n ∣ beNat (sig.take 32)) :
    recoverPubkey E sig msg K1 ≠ .panic := fun hp => h ((C16_recover_panics_iff E sig msg).mp hp).2.2

/-- C16 is false of the code: the all-zero signature crashes the caller. -/
theorem C16_false_at_zero_r (E : Env) :
    recoverPubkey E (List.replicate 65 0) (List.replicate 32 0) K1 = .panic :=
  (C16_recover_panics_iff _ _ _).mpr (by decide +kernel)

/-- the same crash on secp256r1. -/
theorem C16_recover_panics_iff_r1 (E : Env) {In} (hE : CurveOk Secp256r1.c Secp256r1.good E.ell In) (sig msg : Bytes) :
    recoverPubkey E sig msg R1 = .panic ↔
      sig.length = 65 ∧ msg.length = 32 ∧ Secp256r1.c.n ∣ beNat (sig.take 32) := by
  have hdef := recoverPubkey_r1 E sig msg
  rw [hdef]
  rcases recover_char (Secp256r1.curveGood hE) Secp256r1.decGood sig msg with ⟨h1, h2, h3, h'⟩ | ⟨hn, ⟨e, h'⟩ | ⟨hl, hm, X, Y, k, w, hk, h', hv⟩⟩
  · rw [h']; simp [h1, h2, h3]
  · rw [h']; simp only [Go.ret_bind, reduceCtorEq, false_iff]; exact hn
  · rw [h']; simp only [Go.ret_bind, reduceCtorEq, false_iff]; exact hn

example : ¬ Secp256k1.c.n ∣ beNat ((List.replicate 65 (1 : UInt8)).take 32) := by decide +kernel

/-! ## C17, C18 -/

theorem getD_parity {b : Bytes} (h : b.length = 64) :
    (b.getD 63 0 % 2 = 0) ↔ beNat (b.drop 32) % 2 = 0 := by
  have e : b.drop 32 = (b.drop 32).take 31 ++ [b.getD 63 0] := by
    conv_lhs => rw [← List.take_append_drop 31 (b.drop 32)]
    congr 1
    rw [List.drop_drop]
    apply List.ext_getElem
    · simp; omega
    · intro i h1 h2
      have : i = 0 := by simp at h2; exact h2
      subst this
      simp [List.getD_eq_getElem?_getD, h]
  rw [e, beNat_append]
  have : beNat [b.getD 63 0] = (b.getD 63 0).toNat := by simp [beNat_cons]
  rw [this]
  simp only [List.length_singleton]
  rw [← UInt8.toNat_inj]
  simp only [UInt8.toNat_mod, UInt8.toNat_ofNat]
  show (b.getD 63 0).toNat % 2 = 0 ↔ _
  omega

theorem compress_encodes {c : Params} [Fact c.p.Prime] {b : Bytes} {Q : c.Pt} (h : Encodes b Q) (t : UInt32)
    (ht : t = ECC_CURVE_SECP256K1 ∨ t = ECC_CURVE_SECP256R1 ∨ t = ECC_CURVE_SM2_STANDARD ∨ t = ECC_CURVE_PASTA) :
    EncodesCompressed (pointCompress b t) Q ∧ EncodesCompressed (pointCompress (4 :: b) t) Q ∧
    (pointCompress b t).drop 1 = b.take 32 ∧ pointCompress (4 :: b) t = pointCompress b t := by
  have hl := h.2.1
  have ht' : ¬ (t ≠ ECC_CURVE_SECP256K1 ∧ t ≠ ECC_CURVE_SECP256R1 ∧ t ≠ ECC_CURVE_SM2_STANDARD ∧ t ≠ ECC_CURVE_PASTA) := by
    rcases ht with rfl | rfl | rfl | rfl <;> decide
  have e1 : pointCompress b t = (if b.getD 63 0 % 2 = 0 then 2 else 3) :: b.take 32 := by
    unfold pointCompress
    rw [if_neg ht']
    simp only [hl, show ¬ (64 : ℕ) = 65 by omega, false_and, if_false, ne_eq, not_true_eq_false]
    split <;> rfl
  have e2 : pointCompress (4 :: b) t = pointCompress b t := by
    rw [e1]
    unfold pointCompress
    rw [if_neg ht']
    have : (4 :: b).length = 65 ∧ (4 :: b).getD 0 0 = 0x04 := by simp [hl]
    simp only [this, and_self, if_true, List.drop_succ_cons, List.drop_zero, hl, ne_eq, not_true_eq_false, if_false]
    split <;> rfl
  have hc : EncodesCompressed (pointCompress b t) Q := by
    rw [e1]
    refine ⟨h.1, by simp [hl], ?_, ?_⟩
    · have hp := getD_parity hl
      rw [h.2.2.2] at hp
      simp only [List.getD_cons_zero, hp]
    · exact h.2.2.1
  exact ⟨hc, by rw [e2]; exact hc, by rw [e1]; rfl, e2⟩

theorem decompress_compress {c : Params} [Fact c.p.Prime] {rhs : Int → Int} (hd : DecGood c rhs) {b : Bytes} {Q : c.Pt}
    (h : Encodes b Q) (t : UInt32)
    (ht : t = ECC_CURVE_SECP256K1 ∨ t = ECC_CURVE_SECP256R1 ∨ t = ECC_CURVE_SM2_STANDARD ∨ t = ECC_CURVE_PASTA) :
    decompress (c.p : Int) rhs (pointCompress b t) = .ok (4 :: b) := by
  obtain ⟨h1, -, h3, -⟩ := compress_encodes h t ht
  rw [decompress_compressed hd h1, h3]
  have : be32 (yval Q) = b.drop 32 := by
    rw [← h.2.2.2, be32_beNat (by simp [h.2.1])]
  rw [this, List.cons_append, List.take_append_drop]

/-- C17 for secp256k1 and secp256r1, from the 64-byte form and from the 65-byte form with prefix 04. -/
theorem C17_decompress_compress_k1 (E : Env) (b : Bytes) (Q : Secp256k1.c.Pt) (h : Encodes b Q) :
    pointDecompress E (pointCompress b K1) K1 = .ret (4 :: b) ∧
    pointDecompress E (pointCompress (4 :: b) K1) K1 = .ret (4 :: b) := by
  obtain ⟨h1, -, -, h4⟩ := compress_encodes h K1 (.inl rfl)
  rw [h4, dec_k1 E _ h1.2.1, decompress_compress Secp256k1.decGood h K1 (.inl rfl)]
  exact ⟨rfl, rfl⟩

theorem C17_decompress_compress_r1 (E : Env) (b : Bytes) (Q : Secp256r1.c.Pt) (h : Encodes b Q) :
    pointDecompress E (pointCompress b R1) R1 = .ret (4 :: b) ∧
    pointDecompress E (pointCompress (4 :: b) R1) R1 = .ret (4 :: b) := by
  obtain ⟨h1, -, -, h4⟩ := compress_encodes h R1 (.inr (.inl rfl))
  rw [h4, dec_r1 E _ h1.2.1, decompress_compress Secp256r1.decGood h R1 (.inr (.inl rfl))]
  exact ⟨rfl, rfl⟩

-- encodings exist on both curves: the example after C11

theorem decompress_nil_iff {c : Params} [Fact c.p.Prime] {rhs : Int → Int} (hd : DecGood c rhs) (b : Bytes)
    (hl : b.length = 33) :
    (okOrNil (decompress (c.p : Int) rhs b) = [] ↔ b.getD 0 0 ≠ 2 ∧ b.getD 0 0 ≠ 3) ∧
    ((b.getD 0 0 = 2 ∨ b.getD 0 0 = 3) → ∃ y : ℕ, y ≤ c.p ∧ y % 2 = (b.getD 0 0).toNat % 2 ∧
      decompress (c.p : Int) rhs b = .ok (4 :: b.drop 1 ++ be32 y) ∧
      ((∃ z : ZMod c.p, z ^ 2 = (beNat (b.drop 1) : ZMod c.p) ^ 3 + c.a * (beNat (b.drop 1) : ZMod c.p) + c.b) →
        (y : ZMod c.p) ^ 2 = (beNat (b.drop 1) : ZMod c.p) ^ 3 + c.a * (beNat (b.drop 1) : ZMod c.p) + c.b) ∧
      ((∀ z : ZMod c.p, z ^ 2 ≠ (beNat (b.drop 1) : ZMod c.p) ^ 3 + c.a * (beNat (b.drop 1) : ZMod c.p) + c.b) →
        (y : ZMod c.p) = 0)) := by
  match b, hl with
  | b0 :: xb, hl =>
    simp only [List.getD_cons_zero, List.drop_succ_cons, List.drop_zero]
    have hodd : c.p % 2 = 1 := by have := hd.p4; omega
    have main : (b0 = 2 ∨ b0 = 3) → ∃ y : ℕ, y ≤ c.p ∧ y % 2 = b0.toNat % 2 ∧
      decompress (c.p : Int) rhs (b0 :: xb) = .ok (4 :: xb ++ be32 y) ∧
      ((∃ z : ZMod c.p, z ^ 2 = (beNat xb : ZMod c.p) ^ 3 + c.a * (beNat xb : ZMod c.p) + c.b) →
        (y : ZMod c.p) ^ 2 = (beNat xb : ZMod c.p) ^ 3 + c.a * (beNat xb : ZMod c.p) + c.b) ∧
      ((∀ z : ZMod c.p, z ^ 2 ≠ (beNat xb : ZMod c.p) ^ 3 + c.a * (beNat xb : ZMod c.p) + c.b) →
        (y : ZMod c.p) = 0) := by
      intro hb
      have h1 : ¬ ((b0 :: xb).length ≠ 33 ∨ (b0 ≠ 0x02 ∧ b0 ≠ 0x03)) := by
        rcases hb with rfl | rfl <;> simp [hl]
      have hbit : (if b0 = 2 then 0 else 1) = b0.toNat % 2 := by
        rcases hb with rfl | rfl <;> decide
      unfold decompress
      simp only [h1, if_false]
      unfold decompressTail
      simp only [Int.toNat_natCast]
      rw [hbit]
      have hrc : (((rhs (beNat xb)).toNat : ℕ) : ZMod c.p) = (beNat xb : ZMod c.p) ^ 3 + c.a * (beNat xb : ZMod c.p) + c.b := by
        rw [← hd.eq]
        have : (((rhs (beNat xb)).toNat : ℕ) : Int) = rhs (beNat xb) := Int.toNat_of_nonneg (hd.lo _)
        rw [← this, Int.cast_natCast, Int.toNat_natCast]
      obtain ⟨r, hr⟩ : ∃ r, r = (modSqrt3 (rhs (beNat xb)).toNat c.p).getD 0 := ⟨_, rfl⟩
      have hrle : r ≤ c.p := by
        cases h : modSqrt3 (rhs (beNat xb)).toNat c.p with
        | none => rw [h] at hr; simp at hr; omega
        | some q => rw [h] at hr; simp at hr; subst hr; exact (modSqrt3_lt (by omega) h).le
      have hsq : (∃ z : ZMod c.p, z ^ 2 = (beNat xb : ZMod c.p) ^ 3 + c.a * (beNat xb : ZMod c.p) + c.b) →
          (r : ZMod c.p) ^ 2 = (beNat xb : ZMod c.p) ^ 3 + c.a * (beNat xb : ZMod c.p) + c.b := by
        rintro ⟨z, hz⟩
        rw [← hrc] at hz
        obtain ⟨q, hq, -, hq2⟩ := modSqrt3_some hd.p4 hz
        rw [hq] at hr; simp at hr
        rw [hr, hq2, hrc]
      have hns : (∀ z : ZMod c.p, z ^ 2 ≠ (beNat xb : ZMod c.p) ^ 3 + c.a * (beNat xb : ZMod c.p) + c.b) → r = 0 := by
        intro hz
        cases h : modSqrt3 (rhs (beNat xb)).toNat c.p with
        | none => rw [h] at hr; simpa using hr
        | some q => exact absurd ((modSqrt3_sq h).trans hrc) (hz _)
      rw [← hr]
      by_cases h2 : ((r : Int) % 2 ≠ (b0.toNat % 2 : ℕ))
      · refine ⟨c.p - r, by omega, by omega, ?_, ?_, ?_⟩
        · have h3 : (c.p : Int) - r = ((c.p - r : ℕ) : Int) := by omega
          simp only [h2, ne_eq, not_false_eq_true, if_true, h3]
          rw [if_neg (by omega), Int.natAbs_natCast]
        · intro hz
          rw [Nat.cast_sub hrle, ZMod.natCast_self, zero_sub, neg_sq]; exact hsq hz
        · intro hz
          rw [hns hz]; simp
      · refine ⟨r, by omega, by omega, ?_, hsq, fun hz => by rw [hns hz]; simp⟩
        simp only [h2, if_false]
        rw [Int.natAbs_natCast]
    refine ⟨?_, main⟩
    by_cases hb : b0 = 2 ∨ b0 = 3
    · obtain ⟨y, -, -, hy, -⟩ := main hb
      rw [hy]
      simp only [okOrNil, List.cons_append, reduceCtorEq, false_iff]
      rcases hb with rfl | rfl <;> decide
    · have : decompress (c.p : Int) rhs (b0 :: xb) = .error .other := by
        unfold decompress
        have h1 : ((b0 :: xb).length ≠ 33 ∨ (b0 ≠ 0x02 ∧ b0 ≠ 0x03)) := .inr (by tauto)
        simp only [h1, if_true]
      rw [this]
      simp only [okOrNil, true_iff]; tauto

/-- C18 as far as it holds: the result is nil iff the length is not 33 or the prefix is not 02/03; and if the
x-coordinate belongs to some curve point, the result `04‖x‖y` satisfies the curve equation and `y` has
the parity of the prefix.  What is missing: rejection of x-coordinates without a point, see
`C18_false_off_curve`. -/
theorem C18_decompress_k1_partial (E : Env) (b : Bytes) :
    (∃ out, pointDecompress E b K1 = .ret out ∧
      (out = [] ↔ b.length ≠ 33 ∨ (b.getD 0 0 ≠ 2 ∧ b.getD 0 0 ≠ 3)) ∧
      (out ≠ [] → ∃ y : ℕ, out = 4 :: b.drop 1 ++ be32 y ∧ y ≤ Secp256k1.c.p ∧ y % 2 = (b.getD 0 0).toNat % 2 ∧
        ((∃ z : ZMod Secp256k1.c.p, z ^ 2 = (beNat (b.drop 1) : ZMod Secp256k1.c.p) ^ 3 + 7) →
          (y : ZMod Secp256k1.c.p) ^ 2 = (beNat (b.drop 1) : ZMod Secp256k1.c.p) ^ 3 + 7))) := by
  by_cases hl : b.length = 33
  · refine ⟨_, dec_k1 E b hl, ?_, ?_⟩
    · rw [(decompress_nil_iff Secp256k1.decGood b hl).1]; simp [hl]
    · intro hne
      have hb : b.getD 0 0 = 2 ∨ b.getD 0 0 = 3 := by
        rw [Ne, (decompress_nil_iff Secp256k1.decGood b hl).1] at hne; tauto
      obtain ⟨y, hy, hp, he, hsq, -⟩ := (decompress_nil_iff Secp256k1.decGood b hl).2 hb
      have ha : ((Secp256k1.c.a : ℕ) : ZMod Secp256k1.c.p) = 0 := by
        have : ((Secp256k1.c.a : ℕ) : ZMod Secp256k1.c.p) = ((0 : ℕ) : ZMod Secp256k1.c.p) := rfl
        rw [this]; simp
      have hb7 : ((Secp256k1.c.b : ℕ) : ZMod Secp256k1.c.p) = 7 := by
        have : ((Secp256k1.c.b : ℕ) : ZMod Secp256k1.c.p) = ((7 : ℕ) : ZMod Secp256k1.c.p) := rfl
        rw [this]; simp
      rw [ha, hb7] at hsq
      simp only [zero_mul, add_zero] at hsq
      exact ⟨y, by rw [he]; rfl, hy, hp, hsq⟩
  · refine ⟨[], by unfold pointDecompress; rw [if_pos hl], by simp [hl], by simp⟩

/-- C18 is false of the code: for the x-coordinate 5 (which no curve point has) the prefixes 02 and 03 yield
`(5, 0)` and `(5, p)`, and `Point_mul` accepts such an argument. -/
theorem C18_false_off_curve (E : Env) :
    pointDecompress E (2 :: be32 5) K1 = .ret (4 :: be32 5 ++ be32 0) ∧
    pointDecompress E (3 :: be32 5) K1 = .ret (4 :: be32 5 ++ be32 Secp256k1.c.p) ∧
    Secp256k1.isOnCurve 5 0 = false ∧ Secp256k1.isOnCurve 5 Secp256k1.c.p = false := by
  refine ⟨?_, ?_, by decide +kernel, by decide +kernel⟩
  · rw [dec_k1 E _ (by decide +kernel)]
    exact congrArg Go.ret (by decide +kernel)
  · rw [dec_k1 E _ (by decide +kernel)]
    exact congrArg Go.ret (by decide +kernel)

example : ((2 : UInt8) :: be32 1).length = 33 ∧ ∃ z : ZMod Secp256k1.c.p,
    z ^ 2 = (beNat (((2 : UInt8) :: be32 Secp256k1.c.gx).drop 1) : ZMod Secp256k1.c.p) ^ 3 + 7 := by
  refine ⟨by decide +kernel, (Secp256k1.c.gy : ZMod Secp256k1.c.p), ?_⟩
  have := Secp256k1.good.g
  simp only [List.drop_succ_cons, List.drop_zero, beNat_be32]
  rw [this]
  have ha : ((Secp256k1.c.a : ℕ) : ZMod Secp256k1.c.p) = ((0 : ℕ) : ZMod Secp256k1.c.p) := rfl
  have hb : ((Secp256k1.c.b : ℕ) : ZMod Secp256k1.c.p) = ((7 : ℕ) : ZMod Secp256k1.c.p) := rfl
  rw [ha, hb]; push_cast; ring

/-! ## C19, C20 -/

theorem genPubkey_k1_valid {E : Env} {a pub : Bytes} (ha : genPubkey E a K1 = .ret (pub, SUCCESS)) :
    a.length = 32 ∧ 1 ≤ beNat a ∧ beNat a < Secp256k1.c.n := by
  by_contra hk
  rw [(C04_genPubkey_k1 E a).2 hk] at ha
  injection ha with h; injection h with _ h; exact absurd h (by decide)

/-- C19: `Point_mulBaseG_add(GenPubkey(a), b)` is the public key of `a + b mod N`, and infinity is reported
exactly when that is 0.  `b` is any 32-byte scalar. -/
theorem C19_child_key (E : Env) (a b pub : Bytes) (ha : genPubkey E a K1 = .ret (pub, SUCCESS)) (hb : b.length = 32) :
    ((beNat a + beNat b) % Secp256k1.c.n = 0 → pointMulBaseGAdd E pub b K1 = .ret ([], true)) ∧
    ((beNat a + beNat b) % Secp256k1.c.n ≠ 0 → ∃ child, pointMulBaseGAdd E pub b K1 = .ret (child, false) ∧
      genPubkey E (be32 ((beNat a + beNat b) % Secp256k1.c.n)) K1 = .ret (child, SUCCESS)) := by
  have hQ := (C05_genPubkey_encoding E a pub ha).2.1
  have hs := mulBaseGAdd_spec Secp256k1.curveGood hQ b
  have hsum : beNat b • Secp256k1.good.G + beNat a • Secp256k1.good.G =
      ((beNat a + beNat b) % Secp256k1.c.n) • Secp256k1.good.G := by
    rw [← add_nsmul, add_comm]
    apply smul_congr Secp256k1.N_smul_G
    rw [ZMod.natCast_mod]
  have hdef : pointMulBaseGAdd E pub b K1 = mulBaseGAdd Secp256k1.curve pub b := by
    unfold pointMulBaseGAdd; rw [if_neg (by omega)]; rfl
  rw [hdef]
  rw [hsum] at hs
  have hnpos : 0 < Secp256k1.c.n := Secp256k1.good.np.pos
  have hlt := Nat.mod_lt (beNat a + beNat b) hnpos
  have h256 := Secp256k1.curveGood.n256
  constructor
  · intro h0
    exact hs.2 (by rw [h0, zero_nsmul])
  · intro h0
    have hne := smul_G_ne_zero Secp256k1.curveGood (k := (beNat a + beNat b) % Secp256k1.c.n) (by omega) hlt
    refine ⟨_, hs.1 hne, ?_⟩
    rw [genPubkey_k1, genPublicKey_ok Secp256k1.curveGood
      (be32_length (by norm_num at h256 ⊢; omega)) (by rw [beNat_be32]; omega) (by rw [beNat_be32]; exact hlt), beNat_be32]
    rfl

/-- C20: both sides of a Diffie–Hellman exchange compute the encoding of `ab·G`. -/
theorem C20_ecdh (E : Env) (a b pubA pubB : Bytes) (ha : genPubkey E a K1 = .ret (pubA, SUCCESS))
    (hb : genPubkey E b K1 = .ret (pubB, SUCCESS)) :
    ∃ shared, pointMul E pubA b K1 = .ret (shared, SUCCESS) ∧ pointMul E pubB a K1 = .ret (shared, SUCCESS) ∧
      Encodes shared ((beNat a * beNat b) • Secp256k1.good.G) := by
  obtain ⟨hla, ha1, han⟩ := genPubkey_k1_valid ha
  obtain ⟨hlb, hb1, hbn⟩ := genPubkey_k1_valid hb
  have eA := (C05_genPubkey_encoding E a pubA ha).2.1
  have eB := (C05_genPubkey_encoding E b pubB hb).2.1
  have hne : (beNat a * beNat b) • Secp256k1.good.G ≠ 0 := by
    have : Fact Secp256k1.c.n.Prime := ⟨Secp256k1.good.np⟩
    rw [Ne, smul_eq_zero_iff Secp256k1.N_smul_G, Nat.cast_mul]
    exact mul_ne_zero (key_ne_zero ha1 han) (key_ne_zero hb1 hbn)
  have e1 : beNat b • beNat a • Secp256k1.good.G = (beNat a * beNat b) • Secp256k1.good.G := by
    rw [← mul_nsmul', mul_comm]
  have e2 : beNat a • beNat b • Secp256k1.good.G = (beNat a * beNat b) • Secp256k1.good.G := by
    rw [← mul_nsmul']
  obtain ⟨o1, p1, q1⟩ := (C02_point_mul E pubA b _ (.inl eA) hlb).2 (by rw [e1]; exact hne)
  obtain ⟨o2, p2, q2⟩ := (C02_point_mul E pubB a _ (.inl eB) hla).2 (by rw [e2]; exact hne)
  rw [e1] at q1
  rw [e2] at q2
  have : o2 = o1 := q2.unique q1
  subst this
  exact ⟨o2, p1, p2, q1⟩

-- the hypotheses of C19 and C20
example : (∃ pub, genPubkey sampleEnv key1 K1 = .ret (pub, SUCCESS)) ∧ (∃ pub, genPubkey sampleEnv key2 K1 = .ret (pub, SUCCESS)) ∧
    key2.length = 32 := by
  obtain ⟨p, h, -⟩ := (C04_genPubkey_k1 sampleEnv key1).1 (by decide +kernel)
  obtain ⟨q, h', -⟩ := (C04_genPubkey_k1 sampleEnv key2).1 (by decide +kernel)
  exact ⟨⟨p, h⟩, ⟨q, h'⟩, by decide⟩

/-! ## C21 -/

/-- C21 on secp256k1. -/
theorem C21_add_infinity_k1 (E : Env) (b1 b2 : Bytes) (P Q : Secp256k1.c.Pt) (h1 : PointArg b1 P) (h2 : PointArg b2 Q) :
    (∃ out, pointAdd E b1 b2 K1 = .ret (out, FAILURE)) ↔ P + Q = 0 := by
  obtain ⟨hz, hnz⟩ := C01_point_add E b1 b2 P Q h1 h2
  constructor
  · rintro ⟨out, h⟩
    by_contra hne
    obtain ⟨out', h', -⟩ := hnz hne
    rw [h'] at h
    injection h with h; injection h with _ h; exact absurd h (by decide)
  · intro h; exact ⟨_, hz h⟩

theorem pointAdd_r1 (E : Env) {In} (hE : CurveOk Secp256r1.c Secp256r1.good E.ell In) (b1 b2 : Bytes)
    (P Q : Secp256r1.c.Pt) (h1 : PointArg b1 P) (h2 : PointArg b2 Q) :
    (xval (P + Q) = 0 → pointAdd E b1 b2 R1 = .ret ([], FAILURE)) ∧
    (xval (P + Q) ≠ 0 → ∃ out, pointAdd E b1 b2 R1 = .ret (out, SUCCESS) ∧ Encodes out (P + Q)) := by
  obtain ⟨c1, e1, d1⟩ := normPoint_spec E Secp256r1.decGood (dec_r1 E) h1
  obtain ⟨c2, e2, d2⟩ := normPoint_spec E Secp256r1.decGood (dec_r1 E) h2
  have hC := Secp256r1.curveGood hE
  have hs := addPoints_spec hC d1 d2
  have hdef : pointAdd E b1 b2 R1 = (do return infCode (← addPoints (Secp256r1.curve E.ell) c1 c2)) := by
    unfold pointAdd
    rw [if_neg (by decide), e1]
    simp only [Go.ret_bind]
    rw [e2]
    rfl
  rw [hdef]
  constructor
  · intro h; rw [hs.2 h]; rfl
  · intro h
    rw [hs.1 h]
    exact ⟨_, rfl, encodes_encode64 hC.p256 (fun h0 => h (by rw [h0]; rfl))⟩

/-- C21 on secp256r1 as far as it holds: unless the sum has x-coordinate 0, `Point_add` is the group law. -/
theorem C21_add_r1_partial (E : Env) {In} (hE : CurveOk Secp256r1.c Secp256r1.good E.ell In) (b1 b2 : Bytes)
    (P Q : Secp256r1.c.Pt) (h1 : PointArg b1 P) (h2 : PointArg b2 Q) (hx : P + Q ≠ 0 → xval (P + Q) ≠ 0) :
    (P + Q = 0 → pointAdd E b1 b2 R1 = .ret ([], FAILURE)) ∧
    (P + Q ≠ 0 → ∃ out, pointAdd E b1 b2 R1 = .ret (out, SUCCESS) ∧ Encodes out (P + Q)) :=
  ⟨fun h => (pointAdd_r1 E hE b1 b2 P Q h1 h2).1 (by rw [h]; rfl),
   fun h => (pointAdd_r1 E hE b1 b2 P Q h1 h2).2 (hx h)⟩

/-- the P-256 point with x = 0. -/
theorem r1_x0 : ((0x66485c780e2f83d72433bd5d84a06bb6541c2af31dae871728bf856a174f93f4 : ℕ) : ZMod Secp256r1.c.p) ^ 2 =
    (0 : ZMod Secp256r1.c.p) ^ 3 + Secp256r1.c.a * 0 + Secp256r1.c.b := by
  have : ((0x66485c780e2f83d72433bd5d84a06bb6541c2af31dae871728bf856a174f93f4 ^ 2 : ℕ) : ZMod Secp256r1.c.p) =
      ((Secp256r1.c.b : ℕ) : ZMod Secp256r1.c.p) := by
    rw [ZMod.natCast_eq_natCast_iff']
    decide +kernel
  rw [← this]; push_cast; ring

/-- C21 is false on secp256r1, with every correct backend: adding `(0, y) - G` and `G`, whose sum is the point
`(0, y)` of the curve, returns FAILURE. -/
theorem C21_false_r1 (E : Env) {In} (hE : CurveOk Secp256r1.c Secp256r1.good E.ell In) :
    ∃ b1 b2 : Bytes, ∃ P Q : Secp256r1.c.Pt, Encodes b1 P ∧ Encodes b2 Q ∧ P + Q ≠ 0 ∧
      pointAdd E b1 b2 R1 = .ret ([], FAILURE) := by
  have hp256 := Secp256r1.decGood.p256
  obtain ⟨X, hXdef⟩ : ∃ X, X = Secp256r1.good.point r1_x0 := ⟨_, rfl⟩
  have hX0 : X ≠ 0 := by rw [hXdef]; exact Affine.Point.some_ne_zero _
  have hxv : xval X = 0 := by
    rw [hXdef]; show (0 : ZMod Secp256r1.c.p).val = 0; exact ZMod.val_zero
  have hG0 : Secp256r1.good.G ≠ 0 := Affine.Point.some_ne_zero _
  have hXG : X - Secp256r1.good.G ≠ 0 := by
    intro h
    have h := sub_eq_zero.mp h
    rw [h] at hxv
    have : xval Secp256r1.good.G = Secp256r1.c.gx := by
      show ((Secp256r1.c.gx : ℕ) : ZMod Secp256r1.c.p).val = _
      rw [ZMod.val_natCast, Nat.mod_eq_of_lt Secp256r1.good.gxlt]
    rw [this] at hxv
    exact absurd hxv (by decide +kernel)
  refine ⟨_, _, _, _, encodes_encode64 hp256 hXG, encodes_encode64 hp256 hG0, by rw [sub_add_cancel]; exact hX0, ?_⟩
  exact (pointAdd_r1 E hE _ _ _ _ (.inl (encodes_encode64 hp256 hXG)) (.inl (encodes_encode64 hp256 hG0))).1
    (by rw [sub_add_cancel]; exact hxv)

/-! ## C46 -/

/-- which argument crashes `normPoint`: 33 bytes with a prefix other than 02/03. -/
def BadCompressed (b : Bytes) : Prop := b.length = 33 ∧ b.getD 0 0 ≠ 2 ∧ b.getD 0 0 ≠ 3

theorem normPoint_char {c : Params} [Fact c.p.Prime] {rhs : Int → Int} (E : Env) (hd : DecGood c rhs) {t : UInt32}
    (ht : ∀ b : Bytes, b.length = 33 → pointDecompress E b t = .ret (okOrNil (decompress (c.p : Int) rhs b)))
    (b : Bytes) : (BadCompressed b ∧ normPoint E b t = .panic) ∨
      (¬ BadCompressed b ∧ ((b.length ≠ 33 ∧ b.length ≠ 64 ∧ b.length ≠ 65 ∧ normPoint E b t = .ret none) ∨
        ((b.length = 33 ∨ b.length = 64 ∨ b.length = 65) ∧ ∃ b', b'.length = 64 ∧ normPoint E b t = .ret (some b')))) := by
  unfold normPoint BadCompressed
  by_cases hl : b.length = 33
  · rw [if_pos hl, ht b hl]
    obtain ⟨h1, h2⟩ := decompress_nil_iff hd b hl
    by_cases hb : b.getD 0 0 ≠ 2 ∧ b.getD 0 0 ≠ 3
    · left
      rw [h1.mpr hb]
      exact ⟨⟨hl, hb⟩, rfl⟩
    · right
      refine ⟨fun h => hb h.2, .inr ⟨.inl hl, ?_⟩⟩
      obtain ⟨y, hy, -, hdec, -⟩ := h2 (by tauto)
      rw [hdec]
      have hp := hd.p256
      refine ⟨b.drop 1 ++ be32 y, ?_, rfl⟩
      rw [List.length_append, be32_length (by norm_num at hp ⊢; omega)]
      simp [hl]
  · rw [if_neg hl]
    right
    refine ⟨fun h => hl h.1, ?_⟩
    split
    · rename_i h65
      exact .inr ⟨by omega, b.drop 1, by simp [h65], rfl⟩
    split
    · exact .inl ⟨hl, by omega, by omega, rfl⟩
    · exact .inr ⟨by omega, b, by omega, rfl⟩

theorem addPoints_ret {C : Curve} {b1 b2 : Bytes} (h1 : b1.length = 64) (h2 : b2.length = 64) :
    ∃ r, addPoints C b1 b2 = .ret r := by
  unfold addPoints
  rw [sliceTo64 h1, sliceFrom64 h1, sliceTo64 h2, sliceFrom64 h2]
  simp only [Go.ret_bind]
  split <;> exact ⟨_, rfl⟩

theorem mulPoint_ret {C : Curve} {b k : Bytes} (h : b.length = 64) : ∃ r, mulPoint C b k = .ret r := by
  unfold mulPoint
  rw [sliceTo64 h, sliceFrom64 h]
  simp only [Go.ret_bind]
  split <;> exact ⟨_, rfl⟩

/-- C46 on secp256k1/secp256r1: exactly when `Point_mul` and `Point_add` crash.  (For secp256r1 this assumes that the
backend returns on points off the curve.) -/
theorem C46_panics_iff (E : Env) (t : UInt32) (ht : t = K1 ∨ t = R1) (b1 b2 k : Bytes) :
    (pointMul E b1 k t = .panic ↔ BadCompressed b1) ∧
    (pointAdd E b1 b2 t = .panic ↔ BadCompressed b1 ∨
      ((b1.length = 33 ∨ b1.length = 64 ∨ b1.length = 65) ∧ BadCompressed b2)) := by
  have hn : ∀ b, (BadCompressed b ∧ normPoint E b t = .panic) ∨
      (¬ BadCompressed b ∧ ((b.length ≠ 33 ∧ b.length ≠ 64 ∧ b.length ≠ 65 ∧ normPoint E b t = .ret none) ∨
        ((b.length = 33 ∨ b.length = 64 ∨ b.length = 65) ∧ ∃ b', b'.length = 64 ∧ normPoint E b t = .ret (some b')))) := by
    intro b
    rcases ht with rfl | rfl
    · exact normPoint_char E Secp256k1.decGood (dec_k1 E) b
    · exact normPoint_char E Secp256r1.decGood (dec_r1 E) b
  have hed : t ≠ ECC_CURVE_ED25519 := by rcases ht with rfl | rfl <;> decide
  constructor
  · unfold pointMul
    rw [if_neg hed]
    rcases hn b1 with ⟨hb, he⟩ | ⟨hb, ⟨-, -, -, he⟩ | ⟨-, b', hl, he⟩⟩
    · rw [he]; simp [hb]
    · rw [he]; simp [hb]
    · rw [he]
      simp only [Go.ret_bind, hb, iff_false]
      split
      · simp
      rcases ht with rfl | rfl
      · obtain ⟨r, hr⟩ := mulPoint_ret (C := E.k1) (k := k) hl
        rw [if_pos rfl, hr]; simp
      · obtain ⟨r, hr⟩ := mulPoint_ret (C := E.r1) (k := k) hl
        rw [if_neg (by decide), if_pos rfl, hr]; simp
  · unfold pointAdd
    rw [if_neg hed]
    rcases hn b1 with ⟨hb, he⟩ | ⟨hb, ⟨h1, h2, h3, he⟩ | ⟨hlen, b', hl, he⟩⟩
    · rw [he]; simp [hb]
    · rw [he]; simp [hb]; omega
    · rw [he]
      simp only [Go.ret_bind, hb, false_or, hlen, true_and]
      rcases hn b2 with ⟨hb2, he2⟩ | ⟨hb2, ⟨-, -, -, he2⟩ | ⟨-, b2', hl2, he2⟩⟩
      · rw [he2]; simp [hb2]
      · rw [he2]; simp [hb2]
      · rw [he2]
        simp only [Go.ret_bind, hb2, iff_false]
        rcases ht with rfl | rfl
        · obtain ⟨r, hr⟩ := addPoints_ret (C := E.k1) hl hl2
          rw [if_pos rfl, hr]; simp
        · obtain ⟨r, hr⟩ := addPoints_ret (C := E.r1) hl hl2
          rw [if_neg (by decide), if_pos rfl, hr]; simp

/-- C46 as far as it holds. -/
theorem C46_no_panic_partial (E : Env) (t : UInt32) (ht : t = K1 ∨ t = R1) (b1 b2 k : Bytes)
    (h1 : ¬ BadCompressed b1) (h2 : ¬ BadCompressed b2) :
    pointMul E b1 k t ≠ .panic ∧ pointAdd E b1 b2 t ≠ .panic := by
  obtain ⟨hm, ha⟩ := C46_panics_iff E t ht b1 b2 k
  exact ⟨fun h => h1 (hm.mp h), fun h => by rcases ha.mp h with h | ⟨-, h⟩ <;> contradiction⟩

/-- C46 is false of the code: 33 zero bytes crash both calls. -/
theorem C46_false_bad_prefix (E : Env) :
    pointMul E (List.replicate 33 0) key1 K1 = .panic ∧ pointAdd E (List.replicate 33 0) key1 K1 = .panic := by
  have hb : BadCompressed (List.replicate 33 0) := ⟨by decide, by decide, by decide⟩
  obtain ⟨hm, ha⟩ := C46_panics_iff E K1 (.inl rfl) (List.replicate 33 0) key1 key1
  exact ⟨hm.mpr hb, ha.mpr (.inl hb)⟩

example : ¬ BadCompressed (2 :: be32 1) ∧ ¬ BadCompressed key1 := by
  constructor
  · rintro ⟨-, h, -⟩; exact h rfl
  · rintro ⟨h, -⟩; exact absurd h (by decide)

/-! ## C45 -/

/-- the ten curve identifiers of profile.go. -/
def knownCurves : List UInt32 := [0xECC00000, 0xECC00001, 0xECC00002, 0xECC00003, 0xECC00004, 0xECC00005,
  0xECC00006, 0xECC00007, 0xECC00008, 0xECC00009]

/-- C45: unknown curve identifiers. (`Point_mul`/`Point_add` are stated for point arguments that are not 33 bytes
long: with 33 bytes they crash, see `C45_unknown_33`.) -/
theorem C45_unknown_type (E : Env) (t : UInt32) (ht : t ∉ knownCurves)
    (a b m : Bytes) (ID : Option Bytes) (rnd : List Bytes) (sigs : List Bytes) :
    genPubkey E a t = .ret ([], ECC_WRONG_TYPE) ∧
    signature E a ID m t rnd = some (.ret ([], 0, ECC_WRONG_TYPE)) ∧
    verify E a ID m b t = .ret ECC_WRONG_TYPE ∧
    encryption E a m t rnd = some (.ret ([], ECC_WRONG_TYPE)) ∧
    decryption E a m t = .ret ([], ECC_WRONG_TYPE) ∧
    recoverPubkey E a m t = .ret ([], ECC_WRONG_TYPE) ∧
    (sigs ≠ [] → aggregateSignatures E t sigs = .ret ([], ECC_WRONG_TYPE)) ∧
    pointMulBaseG E a t = .ret [] ∧ pointMulBaseGAdd E a b t = .ret ([], false) ∧
    pointCompress a t = [] ∧ pointDecompress E a t = .ret [] ∧ getCurveOrder t = [] ∧
    (a.length ≠ 33 → pointMul E a m t = .ret ([], FAILURE)) ∧
    (a.length ≠ 33 → b.length ≠ 33 → pointAdd E a b t = .ret ([], FAILURE)) := by
  simp only [knownCurves, List.mem_cons, List.not_mem_nil, or_false, not_or] at ht
  obtain ⟨t0, t1, t2, t3, t4, t5, t6, t7, t8, t9⟩ := ht
  have e0 : (t = ECC_CURVE_SECP256K1) = False := eq_false t0
  have e1 : (t = ECC_CURVE_SECP256R1) = False := eq_false t1
  have e2 : (t = ECC_CURVE_SM2_STANDARD) = False := eq_false t2
  have e3 : (t = ECC_CURVE_ED25519_NORMAL) = False := eq_false t3
  have e4 : (t = ECC_CURVE_ED25519) = False := eq_false t4
  have e5 : (t = ECC_CURVE_X25519) = False := eq_false t5
  have e6 : (t = ECC_CURVE_CURVE25519_SHA256) = False := eq_false t6
  have e7 : (t = ECC_CURVE_BLS_NUL) = False := eq_false t7
  have e8 : (t = ECC_CURVE_BLS_AUG) = False := eq_false t8
  have e9 : (t = ECC_CURVE_PASTA) = False := eq_false t9
  have hdec : ∀ x : Bytes, pointDecompress E x t = .ret [] := by
    intro x; simp only [pointDecompress, e0, e1, e2, e9, if_false]; split <;> rfl
  have hnorm : ∀ x : Bytes, x.length ≠ 33 → ∃ o, normPoint E x t = .ret o := by
    intro x hx
    unfold normPoint
    rw [if_neg hx]
    split
    · exact ⟨_, rfl⟩
    split <;> exact ⟨_, rfl⟩
  refine ⟨?_, ?_, ?_, ?_, ?_, ?_, ?_, ?_, ?_, ?_, hdec a, ?_, ?_, ?_⟩
  · simp only [genPubkey, e0, e1, e2, e3, e4, e5, e6, e7, e8, e9, or_self, if_false]
  · simp only [signature, e0, e1, e2, e3, e4, e5, e6, e7, e8, e9, if_false]
  · simp only [Api.verify, e0, e1, e2, e3, e4, e5, e6, e7, e8, e9, if_false]
  · simp only [encryption, e2, if_false]
  · simp only [decryption, e2, if_false]
  · simp only [recoverPubkey, e0, e1, e2, if_false]
  · intro hs
    have : ¬ sigs.length = 0 := by simpa using hs
    simp only [aggregateSignatures, e7, e8, or_self, this, if_false]
  · simp only [pointMulBaseG, e0, e1, e2, e4, e7, e8, e9, or_self, if_false]; split <;> rfl
  · simp only [pointMulBaseGAdd, e0, e1, e2, e4, e7, e8, e9, or_self, if_false]; split <;> rfl
  · unfold pointCompress
    rw [if_pos ⟨t0, t1, t2, t9⟩]
  · simp only [getCurveOrder, e0, e1, e2, e4, e9, if_false]
  · intro hl
    obtain ⟨o, ho⟩ := hnorm a hl
    simp only [pointMul, e4, if_false, ho, Go.ret_bind]
    cases o with
    | none => rfl
    | some p => simp only [e0, e1, e2, e9, if_false]; split <;> rfl
  · intro hl hl2
    obtain ⟨o, ho⟩ := hnorm a hl
    obtain ⟨o2, ho2⟩ := hnorm b hl2
    simp only [pointAdd, e4, if_false, ho, Go.ret_bind]
    cases o with
    | none => rfl
    | some p =>
      simp only [ho2, Go.ret_bind]
      cases o2 with
      | none => rfl
      | some q => simp only [e0, e1, e2, e9, if_false]; rfl

/-- C45, the exception: with an unknown curve a 33-byte point crashes `Point_mul`. -/
theorem C45_unknown_33 (E : Env) (t : UInt32) (ht : t ∉ knownCurves) (a m : Bytes) (hl : a.length = 33) :
    pointMul E a m t = .panic := by
  have hdec := (C45_unknown_type E t ht a a m none [] []).2.2.2.2.2.2.2.2.2.2.1
  have h4 : t ≠ ECC_CURVE_ED25519 := by
    rintro rfl; exact ht (by decide)
  unfold pointMul normPoint
  rw [if_neg h4, if_pos hl, hdec]
  rfl

example : (0 : UInt32) ∉ knownCurves ∧ (0xECC0000A : UInt32) ∉ knownCurves := by decide

end Verif.Props
