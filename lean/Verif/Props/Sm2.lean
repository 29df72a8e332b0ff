import Verif.SM2.KeyAgreement
import Verif.SM2.Small
import Verif.Hash.SM3Lemmas
import Verif.Api.Lemmas
import Verif.Props.Secp2

/-!
# C03–C05, C17, C18, C22, C23, C25: SM2 through the API

`SM2.c` are the published domain parameters (GM/T 0003.5), `SM2.good.G` the base point, and points live in Mathlib's
group of the Weierstrass curve over `ZMod p`.  The hash is the SM3 model of `Verif/Hash/SM3.lean`.

Many theorems have a hypothesis `(…).bad = false`.  `bad` is the ghost flag of `Verif/SM2/Field.lean`: it says
that in this run a field multiplication underflowed, the defect of C22 below.  Without this hypothesis the statements
are false of the code, so these theorems are marked `_partial`.
-/

namespace Verif.Props

open Verif.EC Verif.ECDSA Verif.Api WeierstrassCurve
open Verif.SM3 (sm3Sum)

/-- the curve identifier -/
abbrev SM := ECC_CURVE_SM2_STANDARD

/-- `E` dispatches SM2 to the model of sm2_std.go with the SM3 model as its hash. -/
def Sm2Env (E : Env) : Prop := E.sm2 = SM2.backend sm3Sum

/-- a concrete environment. -/
def sm2Env : Env := { sampleEnv with sm2 := SM2.backend sm3Sum }

theorem sm2Env_ok : Sm2Env sm2Env := rfl

theorem len32 : SM2.Len32 sm3Sum := SM3.sm3Sum_length

/-! ## C03 -/

/-- C03 for SM2: the constants of the code are the published ones, the field and the order are prime, the curve is
smooth, the base point is on it and has exactly the declared order (also what `GetCurveOrder` returns). -/
theorem C03_sm2_order :
    SM2.P = SM2.c.p ∧ SM2.N = SM2.c.n ∧ SM2.B = SM2.c.b ∧ SM2.A = SM2.c.a ∧ SM2.Gx = SM2.c.gx ∧ SM2.Gy = SM2.c.gy ∧
    SM2.c.p.Prime ∧ SM2.c.n.Prime ∧
    (4 * (SM2.c.a : ZMod SM2.c.p) ^ 3 + 27 * (SM2.c.b : ZMod SM2.c.p) ^ 2 ≠ 0) ∧
    ((SM2.c.gy : ZMod SM2.c.p) ^ 2 = (SM2.c.gx : ZMod SM2.c.p) ^ 3 + SM2.c.a * SM2.c.gx + SM2.c.b) ∧
    addOrderOf SM2.good.G = SM2.c.n ∧ (∀ m : ℕ, m • SM2.good.G = 0 ↔ SM2.c.n ∣ m) ∧
    beNat (getCurveOrder SM) = SM2.c.n ∧ (getCurveOrder SM).length = 32 := by
  exact ⟨by decide +kernel, by decide +kernel, by decide +kernel, by decide +kernel, by decide +kernel, by decide +kernel,
    prime_sm2P, prime_sm2N, SM2.good.disc, SM2.good.g, SM2.order_eq SM2.G_ne, SM2.smul_eq_zero_iff SM2.G_ne,
    by decide +kernel, by decide +kernel⟩

/-- C03, stronger: on all three curves the whole group has exactly the declared number of points, so every point other
than infinity is a generator. -/
theorem C03_group_orders :
    Nat.card Secp256k1.c.Pt = Secp256k1.c.n ∧ Nat.card Secp256r1.c.Pt = Secp256r1.c.n ∧ Nat.card SM2.c.Pt = SM2.c.n ∧
    (∀ Q : Secp256k1.c.Pt, ∃ k < Secp256k1.c.n, Q = k • Secp256k1.good.G) ∧
    (∀ Q : Secp256r1.c.Pt, ∃ k < Secp256r1.c.n, Q = k • Secp256r1.good.G) ∧
    (∀ Q : SM2.c.Pt, ∃ k < SM2.c.n, Q = k • SM2.good.G) := by
  have hk : Order.noRoot Secp256k1.c ⟨0, 0, 0x676072c51d36ab00c84deb078e4ba0feef17a1f9626d375046274e4ab01347c8⟩ := by
    decide +kernel
  have hr : Order.noRoot Secp256r1.c ⟨0xa969487079f1744798bf0de6fded091b66e9d328eb0645fe5d979d1339b7f47f,
    0xa4a08891884100c13323460107a8d28eede4387fa3e6e9bfebec9f6d72d0b5cc,
    0x4cde11cf86cb876cd59cf0115813c55af0ecd3cda667d98bb9a347a56aa74a6d⟩ := by decide +kernel
  exact ⟨Order.card_eq Secp256k1.good Secp256k1.N_smul_G (by decide +kernel) hk,
    Order.card_eq Secp256r1.good Secp256r1.ord (by decide +kernel) hr, SM2.card_eq,
    Order.exists_smul Secp256k1.good Secp256k1.N_smul_G (by decide +kernel) hk,
    Order.exists_smul Secp256r1.good Secp256r1.ord (by decide +kernel) hr, SM2.exists_smul⟩

/-! ## C04 -/

theorem genPubkey_sm2 {E : Env} (hE : Sm2Env E) (key : Bytes) :
    genPubkey E key SM = .ret (genPubErr (genPublicKey SM2.curve key)) := by
  unfold genPubkey
  rw [if_neg (by decide), if_neg (by decide), if_neg (by decide), if_neg (by decide), if_neg (by decide),
    if_neg (by decide), if_pos rfl, hE]
  rfl

theorem genPublicKey_run (key : Bytes) : (SM2.genPublicKeyR key).val = .ret (genPublicKey SM2.curve key) := by
  unfold SM2.genPublicKeyR genPublicKey
  dsimp only
  have hN : SM2.curve.N = SM2.N := rfl
  rw [hN]
  split
  · rfl
  split
  · rfl
  split
  · rfl
  rfl

/-- C04 for SM2 (unconditional): accepted keys are exactly the 32-byte strings with value in `[1, N-1]`. -/
theorem C04_genPubkey_sm2 (E : Env) (hE : Sm2Env E) (key : Bytes) :
    (key.length = 32 ∧ 1 ≤ beNat key ∧ beNat key < SM2.c.n → ∃ pub, genPubkey E key SM = .ret (pub, SUCCESS)) ∧
    (¬ (key.length = 32 ∧ 1 ≤ beNat key ∧ beNat key < SM2.c.n) →
      genPubkey E key SM = .ret ([], ECC_PRIKEY_ILLEGAL)) := by
  rw [genPubkey_sm2 hE]
  have hN := SM2.N_eq
  have hN' : SM2.curve.N = SM2.N := rfl
  unfold genPublicKey
  dsimp only
  rw [hN']
  constructor
  · rintro ⟨h1, h2, h3⟩
    rw [if_neg (by omega), if_neg (by omega), if_neg (by omega)]
    exact ⟨_, rfl⟩
  · intro h
    split
    · rfl
    split
    · rfl
    split
    · rfl
    omega

/-- C05 for SM2: the public key is the encoding of `d·G`, provided no field multiplication of the run underflows. -/
theorem C05_genPubkey_sm2_partial (E : Env) (hE : Sm2Env E) (key pub : Bytes)
    (h : genPubkey E key SM = .ret (pub, SUCCESS)) (hc : (SM2.genPublicKeyR key).bad = false) :
    Encodes pub (beNat key • SM2.good.G) ∧ pub.length = 64 := by
  have ht := SM2.genPublicKeyR_tri key hc
  rw [genPublicKey_run] at ht
  rw [genPubkey_sm2 hE, Go.ret.injEq] at h
  cases hg : genPublicKey SM2.curve key with
  | error e =>
    rw [hg] at h ht
    obtain ⟨rfl, -⟩ := ht.err e rfl
    cases h
  | ok p =>
    rw [hg] at h ht
    obtain ⟨-, -, -, -, h5⟩ := ht.ok p rfl
    have : p = pub := by cases h; rfl
    subst this
    exact ⟨h5, h5.2.1⟩

/-- the private key 2, and its public key. -/
def sm2Key : Bytes := be32 2
def sm2Pub : Bytes := be32 0x56cefd60d7c87c000d58ef57fa73ba4d9c0dfa08c08a7331495c2e1da3f2bd52 ++
  be32 0x31b7e7e6cc8189f668535ce0f8eaf1bd6de84c182f6c8e716f780d3a970a23c3

theorem sm2Key_run : (SM2.genPublicKeyR sm2Key).bad = false ∧ genPublicKey SM2.curve sm2Key = .ok sm2Pub := by
  have h := SM2.genPublicKeyR_eval (key := sm2Key) (by decide +kernel) (by decide +kernel) (by decide +kernel)
    (SM2.base_two (by decide +kernel))
  have h2 := genPublicKey_run sm2Key
  rw [h, Go.ret.injEq] at h2
  rw [h]
  exact ⟨rfl, h2.symm⟩

example : genPubkey sm2Env sm2Key SM = .ret (sm2Pub, SUCCESS) ∧ (SM2.genPublicKeyR sm2Key).bad = false :=
  ⟨by rw [genPubkey_sm2 sm2Env_ok, sm2Key_run.2]; rfl, sm2Key_run.1⟩

/-! ## C17, C18 -/

theorem sm2_decGood : DecGood SM2.c SM2.rhs where
  p4 := by decide +kernel
  p256 := by decide +kernel
  close := by decide +kernel
  lo := fun _ => by show 0 ≤ _ % SM2.P; exact (SM2.mod_range _).1
  hi := fun _ => by show _ % SM2.P < _; rw [← SM2.P_eq]; exact (SM2.mod_range _).2
  eq := fun x => by
    have ha : ((SM2.c.a : ℕ) : ZMod SM2.c.p) = ((0xFFFFFFFEFFFFFFFFFFFFFFFFFFFFFFFFFFFFFFFF00000000FFFFFFFFFFFFFFFC : Int) : ZMod SM2.c.p) := by
      rw [← Int.cast_natCast]; rfl
    have hb : ((SM2.c.b : ℕ) : ZMod SM2.c.p) = ((SM2.B : Int) : ZMod SM2.c.p) := by
      rw [← Int.cast_natCast]; rfl
    rw [ha, hb]
    show ((_ % SM2.P : Int) : ZMod SM2.c.p) = _
    rw [SM2.modP_cast]
    generalize (0xFFFFFFFEFFFFFFFFFFFFFFFFFFFFFFFFFFFFFFFF00000000FFFFFFFFFFFFFFFC : Int) = A
    push_cast
    ring

theorem dec_sm2 {E : Env} (hE : Sm2Env E) (b : Bytes) (h : b.length = 33) :
    pointDecompress E b SM = .ret (okOrNil (decompress (SM2.c.p : Int) SM2.rhs b)) := by
  unfold pointDecompress
  rw [if_neg (by omega), if_neg (by decide), if_neg (by decide), if_pos rfl, hE, ← SM2.P_eq]
  rfl

/-- C17 for SM2. -/
theorem C17_decompress_compress_sm2 (E : Env) (hE : Sm2Env E) (b : Bytes) (Q : SM2.c.Pt) (h : Encodes b Q) :
    pointDecompress E (pointCompress b SM) SM = .ret (4 :: b) ∧
    pointDecompress E (pointCompress (4 :: b) SM) SM = .ret (4 :: b) := by
  obtain ⟨h1, -, -, h4⟩ := compress_encodes h SM (.inr (.inr (.inl rfl)))
  rw [h4, dec_sm2 hE _ h1.2.1, decompress_compress sm2_decGood h SM (.inr (.inr (.inl rfl)))]
  exact ⟨rfl, rfl⟩

/-- C18 for SM2 as far as it holds; the same defect as on secp256k1 (`y = 0` or `y = p` when `x` has no point). -/
theorem C18_decompress_sm2_partial (E : Env) (hE : Sm2Env E) (b : Bytes) :
    ∃ out, pointDecompress E b SM = .ret out ∧
      (out = [] ↔ b.length ≠ 33 ∨ (b.getD 0 0 ≠ 2 ∧ b.getD 0 0 ≠ 3)) ∧
      (out ≠ [] → ∃ y : ℕ, out = 4 :: b.drop 1 ++ be32 y ∧ y ≤ SM2.c.p ∧ y % 2 = (b.getD 0 0).toNat % 2 ∧
        ((∃ z : ZMod SM2.c.p, z ^ 2 = (beNat (b.drop 1) : ZMod SM2.c.p) ^ 3 + SM2.c.a * (beNat (b.drop 1) : ZMod SM2.c.p) + SM2.c.b) →
          (y : ZMod SM2.c.p) ^ 2 =
            (beNat (b.drop 1) : ZMod SM2.c.p) ^ 3 + SM2.c.a * (beNat (b.drop 1) : ZMod SM2.c.p) + SM2.c.b)) := by
  by_cases hl : b.length = 33
  · refine ⟨_, dec_sm2 hE b hl, ?_, ?_⟩
    · rw [(decompress_nil_iff sm2_decGood b hl).1]; simp [hl]
    · intro hne
      have hb : b.getD 0 0 = 2 ∨ b.getD 0 0 = 3 := by
        rw [Ne, (decompress_nil_iff sm2_decGood b hl).1] at hne; tauto
      obtain ⟨y, hy, hp, he, hsq, -⟩ := (decompress_nil_iff sm2_decGood b hl).2 hb
      exact ⟨y, by rw [he]; rfl, hy, hp, hsq⟩
  · exact ⟨[], by unfold pointDecompress; rw [if_pos hl], by simp [hl], by simp⟩

theorem sm2G_encodes : Encodes (be32 SM2.c.gx ++ be32 SM2.c.gy) SM2.good.G := by
  have h := SM2.encodes_pub (k := 1) le_rfl (by decide +kernel)
  rw [one_nsmul] at h
  have : encode64 (EC.enc SM2.c SM2.good.G) = be32 SM2.c.gx ++ be32 SM2.c.gy := by
    have h1 : EC.enc SM2.c SM2.good.G = ((SM2.c.gx : Int), (SM2.c.gy : Int)) := by
      show ((((SM2.c.gx : ℕ) : ZMod SM2.c.p).val : Int), (((SM2.c.gy : ℕ) : ZMod SM2.c.p).val : Int)) = _
      rw [ZMod.val_natCast, ZMod.val_natCast, Nat.mod_eq_of_lt SM2.good.gxlt, Nat.mod_eq_of_lt SM2.good.gylt]
    rw [h1]; rfl
  rwa [this] at h

/-! ## C22, C25 -/

/-- C22 as far as it holds: if the run does not underflow, products and squares of field elements are Montgomery products
modulo `p` and the limbs stay within bounds.  `den` is the field element a limb vector stands for, i.e. its value
divided by `2^257`. -/
theorem C22_field_mul_partial (a b : SM2.Fe) (ha : a.Ok) (hb : b.Ok) :
    ((SM2.mul a b).bad = false → (SM2.mul a b).val.Ok ∧ SM2.den (SM2.mul a b).val = SM2.den a * SM2.den b) ∧
    ((SM2.square a).bad = false → (SM2.square a).val.Ok ∧ SM2.den (SM2.square a).val = SM2.den a ^ 2) :=
  ⟨fun h => SM2.mul_tri ⟨ha, rfl⟩ ⟨hb, rfl⟩ h, fun h => SM2.square_tri ⟨ha, rfl⟩ h⟩

/-- an operand within the documented bounds on which the code underflows. -/
def badFe : SM2.Fe := ⟨0xfffffff, 0, 1, 0, 0, 0, 0, 0, 0⟩

theorem badFe_ok : badFe.Ok := by constructor <;> decide

/-- C22 is false: the square of `badFe`, and its product with itself, are wrong modulo `p`. -/
theorem C22_false : ∃ a : SM2.Fe, a.Ok ∧ SM2.den (SM2.square a).val ≠ SM2.den a ^ 2 ∧
    SM2.den (SM2.mul a a).val ≠ SM2.den a * SM2.den a := by
  refine ⟨badFe, badFe_ok, ?_, ?_⟩
  · rw [pow_two, ← SM2.toBig_cast, ← SM2.toBig_cast, ← Int.cast_mul, Ne, ZMod.intCast_eq_intCast_iff, ← SM2.P_eq]
    decide +kernel
  · rw [← SM2.toBig_cast, ← SM2.toBig_cast, ← Int.cast_mul, Ne, ZMod.intCast_eq_intCast_iff, ← SM2.P_eq]
    decide +kernel

-- operands on which C22_field_mul_partial applies
example : ∃ a b : SM2.Fe, a.Ok ∧ b.Ok ∧ (SM2.mul a b).bad = false ∧ (SM2.square a).bad = false :=
  ⟨SM2.fromBig SM2.Gx, SM2.fromBig SM2.Gy, (SM2.fromBig_isFe _).1, (SM2.fromBig_isFe _).1, by decide +kernel, by decide +kernel⟩

/-- C25: addition, subtraction, conversions and the table of small constants. -/
theorem C25_field_linear (a b : SM2.Fe) (ha : a.Ok) (hb : b.Ok) (z : Int) (k : ℕ) (hk : k ≤ 8) :
    ((SM2.add a b).Ok ∧ SM2.den (SM2.add a b) = SM2.den a + SM2.den b) ∧
    ((SM2.sub a b).Ok ∧ SM2.den (SM2.sub a b) = SM2.den a - SM2.den b) ∧
    ((SM2.fromBig z).Ok ∧ SM2.den (SM2.fromBig z) = (z : ZMod SM2.c.p)) ∧
    (0 ≤ SM2.toBig a ∧ SM2.toBig a < SM2.c.p ∧ ((SM2.toBig a : Int) : ZMod SM2.c.p) = SM2.den a) ∧
    SM2.toBig (SM2.fromBig z) = z % SM2.c.p ∧
    ((SM2.factor k).Ok ∧ SM2.den (SM2.factor k) = (k : ZMod SM2.c.p)) := by
  refine ⟨SM2.add_isFe ⟨ha, rfl⟩ ⟨hb, rfl⟩, SM2.sub_isFe ⟨ha, rfl⟩ ⟨hb, rfl⟩, SM2.fromBig_isFe z,
    ⟨(SM2.toBig_range a).1, ?_, SM2.toBig_cast a⟩, ?_, SM2.factor_isFe hk⟩
  · rw [← SM2.P_eq]; exact (SM2.toBig_range a).2
  · rw [SM2.toBig_eq, (SM2.fromBig_isFe z).2, ZMod.val_intCast]

/-! ## C23 -/

/-- a point of the curve that `IsOnCurve` rejects. -/
def offX : ℕ := 0x983555e0357aacdc49d693d4ef2c72700e33152e701f23846b1a8845efe1640f
def offY : ℕ := 0x62000001abfffffce300000215fffffe72000000acfffffd4d000003a3fffffd

theorem off_onCurve : ((offY : ℕ) : ZMod SM2.c.p) ^ 2 =
    ((offX : ℕ) : ZMod SM2.c.p) ^ 3 + SM2.c.a * ((offX : ℕ) : ZMod SM2.c.p) + SM2.c.b := by
  have : ((offY ^ 2 : ℕ) : ZMod SM2.c.p) = ((offX ^ 3 + SM2.c.a * offX + SM2.c.b : ℕ) : ZMod SM2.c.p) := by
    rw [ZMod.natCast_eq_natCast_iff']
    decide +kernel
  push_cast at this
  exact this

theorem off_rejected : (SM2.onCurve64 (be32 offX ++ be32 offY)).val = false := by decide +kernel

theorem run_bind_val {α β : Type} (m : SM2.Gh α) (f : α → SM2.Run β) : (m.run >>= f).val = (f m.val).val := rfl

theorem kaResponder1_off {R : Bytes} (hl : R.length = 64) (hoff : (SM2.onCurve64 R).val = false)
    (IDi IDr priR pubR pubI : Bytes) (keylen : UInt16) (random : Option Bytes) (drawn : Bytes) :
    (SM2.kaResponder1 sm3Sum IDi IDr priR pubR pubI R random drawn keylen).val = .ret ⟨[], [], [], [], false⟩ := by
  obtain ⟨f, hf, he⟩ : ∃ f : Bool → SM2.Run SM2.KaResp, f false = pure ⟨[], [], [], [], false⟩ ∧
      SM2.kaResponder1 sm3Sum IDi IDr priR pubR pubI R random drawn keylen = (SM2.onCurve64 R).run >>= f :=
    ⟨_, if_pos rfl, if_neg (by rw [hl]; simp)⟩
  rw [he, run_bind_val, hoff, hf]
  rfl

theorem kaInitiator2_off {R : Bytes} (hl : R.length = 64) (hoff : (SM2.onCurve64 R).val = false)
    (IDi IDr priI pubI pubR tmpPriI tmpPubI Sin : Bytes) (keylen : UInt16) :
    (SM2.kaInitiator2 sm3Sum IDi IDr priI pubI pubR tmpPriI tmpPubI R Sin keylen).val = .ret ⟨[], [], false⟩ := by
  obtain ⟨f, hf, he⟩ : ∃ f : Bool → SM2.Run SM2.KaInit, f false = pure ⟨[], [], false⟩ ∧
      SM2.kaInitiator2 sm3Sum IDi IDr priI pubI pubR tmpPriI tmpPubI R Sin keylen = (SM2.onCurve64 R).run >>= f :=
    ⟨_, if_pos rfl, if_neg (by rw [hl]; simp)⟩
  rw [he, run_bind_val, hoff, hf]
  rfl

theorem onCurve64_iff (R : Bytes) (hc : (SM2.onCurve64 R).bad = false) :
    ((SM2.onCurve64 R).val = true ↔
      ((beNat (R.drop 32) : ℕ) : ZMod SM2.c.p) ^ 2 =
        ((beNat (R.take 32) : ℕ) : ZMod SM2.c.p) ^ 3 + SM2.c.a * ((beNat (R.take 32) : ℕ) : ZMod SM2.c.p) + SM2.c.b) := by
  unfold SM2.onCurve64 at hc ⊢
  have := SM2.isOnCurve_tri (beNat (R.take 32)) (beNat (R.drop 32)) hc
  simp only [Int.cast_natCast] at this
  exact this

/-- C23 is false: both sides of the key agreement reject this temporary public key, which encodes a point of the curve,
whatever the other arguments are. -/
theorem C23_false : ∃ (R : Bytes) (Q : SM2.c.Pt), Encodes R Q ∧
    (∀ IDi IDr priR pubR pubI keylen random drawn,
      (SM2.keyAgreementResponderStep1 sm3Sum IDi IDr priR pubR pubI R keylen random drawn SM).val =
        .ret ([], [], [], [], FAILURE)) ∧
    (∀ IDi IDr priI pubI pubR tmpPriI tmpPubI Sin keylen,
      (SM2.keyAgreementInitiatorStep2 sm3Sum IDi IDr priI pubI pubR tmpPriI tmpPubI R Sin keylen SM).val =
        .ret ([], [], FAILURE)) := by
  have hl : (be32 offX ++ be32 offY).length = 64 := by decide +kernel
  refine ⟨be32 offX ++ be32 offY, SM2.good.point off_onCurve, ?_, ?_, ?_⟩
  · refine ⟨Affine.Point.some_ne_zero _, hl, ?_, ?_⟩
    · have e : beNat ((be32 offX ++ be32 offY).take 32) = offX := by decide +kernel
      rw [e]
      show offX = ((offX : ℕ) : ZMod SM2.c.p).val
      rw [ZMod.val_natCast, Nat.mod_eq_of_lt (by decide +kernel)]
    · have e : beNat ((be32 offX ++ be32 offY).drop 32) = offY := by decide +kernel
      rw [e]
      show offY = ((offY : ℕ) : ZMod SM2.c.p).val
      rw [ZMod.val_natCast, Nat.mod_eq_of_lt (by decide +kernel)]
  · intro IDi IDr priR pubR pubI keylen random drawn
    have := kaResponder1_off hl off_rejected IDi IDr priR pubR pubI keylen random drawn
    unfold SM2.keyAgreementResponderStep1
    rw [if_neg (by simp), SM2.Run.bind_val, this]
    rfl
  · intro IDi IDr priI pubI pubR tmpPriI tmpPubI Sin keylen
    have := kaInitiator2_off hl off_rejected IDi IDr priI pubI pubR tmpPriI tmpPubI Sin keylen
    unfold SM2.keyAgreementInitiatorStep2
    rw [if_neg (by simp), SM2.Run.bind_val, this]
    rfl

/-- C23 as far as it holds: if the test of the curve equation does not underflow it is the curve equation; otherwise
nothing is claimed.  So a temporary key whose check does not underflow is rejected if it is not on the curve. -/
theorem C23_on_curve_partial (R : Bytes) (hl : R.length = 64) (hc : (SM2.onCurve64 R).bad = false) :
    ((SM2.onCurve64 R).val = true ↔
      ((beNat (R.drop 32) : ℕ) : ZMod SM2.c.p) ^ 2 =
        ((beNat (R.take 32) : ℕ) : ZMod SM2.c.p) ^ 3 + SM2.c.a * ((beNat (R.take 32) : ℕ) : ZMod SM2.c.p) + SM2.c.b) ∧
    ((SM2.onCurve64 R).val = false →
      (∀ IDi IDr priR pubR pubI keylen random drawn,
        (SM2.keyAgreementResponderStep1 sm3Sum IDi IDr priR pubR pubI R keylen random drawn SM).val =
          .ret ([], [], [], [], FAILURE)) ∧
      (∀ IDi IDr priI pubI pubR tmpPriI tmpPubI Sin keylen,
        (SM2.keyAgreementInitiatorStep2 sm3Sum IDi IDr priI pubI pubR tmpPriI tmpPubI R Sin keylen SM).val =
          .ret ([], [], FAILURE))) := by
  refine ⟨onCurve64_iff R hc, fun hoff => ⟨?_, ?_⟩⟩
  · intro IDi IDr priR pubR pubI keylen random drawn
    unfold SM2.keyAgreementResponderStep1
    rw [if_neg (by simp), SM2.Run.bind_val, kaResponder1_off hl hoff]
    rfl
  · intro IDi IDr priI pubI pubR tmpPriI tmpPubI Sin keylen
    unfold SM2.keyAgreementInitiatorStep2
    rw [if_neg (by simp), SM2.Run.bind_val, kaInitiator2_off hl hoff]
    rfl

-- a clean check with each outcome: the base point, and (1, 1)
example : (SM2.onCurve64 (be32 SM2.c.gx ++ be32 SM2.c.gy)).bad = false ∧ (SM2.onCurve64 (be32 SM2.c.gx ++ be32 SM2.c.gy)).val = true ∧
    (SM2.onCurve64 (be32 1 ++ be32 1)).bad = false ∧ (SM2.onCurve64 (be32 1 ++ be32 1)).val = false := by decide +kernel

end Verif.Props
