import Verif.Api.Lemmas
import Verif.Secp256k1.Total
import Verif.Props.Sample

/-!
# C01–C21, C46: secp256k1 and secp256r1 through the API

`Secp256k1.c` / `Secp256r1.c` are the published domain parameters, `good.G` the base point, and
points live in Mathlib's group of the Weierstrass curve over `ZMod p`.
-/

namespace Verif.Props

open Verif.EC Verif.ECDSA Verif.Api WeierstrassCurve

/-- the two curve identifiers -/
abbrev K1 := ECC_CURVE_SECP256K1
abbrev R1 := ECC_CURVE_SECP256R1

theorem dec_k1 (E : Env) (b : Bytes) (h : b.length = 33) :
    pointDecompress E b K1 = .ret (okOrNil (decompress (Secp256k1.c.p : Int) Secp256k1.rhs b)) := by
  unfold pointDecompress; rw [if_neg (by omega), if_pos rfl, ← Secp256k1.P_eq]
theorem dec_r1 (E : Env) (b : Bytes) (h : b.length = 33) :
    pointDecompress E b R1 = .ret (okOrNil (decompress (Secp256r1.c.p : Int) Secp256r1.rhs b)) := by
  unfold pointDecompress; rw [if_neg (by omega), if_neg (by decide), if_pos rfl, ← Secp256r1.P_eq]

/-! ## C01 -/

/-- C01: `Point_add` of two curve points, in any accepted form, is the group law, and fails exactly
when the sum is the point at infinity. -/
theorem C01_point_add (E : Env) (b1 b2 : Bytes) (P Q : Secp256k1.c.Pt) (h1 : PointArg b1 P) (h2 : PointArg b2 Q) :
    (P + Q = 0 → pointAdd E b1 b2 K1 = .ret ([], FAILURE)) ∧
    (P + Q ≠ 0 → ∃ out, pointAdd E b1 b2 K1 = .ret (out, SUCCESS) ∧ Encodes out (P + Q)) := by
  obtain ⟨c1, e1, d1⟩ := normPoint_spec E Secp256k1.decGood (dec_k1 E) h1
  obtain ⟨c2, e2, d2⟩ := normPoint_spec E Secp256k1.decGood (dec_k1 E) h2
  have hs := addPoints_spec Secp256k1.curveGood d1 d2
  have hdef : pointAdd E b1 b2 K1 = (do return infCode (← addPoints Secp256k1.curve c1 c2)) := by
    unfold pointAdd
    rw [if_neg (by decide), e1]
    simp only [Go.ret_bind]
    rw [e2]
    rfl
  rw [hdef]
  constructor
  · intro h
    rw [hs.2 (by rw [h]; rfl)]; rfl
  · intro h
    rw [hs.1 (Secp256k1.xval_ne_zero h)]
    exact ⟨_, rfl, encodes_encode64 Secp256k1.curveGood.p256 h⟩

/-- the hypotheses are met by the base point in all three forms. -/
theorem pointArg_G : ∃ b, PointArg b Secp256k1.good.G ∧ PointArg (4 :: b) Secp256k1.good.G := by
  have h := encodes_encode64 Secp256k1.curveGood.p256 (Q := Secp256k1.good.G) (Affine.Point.some_ne_zero _)
  exact ⟨_, .inl h, .inr (.inl ⟨by rw [List.length_cons, h.2.1], h⟩)⟩

example (E : Env) : ∃ b1 b2 : Bytes, ∃ P Q : Secp256k1.c.Pt, PointArg b1 P ∧ PointArg b2 Q := by
  obtain ⟨b, h, h'⟩ := pointArg_G
  exact ⟨_, _, _, _, h, h'⟩

/-! ## C02 -/

/-- C02: `Point_mul` computes `k·P` for the big-endian value `k` of the 32 scalar bytes, unreduced. -/
theorem C02_point_mul (E : Env) (b k : Bytes) (P : Secp256k1.c.Pt) (hb : PointArg b P) (hk : k.length = 32) :
    (beNat k • P = 0 → pointMul E b k K1 = .ret ([], FAILURE)) ∧
    (beNat k • P ≠ 0 → ∃ out, pointMul E b k K1 = .ret (out, SUCCESS) ∧ Encodes out (beNat k • P)) := by
  obtain ⟨c1, e1, d1⟩ := normPoint_spec E Secp256k1.decGood (dec_k1 E) hb
  have hs := mulPoint_spec Secp256k1.curveGood d1 k
  have hdef : pointMul E b k K1 = (do return infCode (← mulPoint Secp256k1.curve c1 k)) := by
    unfold pointMul
    rw [if_neg (by decide), e1]
    simp only [Go.ret_bind]
    rw [if_neg (by omega)]
    rfl
  rw [hdef]
  constructor
  · intro h; rw [hs.2 h]; rfl
  · intro h; rw [hs.1 h]; exact ⟨_, rfl, encodes_encode64 Secp256k1.curveGood.p256 h⟩

/-- C02, curve level: `ScalarMult` and `ScalarBaseMult` for scalars of any length. -/
theorem C02_scalarMult (x y : Int) (P : Secp256k1.c.Pt) (hP : P ≠ 0) (h : Rep Secp256k1.c x y P) (k : Bytes) :
    Secp256k1.scalarMult x y k = enc Secp256k1.c (beNat k • P) ∧
    Secp256k1.scalarBaseMult k = enc Secp256k1.c (beNat k • Secp256k1.good.G) :=
  ⟨Secp256k1.scalarMult_spec hP h k, Secp256k1.scalarBaseMult_spec k⟩

example : ∃ b k : Bytes, ∃ P : Secp256k1.c.Pt, PointArg b P ∧ k.length = 32 ∧ beNat k = 7 := by
  obtain ⟨b, h, -⟩ := pointArg_G
  exact ⟨b, key1, _, h, by decide, by decide⟩

/-! ## C03 -/

theorem order_eq {c : Params} [Fact c.p.Prime] {hg : Good c} (h : c.n • hg.G = 0) : addOrderOf hg.G = c.n :=
  ((Nat.dvd_prime hg.np).mp (addOrderOf_dvd_of_nsmul_eq_zero h)).resolve_left
    (fun h1 => (Affine.Point.some_ne_zero _ : hg.G ≠ 0) (AddMonoid.addOrderOf_eq_one_iff.mp h1))

/-- C03 for secp256k1: the constants of the code define a prime field and a smooth curve, the base point
is on it, and the declared order (also what `GetCurveOrder` returns) is prime and is the exact
order of the base point. -/
theorem C03_secp256k1_order :
    Secp256k1.P = Secp256k1.c.p ∧ Secp256k1.N = Secp256k1.c.n ∧ Secp256k1.B = Secp256k1.c.b ∧ Secp256k1.c.a = 0 ∧
    Secp256k1.Gx = Secp256k1.c.gx ∧ Secp256k1.Gy = Secp256k1.c.gy ∧
    Secp256k1.c.p.Prime ∧ Secp256k1.c.n.Prime ∧
    (4 * (Secp256k1.c.a : ZMod Secp256k1.c.p) ^ 3 + 27 * (Secp256k1.c.b : ZMod Secp256k1.c.p) ^ 2 ≠ 0) ∧
    ((Secp256k1.c.gy : ZMod Secp256k1.c.p) ^ 2 = (Secp256k1.c.gx : ZMod Secp256k1.c.p) ^ 3 + Secp256k1.c.a * Secp256k1.c.gx + Secp256k1.c.b) ∧
    addOrderOf Secp256k1.good.G = Secp256k1.c.n ∧
    (∀ m : ℕ, m • Secp256k1.good.G = 0 ↔ Secp256k1.c.n ∣ m) ∧
    beNat (getCurveOrder K1) = Secp256k1.c.n ∧ (getCurveOrder K1).length = 32 := by
  refine ⟨by decide +kernel, by decide +kernel, by decide +kernel, by decide +kernel, by decide +kernel,
    by decide +kernel, prime_secp256k1P, prime_secp256k1N, Secp256k1.good.disc, Secp256k1.good.g,
    order_eq Secp256k1.N_smul_G, fun m => ?_, by decide +kernel, by decide +kernel⟩
  rw [smul_eq_zero_iff Secp256k1.N_smul_G, ZMod.natCast_eq_zero_iff]

/-- C03 for secp256r1. -/
theorem C03_secp256r1_order :
    Secp256r1.P = Secp256r1.c.p ∧ Secp256r1.N = Secp256r1.c.n ∧ Secp256r1.B = Secp256r1.c.b ∧ Secp256r1.c.a = Secp256r1.c.p - 3 ∧
    Secp256r1.c.p.Prime ∧ Secp256r1.c.n.Prime ∧
    (4 * (Secp256r1.c.a : ZMod Secp256r1.c.p) ^ 3 + 27 * (Secp256r1.c.b : ZMod Secp256r1.c.p) ^ 2 ≠ 0) ∧
    ((Secp256r1.c.gy : ZMod Secp256r1.c.p) ^ 2 = (Secp256r1.c.gx : ZMod Secp256r1.c.p) ^ 3 + Secp256r1.c.a * Secp256r1.c.gx + Secp256r1.c.b) ∧
    addOrderOf Secp256r1.good.G = Secp256r1.c.n ∧
    (∀ m : ℕ, m • Secp256r1.good.G = 0 ↔ Secp256r1.c.n ∣ m) ∧
    beNat (getCurveOrder R1) = Secp256r1.c.n ∧ (getCurveOrder R1).length = 32 := by
  refine ⟨by decide +kernel, by decide +kernel, by decide +kernel, by decide +kernel,
    prime_secp256r1P, prime_secp256r1N, Secp256r1.good.disc, Secp256r1.good.g,
    order_eq Secp256r1.ord, fun m => ?_, by decide +kernel, by decide +kernel⟩
  rw [smul_eq_zero_iff Secp256r1.ord, ZMod.natCast_eq_zero_iff]

/-! ## C04, C05, C06 -/

/-- C04 for secp256k1: accepted keys are exactly the 32-byte strings with value in `[1, N-1]`. -/
theorem C04_genPubkey_k1 (E : Env) (key : Bytes) :
    (key.length = 32 ∧ 1 ≤ beNat key ∧ beNat key < Secp256k1.c.n →
      ∃ pub, genPubkey E key K1 = .ret (pub, SUCCESS) ∧ pub.length = 64) ∧
    (¬ (key.length = 32 ∧ 1 ≤ beNat key ∧ beNat key < Secp256k1.c.n) →
      genPubkey E key K1 = .ret ([], ECC_PRIKEY_ILLEGAL)) := by
  rw [genPubkey_k1]
  constructor
  · rintro ⟨hl, h0, hn⟩
    rw [genPublicKey_ok Secp256k1.curveGood hl h0 hn]
    exact ⟨_, rfl, encode64_length Secp256k1.curveGood.p256 _⟩
  · intro h
    rw [genPublicKey_err Secp256k1.curveGood h]; rfl

/-- C04 for secp256r1, for any backend that computes the group. -/
theorem C04_genPubkey_r1 (E : Env) {In} (hE : CurveOk Secp256r1.c Secp256r1.good E.ell In) (key : Bytes) :
    (key.length = 32 ∧ 1 ≤ beNat key ∧ beNat key < Secp256r1.c.n →
      ∃ pub, genPubkey E key R1 = .ret (pub, SUCCESS) ∧ pub.length = 64) ∧
    (¬ (key.length = 32 ∧ 1 ≤ beNat key ∧ beNat key < Secp256r1.c.n) →
      genPubkey E key R1 = .ret ([], ECC_PRIKEY_ILLEGAL)) := by
  have hC := Secp256r1.curveGood hE
  rw [genPubkey_r1]
  constructor
  · rintro ⟨hl, h0, hn⟩
    rw [genPublicKey_ok hC hl h0 hn]
    exact ⟨_, rfl, encode64_length hC.p256 _⟩
  · intro h
    rw [genPublicKey_err hC h]; rfl

example : key1.length = 32 ∧ 1 ≤ beNat key1 ∧ beNat key1 < Secp256k1.c.n ∧ beNat key1 < Secp256r1.c.n := by decide +kernel

/-- C05: the returned key is the 64-byte encoding of `d·G` (a point of the curve other than infinity),
the coordinates being 32-byte big-endian, zero padded. -/
theorem C05_genPubkey_encoding (E : Env) (key pub : Bytes)
    (h : genPubkey E key K1 = .ret (pub, SUCCESS)) :
    pub.length = 64 ∧ Encodes pub (beNat key • Secp256k1.good.G) ∧
    pub = be32 (xval (beNat key • Secp256k1.good.G)) ++ be32 (yval (beNat key • Secp256k1.good.G)) ∧
    Secp256k1.isOnCurve (beNat (pub.take 32)) (beNat (pub.drop 32)) = true := by
  by_cases hk : key.length = 32 ∧ 1 ≤ beNat key ∧ beNat key < Secp256k1.c.n
  · rw [genPubkey_k1, genPublicKey_ok Secp256k1.curveGood hk.1 hk.2.1 hk.2.2] at h
    have hp : pub = encode64 (enc Secp256k1.c (beNat key • Secp256k1.good.G)) := by
      injection h with h; injection h with h; exact h.symm
    have hne := smul_G_ne_zero Secp256k1.curveGood hk.2.1 hk.2.2
    have he := encodes_encode64 Secp256k1.curveGood.p256 hne
    rw [← hp] at he
    refine ⟨he.2.1, he, by rw [hp, encode64_enc], ?_⟩
    rw [Secp256k1.isOnCurve_iff]
    have hr := rep_of_encodes he
    generalize beNat key • Secp256k1.good.G = Q at *
    cases Q with
    | zero => exact absurd rfl hne
    | some x y hn =>
      rw [hr.1, hr.2]; exact (W_equation x y).mp hn.1
  · rw [(C04_genPubkey_k1 E key).2 hk] at h
    injection h with h; injection h with _ h; exact absurd h (by decide)

example : ∃ pub, genPubkey sampleEnv key1 K1 = .ret (pub, SUCCESS) ∧ pub.length = 64 :=
  (C04_genPubkey_k1 sampleEnv key1).1 (by decide +kernel)

/-- C06: key derivation is injective. -/
theorem C06_genPubkey_injective (E : Env) (a b pub : Bytes) (ha : genPubkey E a K1 = .ret (pub, SUCCESS))
    (hb : genPubkey E b K1 = .ret (pub, SUCCESS)) : a = b := by
  have hva : a.length = 32 ∧ 1 ≤ beNat a ∧ beNat a < Secp256k1.c.n := by
    by_contra hk
    rw [(C04_genPubkey_k1 E a).2 hk] at ha
    injection ha with h; injection h with _ h; exact absurd h (by decide)
  have hvb : b.length = 32 ∧ 1 ≤ beNat b ∧ beNat b < Secp256k1.c.n := by
    by_contra hk
    rw [(C04_genPubkey_k1 E b).2 hk] at hb
    injection hb with h; injection h with _ h; exact absurd h (by decide)
  have e := ((C05_genPubkey_encoding E a pub ha).2.1).inj (C05_genPubkey_encoding E b pub hb).2.1 Secp256k1.good
  rw [smul_inj Secp256k1.N_smul_G, ZMod.natCast_eq_natCast_iff'] at e
  rw [Nat.mod_eq_of_lt hva.2.2, Nat.mod_eq_of_lt hvb.2.2] at e
  exact beNat_inj_of_length (by omega) e

/-! ## C07, C08 -/

theorem signErr_success {r : Except Err (Bytes × UInt8)} {sig : Bytes} {v : UInt8}
    (h : signErr r = (sig, v, SUCCESS)) : r = .ok (sig, v) := by
  cases r with
  | ok p => obtain ⟨a, b⟩ := p; simp [signErr] at h; rw [h.1, h.2]
  | error e => cases e <;> simp [signErr, SUCCESS, ECC_PRIKEY_ILLEGAL, ECC_WRONG_TYPE, MESSAGE_ILLEGAL, FAILURE] at h

theorem signature_k1_ok {E : Env} {key hash sig : Bytes} {ID : Option Bytes} {rnd : List Bytes} {v : UInt8}
    (h : signature E key ID hash K1 rnd = some (.ret (sig, v, SUCCESS))) :
    sign Secp256k1.curve key hash rnd = some (.ok (sig, v)) := by
  rw [signature_k1] at h
  cases hs : sign Secp256k1.curve key hash rnd with
  | none => rw [hs] at h; cases h
  | some r =>
    rw [hs] at h
    simp only [Option.map_some, Option.some.injEq, Go.ret.injEq] at h
    rw [signErr_success h]

theorem signature_r1_ok {E : Env} {key hash sig : Bytes} {ID : Option Bytes} {rnd : List Bytes} {v : UInt8}
    (h : signature E key ID hash R1 rnd = some (.ret (sig, v, SUCCESS))) :
    sign (Secp256r1.curve E.ell) key hash rnd = some (.ok (sig, v)) := by
  rw [signature_r1] at h
  cases hs : sign (Secp256r1.curve E.ell) key hash rnd with
  | none => rw [hs] at h; cases h
  | some r =>
    rw [hs] at h
    simp only [Option.map_some, Option.some.injEq, Go.ret.injEq] at h
    rw [signErr_success h]

theorem genPubErr_success {r : Except Err Bytes} {pub : Bytes} (h : genPubErr r = (pub, SUCCESS)) : r = .ok pub := by
  cases r with
  | ok p => simp [genPubErr] at h; rw [h]
  | error e => cases e <;> simp [genPubErr, SUCCESS, ECC_PRIKEY_ILLEGAL, ECC_WRONG_TYPE, FAILURE] at h

/-- C07: whatever the randomness and the number of retries, a signature returned with SUCCESS verifies under
the public key of the signer. -/
theorem C07_sign_verify_k1 (E : Env) (key hash sig : Bytes) (ID ID' : Option Bytes) (rnd : List Bytes) (v : UInt8)
    (h : signature E key ID hash K1 rnd = some (.ret (sig, v, SUCCESS))) :
    ∃ pub, genPubkey E key K1 = .ret (pub, SUCCESS) ∧ verify E pub ID' hash sig K1 = .ret SUCCESS := by
  have hs := signature_k1_ok h
  obtain ⟨hkl, -, hk0, hkn, -⟩ := sign_spec Secp256k1.curveGood hs
  have hg := genPublicKey_ok Secp256k1.curveGood hkl hk0 hkn
  refine ⟨_, by rw [genPubkey_k1, hg]; rfl, ?_⟩
  rw [verify_k1, sign_verify Secp256k1.curveGood hs hg]; rfl

set_option maxRecDepth 100000 in
/-- a signature that leaves the loop at the second draw. -/
theorem sample_signature_k1 : ∃ sig v, signature sampleEnv key1 none hash1 K1 [draw0, draw1] = some (.ret (sig, v, SUCCESS)) := by
  have h : (match signature sampleEnv key1 none hash1 K1 [draw0, draw1] with
    | some (.ret (_, _, c)) => decide (c = SUCCESS)
    | _ => false) = true := by decide +kernel
  split at h
  · rename_i sig v code heq
    exact ⟨sig, v, by rw [heq, of_decide_eq_true h]⟩
  · cases h

/-- C08: the same for secp256r1, for any elliptic-curve backend that computes the group. -/
theorem C08_sign_verify_r1 (E : Env) {In} (hE : CurveOk Secp256r1.c Secp256r1.good E.ell In)
    (key hash sig : Bytes) (ID ID' : Option Bytes) (rnd : List Bytes) (v : UInt8)
    (h : signature E key ID hash R1 rnd = some (.ret (sig, v, SUCCESS))) :
    ∃ pub, genPubkey E key R1 = .ret (pub, SUCCESS) ∧ verify E pub ID' hash sig R1 = .ret SUCCESS := by
  have hC := Secp256r1.curveGood hE
  have hs := signature_r1_ok h
  obtain ⟨hkl, -, hk0, hkn, -⟩ := sign_spec hC hs
  have hg := genPublicKey_ok hC hkl hk0 hkn
  refine ⟨_, by rw [genPubkey_r1, hg]; rfl, ?_⟩
  rw [verify_r1, sign_verify hC hs hg]; rfl

theorem sample_signature_r1 : ∃ sig v, signature sampleEnv key1 none hash1 R1 [draw0, draw1] = some (.ret (sig, v, SUCCESS)) := by
  have h : (match signature sampleEnv key1 none hash1 R1 [draw0, draw1] with
    | some (.ret (_, _, c)) => decide (c = SUCCESS)
    | _ => false) = true := by decide +kernel
  split at h
  · rename_i sig v code heq
    exact ⟨sig, v, by rw [heq, of_decide_eq_true h]⟩
  · cases h

/-! ## C09, C10 -/

/-- the shape C09 demands of a signature. -/
def CanonicalSig (n : ℕ) (sig : Bytes) (v : UInt8) : Prop :=
  sig.length = 64 ∧
  1 ≤ beNat (sig.take 32) ∧ beNat (sig.take 32) < n ∧ DerMinimal (beNat (sig.take 32)) ∧
  1 ≤ beNat (sig.drop 32) ∧ 2 * beNat (sig.drop 32) ≤ n ∧ DerMinimal (beNat (sig.drop 32)) ∧
  (v = 0 ∨ v = 1)

theorem canonicalSig_of {c : Params} [Fact c.p.Prime] {hg : Good c} {D e r s : ℕ} {v : UInt8} (h256 : c.n < 2 ^ 256)
    (hb : SignedBy hg D e r s v) : CanonicalSig c.n (be32 r ++ be32 s) v := by
  have hr := hb.rlt
  have hsl : s < c.n := by have := hb.shalf; have := hb.spos; omega
  obtain ⟨k, -, -, -, -, hv⟩ := hb.ex
  refine ⟨by simp [be32_length (show r < 256 ^ 32 by norm_num; omega), be32_length (show s < 256 ^ 32 by norm_num; omega)], ?_⟩
  rw [be32_take (by omega), be32_drop (by omega), beNat_be32, beNat_be32]
  refine ⟨hb.rpos, hr, hb.rder, hb.spos, by have := hb.shalf; omega, hb.sder, ?_⟩
  rcases Nat.mod_two_eq_zero_or_one (yval (k • hg.G)) with h0 | h1
  · left; exact UInt8.toNat_inj.mp (by rw [hv, h0]; rfl)
  · right; exact UInt8.toNat_inj.mp (by rw [hv, h1]; rfl)

/-- C09 for secp256k1. -/
theorem C09_canonical_k1 (E : Env) (key hash sig : Bytes) (ID : Option Bytes) (rnd : List Bytes) (v : UInt8)
    (h : signature E key ID hash K1 rnd = some (.ret (sig, v, SUCCESS))) : CanonicalSig Secp256k1.c.n sig v := by
  obtain ⟨-, -, -, -, r, s, rfl, hb⟩ := sign_spec Secp256k1.curveGood (signature_k1_ok h)
  exact canonicalSig_of Secp256k1.curveGood.n256 hb

/-- C09 for secp256r1. -/
theorem C09_canonical_r1 (E : Env) {In} (hE : CurveOk Secp256r1.c Secp256r1.good E.ell In)
    (key hash sig : Bytes) (ID : Option Bytes) (rnd : List Bytes) (v : UInt8)
    (h : signature E key ID hash R1 rnd = some (.ret (sig, v, SUCCESS))) : CanonicalSig Secp256r1.c.n sig v := by
  obtain ⟨-, -, -, -, r, s, rfl, hb⟩ := sign_spec (Secp256r1.curveGood hE) (signature_r1_ok h)
  exact canonicalSig_of (Secp256r1.curveGood hE).n256 hb

-- the hypotheses of C07, C09: `sample_signature_k1`; of C08, C09: `sample_signature_r1`, `sampleEnv_ok`

/-- in terms of bytes, `DerMinimal` is the DER rule: sign bit clear, no redundant leading zero byte. -/
theorem DerMinimal_bytes (b : Bytes) (hl : b.length = 32) :
    DerMinimal (beNat b) ↔ (b.getD 0 0).toNat < 128 ∧ ¬ (b.getD 0 0 = 0 ∧ (b.getD 1 0).toNat < 128) := by
  match b, hl with
  | b0 :: b1 :: t, hl =>
    have ht : t.length = 30 := by simpa using hl
    have hlt := beNat_lt t
    have h0 := b0.toNat_lt
    have h1 := b1.toNat_lt
    have hz : b0 = 0 ↔ b0.toNat = 0 := ⟨fun h => by rw [h]; rfl, fun h => UInt8.toNat_inj.mp h⟩
    rw [beNat_cons, beNat_cons]
    unfold DerMinimal
    simp only [List.length_cons, ht, List.getD_cons_zero, List.getD_cons_succ, hz] at hlt ⊢
    norm_num at hlt ⊢
    omega

/-- C10: the error codes of `Signature`, for the two curves: the key length is checked first, then the
message length, then the key range; otherwise no error is returned whatever the randomness. -/
theorem C10_signature_errors_k1 (E : Env) (key msg : Bytes) (ID : Option Bytes) (rnd : List Bytes) :
    (key.length ≠ 32 → signature E key ID msg K1 rnd = some (.ret ([], 0, ECC_PRIKEY_ILLEGAL))) ∧
    (key.length = 32 → msg.length ≠ 32 → signature E key ID msg K1 rnd = some (.ret ([], 0, MESSAGE_ILLEGAL))) ∧
    (key.length = 32 → msg.length = 32 → ¬ (1 ≤ beNat key ∧ beNat key < Secp256k1.c.n) →
      signature E key ID msg K1 rnd = some (.ret ([], 0, ECC_PRIKEY_ILLEGAL))) ∧
    (key.length = 32 → msg.length = 32 → 1 ≤ beNat key → beNat key < Secp256k1.c.n →
      signature E key ID msg K1 rnd = none ∨
      ∃ sig v, signature E key ID msg K1 rnd = some (.ret (sig, v, SUCCESS))) := by
  rw [signature_k1]
  refine ⟨fun h => by rw [sign_key_len h]; rfl, fun h h' => by rw [sign_msg_len h h']; rfl,
    fun h h' h2 => by rw [sign_key_range Secp256k1.curveGood h h' h2]; rfl, fun h1 h2 h3 h4 => ?_⟩
  match hs : sign Secp256k1.curve key msg rnd with
  | none => left; rfl
  | some (.ok (a, b)) => right; exact ⟨a, b, rfl⟩
  | some (.error e) => rcases sign_err Secp256k1.curveGood hs with ⟨_, h⟩ | ⟨_, h⟩ <;> omega

theorem C10_signature_errors_r1 (E : Env) {In} (hE : CurveOk Secp256r1.c Secp256r1.good E.ell In)
    (key msg : Bytes) (ID : Option Bytes) (rnd : List Bytes) :
    (key.length ≠ 32 → signature E key ID msg R1 rnd = some (.ret ([], 0, ECC_PRIKEY_ILLEGAL))) ∧
    (key.length = 32 → msg.length ≠ 32 → signature E key ID msg R1 rnd = some (.ret ([], 0, MESSAGE_ILLEGAL))) ∧
    (key.length = 32 → msg.length = 32 → ¬ (1 ≤ beNat key ∧ beNat key < Secp256r1.c.n) →
      signature E key ID msg R1 rnd = some (.ret ([], 0, ECC_PRIKEY_ILLEGAL))) ∧
    (key.length = 32 → msg.length = 32 → 1 ≤ beNat key → beNat key < Secp256r1.c.n →
      signature E key ID msg R1 rnd = none ∨
      ∃ sig v, signature E key ID msg R1 rnd = some (.ret (sig, v, SUCCESS))) := by
  have hC := Secp256r1.curveGood hE
  rw [signature_r1]
  refine ⟨fun h => by rw [sign_key_len h]; rfl, fun h h' => by rw [sign_msg_len h h']; rfl,
    fun h h' h2 => by rw [sign_key_range hC h h' h2]; rfl, fun h1 h2 h3 h4 => ?_⟩
  match hs : sign (Secp256r1.curve E.ell) key msg rnd with
  | none => left; rfl
  | some (.ok (a, b)) => right; exact ⟨a, b, rfl⟩
  | some (.error e) => rcases sign_err hC hs with ⟨_, h⟩ | ⟨_, h⟩ <;> omega

-- each of the four cases occurs
example : (∃ k : Bytes, k.length ≠ 32) ∧ (key1.length = 32 ∧ ([] : Bytes).length ≠ 32) ∧
    (∃ k : Bytes, k.length = 32 ∧ hash1.length = 32 ∧ ¬ (1 ≤ beNat k ∧ beNat k < Secp256k1.c.n)) ∧
    (1 ≤ beNat key1 ∧ beNat key1 < Secp256k1.c.n) :=
  ⟨⟨[], by decide⟩, by decide, ⟨List.replicate 32 0xff, by decide +kernel⟩, by decide +kernel⟩

/-! ## C11, C12, C13 -/

/-- C11: `Verify` decides the textbook equation. -/
theorem C11_verify_iff_textbook (E : Env) (pub hash sig : Bytes) (ID : Option Bytes) (Q : Secp256k1.c.Pt) (hQ : Encodes pub Q) :
    ∃ code, verify E pub ID hash sig K1 = .ret code ∧ (code = SUCCESS ∨ code = FAILURE) ∧
    (code = SUCCESS ↔ hash.length = 32 ∧ sig.length = 64 ∧
      Valid Secp256k1.good Q (beNat hash) (beNat (sig.take 32)) (beNat (sig.drop 32))) := by
  obtain ⟨b, hb, hb'⟩ := verify_iff Secp256k1.curveGood (hash := hash) (sig := sig) hQ
  refine ⟨passCode b, by rw [verify_k1, hb]; rfl, passCode_cases b, ?_⟩
  rw [passCode_iff, hb']

/-- C11 for secp256r1 with any backend that computes the group. -/
theorem C11_verify_iff_textbook_r1 (E : Env) {In} (hE : CurveOk Secp256r1.c Secp256r1.good E.ell In)
    (pub hash sig : Bytes) (ID : Option Bytes) (Q : Secp256r1.c.Pt) (hQ : Encodes pub Q) :
    ∃ code, verify E pub ID hash sig R1 = .ret code ∧ (code = SUCCESS ∨ code = FAILURE) ∧
    (code = SUCCESS ↔ hash.length = 32 ∧ sig.length = 64 ∧
      Valid Secp256r1.good Q (beNat hash) (beNat (sig.take 32)) (beNat (sig.drop 32))) := by
  obtain ⟨b, hb, hb'⟩ := verify_iff (Secp256r1.curveGood hE) (hash := hash) (sig := sig) hQ
  refine ⟨passCode b, by rw [verify_r1, hb]; rfl, passCode_cases b, ?_⟩
  rw [passCode_iff, hb']

example : ∃ pub, ∃ Q : Secp256k1.c.Pt, Encodes pub Q ∧ ∃ pub', ∃ Q' : Secp256r1.c.Pt, Encodes pub' Q' :=
  ⟨_, _, encodes_encode64 Secp256k1.curveGood.p256 (Q := Secp256k1.good.G) (Affine.Point.some_ne_zero _),
   _, _, encodes_encode64 Secp256r1.decGood.p256 (Q := Secp256r1.good.G) (Affine.Point.some_ne_zero _)⟩

/-- C12: on any byte strings whatsoever `Verify` returns, and SUCCESS implies the length and range checks. -/
theorem C12_verify_rejects_k1 (E : Env) (pub hash sig : Bytes) (ID : Option Bytes) :
    ∃ code, verify E pub ID hash sig K1 = .ret code ∧ (code = SUCCESS ∨ code = FAILURE) ∧
    (code = SUCCESS → pub.length = 64 ∧ sig.length = 64 ∧ hash.length = 32 ∧
      0 < beNat (sig.take 32) ∧ beNat (sig.take 32) < Secp256k1.c.n ∧
      0 < beNat (sig.drop 32) ∧ beNat (sig.drop 32) < Secp256k1.c.n) := by
  obtain ⟨b, hb, hb'⟩ := verify_ret Secp256k1.curveGood pub hash sig
  refine ⟨passCode b, by rw [verify_k1, hb]; rfl, passCode_cases b, ?_⟩
  rw [passCode_iff]; exact hb'

/-- C12 for secp256r1: the statement assumes that the backend returns for off-curve points. -/
theorem C12_verify_rejects_r1 (E : Env) {In} (hE : CurveOk Secp256r1.c Secp256r1.good E.ell In)
    (pub hash sig : Bytes) (ID : Option Bytes) :
    ∃ code, verify E pub ID hash sig R1 = .ret code ∧ (code = SUCCESS ∨ code = FAILURE) ∧
    (code = SUCCESS → pub.length = 64 ∧ sig.length = 64 ∧ hash.length = 32 ∧
      0 < beNat (sig.take 32) ∧ beNat (sig.take 32) < Secp256r1.c.n ∧
      0 < beNat (sig.drop 32) ∧ beNat (sig.drop 32) < Secp256r1.c.n) := by
  obtain ⟨b, hb, hb'⟩ := verify_ret (Secp256r1.curveGood hE) pub hash sig
  refine ⟨passCode b, by rw [verify_r1, hb]; rfl, passCode_cases b, ?_⟩
  rw [passCode_iff]; exact hb'

/-- C12, the nil dereference inside the curve code: on arbitrary coordinates the modular inverse taken by
`affineFromJacobian` after `Add`, `Double` and `ScalarMult` exists, so these calls do not crash. -/
theorem C12_no_nil_inverse (x1 y1 x2 y2 : Int) (k : Bytes) :
    (∀ t, (t = Secp256k1.addJacobian x1 y1 (Secp256k1.zForAffine x1 y1) x2 y2 (Secp256k1.zForAffine x2 y2) ∨
        t = Secp256k1.doubleJacobian x1 y1 (Secp256k1.zForAffine x1 y1) ∨
        t = k.foldl (fun acc byte => Secp256k1.bitLoop x1 y1 8 byte acc) (0, 0, 0)) →
      t.2.2 ≠ 0 → ∃ w, modInverse t.2.2 Secp256k1.P = some w) := by
  intro t ht hz
  have hr : Secp256k1.ZOk t := by
    rcases ht with rfl | rfl | rfl
    · exact Secp256k1.zok_add (Secp256k1.zok_zForAffine _ _) (Secp256k1.zok_zForAffine _ _)
    · exact Secp256k1.zok_double _ _ _
    · exact Secp256k1.zok_foldl _ _ _ _ ⟨le_refl _, Secp256k1.P_pos⟩
  obtain ⟨w, hw, -⟩ := Secp256k1.affineFromJacobian_no_panic hr.1 hr.2 hz
  exact ⟨w, hw⟩

-- the code does reach a nonzero z, even for a point off the curve
example : (Secp256k1.addJacobian 1 1 (Secp256k1.zForAffine 1 1) 2 3 (Secp256k1.zForAffine 2 3)).2.2 ≠ 0 := by
  decide +kernel

theorem valid_of_n_sub {c : Params} [Fact c.p.Prime] {hg : Good c} {Q : c.Pt} (hQn : c.n • Q = 0)
    (hGn : c.n • hg.G = 0) {e r s : ℕ} (h : Valid hg Q e r s) : verPoint hg Q e r (c.n - s) = - verPoint hg Q e r s := by
  have hf : Fact c.n.Prime := ⟨hg.np⟩
  obtain ⟨-, -, hs0, hsn, -, -⟩ := h
  have hcast : ((c.n - s : ℕ) : ZMod c.n) = -(s : ZMod c.n) := by
    rw [Nat.cast_sub hsn.le]; simp
  unfold verPoint
  rw [hcast, inv_neg, mul_neg, mul_neg]
  have key : ∀ (R : c.Pt) (hR : c.n • R = 0) (z : ZMod c.n), (-z).val • R = -(z.val • R) := by
    intro R hR z
    rw [eq_neg_iff_add_eq_zero, ← add_nsmul]
    have : c.n ∣ (-z).val + z.val := by
      rw [← ZMod.natCast_eq_zero_iff]; push_cast
      rw [ZMod.natCast_zmod_val, ZMod.natCast_zmod_val]; ring
    obtain ⟨q, hq⟩ := this
    rw [hq, mul_nsmul, hR, nsmul_zero]
  rw [key _ hGn, key _ hQn, neg_add]

theorem smul_verPoint {c : Params} [Fact c.p.Prime] {hg : Good c} {Q : c.Pt} (hQn : c.n • Q = 0)
    (hGn : c.n • hg.G = 0) {e r s : ℕ} (hs : 0 < s) (hsn : s < c.n) :
    s • verPoint hg Q e r s = e • hg.G + r • Q := by
  have hf : Fact c.n.Prime := ⟨hg.np⟩
  have hs0 : (s : ZMod c.n) ≠ 0 := by
    rw [Ne, ZMod.natCast_eq_zero_iff]; intro hd; have := Nat.le_of_dvd hs hd; omega
  have key : ∀ (R : c.Pt) (hR : c.n • R = 0) (m : ℕ), s • (((m : ZMod c.n) * (s : ZMod c.n)⁻¹).val • R) = m • R := by
    intro R hR m
    rw [← mul_nsmul']
    have hc : ((s * ((m : ZMod c.n) * (s : ZMod c.n)⁻¹).val : ℕ) : ZMod c.n) = (m : ZMod c.n) := by
      push_cast; rw [ZMod.natCast_zmod_val]; field_simp
    rw [ZMod.natCast_eq_natCast_iff'] at hc
    rw [← Nat.div_add_mod (s * _) c.n, hc, add_nsmul, mul_nsmul, hR, nsmul_zero, zero_add]
    conv_rhs => rw [← Nat.div_add_mod m c.n, add_nsmul, mul_nsmul, hR, nsmul_zero, zero_add]
  unfold verPoint
  rw [nsmul_add, key _ hGn, key _ hQn]

theorem xval_eq_imp {c : Params} [hp : Fact c.p.Prime] {R R' : c.Pt} (hR : R ≠ 0) (hR' : R' ≠ 0)
    (h : xval R = xval R') : R' = R ∨ R' = -R := by
  cases R with
  | zero => exact absurd rfl hR
  | some x y hn => cases R' with
    | zero => exact absurd rfl hR'
    | some x' y' hn' =>
      have hx : x = x' := ZMod.val_injective _ h
      subst hx
      have e1 := (W_equation x y).mp hn.1
      have e2 := (W_equation x y').mp hn'.1
      have : (y' - y) * (y' + y) = 0 := by linear_combination e2 - e1
      rcases mul_eq_zero.mp this with h | h
      · left
        have : y' = y := by linear_combination h
        subst this; rfl
      · right
        have hy : y' = -y := by linear_combination h
        subst hy
        rw [Affine.Point.neg_some]
        congr 1
        simp [Affine.negY, Params.W, sw]

/-- C13: for a public key of the subgroup, `(r, N - s)` verifies whenever `(r, s)` does, and two accepted
signatures with the same `r` whose verification points have the same x-coordinate have
`s' = s` or `s' = N - s`.  (No exception for `e·G + r·Q = ∞` is needed: such a signature is rejected.) -/
theorem C13_malleability (E : Env) (pub hash rb sb sb' : Bytes) (ID : Option Bytes) (Q : Secp256k1.c.Pt) (hQ : Encodes pub Q)
    (hQn : Secp256k1.c.n • Q = 0) (hrl : rb.length = 32) (hsl : sb.length = 32) (hsl' : sb'.length = 32)
    (h : verify E pub ID hash (rb ++ sb) K1 = .ret SUCCESS) :
    (beNat sb' = Secp256k1.c.n - beNat sb → verify E pub ID hash (rb ++ sb') K1 = .ret SUCCESS) ∧
    (verify E pub ID hash (rb ++ sb') K1 = .ret SUCCESS →
      xval (verPoint Secp256k1.good Q (beNat hash) (beNat rb) (beNat sb)) =
        xval (verPoint Secp256k1.good Q (beNat hash) (beNat rb) (beNat sb')) →
      beNat sb' = beNat sb ∨ beNat sb' = Secp256k1.c.n - beNat sb) := by
  have split : ∀ t : Bytes, (rb ++ t).take 32 = rb ∧ (rb ++ t).drop 32 = t := by
    intro t; rw [← hrl]; simp
  have conv : ∀ t : Bytes, t.length = 32 → (verify E pub ID hash (rb ++ t) K1 = .ret SUCCESS ↔
      hash.length = 32 ∧ Valid Secp256k1.good Q (beNat hash) (beNat rb) (beNat t)) := by
    intro t ht
    obtain ⟨code, hc, -, hiff⟩ := C11_verify_iff_textbook E pub hash (rb ++ t) ID Q hQ
    rw [(split t).1, (split t).2] at hiff
    rw [hc, Go.ret.injEq, hiff]
    simp [hrl, ht]
  have hf : Fact Secp256k1.c.n.Prime := ⟨Secp256k1.good.np⟩
  obtain ⟨hh, hv⟩ := (conv sb hsl).mp h
  have hGn := Secp256k1.N_smul_G
  constructor
  · intro he
    rw [conv sb' hsl']
    refine ⟨hh, ?_⟩
    have hneg := valid_of_n_sub hQn hGn hv
    obtain ⟨r0, rn, s0, sn, h0, hx⟩ := hv
    rw [he]
    refine ⟨r0, rn, by omega, by omega, ?_, ?_⟩
    · rw [hneg, neg_ne_zero]; exact h0
    · rw [hneg, xval_neg]; exact hx
  · intro h' hx
    obtain ⟨-, hv'⟩ := (conv sb' hsl').mp h'
    have m1 := smul_verPoint hQn hGn (e := beNat hash) (r := beNat rb) hv.2.2.1 hv.2.2.2.1
    have m2 := smul_verPoint hQn hGn (e := beNat hash) (r := beNat rb) hv'.2.2.1 hv'.2.2.2.1
    obtain ⟨-, -, s0, sn, hR, -⟩ := hv
    obtain ⟨-, -, s0', sn', hR', -⟩ := hv'
    -- the verification point has order n
    have hRn : Secp256k1.c.n • verPoint Secp256k1.good Q (beNat hash) (beNat rb) (beNat sb) = 0 := by
      unfold verPoint
      rw [nsmul_add, ← mul_nsmul', ← mul_nsmul', mul_comm Secp256k1.c.n, mul_comm Secp256k1.c.n, mul_nsmul', mul_nsmul', hGn, hQn]
      simp
    have hord : addOrderOf (verPoint Secp256k1.good Q (beNat hash) (beNat rb) (beNat sb)) = Secp256k1.c.n :=
      ((Nat.dvd_prime Secp256k1.good.np).mp (addOrderOf_dvd_of_nsmul_eq_zero hRn)).resolve_left
        (fun h1 => hR (AddMonoid.addOrderOf_eq_one_iff.mp h1))
    rcases xval_eq_imp hR hR' hx with he | he
    · left
      rw [he, ← m1] at m2
      have := (nsmul_inj_mod).mp m2
      rw [hord, Nat.mod_eq_of_lt sn', Nat.mod_eq_of_lt sn] at this
      exact this
    · right
      rw [he, neg_nsmul, ← m1, neg_eq_iff_add_eq_zero, ← add_nsmul] at m2
      have hd := addOrderOf_dvd_of_nsmul_eq_zero m2
      rw [hord] at hd
      obtain ⟨q, hq⟩ := hd
      have : q = 1 := by
        rcases Nat.lt_or_ge q 1 with h | h
        · have : q = 0 := by omega
          subst this; omega
        · rcases Nat.lt_or_ge q 2 with h2 | h2
          · omega
          · have : Secp256k1.c.n * 2 ≤ Secp256k1.c.n * q := Nat.mul_le_mul_left _ h2
            omega
      subst this; omega

-- a verifying signature exists: `sample_signature_k1` with `C07_sign_verify_k1`; its key is a multiple of `G`
example : ∃ pub sig, ∃ Q : Secp256k1.c.Pt, Encodes pub Q ∧ Secp256k1.c.n • Q = 0 ∧ sig.length = 64 ∧
    verify sampleEnv pub none hash1 sig K1 = .ret SUCCESS := by
  obtain ⟨sig, v, hs⟩ := sample_signature_k1
  obtain ⟨pub, hp, hv⟩ := C07_sign_verify_k1 sampleEnv key1 hash1 sig none none _ v hs
  refine ⟨pub, sig, _, (C05_genPubkey_encoding _ _ _ hp).2.1, ?_, (C09_canonical_k1 _ _ _ _ _ _ _ hs).1, hv⟩
  rw [← mul_nsmul', mul_comm, mul_nsmul', Secp256k1.N_smul_G, nsmul_zero]

end Verif.Props
