import Verif.Props.Sm2

/-!
The secp256r1 counterparts of C05, C06 and C13, and C13 without its hypothesis on the public key: since every
point of the two curves is a multiple of the base point (`C03_group_orders`), `N • Q = 0` holds of every key.
-/

namespace Verif.Props
open Verif.EC Verif.ECDSA Verif.Api WeierstrassCurve

/-- The arithmetic of C13 over any of the short Weierstrass curves. -/
theorem malleable_core {c : Params} [Fact c.p.Prime] {hg : Good c} {Q : c.Pt} (hQn : c.n • Q = 0)
    (hGn : c.n • hg.G = 0) {e r s s' : ℕ} (hv : Valid hg Q e r s) :
    (s' = c.n - s → Valid hg Q e r s') ∧
    (Valid hg Q e r s' → xval (verPoint hg Q e r s) = xval (verPoint hg Q e r s') → s' = s ∨ s' = c.n - s) := by
  have hf : Fact c.n.Prime := ⟨hg.np⟩
  constructor
  · intro he
    have hneg := valid_of_n_sub hQn hGn hv
    obtain ⟨r0, rn, s0, sn, h0, hx⟩ := hv
    rw [he]
    refine ⟨r0, rn, by omega, by omega, ?_, ?_⟩
    · rw [hneg, neg_ne_zero]; exact h0
    · rw [hneg, xval_neg]; exact hx
  · intro hv' hx
    have m1 := smul_verPoint hQn hGn (e := e) (r := r) hv.2.2.1 hv.2.2.2.1
    have m2 := smul_verPoint hQn hGn (e := e) (r := r) hv'.2.2.1 hv'.2.2.2.1
    obtain ⟨-, -, s0, sn, hR, -⟩ := hv
    obtain ⟨-, -, s0', sn', hR', -⟩ := hv'
    have hRn : c.n • verPoint hg Q e r s = 0 := by
      unfold verPoint
      rw [nsmul_add, ← mul_nsmul', ← mul_nsmul', mul_comm c.n, mul_comm c.n, mul_nsmul', mul_nsmul', hGn, hQn]
      simp
    have hord : addOrderOf (verPoint hg Q e r s) = c.n :=
      ((Nat.dvd_prime hg.np).mp (addOrderOf_dvd_of_nsmul_eq_zero hRn)).resolve_left
        (fun h1 => hR (AddMonoid.addOrderOf_eq_one_iff.mp h1))
    rcases xval_eq_imp hR hR' hx with he | he
    · left
      rw [he, ← m1] at m2
      have := (nsmul_inj_mod).mp m2
      rw [hord, Nat.mod_eq_of_lt sn', Nat.mod_eq_of_lt sn] at this
      exact this
    · right
      rw [he, neg_nsmul, ← m1, neg_eq_iff_add_eq_zero, ← add_nsmul] at m2
      have hd := addOrderOf_dvd_of_nsmul_eq_zero m2
      rw [hord] at hd
      obtain ⟨q, hq⟩ := hd
      have : q = 1 := by
        rcases Nat.lt_or_ge q 1 with h | h
        · have : q = 0 := by omega
          subst this; omega
        · rcases Nat.lt_or_ge q 2 with h2 | h2
          · omega
          · have : c.n * 2 ≤ c.n * q := Nat.mul_le_mul_left _ h2
            omega
      subst this; omega

theorem k1_point_order (Q : Secp256k1.c.Pt) : Secp256k1.c.n • Q = 0 := by
  obtain ⟨k, -, rfl⟩ := C03_group_orders.2.2.2.1 Q
  rw [← mul_nsmul', mul_comm, mul_nsmul', Secp256k1.N_smul_G, nsmul_zero]

theorem r1_point_order (Q : Secp256r1.c.Pt) : Secp256r1.c.n • Q = 0 := by
  obtain ⟨k, -, rfl⟩ := C03_group_orders.2.2.2.2.1 Q
  rw [← mul_nsmul', mul_comm, mul_nsmul', Secp256r1.ord, nsmul_zero]

/-! ## C13 -/

/-- C13 for secp256k1 and every public key that is a point of the curve: `(r, N - s)` verifies whenever
`(r, s)` does, and two accepted signatures with the same `r` whose verification points have the same
x-coordinate have `s' = s` or `s' = N - s`. -/
theorem C13_malleability_k1 (E : Env) (pub hash rb sb sb' : Bytes) (ID : Option Bytes) (Q : Secp256k1.c.Pt)
    (hQ : Encodes pub Q) (hrl : rb.length = 32) (hsl : sb.length = 32) (hsl' : sb'.length = 32)
    (h : Api.verify E pub ID hash (rb ++ sb) K1 = .ret SUCCESS) :
    (beNat sb' = Secp256k1.c.n - beNat sb → Api.verify E pub ID hash (rb ++ sb') K1 = .ret SUCCESS) ∧
    (Api.verify E pub ID hash (rb ++ sb') K1 = .ret SUCCESS →
      xval (verPoint Secp256k1.good Q (beNat hash) (beNat rb) (beNat sb)) =
        xval (verPoint Secp256k1.good Q (beNat hash) (beNat rb) (beNat sb')) →
      beNat sb' = beNat sb ∨ beNat sb' = Secp256k1.c.n - beNat sb) :=
  C13_malleability E pub hash rb sb sb' ID Q hQ (k1_point_order Q) hrl hsl hsl' h

/-- C13 for secp256r1, for any backend that computes the group. -/
theorem C13_malleability_r1 (E : Env) {In} (hE : CurveOk Secp256r1.c Secp256r1.good E.ell In)
    (pub hash rb sb sb' : Bytes) (ID : Option Bytes) (Q : Secp256r1.c.Pt)
    (hQ : Encodes pub Q) (hrl : rb.length = 32) (hsl : sb.length = 32) (hsl' : sb'.length = 32)
    (h : Api.verify E pub ID hash (rb ++ sb) R1 = .ret SUCCESS) :
    (beNat sb' = Secp256r1.c.n - beNat sb → Api.verify E pub ID hash (rb ++ sb') R1 = .ret SUCCESS) ∧
    (Api.verify E pub ID hash (rb ++ sb') R1 = .ret SUCCESS →
      xval (verPoint Secp256r1.good Q (beNat hash) (beNat rb) (beNat sb)) =
        xval (verPoint Secp256r1.good Q (beNat hash) (beNat rb) (beNat sb')) →
      beNat sb' = beNat sb ∨ beNat sb' = Secp256r1.c.n - beNat sb) := by
  have split : ∀ t : Bytes, (rb ++ t).take 32 = rb ∧ (rb ++ t).drop 32 = t := by
    intro t; rw [← hrl]; simp
  have conv : ∀ t : Bytes, t.length = 32 → (Api.verify E pub ID hash (rb ++ t) R1 = .ret SUCCESS ↔
      hash.length = 32 ∧ Valid Secp256r1.good Q (beNat hash) (beNat rb) (beNat t)) := by
    intro t ht
    obtain ⟨code, hc, -, hiff⟩ := C11_verify_iff_textbook_r1 E hE pub hash (rb ++ t) ID Q hQ
    rw [(split t).1, (split t).2] at hiff
    rw [hc, Go.ret.injEq, hiff]
    simp [hrl, ht]
  obtain ⟨hh, hv⟩ := (conv sb hsl).mp h
  obtain ⟨m1, m2⟩ := malleable_core (r1_point_order Q) Secp256r1.ord (s' := beNat sb') hv
  exact ⟨fun he => (conv sb' hsl').mpr ⟨hh, m1 he⟩, fun h' => m2 ((conv sb' hsl').mp h').2⟩

/-! ## C05 and C06 for secp256r1 -/

/-- C05 for secp256r1. -/
theorem C05_genPubkey_encoding_r1 (E : Env) {In} (hE : CurveOk Secp256r1.c Secp256r1.good E.ell In)
    (key pub : Bytes) (h : genPubkey E key R1 = .ret (pub, SUCCESS)) :
    pub.length = 64 ∧ Encodes pub (beNat key • Secp256r1.good.G) ∧
    pub = be32 (xval (beNat key • Secp256r1.good.G)) ++ be32 (yval (beNat key • Secp256r1.good.G)) := by
  have hC := Secp256r1.curveGood hE
  by_cases hk : key.length = 32 ∧ 1 ≤ beNat key ∧ beNat key < Secp256r1.c.n
  · rw [genPubkey_r1, genPublicKey_ok hC hk.1 hk.2.1 hk.2.2] at h
    have hp : pub = encode64 (enc Secp256r1.c (beNat key • Secp256r1.good.G)) := by
      injection h with h; injection h with h; exact h.symm
    have hne := smul_G_ne_zero hC hk.2.1 hk.2.2
    have he := encodes_encode64 hC.p256 hne
    rw [← hp] at he
    exact ⟨he.2.1, he, by rw [hp, encode64_enc]⟩
  · rw [(C04_genPubkey_r1 E hE key).2 hk] at h
    injection h with h; injection h with _ h; exact absurd h (by decide)

/-- C06 for secp256r1. -/
theorem C06_genPubkey_injective_r1 (E : Env) {In} (hE : CurveOk Secp256r1.c Secp256r1.good E.ell In)
    (a b pub : Bytes) (ha : genPubkey E a R1 = .ret (pub, SUCCESS))
    (hb : genPubkey E b R1 = .ret (pub, SUCCESS)) : a = b := by
  have hva : a.length = 32 ∧ 1 ≤ beNat a ∧ beNat a < Secp256r1.c.n := by
    by_contra hk
    rw [(C04_genPubkey_r1 E hE a).2 hk] at ha
    injection ha with h; injection h with _ h; exact absurd h (by decide)
  have hvb : b.length = 32 ∧ 1 ≤ beNat b ∧ beNat b < Secp256r1.c.n := by
    by_contra hk
    rw [(C04_genPubkey_r1 E hE b).2 hk] at hb
    injection hb with h; injection h with _ h; exact absurd h (by decide)
  have e := ((C05_genPubkey_encoding_r1 E hE a pub ha).2.1).inj (C05_genPubkey_encoding_r1 E hE b pub hb).2.1 Secp256r1.good
  rw [smul_inj Secp256r1.ord, ZMod.natCast_eq_natCast_iff'] at e
  rw [Nat.mod_eq_of_lt hva.2.2, Nat.mod_eq_of_lt hvb.2.2] at e
  exact beNat_inj_of_length (by omega) e

/-! ## C02 for secp256r1 -/

/-- C02 for secp256r1: `Point_mul` is scalar multiplication, and it fails exactly at infinity. -/
theorem C02_point_mul_r1 (E : Env) {In} (hE : CurveOk Secp256r1.c Secp256r1.good E.ell In) (b k : Bytes) (P : Secp256r1.c.Pt) (hb : PointArg b P) (hk : k.length = 32) :
    (beNat k • P = 0 → pointMul E b k R1 = .ret ([], FAILURE)) ∧
    (beNat k • P ≠ 0 → ∃ out, pointMul E b k R1 = .ret (out, SUCCESS) ∧ Encodes out (beNat k • P)) := by
  have hC := Secp256r1.curveGood hE
  obtain ⟨c1, e1, d1⟩ := normPoint_spec E Secp256r1.decGood (dec_r1 E) hb
  have hs := mulPoint_spec hC d1 k
  have hdef : pointMul E b k R1 = (do return infCode (← mulPoint (Secp256r1.curve E.ell) c1 k)) := by
    unfold pointMul
    rw [if_neg (by decide), e1]
    simp only [Go.ret_bind]
    rw [if_neg (by omega)]
    rfl
  rw [hdef]
  constructor
  · intro h; rw [hs.2 h]; rfl
  · intro h; rw [hs.1 h]; exact ⟨_, rfl, encodes_encode64 hC.p256 h⟩

/-! ## C19 and C20 for secp256r1 -/

theorem genPubkey_r1_valid {E : Env} {In} (hE : CurveOk Secp256r1.c Secp256r1.good E.ell In) {a pub : Bytes} (ha : genPubkey E a R1 = .ret (pub, SUCCESS)) :
    a.length = 32 ∧ 1 ≤ beNat a ∧ beNat a < Secp256r1.c.n := by
  by_contra hk
  rw [(C04_genPubkey_r1 E hE a).2 hk] at ha
  injection ha with h; injection h with _ h; exact absurd h (by decide)

/-- C19 for secp256r1. -/
theorem C19_child_key_r1 (E : Env) {In} (hE : CurveOk Secp256r1.c Secp256r1.good E.ell In) (a b pub : Bytes) (ha : genPubkey E a R1 = .ret (pub, SUCCESS)) (hb : b.length = 32) :
    ((beNat a + beNat b) % Secp256r1.c.n = 0 → pointMulBaseGAdd E pub b R1 = .ret ([], true)) ∧
    ((beNat a + beNat b) % Secp256r1.c.n ≠ 0 → ∃ child, pointMulBaseGAdd E pub b R1 = .ret (child, false) ∧
      genPubkey E (be32 ((beNat a + beNat b) % Secp256r1.c.n)) R1 = .ret (child, SUCCESS)) := by
  have hC := Secp256r1.curveGood hE
  have hQ := (C05_genPubkey_encoding_r1 E hE a pub ha).2.1
  have hs := mulBaseGAdd_spec hC hQ b
  have hsum : beNat b • Secp256r1.good.G + beNat a • Secp256r1.good.G =
      ((beNat a + beNat b) % Secp256r1.c.n) • Secp256r1.good.G := by
    rw [← add_nsmul, add_comm]
    apply smul_congr Secp256r1.ord
    rw [ZMod.natCast_mod]
  have hdef : pointMulBaseGAdd E pub b R1 = mulBaseGAdd (Secp256r1.curve E.ell) pub b := by
    unfold pointMulBaseGAdd; rw [if_neg (by omega)]; rfl
  rw [hdef]
  rw [hsum] at hs
  have hnpos : 0 < Secp256r1.c.n := Secp256r1.good.np.pos
  have hlt := Nat.mod_lt (beNat a + beNat b) hnpos
  have h256 := hC.n256
  constructor
  · intro h0
    exact hs.2 (by rw [h0, zero_nsmul])
  · intro h0
    have hne := smul_G_ne_zero hC (k := (beNat a + beNat b) % Secp256r1.c.n) (by omega) hlt
    refine ⟨_, hs.1 hne, ?_⟩
    rw [genPubkey_r1, genPublicKey_ok hC
      (be32_length (by norm_num at h256 ⊢; omega)) (by rw [beNat_be32]; omega) (by rw [beNat_be32]; exact hlt), beNat_be32]
    rfl

/-- C20 for secp256r1. -/
theorem C20_ecdh_r1 (E : Env) {In} (hE : CurveOk Secp256r1.c Secp256r1.good E.ell In) (a b pubA pubB : Bytes) (ha : genPubkey E a R1 = .ret (pubA, SUCCESS))
    (hb : genPubkey E b R1 = .ret (pubB, SUCCESS)) :
    ∃ shared, pointMul E pubA b R1 = .ret (shared, SUCCESS) ∧ pointMul E pubB a R1 = .ret (shared, SUCCESS) ∧
      Encodes shared ((beNat a * beNat b) • Secp256r1.good.G) := by
  obtain ⟨hla, ha1, han⟩ := genPubkey_r1_valid hE ha
  obtain ⟨hlb, hb1, hbn⟩ := genPubkey_r1_valid hE hb
  have eA := (C05_genPubkey_encoding_r1 E hE a pubA ha).2.1
  have eB := (C05_genPubkey_encoding_r1 E hE b pubB hb).2.1
  have hne : (beNat a * beNat b) • Secp256r1.good.G ≠ 0 := by
    have : Fact Secp256r1.c.n.Prime := ⟨Secp256r1.good.np⟩
    rw [Ne, smul_eq_zero_iff Secp256r1.ord, Nat.cast_mul]
    exact mul_ne_zero (key_ne_zero ha1 han) (key_ne_zero hb1 hbn)
  have e1 : beNat b • beNat a • Secp256r1.good.G = (beNat a * beNat b) • Secp256r1.good.G := by
    rw [← mul_nsmul', mul_comm]
  have e2 : beNat a • beNat b • Secp256r1.good.G = (beNat a * beNat b) • Secp256r1.good.G := by
    rw [← mul_nsmul']
  obtain ⟨o1, p1, q1⟩ := (C02_point_mul_r1 E hE pubA b _ (.inl eA) hlb).2 (by rw [e1]; exact hne)
  obtain ⟨o2, p2, q2⟩ := (C02_point_mul_r1 E hE pubB a _ (.inl eB) hla).2 (by rw [e2]; exact hne)
  rw [e1] at q1
  rw [e2] at q2
  have : o2 = o1 := q2.unique q1
  subst this
  exact ⟨o2, p1, p2, q1⟩

/-! ## C18 for secp256r1 -/

/-- C18 for secp256r1, as far as it holds (see `C18_decompress_k1_partial`); the missing part fails here too. -/
theorem C18_decompress_r1_partial (E : Env) (b : Bytes) :
    ∃ out, pointDecompress E b R1 = .ret out ∧
      (out = [] ↔ b.length ≠ 33 ∨ (b.getD 0 0 ≠ 2 ∧ b.getD 0 0 ≠ 3)) ∧
      (out ≠ [] → ∃ y : ℕ, out = 4 :: b.drop 1 ++ be32 y ∧ y ≤ Secp256r1.c.p ∧ y % 2 = (b.getD 0 0).toNat % 2 ∧
        ((∃ z : ZMod Secp256r1.c.p, z ^ 2 = (beNat (b.drop 1) : ZMod Secp256r1.c.p) ^ 3 +
            Secp256r1.c.a * (beNat (b.drop 1) : ZMod Secp256r1.c.p) + Secp256r1.c.b) →
          (y : ZMod Secp256r1.c.p) ^ 2 = (beNat (b.drop 1) : ZMod Secp256r1.c.p) ^ 3 +
            Secp256r1.c.a * (beNat (b.drop 1) : ZMod Secp256r1.c.p) + Secp256r1.c.b) ∧
        ((∀ z : ZMod Secp256r1.c.p, z ^ 2 ≠ (beNat (b.drop 1) : ZMod Secp256r1.c.p) ^ 3 +
            Secp256r1.c.a * (beNat (b.drop 1) : ZMod Secp256r1.c.p) + Secp256r1.c.b) →
          (y : ZMod Secp256r1.c.p) = 0)) := by
  by_cases hl : b.length = 33
  · refine ⟨_, dec_r1 E b hl, ?_, ?_⟩
    · rw [(decompress_nil_iff Secp256r1.decGood b hl).1]; simp [hl]
    · intro hne
      have hb : b.getD 0 0 = 2 ∨ b.getD 0 0 = 3 := by
        rw [Ne, (decompress_nil_iff Secp256r1.decGood b hl).1] at hne; tauto
      obtain ⟨y, hy, hp, he, hsq, h0⟩ := (decompress_nil_iff Secp256r1.decGood b hl).2 hb
      exact ⟨y, by rw [he]; rfl, hy, hp, hsq, h0⟩
  · refine ⟨[], by unfold pointDecompress; rw [if_pos hl], by simp [hl], by simp⟩

/-! ## C15 for secp256r1 -/

/-- C15 for secp256r1, for any backend that computes the group and whose scalar multiplication returns
coordinates of at most 256 bits whatever it is given (a candidate `r` need not belong to a point). -/
theorem C15_recover_sound_r1 (E : Env) {In} (hE : CurveOk Secp256r1.c Secp256r1.good E.ell In)
    (hR : ∀ x y k, 0 ≤ (E.ell.scalarMult x y k).1 ∧ (E.ell.scalarMult x y k).1 < 2 ^ 256 ∧
      0 ≤ (E.ell.scalarMult x y k).2 ∧ (E.ell.scalarMult x y k).2 < 2 ^ 256)
    (sig msg pub : Bytes) (ID : Option Bytes)
    (h : recoverPubkey E sig msg R1 = .ret (pub, SUCCESS)) :
    sig.length = 65 ∧ msg.length = 32 ∧ pub.length = 64 ∧
    Api.verify E pub ID msg (sig.take 64) R1 = .ret SUCCESS := by
  have hC := Secp256r1.curveGood hE
  have hdef := recoverPubkey_r1 E sig msg
  rw [hdef] at h
  rcases recover_char hC Secp256r1.decGood sig msg with ⟨-, -, -, h'⟩ | ⟨-, ⟨e, h'⟩ | ⟨hl, hm, X, Y, k, w, hk, h', hv⟩⟩
  · rw [h'] at h; cases h
  · rw [h'] at h
    simp only [Go.ret_bind, Go.ret.injEq, Prod.mk.injEq] at h
    exact absurd h.2 (by decide)
  · rw [h'] at h
    simp only [Go.ret_bind, Go.ret.injEq, Prod.mk.injEq] at h
    have hp := h.1
    have hr := hR k.1 k.2 w
    have hk' : (X, Y) = E.ell.scalarMult k.1 k.2 w := hk
    rw [← hk'] at hr
    simp only at hr
    have hX : X.natAbs < 2 ^ 256 := by omega
    have hY : Y.natAbs < 2 ^ 256 := by omega
    have hpl : pub.length = 64 := by
      rw [← hp]; unfold encode64
      rw [List.length_append, be32_length (by norm_num at hX ⊢; exact hX), be32_length (by norm_num at hY ⊢; exact hY)]
    refine ⟨hl, hm, hpl, ?_⟩
    rw [verify_r1]
    have : ECDSA.verify (Secp256r1.curve E.ell) pub msg (sig.take 64) = .ret true := by
      unfold ECDSA.verify
      rw [if_neg (by omega), if_neg (by simp; omega), if_neg (by omega)]
      have e1 : ((beNat (pub.take 32) : ℕ) : Int) = X := by
        rw [← hp]; unfold encode64; rw [be32_take hX, beNat_be32]; simp; omega
      have e2 : ((beNat (pub.drop 32) : ℕ) : Int) = Y := by
        rw [← hp]; unfold encode64; rw [be32_drop hX, beNat_be32]; simp; omega
      have e3 : (sig.take 64).take 32 = sig.take 32 := by rw [List.take_take]; rfl
      have e4 : (sig.take 64).drop 32 = (sig.drop 32).take 32 := by rw [List.drop_take]
      rw [e1, e2, e3, e4]
      exact hv
    rw [this]; rfl

-- a signature of a sample key verifies: the hypotheses of C05, C06 and C13 for secp256r1 are met
example : ∃ pub sig, ∃ Q : Secp256r1.c.Pt, genPubkey sampleEnv key1 R1 = .ret (pub, SUCCESS) ∧ Encodes pub Q ∧
    sig.length = 64 ∧ Api.verify sampleEnv pub none hash1 sig R1 = .ret SUCCESS := by
  obtain ⟨sig, v, hs⟩ := sample_signature_r1
  obtain ⟨pub, hp, hv⟩ := C08_sign_verify_r1 sampleEnv sampleEnv_ok key1 hash1 sig none none _ v hs
  exact ⟨pub, sig, _, hp, (C05_genPubkey_encoding_r1 _ sampleEnv_ok _ _ hp).2.1,
    (C09_canonical_r1 _ sampleEnv_ok _ _ _ _ _ _ hs).1, hv⟩

/-- the reference arithmetic meets the range assumption of C15. -/
theorem sampleEnv_range (x y : Int) (k : Bytes) :
    0 ≤ (sampleEnv.ell.scalarMult x y k).1 ∧ (sampleEnv.ell.scalarMult x y k).1 < 2 ^ 256 ∧
      0 ≤ (sampleEnv.ell.scalarMult x y k).2 ∧ (sampleEnv.ell.scalarMult x y k).2 < 2 ^ 256 := by
  have hp : (Secp256r1.c.p : Int) < 2 ^ 256 := by decide +kernel
  have hp0 : 0 < (Secp256r1.c.p : Int) := by decide +kernel
  show 0 ≤ (Ref.toAffine Secp256r1.c _).1 ∧ (Ref.toAffine Secp256r1.c _).1 < 2 ^ 256 ∧
    0 ≤ (Ref.toAffine Secp256r1.c _).2 ∧ (Ref.toAffine Secp256r1.c _).2 < 2 ^ 256
  generalize Ref.mulAux Secp256r1.c _ _ _ _ = t
  unfold Ref.toAffine
  split
  · norm_num
  · have m := fun z : Int => Int.emod_nonneg z (by omega : (Secp256r1.c.p : Int) ≠ 0)
    have l := fun z : Int => Int.emod_lt_of_pos z hp0
    exact ⟨m _, lt_trans (l _) hp, m _, lt_trans (l _) hp⟩

-- recovery of the key of `sample_signature_r1` succeeds
example : ∃ sig pub, recoverPubkey sampleEnv sig hash1 R1 = .ret (pub, SUCCESS) := by
  obtain ⟨sig, v, h⟩ := sample_signature_r1
  obtain ⟨pub, -, hp⟩ := C14_recover_signer_r1_partial sampleEnv sampleEnv_ok key1 hash1 sig none _ v h (by decide +kernel)
  exact ⟨_, pub, hp⟩

end Verif.Props
