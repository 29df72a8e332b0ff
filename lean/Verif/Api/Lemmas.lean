import Verif.Api.Model
import Verif.Api.Spec
import Verif.ECDSA.Recover

/-! # Lemmas about the API dispatch -/

namespace Verif.Api

open Verif.EC Verif.ECDSA WeierstrassCurve

section dispatch
variable (E : Env)

theorem genPubkey_k1 (key : Bytes) :
    genPubkey E key ECC_CURVE_SECP256K1 = .ret (genPubErr (genPublicKey Secp256k1.curve key)) := rfl
theorem genPubkey_r1 (key : Bytes) :
    genPubkey E key ECC_CURVE_SECP256R1 = .ret (genPubErr (genPublicKey (Secp256r1.curve E.ell) key)) := rfl
theorem signature_k1 (key : Bytes) (ID : Option Bytes) (m : Bytes) (rnd : List Bytes) :
    signature E key ID m ECC_CURVE_SECP256K1 rnd =
      (sign Secp256k1.curve key m rnd).map fun r => .ret (signErr r) := rfl
theorem signature_r1 (key : Bytes) (ID : Option Bytes) (m : Bytes) (rnd : List Bytes) :
    signature E key ID m ECC_CURVE_SECP256R1 rnd =
      (sign (Secp256r1.curve E.ell) key m rnd).map fun r => .ret (signErr r) := rfl
theorem verify_k1 (pub : Bytes) (ID : Option Bytes) (m s : Bytes) :
    verify E pub ID m s ECC_CURVE_SECP256K1 =
      (do return passCode (← ECDSA.verify Secp256k1.curve pub m s)) := rfl
theorem verify_r1 (pub : Bytes) (ID : Option Bytes) (m s : Bytes) :
    verify E pub ID m s ECC_CURVE_SECP256R1 =
      (do return passCode (← ECDSA.verify (Secp256r1.curve E.ell) pub m s)) := rfl

end dispatch

section generic
variable {c : Params} [hp : Fact c.p.Prime] {hg : Good c} {C : Curve} {In : Int → Int → c.Pt → Prop}
  {rhs : Int → Int}

theorem genPublicKey_ok (h : CurveGood c hg C In) {key : Bytes} (hl : key.length = 32)
    (h0 : 1 ≤ beNat key) (hn : beNat key < c.n) :
    genPublicKey C key = .ok (encode64 (enc c (beNat key • hg.G))) := by
  unfold genPublicKey
  rw [h.N, h.ok.baseMul]
  simp only [hl, ne_eq, not_true_eq_false, if_false]
  rw [if_neg (by omega), if_neg (by omega)]

theorem genPublicKey_err (h : CurveGood c hg C In) {key : Bytes}
    (hb : ¬ (key.length = 32 ∧ 1 ≤ beNat key ∧ beNat key < c.n)) :
    genPublicKey C key = .error .privateKeyIllegal := by
  unfold genPublicKey
  rw [h.N]
  dsimp only
  split
  · rfl
  split
  · rfl
  split
  · rfl
  exfalso; apply hb; omega

theorem smul_G_ne_zero (h : CurveGood c hg C In) {k : ℕ} (h0 : 1 ≤ k) (hn : k < c.n) : k • hg.G ≠ 0 := by
  rw [Ne, smul_eq_zero_iff h.ord, ZMod.natCast_eq_zero_iff]
  intro hd; have := Nat.le_of_dvd (by omega) hd; omega

theorem passCode_iff {b : Bool} : passCode b = SUCCESS ↔ b = true := by cases b <;> decide
theorem passCode_cases (b : Bool) : passCode b = SUCCESS ∨ passCode b = FAILURE := by cases b <;> decide

theorem verify_iff (h : CurveGood c hg C In) {pub hash sig : Bytes} {Q : c.Pt} (hQ : Encodes pub Q) :
    ∃ b, ECDSA.verify C pub hash sig = .ret b ∧ (b = true ↔ hash.length = 32 ∧ sig.length = 64 ∧
      Valid hg Q (beNat hash) (beNat (sig.take 32)) (beNat (sig.drop 32))) := by
  unfold ECDSA.verify
  rw [if_neg (by rw [hQ.2.1]; simp)]
  split
  · rename_i h1
    exact ⟨_, rfl, by simp; intros; contradiction⟩
  rename_i h1
  split
  · rename_i h2
    exact ⟨_, rfl, by simp; intros; contradiction⟩
  rename_i h2
  obtain ⟨b, hb, hb'⟩ := verifyesdsa_iff h hQ.1 (h.in_of_encodes hQ) hash (by omega)
    (beNat (sig.take 32)) (beNat (sig.drop 32))
  refine ⟨b, hb, ?_⟩
  rw [hb']
  constructor
  · intro hv; exact ⟨by omega, by omega, hv⟩
  · exact fun hv => hv.2.2

/-- `verifyesdsa` never panics, on any coordinates. -/
theorem verifyesdsa_ret (h : CurveGood c hg C In) (X Y : Int) (hash : Bytes) (r s : ℕ) :
    ∃ b, verifyesdsa C X Y hash r s = .ret b ∧ (b = true → 0 < r ∧ r < c.n ∧ 0 < s ∧ s < c.n) := by
  have := h.fact
  unfold verifyesdsa
  rw [h.N]
  by_cases h1 : r = 0 ∨ s = 0
  · rw [if_pos (by omega)]; exact ⟨_, rfl, by simp⟩
  rw [if_neg (by omega)]
  by_cases h2 : r ≥ c.n ∨ s ≥ c.n
  · rw [if_pos (by omega)]; exact ⟨_, rfl, by simp⟩
  rw [if_neg (by omega)]
  have hs0 : ((s : Int) : ZMod c.n) ≠ 0 := by
    rw [Int.cast_natCast, Ne, ZMod.natCast_eq_zero_iff]
    intro hd; have := Nat.le_of_dvd (by omega) hd; omega
  obtain ⟨w, hw, -, -, hwc⟩ := modInverse_prime hs0
  unfold verifyGeneric
  rw [h.N, hw]
  simp only [deref, Go.ret_bind]
  split
  · exact ⟨_, rfl, by simp⟩
  · exact ⟨_, rfl, fun _ => by omega⟩

theorem verify_ret (h : CurveGood c hg C In) (pub hash sig : Bytes) :
    ∃ b, ECDSA.verify C pub hash sig = .ret b ∧ (b = true → pub.length = 64 ∧ sig.length = 64 ∧
      hash.length = 32 ∧ 0 < beNat (sig.take 32) ∧ beNat (sig.take 32) < c.n ∧
      0 < beNat (sig.drop 32) ∧ beNat (sig.drop 32) < c.n) := by
  unfold ECDSA.verify
  split
  · exact ⟨_, rfl, by simp⟩
  split
  · exact ⟨_, rfl, by simp⟩
  split
  · exact ⟨_, rfl, by simp⟩
  obtain ⟨b, hb, hb'⟩ := verifyesdsa_ret h (beNat (pub.take 32)) (beNat (pub.drop 32)) hash
    (beNat (sig.take 32)) (beNat (sig.drop 32))
  exact ⟨b, hb, fun ht => ⟨by omega, by omega, by omega, hb' ht⟩⟩

theorem be32_take {r s : ℕ} (hr : r < 2 ^ 256) : (be32 r ++ be32 s).take 32 = be32 r := by
  have : (be32 r).length = 32 := be32_length (by norm_num; omega)
  rw [List.take_append_of_le_length (by omega), List.take_of_length_le (by omega)]

theorem be32_drop {r s : ℕ} (hr : r < 2 ^ 256) : (be32 r ++ be32 s).drop 32 = be32 s := by
  have : (be32 r).length = 32 := be32_length (by norm_num; omega)
  rw [List.drop_append_of_le_length (by omega), List.drop_of_length_le (by omega), List.nil_append]

/-- the whole content of "sign, then verify". -/
theorem sign_verify (h : CurveGood c hg C In) {key hash sig pub : Bytes} {rnd : List Bytes} {v : UInt8}
    (hs : sign C key hash rnd = some (.ok (sig, v))) (hpub : genPublicKey C key = .ok pub) :
    ECDSA.verify C pub hash sig = .ret true := by
  obtain ⟨hkl, hhl, hk0, hkn, r, s, rfl, hb⟩ := sign_spec h hs
  rw [genPublicKey_ok h hkl hk0 hkn] at hpub
  cases hpub
  have hn256 := h.n256
  obtain ⟨b, hb1, hb2⟩ := verify_iff h (hash := hash) (sig := be32 r ++ be32 s)
    (encodes_encode64 h.p256 (smul_G_ne_zero h hk0 hkn))
  rw [hb1, hb2.mpr]
  have hr := hb.rlt
  have hsl : s < c.n := by have := hb.shalf; have := hb.spos; omega
  refine ⟨hhl, by simp [be32_length (show r < 256 ^ 32 by norm_num; omega), be32_length (show s < 256 ^ 32 by norm_num; omega)], ?_⟩
  rw [be32_take (by omega), be32_drop (by omega), beNat_be32, beNat_be32]
  exact hb.valid h.ord

/-- the error branches of `sign`. -/
theorem sign_err (h : CurveGood c hg C In) {key hash : Bytes} {rnd : List Bytes} {e : Err}
    (hs : sign C key hash rnd = some (.error e)) :
    (e = .privateKeyIllegal ∧ (key.length ≠ 32 ∨ (hash.length = 32 ∧ ¬ (1 ≤ beNat key ∧ beNat key < c.n)))) ∨
    (e = .messageIllegal ∧ key.length = 32 ∧ hash.length ≠ 32) := by
  unfold sign at hs
  rw [h.N] at hs
  split at hs
  · cases hs; left; exact ⟨rfl, .inl ‹_›⟩
  split at hs
  · cases hs; right; exact ⟨rfl, by omega, ‹_›⟩
  dsimp only at hs
  split at hs
  · cases hs; left; exact ⟨rfl, .inr ⟨by omega, by omega⟩⟩
  split at hs
  · cases hs; left; exact ⟨rfl, .inr ⟨by omega, by omega⟩⟩
  split at hs
  · cases hs
  · cases hs

theorem sign_key_len {key hash : Bytes} {rnd : List Bytes} (hk : key.length ≠ 32) :
    sign C key hash rnd = some (.error .privateKeyIllegal) := by
  unfold sign; rw [if_pos hk]
theorem sign_msg_len {key hash : Bytes} {rnd : List Bytes} (hk : key.length = 32) (hm : hash.length ≠ 32) :
    sign C key hash rnd = some (.error .messageIllegal) := by
  unfold sign; rw [if_neg (by omega), if_pos hm]
theorem sign_key_range (h : CurveGood c hg C In) {key hash : Bytes} {rnd : List Bytes} (hk : key.length = 32)
    (hm : hash.length = 32) (hr : ¬ (1 ≤ beNat key ∧ beNat key < c.n)) :
    sign C key hash rnd = some (.error .privateKeyIllegal) := by
  unfold sign
  rw [h.N, if_neg (by omega), if_neg (by omega)]
  dsimp only
  split
  · rfl
  · rw [if_pos (by omega)]

/-! ### Points -/

theorem decompress_compressed (hd : DecGood c rhs) {b : Bytes} {Q : c.Pt} (hb : EncodesCompressed b Q) :
    decompress (c.p : Int) rhs b = .ok (0x04 :: b.drop 1 ++ be32 (yval Q)) := by
  obtain ⟨h0, hl, hpre, hx⟩ := hb
  match b, hl with
  | b0 :: xb, hl =>
    cases Q with
    | zero => exact absurd rfl h0
    | some x y hn =>
      have := decompress_point hd hn xb (by simpa using hl) hx b0 hpre
      exact this

theorem drop_cons_append {xb : Bytes} {n : ℕ} : (0x04 :: xb ++ be32 n).drop 1 = xb ++ be32 n := rfl

theorem encodes_append (h256 : c.p < 2 ^ 256) {xb : Bytes} {Q : c.Pt} (h0 : Q ≠ 0) (hl : xb.length = 32)
    (hx : beNat xb = xval Q) : Encodes (xb ++ be32 (yval Q)) Q := by
  have hy : (be32 (yval Q)).length = 32 := be32_length (by have := yval_lt Q; norm_num; omega)
  refine ⟨h0, by simp [hl, hy], ?_, ?_⟩
  · rw [List.take_append_of_le_length (by omega), List.take_of_length_le (by omega), hx]
  · rw [List.drop_append_of_le_length (by omega), List.drop_of_length_le (by omega), List.nil_append,
      beNat_be32]

/-- what `normPoint` does for the curve type `t` whose decompression is `decompress p rhs`. -/
theorem normPoint_spec (E : Env) (hd : DecGood c rhs) {t : UInt32}
    (ht : ∀ b : Bytes, b.length = 33 → pointDecompress E b t = .ret (okOrNil (decompress (c.p : Int) rhs b)))
    {b : Bytes} {Q : c.Pt} (hb : PointArg b Q) :
    ∃ b', normPoint E b t = .ret (some b') ∧ Encodes b' Q := by
  rcases hb with hb | ⟨hl, hb⟩ | hb
  · refine ⟨b, ?_, hb⟩
    unfold normPoint
    have := hb.2.1
    rw [if_neg (by omega), if_neg (by omega), if_neg (by omega)]
  · refine ⟨b.drop 1, ?_, hb⟩
    unfold normPoint
    rw [if_neg (by omega), if_pos hl]
  · have hl := hb.2.1
    refine ⟨b.drop 1 ++ be32 (yval Q), ?_, encodes_append hd.p256 hb.1 (by simp [hl]) hb.2.2.2⟩
    unfold normPoint
    rw [if_pos hl, ht b hl, decompress_compressed hd hb]
    rfl

theorem sliceTo64 {b : Bytes} (h : b.length = 64) : sliceTo b 32 = .ret (b.take 32) := by
  unfold sliceTo; rw [if_pos (by omega)]
theorem sliceFrom64 {b : Bytes} (h : b.length = 64) : sliceFrom b 32 = .ret (b.drop 32) := by
  unfold sliceFrom; rw [if_pos (by omega)]

theorem mulPoint_spec (h : CurveGood c hg C In) {b : Bytes} {Q : c.Pt} (hb : Encodes b Q) (k : Bytes) :
    (beNat k • Q ≠ 0 → mulPoint C b k = .ret (encode64 (enc c (beNat k • Q)), false)) ∧
    (beNat k • Q = 0 → mulPoint C b k = .ret ([], true)) := by
  unfold mulPoint
  rw [sliceTo64 hb.2.1, sliceFrom64 hb.2.1]
  simp only [Go.ret_bind]
  rw [h.ok.mul k hb.1 (h.in_of_encodes hb)]
  constructor
  · intro hne
    rw [if_neg (by rw [pt_eq_zero_of_coords hg]; exact hne)]; rfl
  · intro he
    rw [if_pos (by rw [pt_eq_zero_of_coords hg]; exact he)]; rfl

theorem mulBaseGAdd_spec (h : CurveGood c hg C In) {b : Bytes} {Q : c.Pt} (hb : Encodes b Q) (k : Bytes) :
    (beNat k • hg.G + Q ≠ 0 → mulBaseGAdd C b k = .ret (encode64 (enc c (beNat k • hg.G + Q)), false)) ∧
    (beNat k • hg.G + Q = 0 → mulBaseGAdd C b k = .ret ([], true)) := by
  unfold mulBaseGAdd
  rw [sliceTo64 hb.2.1, sliceFrom64 hb.2.1]
  simp only [Go.ret_bind]
  rw [h.ok.baseMul, h.ok.add (h.ok.in_enc _) (h.in_of_encodes hb)]
  constructor
  · intro hne
    rw [if_neg (by rw [pt_eq_zero_of_coords hg]; exact hne)]; rfl
  · intro he
    rw [if_pos (by rw [pt_eq_zero_of_coords hg]; exact he)]; rfl

/-- `Add` tests only the x-coordinate of the sum. -/
theorem addPoints_spec (h : CurveGood c hg C In) {b1 b2 : Bytes} {Q1 Q2 : c.Pt} (hb1 : Encodes b1 Q1)
    (hb2 : Encodes b2 Q2) :
    (xval (Q1 + Q2) ≠ 0 → addPoints C b1 b2 = .ret (encode64 (enc c (Q1 + Q2)), false)) ∧
    (xval (Q1 + Q2) = 0 → addPoints C b1 b2 = .ret ([], true)) := by
  unfold addPoints
  rw [sliceTo64 hb1.2.1, sliceFrom64 hb1.2.1, sliceTo64 hb2.2.1, sliceFrom64 hb2.2.1]
  simp only [Go.ret_bind]
  rw [h.ok.add (h.in_of_encodes hb1) (h.in_of_encodes hb2), enc_eq]
  constructor
  · intro hne
    rw [if_neg (by simp; omega)]; rfl
  · intro he
    rw [if_pos (by simp; omega)]; rfl

theorem encode64_length (h256 : c.p < 2 ^ 256) (Q : c.Pt) : (encode64 (enc c Q)).length = 64 := by
  have hx := xval_lt Q
  have hy := yval_lt Q
  rw [encode64_enc, List.length_append, be32_length (by norm_num; omega), be32_length (by norm_num; omega)]

/-! ### Recovery -/

theorem recoverStep_ret (h : CurveGood c hg C In) (hd : DecGood c rhs) {rb sb hash : Bytes}
    (hrl : rb.length = 32) {pre : UInt8} (hpre : pre = 2 ∨ pre = 3) (ri : Option Int) (s : Int) :
    (ri = none → recoverStep C rhs ri rb sb hash pre s = .panic) ∧
    (∀ w, ri = some w → (recoverStep C rhs ri rb sb hash pre s = .ret none ∨
      ∃ X Y : Int, ∃ k : Int × Int, (X, Y) = C.scalarMult k.1 k.2 (natBytes w.natAbs) ∧
      recoverStep C rhs ri rb sb hash pre s = .ret (some (encode64 (X, Y))) ∧
      verifyesdsa C X Y hash (beNat rb) (beNat sb) = .ret true)) := by
  obtain ⟨y, hy, hy2, hdec⟩ := decompressTail_ok c.p (by have := hd.p4; omega) (if pre = 2 then 0 else 1)
    (by split <;> omega) rb (rhs (beNat rb))
  have hdec' : decompress C.P rhs (pre :: rb) = .ok (0x04 :: rb ++ be32 y) := by
    rw [h.P]
    unfold decompress
    have h1 : ¬ ((pre :: rb).length ≠ 33 ∨ (pre ≠ 0x02 ∧ pre ≠ 0x03)) := by
      simp only [List.length_cons, hrl]
      rcases hpre with rfl | rfl <;> simp
    simp only [h1, if_false]
    exact hdec
  unfold recoverStep
  rw [hdec']
  have hp256 := h.p256
  have hl : (0x04 :: rb ++ be32 y).length = 65 := by
    simp [hrl, be32_length (show y < 256 ^ 32 by norm_num; omega)]
  have s1 : sliceTo (0x04 :: rb ++ be32 y) 33 = .ret ((0x04 :: rb ++ be32 y).take 33) := by
    unfold sliceTo; rw [if_pos (by omega)]
  have s2 : sliceFrom (0x04 :: rb ++ be32 y) 33 = .ret ((0x04 :: rb ++ be32 y).drop 33) := by
    unfold sliceFrom; rw [if_pos (by omega)]
  simp only [s1, s2, Go.ret_bind]
  constructor
  · rintro rfl; rfl
  · rintro w rfl
    simp only [deref, Go.ret_bind]
    generalize C.add _ _ _ _ = k
    obtain ⟨b, hb, -⟩ := verifyesdsa_ret h (C.scalarMult k.1 k.2 (natBytes w.natAbs)).1
      (C.scalarMult k.1 k.2 (natBytes w.natAbs)).2 hash (beNat rb) (beNat sb)
    rw [hb]
    cases b
    · left; rfl
    · right; exact ⟨_, _, k, rfl, rfl, hb⟩

theorem recover_char (h : CurveGood c hg C In) (hd : DecGood c rhs) (sig msg : Bytes) :
    (sig.length = 65 ∧ msg.length = 32 ∧ c.n ∣ beNat (sig.take 32) ∧ recoverPublic C rhs sig msg = .panic) ∨
    (¬ (sig.length = 65 ∧ msg.length = 32 ∧ c.n ∣ beNat (sig.take 32)) ∧
     ((∃ e, recoverPublic C rhs sig msg = .ret (.error e)) ∨
      (sig.length = 65 ∧ msg.length = 32 ∧ ∃ X Y : Int, ∃ (k : Int × Int) (w : Bytes), (X, Y) = C.scalarMult k.1 k.2 w ∧
        recoverPublic C rhs sig msg = .ret (.ok (encode64 (X, Y))) ∧
        verifyesdsa C X Y msg (beNat (sig.take 32)) (beNat ((sig.drop 32).take 32)) = .ret true))) := by
  have hf := h.fact
  by_cases hl : sig.length ≠ 65 ∨ msg.length ≠ 32
  · right
    refine ⟨by omega, .inl ⟨.other, ?_⟩⟩
    unfold recoverPublic; rw [if_pos hl]
  have hrl : (sig.take 32).length = 32 := by simp; omega
  unfold recoverPublic
  rw [if_neg hl]
  dsimp only
  by_cases hdvd : c.n ∣ beNat (sig.take 32)
  · left
    refine ⟨by omega, by omega, hdvd, ?_⟩
    have : modInverse (beNat (sig.take 32)) C.N = none := by
      rw [h.N]
      exact modInverse_none_of_dvd (by have := hg.np.one_lt; omega) (by exact_mod_cast hdvd)
    rw [this, (recoverStep_ret h hd hrl (.inl rfl) none _).1 rfl]; rfl
  · right
    refine ⟨fun hh => hdvd hh.2.2, ?_⟩
    have hne : ((beNat (sig.take 32) : ℕ) : Int) = (((beNat (sig.take 32) : ℕ) : Int)) := rfl
    have hz : (((beNat (sig.take 32) : ℕ) : Int) : ZMod c.n) ≠ 0 := by
      rw [Int.cast_natCast, Ne, ZMod.natCast_eq_zero_iff]; exact hdvd
    obtain ⟨w, hw, -⟩ := modInverse_prime hz
    rw [h.N, hw]
    rcases (recoverStep_ret h hd hrl (pre := 2) (sb := (sig.drop 32).take 32) (hash := msg) (.inl rfl) (some w)
        (if sig.getD 64 0 = 1 then (c.n : Int) - beNat ((sig.drop 32).take 32) else 0)).2 w rfl with h1 | ⟨X, Y, k, hk, h1, hv⟩
    · rw [h1]
      simp only [Go.ret_bind]
      rcases (recoverStep_ret h hd hrl (pre := 3) (sb := (sig.drop 32).take 32) (hash := msg) (.inr rfl) (some w)
        (if sig.getD 64 0 = 0 then (c.n : Int) - beNat ((sig.drop 32).take 32)
          else if sig.getD 64 0 = 1 then (c.n : Int) - beNat ((sig.drop 32).take 32) else 0)).2 w rfl with h1 | ⟨X, Y, k, hk, h1, hv⟩
      · rw [h1]; left; exact ⟨_, rfl⟩
      · rw [h1]; right; exact ⟨by omega, by omega, X, Y, k, _, hk, rfl, hv⟩
    · rw [h1]; right; exact ⟨by omega, by omega, X, Y, k, _, hk, rfl, hv⟩

end generic

end Verif.Api
