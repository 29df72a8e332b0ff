import Verif.Props.Sm2Enc

/-!
# C31–C33: SM2 key agreement through the API
-/

namespace Verif.Props

open Verif.EC Verif.ECDSA Verif.Api WeierstrassCurve
open Verif.SM3 (sm3Sum)

/-! ## The key derivation -/

theorem kaKdfLoop_eq {H : Bytes → Bytes} (hH : SM2.Len32 H) (z : Bytes) (n i bits : ℕ) (key : Bytes)
    (h1 : n = 0 ∨ 256 * (n - 1) < bits) (h2 : bits ≤ 256 * n) (hb : bits < 65536) :
    SM2.kaKdfLoop H z n i bits key = key ++ (((List.range n).map fun j => H (z ++ SM2.be4 (i + j))).flatten).take (bits / 8) := by
  induction n generalizing i bits key with
  | zero => simp [SM2.kaKdfLoop]
  | succ n ih =>
    rw [SM2.kaKdfLoop]
    rw [List.range_succ_eq_map, List.map_cons, List.map_map, List.flatten_cons, List.take_append, hH]
    have hmap : ((List.range n).map ((fun j => H (z ++ SM2.be4 (i + j))) ∘ Nat.succ)) =
        (List.range n).map fun j => H (z ++ SM2.be4 (i + 1 + j)) := by
      apply List.map_congr_left
      intro j _
      simp only [Function.comp, Nat.succ_eq_add_one]
      rw [show i + (j + 1) = i + 1 + j by omega]
    rw [hmap]
    by_cases hge : bits ≥ 256
    · rw [if_pos hge, ih (i + 1) ((bits + 65536 - 256) % 65536) _ (by omega) (by omega) (by omega)]
      have e1 : (bits + 65536 - 256) % 65536 / 8 = bits / 8 - 32 := by omega
      rw [e1, List.append_assoc, List.take_of_length_le (l := H (z ++ SM2.be4 (i + 0))) (by rw [hH]; omega)]
      rfl
    · obtain rfl : n = 0 := by omega
      rw [if_neg hge]
      simp [SM2.kaKdfLoop]

theorem kaKdf_eq {H : Bytes → Bytes} (hH : SM2.Len32 H) (X Y : ℕ) (Zi Zr : Bytes) {len : ℕ} (h : len < 8192) :
    SM2.kaKdf H X Y Zi Zr (8 * len) = SM2.kdfSpec H (be32 X ++ be32 Y ++ Zi ++ Zr) len := by
  unfold SM2.kaKdf SM2.kdfSpec
  have e : (if 8 * len % 256 = 0 then 8 * len / 256 else 8 * len / 256 + 1) = (len + 31) / 32 := by
    split <;> omega
  dsimp only
  rw [e, kaKdfLoop_eq hH _ _ _ _ _ (by omega) (by omega) (by omega)]
  rw [List.nil_append, show 8 * len / 8 = len by omega]
  simp only [Int.natAbs_natCast]
  have : ∀ j, SM2.be4 (1 + j) = [UInt8.ofNat ((j + 1) / 16777216), UInt8.ofNat ((j + 1) / 65536), UInt8.ofNat ((j + 1) / 256),
      UInt8.ofNat (j + 1)] := fun j => by rw [Nat.add_comm]; rfl
  simp only [this]

theorem keylen8 (keylen : UInt16) : (keylen * 8).toNat = 8 * (keylen.toNat % 8192) := by
  rw [UInt16.toNat_mul]
  have : (8 : UInt16).toNat = 8 := rfl
  rw [this]
  omega

/-- the derived key is the standard's KDF, for the requested length reduced modulo 8192. -/
theorem kaKdf_keylen {H : Bytes → Bytes} (hH : SM2.Len32 H) (X Y : ℕ) (Zi Zr : Bytes) (keylen : UInt16) :
    SM2.kaKdf H X Y Zi Zr (keylen * 8).toNat = SM2.kdfSpec H (be32 X ++ be32 Y ++ Zi ++ Zr) (keylen.toNat % 8192) := by
  rw [keylen8, kaKdf_eq hH _ _ _ _ (Nat.mod_lt _ (by norm_num))]

/-! ## The two sides for all runs, without assumptions on the arithmetic -/

theorem gh_run_val {α : Type} (m : SM2.Gh α) : m.run.val = .ret m.val := rfl

theorem kaPoint_val {d r R tmp pub : Bytes} (h : pub.length = 64) :
    ∃ a b : ℕ, (SM2.kaPoint d r R tmp pub).val = .ret ((a : Int), (b : Int)) := by
  unfold SM2.kaPoint
  dsimp only
  generalize SM2.scalarMultGh (beNat (tmp.take 32)) (beNat (tmp.drop 32)) (SM2.xbar tmp) = m
  rw [run_bind_val]
  have e1 : SM2.ofGo (sliceTo pub 32) = ⟨.ret (pub.take 32), false⟩ := by
    unfold sliceTo; rw [if_pos (by omega)]; rfl
  have e2 : SM2.ofGo (sliceFrom pub 32) = ⟨.ret (pub.drop 32), false⟩ := by
    unfold sliceFrom; rw [if_pos (by omega)]; rfl
  rw [e1, SM2.ret_bind_run, e2, SM2.ret_bind_run]
  generalize SM2.addGh _ _ _ _ = m2
  rw [run_bind_val]
  obtain ⟨a, b, hab, -, -⟩ := mult_range m2.val.1 m2.val.2
    (natBytes (((beNat d : Int) + (beNat (SM2.xbar R) : Int) * beNat r) % SM2.N).natAbs)
  exact ⟨a, b, (gh_run_val _).trans (congrArg Go.ret hab)⟩

theorem kaIds_ok {H : Bytes → Bytes} {IDi IDr pubI pubR : Bytes} (hi : SM2.KaIdOk IDi) (hr : SM2.KaIdOk IDr)
    (hpi : pubI.length = 64) (hpr : pubR.length = 64) : ∃ Zi Zr, SM2.kaIds H IDi IDr pubI pubR = .ok (Zi, Zr) := by
  obtain ⟨hi0, hi1⟩ := hi
  obtain ⟨hr0, hr1⟩ := hr
  unfold SM2.kaIds SM2.ZA
  rw [if_neg (by omega), if_neg (by omega), if_neg (by omega), if_neg (by omega)]
  dsimp only
  rw [if_neg (by omega), if_neg (by omega)]
  exact ⟨_, _, rfl⟩

/-- the arguments that the initiator's second step accepts, apart from the check value. -/
structure InitArgs (IDi IDr priI pubI pubR tmpPriI tmpPubI tmpPubR : Bytes) : Prop where
  idI : 0 < IDi.length ∧ IDi.length < 8192
  idR : 0 < IDr.length ∧ IDr.length < 8192
  hpriI : priI.length = 32
  hpubI : pubI.length = 64
  hpubR : pubR.length = 64
  htmpPriI : tmpPriI.length = 32
  htmpPubI : tmpPubI.length = 64
  htmpPubR : tmpPubR.length = 64
  /-- the code's on-curve test passes -/
  on : (SM2.onCurve64 tmpPubR).val = true

theorem kaInitiator2_val {H : Bytes → Bytes} (hH : SM2.Len32 H) {IDi IDr priI pubI pubR tmpPriI tmpPubI tmpPubR : Bytes}
    (h : InitArgs IDi IDr priI pubI pubR tmpPriI tmpPubI tmpPubR) (keylen : UInt16) :
    ∃ key check sout : Bytes, key.length = keylen.toNat % 8192 ∧ check.length = 32 ∧ sout.length = 32 ∧ ∀ Sin,
      (SM2.kaInitiator2 H IDi IDr priI pubI pubR tmpPriI tmpPubI tmpPubR Sin keylen).val =
        .ret (if Sin = check then ⟨key, sout, true⟩ else ⟨key, [], false⟩) := by
  obtain ⟨a, b, hp⟩ := kaPoint_val (d := priI) (r := tmpPriI) (R := tmpPubI) (tmp := tmpPubR) h.hpubR
  obtain ⟨Zi, Zr, hz⟩ := kaIds_ok (H := H) h.idI h.idR h.hpubI h.hpubR
  refine ⟨SM2.kaKdf H a b Zi Zr (keylen * 8).toNat, SM2.kaCheck H 0x02 Zi Zr tmpPubI tmpPubR a b,
    SM2.kaCheck H 0x03 Zi Zr tmpPubI tmpPubR a b, ?_, hH _, hH _, fun Sin => ?_⟩
  · rw [kaKdf_keylen hH, SM2.kdfSpec_length hH]
  have h1 := h.htmpPubR; have h2 := h.htmpPubI; have h3 := h.htmpPriI; have h4 := h.hpriI
  obtain ⟨f, g, he, hf, hg⟩ : ∃ (f : Bool → SM2.Run SM2.KaInit) (g : Int × Int → SM2.Run SM2.KaInit),
      SM2.kaInitiator2 H IDi IDr priI pubI pubR tmpPriI tmpPubI tmpPubR Sin keylen = ((SM2.onCurve64 tmpPubR).run >>= f) ∧
      f true = (SM2.kaPoint priI tmpPriI tmpPubI tmpPubR pubR >>= g) ∧
      (∀ p, g p = (
        if Sin.length ≠ 32 ∨ Sin.length ≠ (SM2.kaCheck H 0x02 Zi Zr tmpPubI tmpPubR p.1 p.2).length then
          pure ⟨SM2.kaKdf H p.1 p.2 Zi Zr (keylen * 8).toNat, [], false⟩ else
        if (SM2.kaCheck H 0x02 Zi Zr tmpPubI tmpPubR p.1 p.2).take 32 ≠ Sin.take 32 then
          pure ⟨SM2.kaKdf H p.1 p.2 Zi Zr (keylen * 8).toNat, [], false⟩ else
        pure ⟨SM2.kaKdf H p.1 p.2 Zi Zr (keylen * 8).toNat, SM2.kaCheck H 0x03 Zi Zr tmpPubI tmpPubR p.1 p.2, true⟩)) :=
    ⟨_, _, if_neg (by omega),
      (if_neg (by simp)).trans ((if_neg (by omega)).trans ((if_neg (by omega)).trans (if_neg (by omega)))),
      fun p => by rw [hz]⟩
  rw [he, run_bind_val, h.on, hf, SM2.Run.bind_val, hp, Go.ret_bind, hg]
  dsimp only
  have hl : (SM2.kaCheck H 0x02 Zi Zr tmpPubI tmpPubR a b).length = 32 := hH _
  generalize SM2.kaCheck H 0x02 Zi Zr tmpPubI tmpPubR a b = ck at hl ⊢
  by_cases hs : Sin.length = 32
  · rw [if_neg (by omega), List.take_of_length_le (by omega), List.take_of_length_le (by omega)]
    by_cases he : Sin = ck
    · rw [if_neg (by rw [he]; simp), if_pos he]; rfl
    · rw [if_pos (fun h => he h.symm), if_neg he]; rfl
  · rw [if_pos (.inl hs), if_neg (fun he => hs (by rw [he]; exact hl))]; rfl

/-- the arguments that the responder's first step accepts; `tmp` is its temporary private key. -/
structure RespArgs (IDi IDr priR pubR pubI tmpPubI tmp : Bytes) : Prop where
  idI : 0 < IDi.length ∧ IDi.length < 8192
  idR : 0 < IDr.length ∧ IDr.length < 8192
  hpriR : priR.length = 32
  hpubI : pubI.length = 64
  hpubR : pubR.length = 64
  htmpPubI : tmpPubI.length = 64
  htmp : tmp.length = 32 ∧ 0 < beNat tmp ∧ beNat tmp < SM2.c.n
  /-- the code's on-curve test passes -/
  on : (SM2.onCurve64 tmpPubI).val = true

theorem kaResponder1_val {H : Bytes → Bytes} (hH : SM2.Len32 H) {IDi IDr priR pubR pubI tmpPubI tmp drawn : Bytes}
    {random : Option Bytes} (h : RespArgs IDi IDr priR pubR pubI tmpPubI tmp) (ht : SM2.kaTmpPri random drawn = some tmp)
    (keylen : UInt16) :
    ∃ key tmpPub sin sout : Bytes, key.length = keylen.toNat % 8192 ∧ tmpPub.length = 64 ∧ sin.length = 32 ∧ sout.length = 32 ∧
      (SM2.kaResponder1 H IDi IDr priR pubR pubI tmpPubI random drawn keylen).val = .ret ⟨key, tmpPub, sin, sout, true⟩ := by
  have hN := SM2.N_eq
  obtain ⟨x, y, hxy, hx, hy⟩ := base_range tmp
  have hg : (SM2.genPublicKeyR tmp).val = .ret (.ok (be32 x ++ be32 y)) := by
    unfold SM2.genPublicKeyR
    have := h.htmp
    dsimp only
    rw [if_neg (by omega), if_neg (by omega), if_neg (by omega), run_bind_val, hxy]
    rfl
  obtain ⟨Zi, Zr, hz⟩ := kaIds_ok (H := H) h.idI h.idR h.hpubI h.hpubR
  obtain ⟨a, b, hp⟩ := kaPoint_val (d := priR) (r := tmp) (R := be32 x ++ be32 y) (tmp := tmpPubI) h.hpubI
  refine ⟨SM2.kaKdf H a b Zi Zr (keylen * 8).toNat, be32 x ++ be32 y, SM2.kaCheck H 0x03 Zi Zr tmpPubI (be32 x ++ be32 y) a b,
    SM2.kaCheck H 0x02 Zi Zr tmpPubI (be32 x ++ be32 y) a b, ?_, ?_, hH _, hH _, ?_⟩
  · rw [kaKdf_keylen hH, SM2.kdfSpec_length hH]
  · rw [List.length_append, be32_len_p hx, be32_len_p hy]
  have h1 := h.htmpPubI; have h2 := h.hpriR
  obtain ⟨f, he, hf⟩ : ∃ (f : Bool → SM2.Run SM2.KaResp),
      SM2.kaResponder1 H IDi IDr priR pubR pubI tmpPubI random drawn keylen = ((SM2.onCurve64 tmpPubI).run >>= f) ∧
      f true = (SM2.genPublicKeyR tmp >>= fun pub => match pub with
        | .error _ => pure ⟨[], [], [], [], false⟩
        | .ok tmpPubR =>
          if priR.length ≠ 32 then pure ⟨[], tmpPubR, [], [], false⟩ else
          SM2.kaPoint priR tmp tmpPubR tmpPubI pubI >>= fun p => match SM2.kaIds H IDi IDr pubI pubR with
          | .error _ => pure ⟨[], tmpPubR, [], [], false⟩
          | .ok (Zi, Zr) => pure ⟨SM2.kaKdf H p.1 p.2 Zi Zr (keylen * 8).toNat, tmpPubR,
              SM2.kaCheck H 0x03 Zi Zr tmpPubI tmpPubR p.1 p.2, SM2.kaCheck H 0x02 Zi Zr tmpPubI tmpPubR p.1 p.2, true⟩) :=
    ⟨_, if_neg (by omega), by rw [if_neg (by simp), ht]; rfl⟩
  rw [he, run_bind_val, h.on, hf, SM2.Run.bind_val, hg, Go.ret_bind]
  dsimp only
  rw [if_neg (by omega), SM2.Run.bind_val, hp, Go.ret_bind, hz]
  rfl

theorem init_api (IDi IDr priI pubI pubR tmpPriI tmpPubI tmpPubR Sin : Bytes) (keylen : UInt16) :
    (SM2.keyAgreementInitiatorStep2 sm3Sum IDi IDr priI pubI pubR tmpPriI tmpPubI tmpPubR Sin keylen SM).val =
      ((SM2.kaInitiator2 sm3Sum IDi IDr priI pubI pubR tmpPriI tmpPubI tmpPubR Sin keylen).val >>= fun r =>
        .ret (r.key, r.sout, if r.ok then SUCCESS else FAILURE)) := by
  unfold SM2.keyAgreementInitiatorStep2
  rw [if_neg (by simp), SM2.Run.bind_val]
  rfl

theorem resp_api (IDi IDr priR pubR pubI tmpPubI : Bytes) (keylen : UInt16) (random : Option Bytes) (drawn : Bytes) :
    (SM2.keyAgreementResponderStep1 sm3Sum IDi IDr priR pubR pubI tmpPubI keylen random drawn SM).val =
      ((SM2.kaResponder1 sm3Sum IDi IDr priR pubR pubI tmpPubI random drawn keylen).val >>= fun r =>
        .ret (r.key, r.tmpPub, r.sinner, r.souter, if r.ok then SUCCESS else FAILURE)) := by
  unfold SM2.keyAgreementResponderStep1
  rw [if_neg (by simp), SM2.Run.bind_val]
  rfl

/-! ## C32 -/

/-- C32 fails for every accepted argument list: there is one check value for which the initiator's second step succeeds, and
for every other value it returns FAILURE together with the same session key, of `keylen mod 8192` bytes. -/
theorem C32_key_always_released {IDi IDr priI pubI pubR tmpPriI tmpPubI tmpPubR : Bytes}
    (h : InitArgs IDi IDr priI pubI pubR tmpPriI tmpPubI tmpPubR) (keylen : UInt16) :
    ∃ key check sout : Bytes, key.length = keylen.toNat % 8192 ∧ check.length = 32 ∧ sout.length = 32 ∧
      (SM2.keyAgreementInitiatorStep2 sm3Sum IDi IDr priI pubI pubR tmpPriI tmpPubI tmpPubR check keylen SM).val =
        .ret (key, sout, SUCCESS) ∧
      ∀ Sin, Sin ≠ check →
        (SM2.keyAgreementInitiatorStep2 sm3Sum IDi IDr priI pubI pubR tmpPriI tmpPubI tmpPubR Sin keylen SM).val =
          .ret (key, [], FAILURE) := by
  obtain ⟨key, check, sout, hk, hc, hs, hv⟩ := kaInitiator2_val len32 h keylen
  refine ⟨key, check, sout, hk, hc, hs, ?_, fun Sin hne => ?_⟩
  · rw [init_api, hv, if_pos rfl]; rfl
  · rw [init_api, hv, if_neg hne]; rfl

/-- the base point as a public key. -/
def gPub : Bytes := be32 SM2.c.gx ++ be32 SM2.c.gy

theorem gPub_on : (SM2.onCurve64 gPub).val = true := by decide +kernel

theorem initArgs_sample : InitArgs [1] [2] sm2Key sm2Pub gPub sm2Key sm2Pub gPub :=
  ⟨by decide, by decide, by decide +kernel, by decide +kernel, by decide +kernel, by decide +kernel, by decide +kernel,
    by decide +kernel, gPub_on⟩

/-- C32 is false: a concrete call with the check value 00 that returns FAILURE and a 16-byte key. -/
theorem C32_false : ∃ key, key.length = 16 ∧
    (SM2.keyAgreementInitiatorStep2 sm3Sum [1] [2] sm2Key sm2Pub gPub sm2Key sm2Pub gPub [0] 16 SM).val =
      .ret (key, [], FAILURE) := by
  obtain ⟨key, check, sout, hk, hc, -, -, hf⟩ := C32_key_always_released initArgs_sample 16
  exact ⟨key, hk, hf [0] (fun h => by rw [← h] at hc; exact absurd hc (by decide))⟩

/-! ## C33 -/

/-- C33 for every run: a key agreed with SUCCESS has `keylen mod 8192` bytes.  (Initiator.) -/
theorem C33_length_initiator {IDi IDr priI pubI pubR tmpPriI tmpPubI tmpPubR Sin key sout : Bytes} {keylen : UInt16}
    (h : InitArgs IDi IDr priI pubI pubR tmpPriI tmpPubI tmpPubR)
    (hv : (SM2.keyAgreementInitiatorStep2 sm3Sum IDi IDr priI pubI pubR tmpPriI tmpPubI tmpPubR Sin keylen SM).val =
      .ret (key, sout, SUCCESS)) : key.length = keylen.toNat % 8192 := by
  obtain ⟨key', check, sout', hk, -, -, hc, hf⟩ := C32_key_always_released h keylen
  by_cases he : Sin = check
  · rw [he, hc] at hv
    injection hv with hv
    injection hv with hv
    rw [← hv, hk]
  · rw [hf Sin he] at hv
    injection hv with hv
    injection hv with hv
    rw [← hv, hk]

/-- (Responder.)  On accepted arguments the responder's first step succeeds with a key of `keylen mod 8192` bytes. -/
theorem C33_length_responder {IDi IDr priR pubR pubI tmpPubI tmp drawn : Bytes} {random : Option Bytes}
    (h : RespArgs IDi IDr priR pubR pubI tmpPubI tmp) (ht : SM2.kaTmpPri random drawn = some tmp) (keylen : UInt16) :
    ∃ key tmpPub sin sout : Bytes, key.length = keylen.toNat % 8192 ∧
      (SM2.keyAgreementResponderStep1 sm3Sum IDi IDr priR pubR pubI tmpPubI keylen random drawn SM).val =
        .ret (key, tmpPub, sin, sout, SUCCESS) := by
  obtain ⟨key, tmpPub, sin, sout, hk, -, -, -, hv⟩ := kaResponder1_val len32 h ht keylen
  refine ⟨key, tmpPub, sin, sout, hk, ?_⟩
  rw [resp_api, hv]; rfl

/-- C33 as far as it holds: below 8192 bytes, the agreed key has the requested length on both sides. -/
theorem C33_length_partial {keylen : UInt16} (hl : keylen.toNat < 8192) :
    (∀ {IDi IDr priI pubI pubR tmpPriI tmpPubI tmpPubR Sin key sout : Bytes},
      InitArgs IDi IDr priI pubI pubR tmpPriI tmpPubI tmpPubR →
      (SM2.keyAgreementInitiatorStep2 sm3Sum IDi IDr priI pubI pubR tmpPriI tmpPubI tmpPubR Sin keylen SM).val =
        .ret (key, sout, SUCCESS) → key.length = keylen.toNat) ∧
    (∀ {IDi IDr priR pubR pubI tmpPubI tmp drawn : Bytes} {random : Option Bytes},
      RespArgs IDi IDr priR pubR pubI tmpPubI tmp → SM2.kaTmpPri random drawn = some tmp →
      ∃ key tmpPub sin sout : Bytes, key.length = keylen.toNat ∧
        (SM2.keyAgreementResponderStep1 sm3Sum IDi IDr priR pubR pubI tmpPubI keylen random drawn SM).val =
          .ret (key, tmpPub, sin, sout, SUCCESS)) := by
  refine ⟨fun h hv => ?_, fun h ht => ?_⟩
  · rw [C33_length_initiator h hv, Nat.mod_eq_of_lt hl]
  · have := C33_length_responder h ht keylen
    rwa [Nat.mod_eq_of_lt hl] at this

theorem respArgs_sample : RespArgs [1] [2] sm2Key sm2Pub gPub gPub sm2Key :=
  ⟨by decide, by decide, by decide +kernel, by decide +kernel, by decide +kernel, by decide +kernel, by decide +kernel, gPub_on⟩

example : (16 : UInt16).toNat < 8192 ∧ SM2.kaTmpPri (some sm2Key) [] = some sm2Key := by decide +kernel

/-- C33 is false: asked for 8192 bytes, the responder reports SUCCESS with an empty key. -/
theorem C33_false : ∃ tmpPub sin sout : Bytes,
    (SM2.keyAgreementResponderStep1 sm3Sum [1] [2] sm2Key sm2Pub gPub gPub 8192 (some sm2Key) [] SM).val =
      .ret ([], tmpPub, sin, sout, SUCCESS) := by
  obtain ⟨key, tmpPub, sin, sout, hk, hv⟩ := C33_length_responder respArgs_sample (random := some sm2Key) (drawn := [])
    (by decide +kernel) 8192
  rw [List.eq_nil_of_length_eq_zero hk] at hv
  exact ⟨tmpPub, sin, sout, hv⟩

/-! ## C31 -/

/-- the point `x̄(R) R + Q` that the peer of the key pair with static public key `Q` and temporary public key `R` computes. -/
noncomputable def peer (Q R : SM2.c.Pt) : SM2.c.Pt := SM2.xbarOf (xval R) • R + Q

/-- the degenerate cases in which the code fails: equal summands (C24), and the sum is infinity. -/
def Degenerate (Q R : SM2.c.Pt) : Prop := SM2.xbarOf (xval R) • R = Q ∨ peer Q R = 0

theorem codeSum_peer {Q R : SM2.c.Pt} (h : ¬ Degenerate Q R) : SM2.codeSum (SM2.xbarOf (xval R) • R) Q = peer Q R ∧
    SM2.codeSum (SM2.xbarOf (xval R) • R) Q ≠ 0 := by
  have e : SM2.codeSum (SM2.xbarOf (xval R) • R) Q = peer Q R := SM2.codeSum_eq (fun h' => absurd (.inl h') h)
  exact ⟨e, by rw [e]; exact fun h0 => h (.inr h0)⟩

theorem step2_self {b : Bytes} (h : b.length = 32) : SM2.keyAgreementResponderStep2 b b SM = SUCCESS := by
  have : SM2.kaResponder2 b b = true := by
    unfold SM2.kaResponder2
    rw [if_neg (by omega), if_neg (by omega)]
    exact beq_self_eq_true b
  unfold SM2.keyAgreementResponderStep2
  rw [if_neg (by simp), this]
  rfl

/-- the responder's second step accepts exactly its own check value. -/
theorem C31_step2_iff (a b : Bytes) : SM2.keyAgreementResponderStep2 a b SM = SUCCESS ↔ a = b ∧ a.length = 32 := by
  constructor
  · intro h
    unfold SM2.keyAgreementResponderStep2 SM2.kaResponder2 at h
    rw [if_neg (by simp)] at h
    split_ifs at h with h1 h2 h3
    all_goals first
      | exact absurd h (by decide)
      | exact absurd ‹False› id
      | exact ⟨by simpa using ‹(a == b) = true›, by omega⟩
  · rintro ⟨rfl, h⟩; exact step2_self h

/-- C31 as far as it holds.  Both parties hold key pairs made with `GenPubkey`, the initiator a temporary key pair, and
the responder uses the temporary private key `tB`.  In runs without field underflow and outside the degenerate cases,
the responder's first step succeeds, the initiator's second step accepts the responder's check value and returns the
same session key, which is the standard's KDF of the standard's shared point, and the responder accepts the
initiator's check value. -/
theorem C31_agreement_partial (E : Env) (hE : Sm2Env E) (IDa IDb dA pA tA rA dB pB tB : Bytes) (keylen : UInt16) (drawn : Bytes)
    (hIa : 0 < IDa.length ∧ IDa.length < 8192) (hIb : 0 < IDb.length ∧ IDb.length < 8192)
    (gA : genPubkey E dA SM = .ret (pA, SUCCESS)) (gB : genPubkey E dB SM = .ret (pB, SUCCESS))
    (gR : genPubkey E tA SM = .ret (rA, SUCCESS)) (hB : tB.length = 32 ∧ 0 < beNat tB ∧ beNat tB < SM2.c.n)
    (cA : (SM2.genPublicKeyR dA).bad = false) (cB : (SM2.genPublicKeyR dB).bad = false)
    (cR : (SM2.genPublicKeyR tA).bad = false)
    (nA : ¬ Degenerate (beNat dA • SM2.good.G) (beNat tA • SM2.good.G))
    (nB : ¬ Degenerate (beNat dB • SM2.good.G) (beNat tB • SM2.good.G))
    (cresp : (SM2.kaResponder1 sm3Sum IDa IDb dB pB pA rA (some tB) drawn keylen).bad = false) :
    ∃ key rB sInner sOuter,
      (SM2.keyAgreementResponderStep1 sm3Sum IDa IDb dB pB pA rA keylen (some tB) drawn SM).val =
        .ret (key, rB, sInner, sOuter, SUCCESS) ∧
      key = (let S := SM2.sharedPoint (beNat dA) (beNat tA) (beNat tA • SM2.good.G) (beNat dB • SM2.good.G) (beNat tB • SM2.good.G)
        SM2.kdfSpec sm3Sum (be32 (xval S) ++ be32 (yval S) ++ SM2.zOf sm3Sum (beNat dA • SM2.good.G) IDa ++
          SM2.zOf sm3Sum (beNat dB • SM2.good.G) IDb) (keylen.toNat % 8192)) ∧
      ((SM2.kaInitiator2 sm3Sum IDa IDb dA pA pB tA rA rB sOuter keylen).bad = false →
        ∃ sA, (SM2.keyAgreementInitiatorStep2 sm3Sum IDa IDb dA pA pB tA rA rB sOuter keylen SM).val = .ret (key, sA, SUCCESS) ∧
          SM2.keyAgreementResponderStep2 sA sInner SM = SUCCESS) := by
  have va (k p : Bytes) (hp : genPubkey E k SM = .ret (p, SUCCESS)) : k.length = 32 ∧ 1 ≤ beNat k ∧ beNat k < SM2.c.n := by
    by_contra hk; rw [(C04_genPubkey_sm2 E hE k).2 hk] at hp; injection hp with h; injection h with _ h; exact absurd h (by decide)
  have eA := (C05_genPubkey_sm2_partial E hE dA pA gA cA).1
  have eB := (C05_genPubkey_sm2_partial E hE dB pB gB cB).1
  have eR := (C05_genPubkey_sm2_partial E hE tA rA gR cR).1
  have cpA := codeSum_peer nA
  have cpB := codeSum_peer nB
  have hr := SM2.kaResponder1_tri (H := sm3Sum) (random := some tB) (drawn := drawn) (tmp := tB) keylen hIa hIb eA eB eR
    (va dB pB gB).1 (by unfold SM2.kaTmpPri; dsimp only; rw [if_neg (by omega)]) cpA.2 hB.1 hB.2.1 hB.2.2 cresp
  dsimp only at hr
  rw [cpA.1] at hr
  have hS : SM2.tSecret (beNat dB) (beNat tB) (beNat tB • SM2.good.G) • peer (beNat dA • SM2.good.G) (beNat tA • SM2.good.G) =
      SM2.sharedPoint (beNat dA) (beNat tA) (beNat tA • SM2.good.G) (beNat dB • SM2.good.G) (beNat tB • SM2.good.G) := by
    unfold SM2.tSecret peer SM2.sharedPoint
    rw [SM2.shared_eq, add_comm (SM2.xbarOf _ • _)]
  rw [hS] at hr
  have hrB : Encodes (c := SM2.c) (encode64 (EC.enc SM2.c (beNat tB • SM2.good.G))) (beNat tB • SM2.good.G) :=
    SM2.encodes_pub (by omega) hB.2.2
  generalize hSd : SM2.sharedPoint (beNat dA) (beNat tA) (beNat tA • SM2.good.G) (beNat dB • SM2.good.G)
    (beNat tB • SM2.good.G) = S at hr ⊢
  refine ⟨_, _, _, _, by rw [resp_api, hr, Go.ret_bind, if_pos rfl], ?_, fun cinit => ?_⟩
  · exact kaKdf_keylen len32 _ _ _ _ _
  · have hi := SM2.kaInitiator2_tri len32 keylen hIa hIb eA eB eR hrB (va dA pA gA).1 (va tA rA gR).1 cpB.2 cinit
    dsimp only at hi
    have hS' : SM2.tSecret (beNat dA) (beNat tA) (beNat tA • SM2.good.G) • peer (beNat dB • SM2.good.G) (beNat tB • SM2.good.G) = S := by
      rw [← hSd]
      unfold SM2.tSecret peer SM2.sharedPoint
      rw [add_comm (SM2.xbarOf _ • _)]
    rw [cpB.1, hS', if_pos rfl] at hi
    refine ⟨_, by rw [init_api, hi, Go.ret_bind, if_pos rfl], ?_⟩
    exact step2_self (len32 _)

theorem not_degenerate_self {R : SM2.c.Pt} (h : R ≠ 0) : ¬ Degenerate R R := by
  have hb : ∀ x, 2 ^ 127 ≤ SM2.xbarOf x ∧ SM2.xbarOf x < 2 ^ 128 := by
    intro x; unfold SM2.xbarOf; have := Nat.mod_lt x (show 0 < 2 ^ 127 by norm_num); omega
  have hn : 2 ^ 128 < SM2.c.n := by decide +kernel
  have := hb (xval R)
  rintro (h1 | h1)
  · have := SM2.smul_inj h (a := SM2.xbarOf (xval R)) (b := 1) (by omega) (by omega) (by rw [h1, one_nsmul])
    omega
  · rw [peer, ← succ_nsmul] at h1
    exact SM2.smul_ne_zero h (by omega) (by omega) h1

/-- keys and points that meet the hypotheses of `C31_agreement_partial` (all four key pairs are that of the key 2).  The flag of the
responder's run is not evaluated here: its two multiplications have 128-bit scalars, too long for the kernel. -/
example : Sm2Env sm2Env ∧ genPubkey sm2Env sm2Key SM = .ret (sm2Pub, SUCCESS) ∧
    (sm2Key.length = 32 ∧ 0 < beNat sm2Key ∧ beNat sm2Key < SM2.c.n) ∧ (SM2.genPublicKeyR sm2Key).bad = false ∧
    ¬ Degenerate (beNat sm2Key • SM2.good.G) (beNat sm2Key • SM2.good.G) :=
  ⟨sm2Env_ok, by rw [genPubkey_sm2 sm2Env_ok, sm2Key_run.2]; rfl, by decide +kernel, sm2Key_run.1,
    not_degenerate_self (SM2.smul_ne_zero SM2.G_ne (by decide +kernel) (by decide +kernel))⟩

end Verif.Props
