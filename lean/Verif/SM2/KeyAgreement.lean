import Verif.SM2.ProtocolLemmas

/-! # SM2 encryption and key agreement in terms of the curve group -/

namespace Verif.SM2

open Verif.EC Verif.ECDSA WeierstrassCurve

/-- the hash has 32-byte outputs. -/
def Len32 (H : Bytes → Bytes) : Prop := ∀ b, (H b).length = 32

/-! ## key derivation -/

theorem kdfLoop_eq {H : Bytes → Bytes} (hH : Len32 H) (z : Bytes) (len : ℕ) (n : ℕ) (hn : n ≤ (len + 31) / 32)
    (acc : Bytes) (hc : acc.length = min (32 * ((len + 31) / 32 - n)) len) :
    kdfLoop H z len ((len + 31) / 32) n acc =
      (acc ++ ((List.range' ((len + 31) / 32 - n) n).map fun i => H (z ++ be4 (i + 1))).flatten).take len := by
  induction n generalizing acc with
  | zero =>
    rw [kdfLoop]
    simp only [List.range'_zero, List.map_nil, List.flatten_nil, List.append_nil]
    rw [List.take_of_length_le (by omega)]
  | succ n ih =>
    rw [kdfLoop]
    have hlt : (len + 31) / 32 - (n + 1) + 1 = (len + 31) / 32 - n := by omega
    rw [List.range'_succ, List.map_cons, List.flatten_cons, ← List.append_assoc]
    rw [hlt]
    have hh := hH (z ++ be4 ((len + 31) / 32 - n))
    split
    · rename_i h
      have hn0 : n = 0 := by omega
      subst hn0
      rw [kdfLoop]
      simp only [List.range'_zero, List.map_nil, List.flatten_nil, List.append_nil]
      rw [List.take_append, List.take_of_length_le (l := acc) (by omega)]
      congr 2
      omega
    · rename_i h
      rw [ih (by omega)]
      rw [List.length_append, hh, hc]
      omega

theorem kdf_fst {H : Bytes → Bytes} (hH : Len32 H) (x y : Bytes) (len : ℕ) :
    (kdf H x y len).1 = kdfSpec H (x ++ y) len := by
  unfold kdf kdfSpec
  dsimp only
  rw [kdfLoop_eq hH _ _ _ le_rfl [] (by simp)]
  rw [Nat.sub_self, ← List.range_eq_range', List.nil_append]
  rfl

theorem flatten_length {H : Bytes → Bytes} (hH : Len32 H) (f : ℕ → Bytes) (l : List ℕ) :
    ((l.map fun i => H (f i)).flatten).length = 32 * l.length := by
  induction l with
  | nil => rfl
  | cons a l ih => rw [List.map_cons, List.flatten_cons, List.length_append, ih, hH, List.length_cons]; omega

theorem kdfSpec_length {H : Bytes → Bytes} (hH : Len32 H) (z : Bytes) (len : ℕ) : (kdfSpec H z len).length = len := by
  unfold kdfSpec
  rw [List.length_take, flatten_length hH, List.length_range]
  omega

theorem kdf_snd {H : Bytes → Bytes} (hH : Len32 H) (x y : Bytes) (len : ℕ) :
    (kdf H x y len).2 = (kdfSpec H (x ++ y) len).any (· ≠ 0) := by
  have h := kdf_fst hH x y len
  unfold kdf at h ⊢
  dsimp only at h ⊢
  rw [h, List.take_of_length_le (by rw [kdfSpec_length hH])]

theorem xor_cancel (a b : Bytes) (h : b.length ≤ a.length) : xorBytes a (xorBytes a b) = b := by
  unfold xorBytes
  induction a generalizing b with
  | nil =>
    have : b = [] := List.length_eq_zero_iff.mp (by simpa using h)
    subst this; rfl
  | cons x a ih =>
    cases b with
    | nil => rfl
    | cons y b =>
      simp only [List.zipWith_cons_cons, List.cons.injEq]
      refine ⟨?_, ih b (by simpa using h)⟩
      rw [← UInt8.xor_assoc, UInt8.xor_self, UInt8.zero_xor]

theorem xor_length (a b : Bytes) : (xorBytes a b).length = min a.length b.length := by
  simp [xorBytes]

/-! ## encryption -/

/-- the 32-byte coordinates of a point. -/
def xB (Q : Pt) : Bytes := be32 (xval Q)
def yB (Q : Pt) : Bytes := be32 (yval Q)

theorem xB_length (Q : Pt) : (xB Q).length = 32 := by
  have e : (2 : ℕ) ^ 256 = 256 ^ 32 := by norm_num
  exact be32_length (by have := xval_lt Q; have := c_p256; omega)

theorem yB_length (Q : Pt) : (yB Q).length = 32 := by
  have e : (2 : ℕ) ^ 256 = 256 ^ 32 := by norm_num
  exact be32_length (by have := yval_lt Q; have := c_p256; omega)

/-- the ciphertext `04 ‖ x1 ‖ y1 ‖ H(x2 ‖ M ‖ y2) ‖ M ⊕ t` of the message for the nonce point `C` and the shared point
`S`. -/
def ciphertext (H : Bytes → Bytes) (C S : Pt) (M : Bytes) : Bytes :=
  0x04 :: (xB C ++ yB C ++ H (xB S ++ M ++ yB S) ++ xorBytes (kdfSpec H (xB S ++ yB S) M.length) M)

/-- outcome of the encryption loop. -/
def EncPost (H : Bytes → Bytes) (Q : Pt) (M : Bytes) (o : Option Bytes) : Prop :=
  ∀ ct, o = some ct → ∃ k, 0 < k ∧ k < c.n ∧ (kdfSpec H (xB (k • Q) ++ yB (k • Q)) M.length).any (· ≠ 0) ∧
    ct = ciphertext H (k • good.G) (k • Q) M

theorem encryptTry_tri {H : Bytes → Bytes} (hH : Len32 H) {X Y : Int} {Q : Pt} (hQ : Q ≠ 0) (h : Rep c X Y Q)
    (M b : Bytes) : (encryptTry H X Y M b).Tri (EncPost H Q M) := by
  unfold encryptTry
  obtain ⟨k, hk, hk0, hkn⟩ := randFieldElement_range b
  dsimp only
  rw [hk]
  refine Tri.bind (scalarBaseMultGh_tri _) fun p1 hp1 => ?_
  refine Tri.bind (scalarMultGh_tri hQ h _) fun p2 hp2 => ?_
  rw [beNat_natAbs, enc_eq] at hp1 hp2
  subst hp1 hp2
  dsimp only
  simp only [Int.natAbs_natCast]
  have e1 : (kdf H (be32 (xval (k • Q))) (be32 (yval (k • Q))) M.length).2 = _ := kdf_snd hH _ _ _
  have e2 : (kdf H (be32 (xval (k • Q))) (be32 (yval (k • Q))) M.length).1 = _ := kdf_fst hH _ _ _
  rw [e1, e2]
  split
  · exact Tri.pure (fun _ h => by cases h)
  rename_i hok
  refine Tri.pure (fun ct hct => ⟨k, hk0, hkn, ?_, ?_⟩)
  · have : (!(kdfSpec H (be32 (xval (k • Q)) ++ be32 (yval (k • Q))) M.length).any (· ≠ 0)) = false := by
      simpa using hok
    rw [Bool.not_eq_false'] at this
    exact this
  · cases hct; rfl

theorem encryptLoop_tri {H : Bytes → Bytes} (hH : Len32 H) {X Y : Int} {Q : Pt} (hQ : Q ≠ 0) (h : Rep c X Y Q)
    (M : Bytes) (rnd : List Bytes) : (encryptLoop H X Y M rnd).Tri (EncPost H Q M) := by
  induction rnd with
  | nil => exact Tri.pure (fun _ h => by cases h)
  | cons b bs ih =>
    rw [encryptLoop]
    refine Tri.bind (encryptTry_tri hH hQ h M b) fun o ho => ?_
    cases o with
    | none => dsimp only; exact ih
    | some ct => dsimp only; exact Tri.pure ho

theorem ciphertext_length {H : Bytes → Bytes} (hH : Len32 H) (C S : Pt) (M : Bytes) :
    (ciphertext H C S M).length = 97 + M.length := by
  have := hH (xB S ++ M ++ yB S)
  simp only [ciphertext, List.length_cons, List.length_append, xB_length, yB_length, xor_length,
    kdfSpec_length hH, this, min_self]
  omega

/-- what `sm2_std_decrypt` does on a well-formed ciphertext with the nonce point `C`, tag `tag` and masked message `body`. -/
theorem decryptCore_tri {H : Bytes → Bytes} (hH : Len32 H) (d : ℕ) {C : Pt} (hC : C ≠ 0) (b0 : UInt8) (tag body : Bytes)
    (ht : tag.length = 32) :
    (decryptCore H d (b0 :: (xB C ++ yB C ++ tag ++ body))).Tri (fun g =>
      let S := d • C
      let t := kdfSpec H (xB S ++ yB S) body.length
      g = .ret (if t.any (· ≠ 0) then
        (if H (xB S ++ xorBytes t body ++ yB S) = tag then (.ok (xorBytes t body), xorBytes t body)
         else (.error .other, xorBytes t body)) else (.error .other, []))) := by
  have hx := xB_length C
  have hy := yB_length C
  unfold decryptCore
  set data := xB C ++ yB C ++ tag ++ body with hdata
  have hlen : data.length = 96 + body.length := by
    rw [hdata]; simp only [List.length_append, hx, hy, ht]
  have hrest : (b0 :: data).drop 1 = data := rfl
  refine RTri.bind (Q := fun g => g = .ret data) (RTri.ofGo ?_) (fun a ha => ?_) (fun h => by cases h)
  · unfold sliceFrom; rw [if_pos (by simp), hrest]
  cases ha
  refine RTri.bind (Q := fun g => g = .ret (xB C)) (RTri.ofGo ?_) (fun a ha => ?_) (fun h => by cases h)
  · unfold sliceTo
    rw [if_pos (by omega), hdata, List.append_assoc, List.append_assoc, List.take_append_of_le_length (by omega),
      List.take_of_length_le (by omega)]
  cases ha
  refine RTri.bind (Q := fun g => g = .ret (xB C ++ yB C)) (RTri.ofGo ?_) (fun a ha => ?_) (fun h => by cases h)
  · unfold sliceTo
    rw [if_pos (by omega), hdata, List.append_assoc, List.take_append_of_le_length (by simp [hx, hy]),
      List.take_of_length_le (by simp [hx, hy])]
  cases ha
  dsimp only
  have e1 : beNat (xB C) = xval C := by simp [xB]
  have e2 : beNat ((xB C ++ yB C).drop 32) = yval C := by
    rw [List.drop_append_of_le_length (by omega), List.drop_of_length_le (by omega), List.nil_append]; simp [yB]
  rw [e1, e2]
  have hrep := rep_enc C
  rw [enc_eq] at hrep
  refine RTri.gbind (scalarMultGh_tri hC hrep _) fun p2 hp2 => ?_
  rw [beNat_natAbs, enc_eq] at hp2
  subst hp2
  dsimp only
  simp only [Int.natAbs_natCast]
  have e3 : data.length - 96 = body.length := by omega
  have e4 : data.drop 96 = body := by
    rw [hdata, List.drop_append_of_le_length (by simp [hx, hy, ht]), List.drop_of_length_le (by simp [hx, hy, ht]),
      List.nil_append]
  have e5 : (data.drop 64).take 32 = tag := by
    rw [hdata, List.append_assoc, List.drop_append_of_le_length (by simp [hx, hy]),
      List.drop_of_length_le (by simp [hx, hy]), List.nil_append, List.take_append_of_le_length (by omega),
      List.take_of_length_le (by omega)]
  rw [e3, e4, e5]
  rw [kdf_fst hH, kdf_snd hH]
  show Run.Tri _ _
  rw [show be32 (xval (d • C)) = xB (d • C) from rfl, show be32 (yval (d • C)) = yB (d • C) from rfl]
  by_cases hany : (kdfSpec H (xB (d • C) ++ yB (d • C)) body.length).any (· ≠ 0) = true
  · rw [hany]
    simp only [Bool.not_true, Bool.false_eq_true, if_false, if_true]
    by_cases htag : H (xB (d • C) ++ xorBytes (kdfSpec H (xB (d • C) ++ yB (d • C)) body.length) body ++ yB (d • C)) = tag
    · rw [if_neg (by simpa using htag), if_pos htag]; exact RTri.pure rfl
    · rw [if_pos (by simpa using htag), if_neg htag]; exact RTri.pure rfl
  · rw [Bool.not_eq_true] at hany
    rw [hany]
    simp only [Bool.not_false, if_true]
    exact RTri.pure rfl

/-! ## key agreement -/

/-- outcome of `genPublicKey`. -/
structure PubPost (key : Bytes) (g : Go (Except Err Bytes)) : Prop where
  pan : g ≠ .panic
  ok : ∀ pub, g = .ret (.ok pub) → key.length = 32 ∧ 0 < beNat key ∧ beNat key < c.n ∧
    pub = encode64 (enc c (beNat key • good.G)) ∧ Encodes pub (beNat key • good.G)
  err : ∀ e, g = .ret (.error e) → e = .privateKeyIllegal ∧ ¬ (key.length = 32 ∧ 0 < beNat key ∧ beNat key < c.n)

theorem PubPost.error {key : Bytes} (h : ¬ (key.length = 32 ∧ 0 < beNat key ∧ beNat key < c.n)) :
    PubPost key (.ret (.error .privateKeyIllegal)) :=
  ⟨by simp, fun _ h' => (nomatch h'), fun e h' => by cases h'; exact ⟨rfl, h⟩⟩

theorem genPublicKeyR_tri (key : Bytes) : (genPublicKeyR key).Tri (PubPost key) := by
  unfold genPublicKeyR
  have hN := N_eq
  split
  · rename_i h; exact RTri.pure (.error fun h' => h h'.1)
  dsimp only
  split
  · rename_i h; exact RTri.pure (.error fun h' => by omega)
  split
  · rename_i h; exact RTri.pure (.error fun h' => by omega)
  refine RTri.gbind (scalarBaseMultGh_tri _) fun p hp => ?_
  subst hp
  refine RTri.pure ⟨by simp, fun pub h => ?_, fun _ h' => (nomatch h')⟩
  rw [Go.ret.injEq, Except.ok.injEq] at h
  subst h
  exact ⟨by omega, by omega, by omega, rfl, encodes_pub (by omega) (by omega)⟩

theorem or128 : ∀ n : Fin 256, n.val ||| 128 = 128 + n.val % 128 := by decide +kernel

theorem or_top (b : UInt8) : (b ||| 0x80).toNat = 128 + b.toNat % 128 := by
  have := or128 ⟨b.toNat, b.toNat_lt⟩
  rw [UInt8.toNat_or]
  exact this

theorem beNat_xbar {R : Bytes} (hl : R.length = 64) : beNat (xbar R) = xbarOf (beNat (R.take 32)) := by
  have h1 : R.take 32 = R.take 16 ++ (R.drop 16).take 16 := by
    rw [← List.take_add]
  have hm : ((R.drop 16).take 16).length = 16 := by simp [hl]
  unfold xbar xbarOf
  rw [h1, beNat_append, hm]
  cases hb : (R.drop 16).take 16 with
  | nil => rw [hb] at hm; cases hm
  | cons b bs =>
    rw [hb] at hm
    have hbs : bs.length = 15 := by simpa using hm
    have hlt := beNat_lt bs
    rw [hbs] at hlt
    dsimp only
    rw [beNat_cons, beNat_cons, or_top, hbs]
    have e1 : (256 : ℕ) ^ 15 = 2 ^ 120 := by norm_num
    have e2 : (256 : ℕ) ^ 16 = 2 ^ 128 := by norm_num
    rw [e1, e2] at *
    norm_num at hlt ⊢
    omega

/-- the secret exponent of one side. -/
def tSecret (d r : ℕ) (R : Pt) : ℕ := d + xbarOf (xval R) * r

theorem kaPoint_tri {d r Rb tmpPub pub : Bytes} {R R' Q' : Pt} (hR : Encodes Rb R) (hR' : Encodes tmpPub R')
    (hQ' : Encodes pub Q') (h0 : codeSum (xbarOf (xval R') • R') Q' ≠ 0) :
    (kaPoint d r Rb tmpPub pub).Tri (fun g =>
      g = .ret (enc c (tSecret (beNat d) (beNat r) R • codeSum (xbarOf (xval R') • R') Q'))) := by
  unfold kaPoint
  have hN := N_eq
  dsimp only
  refine RTri.gbind (scalarMultGh_tri hR'.1 (rep_of_encodes hR') _) fun p1 hp1 => ?_
  rw [beNat_xbar hR'.2.1, hR'.2.2.1] at hp1
  subst hp1
  have hl := hQ'.2.1
  refine RTri.bind (Q := fun g => g = .ret (pub.take 32)) (RTri.ofGo ?_) (fun a ha => ?_) (fun h => by cases h)
  · unfold sliceTo; rw [if_pos (by omega)]
  cases ha
  refine RTri.bind (Q := fun g => g = .ret (pub.drop 32)) (RTri.ofGo ?_) (fun a ha => ?_) (fun h => by cases h)
  · unfold sliceFrom; rw [if_pos (by omega)]
  cases ha
  refine RTri.gbind (addGh_code (rep_enc _) (rep_of_encodes hQ')) fun p hp => ?_
  subst hp
  refine RTri.mono (RTri.run (scalarMultGh_tri h0 (rep_enc _) _)) ?_
  rintro g ⟨a, rfl, rfl⟩
  rw [beNat_xbar hR.2.1, hR.2.2.1]
  have : ((beNat d : Int) + (xbarOf (xval R) : Int) * (beNat r : Int)) % N =
      ((tSecret (beNat d) (beNat r) R % c.n : ℕ) : Int) := by
    rw [hN]; unfold tSecret; push_cast; rfl
  rw [this, beNat_natAbs, mod_smul]

theorem onCurve64_tri {b : Bytes} {Q : Pt} (h : Encodes b Q) : (onCurve64 b).Tri (· = true) := by
  unfold onCurve64
  refine Tri.mono (isOnCurve_tri _ _) fun r hr => ?_
  rw [hr]
  have hrep := rep_of_encodes h
  have hQ := h.1
  generalize ((beNat (b.take 32) : ℕ) : Int) = X at *
  generalize ((beNat (b.drop 32) : ℕ) : Int) = Y at *
  cases Q with
  | zero => exact absurd rfl hQ
  | some x y hn =>
    obtain ⟨h1, h2⟩ := hrep
    rw [h1, h2]
    exact (W_equation x y).mp hn.1

/-- the identities are accepted. -/
def KaIdOk (ID : Bytes) : Prop := 0 < ID.length ∧ ID.length < 8192

theorem kaIds_eq {H : Bytes → Bytes} {IDi IDr pubI pubR : Bytes} {Qi Qr : Pt} (hi : KaIdOk IDi) (hr : KaIdOk IDr)
    (hQi : Encodes pubI Qi) (hQr : Encodes pubR Qr) :
    kaIds H IDi IDr pubI pubR = .ok (zOf H Qi IDi, zOf H Qr IDr) := by
  obtain ⟨hi0, hi1⟩ := hi
  obtain ⟨hr0, hr1⟩ := hr
  unfold kaIds
  rw [if_neg (by simp [hQi.2.1]), if_neg (by simp [hQr.2.1]), if_neg (by omega), hQi.2.2.1, hQi.2.2.2, ZA_eq,
    if_neg (by omega)]
  dsimp only
  rw [if_neg (by omega), hQr.2.2.1, hQr.2.2.2, ZA_eq, if_neg (by omega)]

/-- the key both sides derive from the shared point. -/
def kaKey (H : Bytes → Bytes) (S : Pt) (Zi Zr : Bytes) (keylen : UInt16) : Bytes :=
  kaKdf H (xval S) (yval S) Zi Zr (keylen * 8).toNat

/-- GM/T 0003.3: the check value `H(tag ‖ y ‖ H(x ‖ Zi ‖ Zr ‖ Ri ‖ Rr))`. -/
def checkOf (H : Bytes → Bytes) (tag : UInt8) (S : Pt) (Zi Zr Ri Rr : Bytes) : Bytes :=
  H (tag :: (yB S ++ H (xB S ++ Zi ++ Zr ++ Ri ++ Rr)))

theorem kaCheck_eq (H : Bytes → Bytes) (tag : UInt8) (S : Pt) (Zi Zr Ri Rr : Bytes) :
    kaCheck H tag Zi Zr Ri Rr (xval S) (yval S) = checkOf H tag S Zi Zr Ri Rr := rfl

/-- the responder's first step on valid arguments. -/
theorem kaResponder1_tri {H : Bytes → Bytes} {IDi IDr priR pubR pubI tmpPubI : Bytes} {Qi Qr Ri : Pt}
    {random : Option Bytes} {drawn tmp : Bytes} (keylen : UInt16)
    (hi : KaIdOk IDi) (hr : KaIdOk IDr) (hQi : Encodes pubI Qi) (hQr : Encodes pubR Qr) (hRi : Encodes tmpPubI Ri)
    (hp : priR.length = 32) (htmp : kaTmpPri random drawn = some tmp)
    (h0 : codeSum (xbarOf (xval Ri) • Ri) Qi ≠ 0) (hl : tmp.length = 32) (hb0 : 0 < beNat tmp) (hbn : beNat tmp < c.n) :
    (kaResponder1 H IDi IDr priR pubR pubI tmpPubI random drawn keylen).Tri (fun g =>
      let Rr := beNat tmp • good.G
      let S := tSecret (beNat priR) (beNat tmp) Rr • codeSum (xbarOf (xval Ri) • Ri) Qi
      let Zi := zOf H Qi IDi
      let Zr := zOf H Qr IDr
      let Rb := encode64 (enc c Rr)
      g = .ret ⟨kaKey H S Zi Zr keylen, Rb, checkOf H 3 S Zi Zr tmpPubI Rb, checkOf H 2 S Zi Zr tmpPubI Rb, true⟩) := by
  unfold kaResponder1
  rw [if_neg (by simp [hRi.2.1])]
  refine RTri.gbind (onCurve64_tri hRi) fun on hon => ?_
  subst hon
  rw [if_neg (by simp), htmp]
  dsimp only
  refine RTri.bind (genPublicKeyR_tri tmp) (fun pub hpub => ?_) (fun h => absurd rfl h.pan)
  cases pub with
  | error e => exact absurd ⟨hl, hb0, hbn⟩ (hpub.err e rfl).2
  | ok pub =>
    obtain ⟨-, -, -, he, hE⟩ := hpub.ok pub rfl
    dsimp only
    rw [if_neg (by simp [hp])]
    refine RTri.bind (kaPoint_tri hE hRi hQi h0) (fun p hp => ?_) (fun h => by cases h)
    rw [Go.ret.injEq] at hp
    rw [enc_eq] at hp
    subst hp
    rw [kaIds_eq hi hr hQi hQr]
    dsimp only
    rw [kaCheck_eq, kaCheck_eq, he]
    exact RTri.pure rfl

/-- the initiator's second step on valid arguments. -/
theorem kaInitiator2_tri {H : Bytes → Bytes} (hH : Len32 H)
    {IDi IDr priI pubI pubR tmpPriI tmpPubI tmpPubR Sin : Bytes} {Qi Qr Ri Rr : Pt}
    (keylen : UInt16) (hi : KaIdOk IDi) (hr : KaIdOk IDr) (hQi : Encodes pubI Qi) (hQr : Encodes pubR Qr)
    (hRi : Encodes tmpPubI Ri) (hRr : Encodes tmpPubR Rr)
    (hp : priI.length = 32) (ht : tmpPriI.length = 32) (h0 : codeSum (xbarOf (xval Rr) • Rr) Qr ≠ 0) :
    (kaInitiator2 H IDi IDr priI pubI pubR tmpPriI tmpPubI tmpPubR Sin keylen).Tri (fun g =>
      let S := tSecret (beNat priI) (beNat tmpPriI) Ri • codeSum (xbarOf (xval Rr) • Rr) Qr
      let Zi := zOf H Qi IDi
      let Zr := zOf H Qr IDr
      g = .ret (if Sin = checkOf H 2 S Zi Zr tmpPubI tmpPubR then
        ⟨kaKey H S Zi Zr keylen, checkOf H 3 S Zi Zr tmpPubI tmpPubR, true⟩
        else ⟨kaKey H S Zi Zr keylen, [], false⟩)) := by
  unfold kaInitiator2
  rw [if_neg (by simp [hRr.2.1])]
  refine RTri.gbind (onCurve64_tri hRr) fun on hon => ?_
  subst hon
  rw [if_neg (by simp), if_neg (by simp [hRi.2.1]), if_neg (by simp [ht]), if_neg (by simp [hp])]
  refine RTri.bind (kaPoint_tri hRi hRr hQr h0) (fun p hp => ?_) (fun h => by cases h)
  rw [Go.ret.injEq] at hp
  rw [enc_eq] at hp
  subst hp
  rw [kaIds_eq hi hr hQi hQr]
  dsimp only
  rw [kaCheck_eq, kaCheck_eq]
  have hlen : ∀ (tag : UInt8) (S : Pt) (a b c d : Bytes), (checkOf H tag S a b c d).length = 32 := fun _ _ _ _ _ _ => hH _
  rw [hlen]
  split
  · rename_i h
    have h' : Sin.length ≠ 32 := by omega
    rw [if_neg (fun he => h' (by rw [he]; exact hlen _ _ _ _ _ _))]
    exact RTri.pure rfl
  · rename_i h
    rw [List.take_of_length_le (by rw [hlen]), List.take_of_length_le (by omega)]
    split
    · rename_i h'
      rw [if_neg (fun he => h' he.symm)]
      exact RTri.pure rfl
    · rename_i h'
      rw [if_pos (by rw [not_not] at h'; exact h'.symm)]
      exact RTri.pure rfl

/-- both sides compute the same point. -/
theorem shared_eq (dA rA dB rB xa xb : ℕ) :
    (dA + xa * rA) • (dB • good.G + xb • (rB • good.G)) = (dB + xb * rB) • (dA • good.G + xa • (rA • good.G)) := by
  simp only [← mul_nsmul', ← add_nsmul]
  congr 1
  ring

end Verif.SM2
