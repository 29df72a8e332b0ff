import Verif.Props.Sm2Recover

/-!
# C29, C30: SM2 encryption and decryption through the API
-/

namespace Verif.Props

open Verif.EC Verif.ECDSA Verif.Api WeierstrassCurve
open Verif.SM3 (sm3Sum)

/-- the return values of `Encryption` for a result of the backend. -/
def encCode : Except Err Bytes → Bytes × Nat
  | .ok b => (b, SUCCESS)
  | .error .publicKeyIllegal => ([], ECC_PUBKEY_ILLEGAL)
  | .error .messageIllegal => ([], MESSAGE_ILLEGAL)
  | .error .unknownCurve => ([], ECC_WRONG_TYPE)
  | .error _ => ([], SUCCESS)

/-- the return values of `Decryption` for a result of the backend. -/
def decCode : Except Err Bytes × Bytes → Bytes × Nat
  | (.ok b, _) => (b, SUCCESS)
  | (.error .privateKeyIllegal, _) => ([], ECC_PRIKEY_ILLEGAL)
  | (.error .messageIllegal, _) => ([], MESSAGE_ILLEGAL)
  | (.error .unknownCurve, _) => ([], ECC_WRONG_TYPE)
  | (.error _, plain) => (plain, SUCCESS)

theorem encryption_sm2 {E : Env} (hE : Sm2Env E) (pub m : Bytes) (rnd : List Bytes) :
    encryption E pub m SM rnd = (SM2.encryptR sm3Sum pub m rnd).val.map fun r => .ret (encCode r) := by
  unfold encryption
  rw [if_pos rfl, hE]
  have e : (SM2.backend sm3Sum).encrypt pub m rnd = (SM2.encryptR sm3Sum pub m rnd).val.map .ret := rfl
  rw [e]
  generalize (SM2.encryptR sm3Sum pub m rnd).val = o
  cases o with
  | none => rfl
  | some r =>
    cases r with
    | ok b => rfl
    | error e => cases e <;> rfl

theorem decryption_sm2 {E : Env} (hE : Sm2Env E) (key ct : Bytes) :
    decryption E key ct SM = ((SM2.decryptR sm3Sum key ct).val >>= fun r => .ret (decCode r)) := by
  unfold decryption
  rw [if_pos rfl, hE]
  have e : (SM2.backend sm3Sum).decrypt key ct = (SM2.decryptR sm3Sum key ct).val := rfl
  rw [e]
  generalize (SM2.decryptR sm3Sum key ct).val = g
  match g with
  | .panic => rfl
  | .ret (.ok b, p) => rfl
  | .ret (.error e, p) => cases e <;> rfl

/-! ## The shape of the ciphertext, for all runs -/

theorem base_range (k : Bytes) : ∃ a b : ℕ, (SM2.scalarBaseMultGh k).val = ((a : Int), (b : Int)) ∧ a < SM2.c.p ∧ b < SM2.c.p := by
  unfold SM2.scalarBaseMultGh
  rw [gh_bind_val]
  exact toAffine_range _

theorem mult_range (x y : Int) (k : Bytes) : ∃ a b : ℕ, (SM2.scalarMultGh x y k).val = ((a : Int), (b : Int)) ∧
    a < SM2.c.p ∧ b < SM2.c.p := scalarMult_range x y k

/-- `encryptTry` with its results of the curve arithmetic. -/
theorem encryptTry_val (H : Bytes → Bytes) (X Y : Int) (m b : Bytes) : ∃ x1 y1 x2 y2 : ℕ,
    (SM2.scalarBaseMultGh (natBytes (randFieldElement SM2.N b).natAbs)).val = ((x1 : Int), (y1 : Int)) ∧
    (SM2.scalarMultGh X Y (natBytes (randFieldElement SM2.N b).natAbs)).val = ((x2 : Int), (y2 : Int)) ∧
    x1 < SM2.c.p ∧ y1 < SM2.c.p ∧
    (SM2.encryptTry H X Y m b).val = if !(SM2.kdf H (be32 x2) (be32 y2) m.length).2 then none else
      some (0x04 :: (be32 x1 ++ be32 y1 ++ H (be32 x2 ++ m ++ be32 y2) ++
        SM2.xorBytes (SM2.kdf H (be32 x2) (be32 y2) m.length).1 m)) := by
  obtain ⟨x1, y1, h1, hx, hy⟩ := base_range (natBytes (randFieldElement SM2.N b).natAbs)
  obtain ⟨x2, y2, h2, -, -⟩ := mult_range X Y (natBytes (randFieldElement SM2.N b).natAbs)
  refine ⟨x1, y1, x2, y2, h1, h2, hx, hy, ?_⟩
  unfold SM2.encryptTry
  dsimp only
  rw [gh_bind_val, h1, gh_bind_val, h2]
  dsimp only
  simp only [Int.natAbs_natCast]
  split <;> rfl

theorem encryptLoop_cons (H : Bytes → Bytes) (X Y : Int) (m b : Bytes) (bs : List Bytes) :
    (SM2.encryptLoop H X Y m (b :: bs)).val = match (SM2.encryptTry H X Y m b).val with
      | some c => some c
      | none => (SM2.encryptLoop H X Y m bs).val := by
  rw [SM2.encryptLoop, gh_bind_val]
  generalize (SM2.encryptTry H X Y m b).val = o
  cases o <;> rfl

theorem be32_len_p {a : ℕ} (h : a < SM2.c.p) : (be32 a).length = 32 := by
  have e : (2 : ℕ) ^ 256 = 256 ^ 32 := by norm_num
  have := SM2.c_p256
  exact be32_length (by omega)

theorem encryptLoop_shape {H : Bytes → Bytes} (hH : SM2.Len32 H) (X Y : Int) (m ct : Bytes) (rnd : List Bytes)
    (h : (SM2.encryptLoop H X Y m rnd).val = some ct) : ct.length = 97 + m.length ∧ ct.head? = some 0x04 := by
  induction rnd with
  | nil => exact nomatch h
  | cons b bs ih =>
    rw [encryptLoop_cons] at h
    obtain ⟨x1, y1, x2, y2, -, -, hx, hy, he⟩ := encryptTry_val H X Y m b
    rw [he] at h
    split at h
    · rename_i o c hc
      split at hc
      · exact nomatch hc
      · injection h with h
        injection hc with hc
        rw [← h, ← hc]
        refine ⟨?_, rfl⟩
        have hk : (SM2.kdf H (be32 x2) (be32 y2) m.length).1.length = m.length := by
          rw [SM2.kdf_fst hH, SM2.kdfSpec_length hH]
        simp only [List.length_cons, List.length_append, be32_len_p hx, be32_len_p hy, hH _, SM2.xor_length, hk, min_self]
        omega
    · exact ih h

/-- `encrypt` after its argument checks. -/
theorem encryptR_val (H : Bytes → Bytes) (pub m : Bytes) (rnd : List Bytes) :
    (SM2.encryptR H pub m rnd).val = if pub.length ≠ 64 then some (.error .publicKeyIllegal) else
      if m.length = 0 then some (.error .messageIllegal) else
      (SM2.encryptLoop H (beNat (pub.take 32)) (beNat (pub.drop 32)) m rnd).val.map .ok := by
  unfold SM2.encryptR
  split
  · rfl
  split
  · rfl
  rw [gh_bind_val]
  rfl

/-- C29, the shape, for all keys, messages and random streams: a ciphertext has `97 + len(m)` bytes and begins with 04;
the two argument errors are exactly a public key that is not 64 bytes long and an empty message. -/
theorem C29_ciphertext_shape (E : Env) (hE : Sm2Env E) (pub m : Bytes) (rnd : List Bytes) :
    (∀ ct, encryption E pub m SM rnd = some (.ret (ct, SUCCESS)) → pub.length = 64 ∧ 0 < m.length ∧
      ct.length = 97 + m.length ∧ ct.head? = some 0x04) ∧
    (pub.length ≠ 64 → encryption E pub m SM rnd = some (.ret ([], ECC_PUBKEY_ILLEGAL))) ∧
    (pub.length = 64 → m.length = 0 → encryption E pub m SM rnd = some (.ret ([], MESSAGE_ILLEGAL))) ∧
    encryption E pub m SM rnd ≠ some .panic := by
  rw [encryption_sm2 hE, encryptR_val]
  refine ⟨fun ct h => ?_, fun h => by rw [if_pos h]; rfl, fun h h0 => by rw [if_neg (by omega), if_pos h0]; rfl, ?_⟩
  · split at h
    · simp only [Option.map_some, Option.some.injEq, Go.ret.injEq, encCode] at h
      simp only [Prod.mk.injEq] at h
      exact absurd h.2 (by decide)
    split at h
    · simp only [Option.map_some, Option.some.injEq, Go.ret.injEq, encCode] at h
      simp only [Prod.mk.injEq] at h
      exact absurd h.2 (by decide)
    rename_i h1 h2
    generalize ho : (SM2.encryptLoop sm3Sum (beNat (pub.take 32)) (beNat (pub.drop 32)) m rnd).val = o at h
    cases o with
    | none => exact nomatch h
    | some c =>
      simp only [Option.map_some, Option.some.injEq, Go.ret.injEq, encCode, Prod.mk.injEq] at h
      obtain ⟨rfl, -⟩ := h
      exact ⟨by omega, by omega, encryptLoop_shape len32 _ _ m c rnd ho⟩
  · generalize (if pub.length ≠ 64 then _ else _ : Option (Except Err Bytes)) = o
    cases o <;> exact fun h => nomatch h

/-! ## C29: the round trip -/

theorem encryptR_tri {H : Bytes → Bytes} (hH : SM2.Len32 H) {pub : Bytes} {Q : SM2.c.Pt} (hQ : Encodes pub Q) (m : Bytes)
    (rnd : List Bytes) : (SM2.encryptR H pub m rnd).Tri (fun o => ∀ ct, o = some (.ok ct) → 0 < m.length ∧
      ∃ k, 0 < k ∧ k < SM2.c.n ∧ (SM2.kdfSpec H (SM2.xB (k • Q) ++ SM2.yB (k • Q)) m.length).any (· ≠ 0) ∧
        ct = SM2.ciphertext H (k • SM2.good.G) (k • Q) m) := by
  unfold SM2.encryptR
  rw [if_neg (by simp [hQ.2.1])]
  split
  · exact SM2.Tri.pure (fun _ h => nomatch h)
  rename_i hm
  refine SM2.Tri.bind (SM2.encryptLoop_tri hH hQ.1 (SM2.rep_of_encodes hQ) m rnd) fun o ho => SM2.Tri.pure ?_
  intro ct hct
  cases o with
  | none => exact nomatch hct
  | some c =>
    injection hct with hct
    injection hct with hct
    subst hct
    exact ⟨by omega, ho c rfl⟩

theorem decryptR_tri {H : Bytes → Bytes} (hH : SM2.Len32 H) {key : Bytes} (hl : key.length = 32) (hn : beNat key < SM2.c.n)
    {C : SM2.c.Pt} (hC : C ≠ 0) (b0 : UInt8) (tag body : Bytes) (ht : tag.length = 32) :
    (SM2.decryptR H key (b0 :: (SM2.xB C ++ SM2.yB C ++ tag ++ body))).Tri (fun g =>
      let S := beNat key • C
      let t := SM2.kdfSpec H (SM2.xB S ++ SM2.yB S) body.length
      g = .ret (if t.any (· ≠ 0) then
        (if H (SM2.xB S ++ SM2.xorBytes t body ++ SM2.yB S) = tag then (.ok (SM2.xorBytes t body), SM2.xorBytes t body)
         else (.error .other, SM2.xorBytes t body)) else (.error .other, []))) := by
  have hN := SM2.N_eq
  unfold SM2.decryptR
  rw [if_neg (by simp [hl]), if_neg (by simp)]
  dsimp only
  rw [if_neg (by omega)]
  refine SM2.RTri.gbind (SM2.scalarBaseMultGh_tri key) fun _ _ => ?_
  exact SM2.decryptCore_tri hH (beNat key) hC b0 tag body ht

theorem smul_pt_ne_zero {k d : ℕ} (hk : 0 < k) (hkn : k < SM2.c.n) (hd : 0 < d) (hdn : d < SM2.c.n) :
    k • (d • SM2.good.G) ≠ 0 :=
  SM2.smul_ne_zero (SM2.smul_ne_zero SM2.G_ne hd.ne' hdn) hk.ne' hkn

/-- C29 as far as it holds: in runs without field underflow, decryption of an encryption under `GenPubkey(d)` with `d`
returns the message, for every message and random stream. -/
theorem C29_encrypt_decrypt_partial (E : Env) (hE : Sm2Env E) (key pub m ct : Bytes) (rnd : List Bytes)
    (hp : genPubkey E key SM = .ret (pub, SUCCESS)) (he : encryption E pub m SM rnd = some (.ret (ct, SUCCESS)))
    (cp : (SM2.genPublicKeyR key).bad = false) (ce : (SM2.encryptR sm3Sum pub m rnd).bad = false)
    (cd : (SM2.decryptR sm3Sum key ct).bad = false) :
    decryption E key ct SM = .ret (m, SUCCESS) := by
  have va : key.length = 32 ∧ 1 ≤ beNat key ∧ beNat key < SM2.c.n := by
    by_contra hk; rw [(C04_genPubkey_sm2 E hE key).2 hk] at hp; injection hp with h; injection h with _ h; exact absurd h (by decide)
  have eP := (C05_genPubkey_sm2_partial E hE key pub hp cp).1
  have hval : (SM2.encryptR sm3Sum pub m rnd).val = some (.ok ct) := by
    have hsh := (C29_ciphertext_shape E hE pub m rnd).1 ct he
    rw [encryption_sm2 hE] at he
    generalize (SM2.encryptR sm3Sum pub m rnd).val = o at he
    cases o with
    | none => exact nomatch he
    | some r =>
      simp only [Option.map_some, Option.some.injEq, Go.ret.injEq] at he
      cases r with
      | ok b => simp only [encCode, Prod.mk.injEq] at he; rw [he.1]
      | error e =>
        have : ct = [] := by cases e <;> exact (congrArg Prod.fst he).symm
        rw [this] at hsh; simp at hsh
  obtain ⟨hm, k, hk0, hkn, hany, rfl⟩ := encryptR_tri len32 eP m rnd ce ct hval
  have hd := decryptR_tri len32 va.1 va.2.2 (C := k • SM2.good.G) (SM2.smul_ne_zero SM2.G_ne hk0.ne' hkn) 0x04
    (sm3Sum (SM2.xB (k • beNat key • SM2.good.G) ++ m ++ SM2.yB (k • beNat key • SM2.good.G)))
    (SM2.xorBytes (SM2.kdfSpec sm3Sum (SM2.xB (k • beNat key • SM2.good.G) ++ SM2.yB (k • beNat key • SM2.good.G)) m.length) m)
    (len32 _) cd
  dsimp only at hd
  have eS : beNat key • (k • SM2.good.G) = k • beNat key • SM2.good.G := by
    rw [← mul_nsmul', ← mul_nsmul', mul_comm]
  have hlen : (SM2.xorBytes (SM2.kdfSpec sm3Sum (SM2.xB (k • beNat key • SM2.good.G) ++ SM2.yB (k • beNat key • SM2.good.G))
      m.length) m).length = m.length := by
    rw [SM2.xor_length, SM2.kdfSpec_length len32, min_self]
  rw [eS, hlen, if_pos hany, SM2.xor_cancel _ _ (by rw [SM2.kdfSpec_length len32]), if_pos rfl] at hd
  rw [decryption_sm2 hE]
  have e : SM2.ciphertext sm3Sum (k • SM2.good.G) (k • beNat key • SM2.good.G) m = 0x04 ::
    (SM2.xB (k • SM2.good.G) ++ SM2.yB (k • SM2.good.G) ++
      sm3Sum (SM2.xB (k • beNat key • SM2.good.G) ++ m ++ SM2.yB (k • beNat key • SM2.good.G)) ++
      SM2.xorBytes (SM2.kdfSpec sm3Sum (SM2.xB (k • beNat key • SM2.good.G) ++ SM2.yB (k • beNat key • SM2.good.G)) m.length) m) := rfl
  rw [e, hd]
  rfl

/-! A concrete case: key 2, nonce 1, the message "A".  The shared point is 2G. -/

/-- the ciphertext of "A" for the public key 2G and the nonce 1, with the tag `tag`. -/
def ctA (tag : Bytes) : Bytes :=
  0x04 :: (be32 SM2.c.gx ++ be32 SM2.c.gy ++ tag ++ [0x41 ^^^ (sm3Sum (be32 SM2.g2x ++ be32 SM2.g2y ++ [0, 0, 0, 1])).getD 0 0])

/-- its right tag. -/
def tagA : Bytes := sm3Sum (be32 SM2.g2x ++ [0x41] ++ be32 SM2.g2y)

theorem encrypt_eval {pub m b : Bytes} {X Y : Int} {x1 y1 x2 y2 : ℕ} (hp : pub.length = 64) (hm : m.length ≠ 0)
    (hX : (beNat (pub.take 32) : Int) = X) (hY : (beNat (pub.drop 32) : Int) = Y)
    (h1 : SM2.scalarBaseMultGh (natBytes (randFieldElement SM2.N b).natAbs) = ⟨((x1 : Int), (y1 : Int)), false⟩)
    (h2 : SM2.scalarMultGh X Y (natBytes (randFieldElement SM2.N b).natAbs) = ⟨((x2 : Int), (y2 : Int)), false⟩)
    (hk : (SM2.kdf sm3Sum (be32 x2) (be32 y2) m.length).2 = true) :
    SM2.encryptR sm3Sum pub m [b] = ⟨some (.ok (0x04 :: (be32 x1 ++ be32 y1 ++ sm3Sum (be32 x2 ++ m ++ be32 y2) ++
        SM2.xorBytes (SM2.kdf sm3Sum (be32 x2) (be32 y2) m.length).1 m))), false⟩ := by
  have ht : SM2.encryptTry sm3Sum X Y m b = ⟨some (0x04 :: (be32 x1 ++ be32 y1 ++ sm3Sum (be32 x2 ++ m ++ be32 y2) ++
        SM2.xorBytes (SM2.kdf sm3Sum (be32 x2) (be32 y2) m.length).1 m)), false⟩ := by
    unfold SM2.encryptTry
    dsimp only
    rw [h1, SM2.bind_clean rfl, h2, SM2.bind_clean rfl]
    dsimp only
    simp only [Int.natAbs_natCast]
    rw [hk, if_neg (by simp)]
    rfl
  unfold SM2.encryptR
  rw [if_neg (by omega), if_neg hm, hX, hY, SM2.encryptLoop, ht]
  generalize (0x04 :: (be32 x1 ++ be32 y1 ++ sm3Sum (be32 x2 ++ m ++ be32 y2) ++
        SM2.xorBytes (SM2.kdf sm3Sum (be32 x2) (be32 y2) m.length).1 m)) = ct
  rw [SM2.bind_clean (m := (⟨some ct, false⟩ : SM2.Gh (Option Bytes))) rfl]
  rfl

theorem decrypt_eval {key x y tag body : Bytes} {b0 : UInt8} {p : Int × Int} {x2 y2 : ℕ}
    (hl : key.length = 32) (hn : ¬ (beNat key : Int) ≥ SM2.N) (hx : x.length = 32) (hy : y.length = 32) (ht : tag.length = 32)
    (h1 : SM2.scalarBaseMultGh key = ⟨p, false⟩)
    (h2 : SM2.scalarMultGh (beNat x) (beNat y) (natBytes (beNat key)) = ⟨((x2 : Int), (y2 : Int)), false⟩)
    (hk : (SM2.kdf sm3Sum (be32 x2) (be32 y2) body.length).2 = true) :
    SM2.decryptR sm3Sum key (b0 :: (x ++ y ++ tag ++ body)) =
      (let c := SM2.xorBytes (SM2.kdf sm3Sum (be32 x2) (be32 y2) body.length).1 body
       ⟨.ret (if sm3Sum (be32 x2 ++ c ++ be32 y2) ≠ tag then (.error .other, c) else (.ok c, c)), false⟩) := by
  unfold SM2.decryptR
  rw [if_neg (by omega), if_neg (by simp)]
  dsimp only
  rw [if_neg hn, h1, SM2.run_bind_clean]
  unfold SM2.decryptCore
  have e0 : SM2.ofGo (sliceFrom (b0 :: (x ++ y ++ tag ++ body)) 1) = ⟨.ret (x ++ y ++ tag ++ body), false⟩ := by
    unfold sliceFrom; rw [if_pos (by simp)]; rfl
  rw [e0, SM2.ret_bind_run]
  have e1 : SM2.ofGo (sliceTo (x ++ y ++ tag ++ body) 32) = ⟨.ret x, false⟩ := by
    unfold sliceTo
    rw [if_pos (by simp; omega), List.append_assoc, List.append_assoc, List.take_left' hx]; rfl
  rw [e1, SM2.ret_bind_run]
  have e2 : SM2.ofGo (sliceTo (x ++ y ++ tag ++ body) 64) = ⟨.ret (x ++ y), false⟩ := by
    unfold sliceTo
    rw [if_pos (by simp; omega), List.append_assoc, List.take_left' (by simp; omega)]; rfl
  rw [e2, SM2.ret_bind_run]
  have e3 : (x ++ y ++ tag ++ body).length - 96 = body.length := by simp; omega
  have e4 : (x ++ y ++ tag ++ body).drop 96 = body := List.drop_left' (by simp; omega)
  have e5 : ((x ++ y ++ tag ++ body).drop 64).take 32 = tag := by
    rw [List.append_assoc, List.drop_left' (by simp; omega), List.take_left' ht]
  have e6 : (x ++ y).drop 32 = y := List.drop_left' hx
  dsimp only
  rw [e3, e4, e5, e6, Int.natAbs_natCast, h2, SM2.run_bind_clean]
  dsimp only
  simp only [Int.natAbs_natCast]
  rw [hk, if_neg (by simp)]
  split <;> rfl

set_option maxRecDepth 1000000 in
theorem multG_two {b : Bytes} (h : beNat b = 2) :
    SM2.scalarMultGh SM2.c.gx SM2.c.gy b = ⟨((SM2.g2x : Int), (SM2.g2y : Int)), false⟩ := by
  have hs := SM2.getScalar_small h (by norm_num)
  rw [SM2.scalarMultGh_small _ _ b (j := 1) (by norm_num) (by rw [hs]; norm_num), hs]
  apply SM2.gh_eq <;> decide +kernel

set_option maxRecDepth 1000000 in
theorem kdfA : (SM2.kdf sm3Sum (be32 SM2.g2x) (be32 SM2.g2y) 1).2 = true := by decide +kernel

set_option maxRecDepth 1000000 in
theorem maskA : SM2.xorBytes (SM2.kdf sm3Sum (be32 SM2.g2x) (be32 SM2.g2y) 1).1 [0x41] =
    [0x41 ^^^ (sm3Sum (be32 SM2.g2x ++ be32 SM2.g2y ++ [0, 0, 0, 1])).getD 0 0] := by decide +kernel

set_option maxRecDepth 1000000 in
theorem unmaskA : SM2.xorBytes (SM2.kdf sm3Sum (be32 SM2.g2x) (be32 SM2.g2y) 1).1
    [0x41 ^^^ (sm3Sum (be32 SM2.g2x ++ be32 SM2.g2y ++ [0, 0, 0, 1])).getD 0 0] = [0x41] := by decide +kernel

theorem encA : SM2.encryptR sm3Sum sm2Pub [0x41] [draw 1] = ⟨some (.ok (ctA tagA)), false⟩ := by
  have h1 := SM2.base_one (b := natBytes (randFieldElement SM2.N (draw 1)).natAbs) (by decide +kernel)
  have e : (SM2.Gx, SM2.Gy) = ((SM2.c.gx : Int), (SM2.c.gy : Int)) := by decide +kernel
  rw [e] at h1
  rw [encrypt_eval (m := [0x41]) (b := draw 1) sm2Pub_coords.2.2 (by simp) sm2Pub_coords.1 sm2Pub_coords.2.1 h1
    (SM2.mult2_one (by decide +kernel)) kdfA]
  have e2 : ([0x41] : Bytes).length = 1 := rfl
  rw [e2, maskA]
  rfl

theorem decA (tag : Bytes) (ht : tag.length = 32) : SM2.decryptR sm3Sum sm2Key (ctA tag) =
    ⟨.ret (if tagA ≠ tag then (.error .other, [0x41]) else (.ok [0x41], [0x41])), false⟩ := by
  have e1 : beNat (be32 SM2.c.gx) = SM2.c.gx := beNat_be32 _
  have e2 : beNat (be32 SM2.c.gy) = SM2.c.gy := beNat_be32 _
  have h2 := multG_two (b := natBytes (beNat sm2Key)) (by rw [beNat_natBytes]; decide +kernel)
  rw [← e1, ← e2] at h2
  have e3 : ∀ b : UInt8, ([b] : Bytes).length = 1 := fun _ => rfl
  unfold ctA
  rw [decrypt_eval (x2 := SM2.g2x) (y2 := SM2.g2y) (by decide +kernel) (by decide +kernel) (by decide +kernel) (by decide +kernel) ht
    (SM2.base_two (by decide +kernel)) h2 (by rw [e3]; exact kdfA)]
  dsimp only
  rw [e3, unmaskA]
  rfl

theorem encryptionA (E : Env) (hE : Sm2Env E) : encryption E sm2Pub [0x41] SM [draw 1] = some (.ret (ctA tagA, SUCCESS)) := by
  rw [encryption_sm2 hE, encA]; rfl

/-- the hypotheses of `C29_encrypt_decrypt_partial` hold in this case. -/
example : genPubkey sm2Env sm2Key SM = .ret (sm2Pub, SUCCESS) ∧
    encryption sm2Env sm2Pub [0x41] SM [draw 1] = some (.ret (ctA tagA, SUCCESS)) ∧
    (SM2.genPublicKeyR sm2Key).bad = false ∧ (SM2.encryptR sm3Sum sm2Pub [0x41] [draw 1]).bad = false ∧
    (SM2.decryptR sm3Sum sm2Key (ctA tagA)).bad = false :=
  ⟨sm2Pub_gen _ sm2Env_ok, encryptionA _ sm2Env_ok, sm2Key_run.1, by rw [encA], by rw [decA tagA (len32 _)]⟩

/-! ## C30 -/

/-- `decrypt` returns no error code of its own once the arguments have their sizes. -/
theorem decryptR_val {H : Bytes → Bytes} {key ct : Bytes} (hl : key.length = 32) (hn : beNat key < SM2.c.n) (hc : 0 < ct.length) :
    (ct.length < 65 → (SM2.decryptR H key ct).val = .panic) ∧
    (65 ≤ ct.length → ∃ m, (SM2.decryptR H key ct).val = .ret (.ok m, m) ∨ (SM2.decryptR H key ct).val = .ret (.error .other, m)) := by
  have hN := SM2.N_eq
  have he : SM2.decryptR H key ct = (SM2.scalarBaseMultGh key).run >>= fun _ => SM2.decryptCore H (beNat key) ct :=
    (if_neg (by omega)).trans ((if_neg (by omega)).trans (if_neg (by omega)))
  rw [he]
  generalize SM2.scalarBaseMultGh key = m
  rw [SM2.Run.bind_val]
  simp only [SM2.Gh.run, Go.ret_bind]
  unfold SM2.decryptCore
  have e0 : SM2.ofGo (sliceFrom ct 1) = ⟨.ret (ct.drop 1), false⟩ := by
    unfold sliceFrom; rw [if_pos (by omega)]; rfl
  rw [e0, SM2.ret_bind_run]
  have hdl : (ct.drop 1).length = ct.length - 1 := by simp
  constructor
  · intro h
    rw [SM2.Run.bind_val]
    by_cases h1 : 32 ≤ (ct.drop 1).length
    · have : (SM2.ofGo (sliceTo (ct.drop 1) 32)).val = .ret ((ct.drop 1).take 32) := by
        unfold sliceTo; rw [if_pos h1]; rfl
      rw [this, Go.ret_bind, SM2.Run.bind_val]
      have : (SM2.ofGo (sliceTo (ct.drop 1) 64)).val = .panic := by
        unfold sliceTo; rw [if_neg (by omega)]; rfl
      rw [this]; rfl
    · have : (SM2.ofGo (sliceTo (ct.drop 1) 32)).val = .panic := by
        unfold sliceTo; rw [if_neg h1]; rfl
      rw [this]; rfl
  · intro h
    have e1 : SM2.ofGo (sliceTo (ct.drop 1) 32) = ⟨.ret ((ct.drop 1).take 32), false⟩ := by
      unfold sliceTo; rw [if_pos (by omega)]; rfl
    have e2 : SM2.ofGo (sliceTo (ct.drop 1) 64) = ⟨.ret ((ct.drop 1).take 64), false⟩ := by
      unfold sliceTo; rw [if_pos (by omega)]; rfl
    rw [e1, SM2.ret_bind_run, e2, SM2.ret_bind_run]
    dsimp only
    generalize SM2.scalarMultGh _ _ _ = q
    rw [SM2.Run.bind_val]
    simp only [SM2.Gh.run, Go.ret_bind]
    split
    · exact ⟨_, .inr rfl⟩
    split
    · exact ⟨_, .inr rfl⟩
    · exact ⟨_, .inl rfl⟩

/-- C30 fails for every key and every ciphertext: for a private key of 32 bytes below `N` and a ciphertext of at least 65
bytes, whatever its tag, `Decryption` returns SUCCESS.  There is no code for a tag that does not match. -/
theorem C30_always_success (E : Env) (hE : Sm2Env E) (key ct : Bytes) (hl : key.length = 32) (hn : beNat key < SM2.c.n)
    (hc : 65 ≤ ct.length) : ∃ m, decryption E key ct SM = .ret (m, SUCCESS) := by
  rw [decryption_sm2 hE]
  obtain ⟨m, h | h⟩ := (decryptR_val (H := sm3Sum) hl hn (by omega)).2 hc <;> rw [h]
  · exact ⟨m, rfl⟩
  · exact ⟨m, rfl⟩

example : (be32 2).length = 32 ∧ beNat (be32 2) < SM2.c.n ∧ 65 ≤ (List.replicate 200 0 : Bytes).length := by decide +kernel

/-- C30 is false: a ciphertext that `Encryption` returns, and the same ciphertext with every other 32-byte tag: `Decryption`
returns the plaintext with SUCCESS for all of them. -/
theorem C30_false (E : Env) (hE : Sm2Env E) :
    encryption E sm2Pub [0x41] SM [draw 1] = some (.ret (ctA tagA, SUCCESS)) ∧
    ∀ tag : Bytes, tag.length = 32 → decryption E sm2Key (ctA tag) SM = .ret ([0x41], SUCCESS) := by
  refine ⟨encryptionA E hE, fun tag ht => ?_⟩
  rw [decryption_sm2 hE, decA tag ht]
  by_cases h : tagA ≠ tag
  · rw [if_pos h]; rfl
  · rw [if_neg h]; rfl

/-- `Decryption` crashes on every ciphertext of 1 to 64 bytes (C61). -/
theorem C61_short_ciphertext_crashes (E : Env) (hE : Sm2Env E) (key ct : Bytes) (hl : key.length = 32)
    (hn : beNat key < SM2.c.n) (hc : 0 < ct.length) (hs : ct.length < 65) : decryption E key ct SM = .panic := by
  rw [decryption_sm2 hE, (decryptR_val (H := sm3Sum) hl hn hc).1 hs]; rfl

/-- and on no other (C61). -/
theorem C61_no_crash_partial (E : Env) (hE : Sm2Env E) (key ct : Bytes) (h : ct.length = 0 ∨ 65 ≤ ct.length) :
    decryption E key ct SM ≠ .panic := by
  have hN := SM2.N_eq
  by_cases hl : key.length = 32
  · by_cases hn : beNat key < SM2.c.n
    · rcases h with h | h
      · rw [decryption_sm2 hE]
        unfold SM2.decryptR
        rw [if_neg (by omega), if_pos h]
        exact fun h => nomatch h
      · obtain ⟨m, hm⟩ := C30_always_success E hE key ct hl hn h
        rw [hm]; exact fun h => nomatch h
    · rw [decryption_sm2 hE]
      unfold SM2.decryptR
      rw [if_neg (by omega)]
      split
      · exact fun h => nomatch h
      · dsimp only
        rw [if_pos (by omega)]
        exact fun h => nomatch h
  · rw [decryption_sm2 hE]
    unfold SM2.decryptR
    rw [if_pos hl]
    exact fun h => nomatch h

example : (be32 2).length = 32 ∧ beNat (be32 2) < SM2.c.n ∧ 0 < ([4, 1] : Bytes).length ∧ ([4, 1] : Bytes).length < 65 := by
  decide +kernel

end Verif.Props
