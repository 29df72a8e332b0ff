import Verif.Props.Sm2Sign

/-!
# C19, C26–C28: concrete cases and counterexamples; C27, C28 for all inputs

The concrete signer has the private key 2 (`sm2Key`, public key `sm2Pub`), without an identity.
-/

namespace Verif.Props

open Verif.EC Verif.ECDSA Verif.Api WeierstrassCurve
open Verif.SM3 (sm3Sum)

/-! ## A concrete signature: nonce 5, `r = s = 1` -/

/-- `1 - x(5G) mod n`. -/
def msg5 : Bytes := be32 0x38b6f9e8979ad1d9fbf1ff7022a148853db99defa1f7eb4fae4619b16d9e1686
/-- the draw that gives the nonce `k`. -/
def draw (k : ℕ) : Bytes := be32 (k - 1)
/-- a 64-byte signature. -/
def rs (r s : ℕ) : Bytes := be32 r ++ be32 s

theorem sm2Pub_coords : (beNat (sm2Pub.take 32) : Int) = SM2.g2x ∧ (beNat (sm2Pub.drop 32) : Int) = SM2.g2y ∧ sm2Pub.length = 64 := by
  decide +kernel

theorem sign5 : SM2.signR sm3Sum sm2Key none msg5 [draw 5] = ⟨.ret (some (.ok (rs 1 1, 0))), false⟩ := by
  rw [SM2.signR_eval (p := (SM2.g5x, SM2.g5y)) (by decide +kernel) (by decide +kernel) (by decide +kernel) (by decide +kernel)
    (SM2.base_two (by decide +kernel)) (SM2.base_five (by decide +kernel))]
  exact congrArg (fun x => (⟨x, false⟩ : SM2.Run _)) (by decide +kernel)

theorem verify5 : SM2.verifyR sm3Sum sm2Pub none msg5 (rs 1 1) = ⟨true, false⟩ := by
  rw [SM2.verifyR_eval (r := 1) (s := 1) (t := 2) sm2Pub_coords.2.2 (by decide +kernel) (by decide +kernel) sm2Pub_coords.1
    sm2Pub_coords.2.1 (by decide +kernel) (by decide +kernel) (by norm_num) (by norm_num) (by decide +kernel)
    (by decide +kernel) (by decide +kernel) (by norm_num) (SM2.base_one (by decide +kernel)) (SM2.mult2_two (by decide +kernel))
    SM2.add_one_four]
  exact congrArg (fun x => (⟨x, false⟩ : SM2.Gh _)) (by decide +kernel)

theorem sm2Pub_gen (E : Env) (hE : Sm2Env E) : genPubkey E sm2Key SM = .ret (sm2Pub, SUCCESS) := by
  rw [genPubkey_sm2 hE, sm2Key_run.2]; rfl

/-- the hypotheses of `C26_sign_verify_sm2_partial` hold in this case. -/
example : genPubkey sm2Env sm2Key SM = .ret (sm2Pub, SUCCESS) ∧
    signature sm2Env sm2Key none msg5 SM [draw 5] = some (.ret (rs 1 1, 0, SUCCESS)) ∧
    (SM2.genPublicKeyR sm2Key).bad = false ∧ (SM2.signR sm3Sum sm2Key none msg5 [draw 5]).bad = false ∧
    (SM2.verifyR sm3Sum sm2Pub none msg5 (rs 1 1)).bad = false ∧
    (beNat ((rs 1 1).take 32) + beNat ((rs 1 1).drop 32)) % SM2.c.n ≠ 0 ∧
    beNat ((rs 1 1).drop 32) • SM2.good.G ≠
      ((beNat ((rs 1 1).take 32) + beNat ((rs 1 1).drop 32)) % SM2.c.n) • (beNat sm2Key • SM2.good.G) := by
  refine ⟨sm2Pub_gen _ sm2Env_ok, ?_, sm2Key_run.1, by rw [sign5], by rw [verify5], by decide +kernel, ?_⟩
  · rw [signature_sm2 sm2Env_ok, sign5]; rfl
  · have e1 : beNat ((rs 1 1).drop 32) = 1 := by decide +kernel
    have e2 : (beNat ((rs 1 1).take 32) + beNat ((rs 1 1).drop 32)) % SM2.c.n = 2 := by decide +kernel
    have e3 : beNat sm2Key = 2 := by decide +kernel
    rw [e2, e1, e3, ← mul_nsmul']
    intro h
    exact absurd (SM2.smul_inj SM2.G_ne (by decide +kernel) (by decide +kernel) h) (by decide)

/-! ## C26 is false -/

/-- `-1 - x(G) mod n`. -/
def msgA : Bytes := be32 0xcd3b51d2e0e67ee6a066fbb995c6366ae220d3ab2f5ff949e261ae800688cc5b
/-- `-1 - x(4G) mod n`. -/
def msgB : Bytes := be32 0x3dc6af8dfa397cdbd57efad009be12967169d7204bf971ada1a5ad3c0534724d

theorem signA : (SM2.signR sm3Sum sm2Key none msgA [draw 1]).val = .ret (some (.ok (rs (SM2.c.n - 1) 1, 0))) := by
  rw [SM2.signR_val (p := (SM2.Gx, SM2.Gy)) (by decide +kernel) (by decide +kernel) (by decide +kernel) (by decide +kernel)
    (SM2.base_one (by decide +kernel))]
  decide +kernel

theorem signB : (SM2.signR sm3Sum sm2Key none msgB [draw 4]).val = .ret (some (.ok (rs (SM2.c.n - 1) 2, 1))) := by
  rw [SM2.signR_val (p := (SM2.g4x, SM2.g4y)) (by decide +kernel) (by decide +kernel) (by decide +kernel) (by decide +kernel)
    (SM2.base_four (by decide +kernel))]
  decide +kernel

/-- C28's range part: whatever the key and the hash, `Verify` accepts only `0 < r, s < N` with `r + s ≢ 0`. -/
theorem verifyR_range {H : Bytes → Bytes} {pub : Bytes} {ID : Option Bytes} {msg sig : Bytes}
    (h : (SM2.verifyR H pub ID msg sig).val = true) :
    pub.length = 64 ∧ sig.length = 64 ∧ msg.length = 32 ∧ 0 < beNat (sig.take 32) ∧ beNat (sig.take 32) < SM2.c.n ∧
    0 < beNat (sig.drop 32) ∧ beNat (sig.drop 32) < SM2.c.n ∧ (beNat (sig.take 32) + beNat (sig.drop 32)) % SM2.c.n ≠ 0 := by
  have hN := SM2.N_eq
  unfold SM2.verifyR at h
  split at h
  · exact nomatch h
  split at h
  · exact nomatch h
  split at h
  · exact nomatch h
  dsimp only at h
  split at h
  · exact nomatch h
  unfold SM2.verifyCore at h
  split at h
  · exact nomatch h
  split at h
  · exact nomatch h
  dsimp only at h
  split at h
  · exact nomatch h
  rename_i h1 h2 h3
  refine ⟨by omega, by omega, by omega, by omega, by omega, by omega, by omega, ?_⟩
  intro h0
  apply h3
  rw [hN]
  exact_mod_cast h0

theorem verifyB : SM2.verifyR sm3Sum sm2Pub none msgB (rs (SM2.c.n - 1) 2) = ⟨false, false⟩ := by
  rw [SM2.verifyR_eval (r := SM2.c.n - 1) (s := 2) (t := 1) sm2Pub_coords.2.2 (by decide +kernel) (by decide +kernel) sm2Pub_coords.1
    sm2Pub_coords.2.1 (by decide +kernel) (by decide +kernel) (by decide +kernel) (by norm_num) (by decide +kernel)
    (by decide +kernel) (by decide +kernel) (by norm_num) (SM2.base_two (by decide +kernel)) (SM2.mult2_one (by decide +kernel))
    SM2.add_two_two]
  exact congrArg (fun x => (⟨x, false⟩ : SM2.Gh _)) (by decide +kernel)

/-- the case `r + k = N`: the key pair (2, 2G), a message and a draw for which `Signature` returns a signature that
`Verify` rejects. -/
theorem C26_false_r_plus_k (E : Env) (hE : Sm2Env E) :
    genPubkey E sm2Key SM = .ret (sm2Pub, SUCCESS) ∧
    signature E sm2Key none msgA SM [draw 1] = some (.ret (rs (SM2.c.n - 1) 1, 0, SUCCESS)) ∧
    Api.verify E sm2Pub none msgA (rs (SM2.c.n - 1) 1) SM = .ret FAILURE := by
  refine ⟨sm2Pub_gen E hE, ?_, ?_⟩
  · rw [signature_sm2 hE, signA]; rfl
  · have : (SM2.verifyR sm3Sum sm2Pub none msgA (rs (SM2.c.n - 1) 1)).val = false := by
      rw [Bool.eq_false_iff]
      intro h
      exact (verifyR_range h).2.2.2.2.2.2.2 (by decide +kernel)
    rw [verify_sm2 hE, this]; rfl

/-- the case `s·G = t·Q`. -/
theorem C26_false_equal_points (E : Env) (hE : Sm2Env E) :
    genPubkey E sm2Key SM = .ret (sm2Pub, SUCCESS) ∧
    signature E sm2Key none msgB SM [draw 4] = some (.ret (rs (SM2.c.n - 1) 2, 1, SUCCESS)) ∧
    Api.verify E sm2Pub none msgB (rs (SM2.c.n - 1) 2) SM = .ret FAILURE := by
  refine ⟨sm2Pub_gen E hE, ?_, ?_⟩
  · rw [signature_sm2 hE, signB]; rfl
  · rw [verify_sm2 hE, verifyB]; rfl

/-! ## C27 -/

theorem modInverse_some_sm2 {d : ℕ} (h : d + 1 < SM2.c.n) : ∃ i, modInverse ((d : Int) + 1) SM2.N = some i := by
  have hp : Fact SM2.c.n.Prime := ⟨SM2.good.np⟩
  obtain ⟨x, hx, -⟩ := modInverse_prime (p := SM2.c.n) (g := (d : Int) + 1) (by
    intro h0
    have : ((d + 1 : ℕ) : ZMod SM2.c.n) = 0 := by push_cast; exact_mod_cast h0
    rw [ZMod.natCast_eq_zero_iff] at this
    exact absurd (Nat.le_of_dvd (by omega) this) (by omega))
  exact ⟨x, by rw [SM2.N_eq]; exact hx⟩

theorem signTail_no_panic {D e k : Int} {p : Int × Int} (h : ∃ i, modInverse (D + 1) SM2.N = some i) :
    SM2.signTail D e k p ≠ .panic := by
  obtain ⟨i, hi⟩ := h
  unfold SM2.signTail
  rw [hi]
  dsimp only
  split_ifs <;> exact fun h => nomatch h

theorem signTail_no_sig {D e k : Int} {p : Int × Int} (h : modInverse (D + 1) SM2.N = none) (t : Int × Int × UInt8) :
    SM2.signTail D e k p ≠ .ret (some t) := by
  unfold SM2.signTail
  rw [h]
  dsimp only
  split_ifs <;> exact fun h => nomatch h

theorem signLoop_cons (D e : Int) (b : Bytes) (bs : List Bytes) :
    (SM2.signLoop D e (b :: bs)).val = ((SM2.signTry D e b).val >>= fun o => match o with
      | some t => .ret (some t)
      | none => (SM2.signLoop D e bs).val) := by
  rw [SM2.signLoop, SM2.Run.bind_val]
  congr 1
  funext o
  cases o <;> rfl

theorem signLoop_no_panic {D e : Int} (h : ∃ i, modInverse (D + 1) SM2.N = some i) (rnd : List Bytes) :
    (SM2.signLoop D e rnd).val ≠ .panic := by
  induction rnd with
  | nil => exact fun h => nomatch h
  | cons b bs ih =>
    rw [signLoop_cons, SM2.signTry_val]
    have := signTail_no_panic (e := e) (k := randFieldElement SM2.N b)
      (p := (SM2.scalarBaseMultGh (natBytes (randFieldElement SM2.N b).natAbs)).val) h
    generalize SM2.signTail _ _ _ _ = g at this
    match g with
    | .panic => exact absurd rfl this
    | .ret none => exact ih
    | .ret (some t) => exact fun h => nomatch h

theorem signLoop_no_sig {D e : Int} (h : modInverse (D + 1) SM2.N = none) (rnd : List Bytes) (t : Int × Int × UInt8) :
    (SM2.signLoop D e rnd).val ≠ .ret (some t) := by
  induction rnd with
  | nil => exact fun h => nomatch h
  | cons b bs ih =>
    rw [signLoop_cons, SM2.signTry_val]
    have := signTail_no_sig (e := e) (k := randFieldElement SM2.N b)
      (p := (SM2.scalarBaseMultGh (natBytes (randFieldElement SM2.N b).natAbs)).val) h
    generalize SM2.signTail _ _ _ _ = g at this
    match g with
    | .panic => exact fun h => nomatch h
    | .ret none => exact ih
    | .ret (some t) => exact absurd rfl (this t)

/-- `sign` after its argument checks. -/
theorem signR_cases (H : Bytes → Bytes) (key : Bytes) (ID : Option Bytes) (msg : Bytes) (rnd : List Bytes) :
    (∃ e, (SM2.signR H key ID msg rnd).val = .ret (some (.error e))) ∨
    (key.length = 32 ∧ 0 < beNat key ∧ beNat key < SM2.c.n ∧ ∃ e, (SM2.signR H key ID msg rnd).val =
      ((SM2.signLoop (beNat key) e rnd).val >>= fun o => .ret (SM2.sigBytes o))) := by
  have hN := SM2.N_eq
  unfold SM2.signR
  split
  · exact .inl ⟨_, rfl⟩
  split
  · exact .inl ⟨_, rfl⟩
  dsimp only
  split
  · exact .inl ⟨_, rfl⟩
  split
  · exact .inl ⟨_, rfl⟩
  generalize SM2.scalarBaseMultGh key = m
  obtain ⟨p, bad⟩ := m
  rw [SM2.Run.bind_val]
  simp only [SM2.Gh.run, Go.ret_bind]
  cases SM2.digest H p.1 p.2 msg ID with
  | error e => exact .inl ⟨_, rfl⟩
  | ok e =>
    refine .inr ⟨by omega, by omega, by omega, e, ?_⟩
    dsimp only
    rw [SM2.Run.bind_val]
    congr 1
    funext o
    match o with
    | none => rfl
    | some (r, s, v) => rfl

/-- C27 as far as it holds: for every key except `N - 1`, every identity, message and random stream, `Signature` on SM2
does not crash. -/
theorem C27_no_crash_partial (E : Env) (hE : Sm2Env E) (key : Bytes) (ID : Option Bytes) (msg : Bytes) (rnd : List Bytes)
    (hk : beNat key + 1 ≠ SM2.c.n) : signature E key ID msg SM rnd ≠ some .panic := by
  have hn : (SM2.signR sm3Sum key ID msg rnd).val ≠ .panic := by
    rcases signR_cases sm3Sum key ID msg rnd with ⟨e, he⟩ | ⟨-, -, hlt, e, he⟩
    · rw [he]; exact fun h => nomatch h
    · rw [he]
      have := signLoop_no_panic (e := e) (modInverse_some_sm2 (d := beNat key) (by omega)) rnd
      generalize (SM2.signLoop _ _ _).val = g at this
      cases g with
      | panic => exact absurd rfl this
      | ret o => exact fun h => nomatch h
  rw [signature_sm2 hE]
  generalize (SM2.signR sm3Sum key ID msg rnd).val = g at hn
  match g with
  | .panic => exact absurd rfl hn
  | .ret none => exact fun h => nomatch h
  | .ret (some x) => exact fun h => nomatch h

example : beNat sm2Key + 1 ≠ SM2.c.n := by decide +kernel

/-- the private key `N - 1`. -/
def lastKey : Bytes := be32 (SM2.c.n - 1)

theorem inv_lastKey : modInverse ((beNat lastKey : Int) + 1) SM2.N = none :=
  modInverse_none_of_dvd (by decide +kernel) (by decide +kernel)

/-- with the key `N - 1`, which `GenPubkey` accepts, `Signature` never returns a signature … -/
theorem C27_last_key_never_signs (E : Env) (hE : Sm2Env E) :
    (∃ pub, genPubkey E lastKey SM = .ret (pub, SUCCESS)) ∧
    ∀ ID msg rnd sig v, signature E lastKey ID msg SM rnd ≠ some (.ret (sig, v, SUCCESS)) := by
  refine ⟨(C04_genPubkey_sm2 E hE lastKey).1 (by decide +kernel), fun ID msg rnd sig v h => ?_⟩
  have h := signature_sm2_success hE h
  rcases signR_cases sm3Sum lastKey ID msg rnd with ⟨e, he⟩ | ⟨-, -, hlt, e, he⟩
  · rw [he] at h; exact nomatch h
  · rw [he] at h
    have := signLoop_no_sig (e := e) inv_lastKey rnd
    generalize (SM2.signLoop _ _ _).val = g at this h
    match g with
    | .panic => exact nomatch h
    | .ret none => exact nomatch h
    | .ret (some t) => exact absurd rfl (this t)

/-- … and it crashes. -/
theorem C27_false (E : Env) (hE : Sm2Env E) :
    (∃ pub, genPubkey E lastKey SM = .ret (pub, SUCCESS)) ∧ signature E lastKey none (be32 7) SM [draw 1] = some .panic := by
  refine ⟨(C27_last_key_never_signs E hE).1, ?_⟩
  rw [signature_sm2 hE, SM2.signR_val (p := (SM2.Gx, SM2.Gy)) (by decide +kernel) (by decide +kernel) (by decide +kernel)
    (by decide +kernel) (SM2.base_one (by decide +kernel))]
  have : SM2.signTail (beNat lastKey) (beNat (be32 7)) (randFieldElement SM2.N (draw 1)) (SM2.Gx, SM2.Gy) = .panic := by
    unfold SM2.signTail
    rw [inv_lastKey]
    dsimp only
    rw [if_neg (by decide +kernel)]
  rw [this]
  rfl

/-! ## C28 -/

/-- C28, the range checks, for all inputs: `Verify` on SM2 accepts only a 64-byte key, a 64-byte signature `r ‖ s` with
`0 < r, s < N` and `r + s ≢ 0 (mod N)`, and a 32-byte message. -/
theorem C28_verify_range (E : Env) (hE : Sm2Env E) (pub : Bytes) (ID : Option Bytes) (msg sig : Bytes)
    (h : Api.verify E pub ID msg sig SM = .ret SUCCESS) :
    pub.length = 64 ∧ sig.length = 64 ∧ msg.length = 32 ∧ 0 < beNat (sig.take 32) ∧ beNat (sig.take 32) < SM2.c.n ∧
    0 < beNat (sig.drop 32) ∧ beNat (sig.drop 32) < SM2.c.n ∧
    (beNat (sig.take 32) + beNat (sig.drop 32)) % SM2.c.n ≠ 0 :=
  verifyR_range ((verify_sm2_iff hE pub ID msg sig).mp h)

/-- `Verify` returns SUCCESS or FAILURE for every input; it does not crash. -/
theorem C28_verify_total (E : Env) (hE : Sm2Env E) (pub : Bytes) (ID : Option Bytes) (msg sig : Bytes) :
    Api.verify E pub ID msg sig SM = .ret SUCCESS ∨ Api.verify E pub ID msg sig SM = .ret FAILURE := by
  rw [verify_sm2 hE]
  cases (SM2.verifyR sm3Sum pub ID msg sig).val
  · exact .inr rfl
  · exact .inl rfl

example : Api.verify sm2Env sm2Pub none msg5 (rs 1 1) SM = .ret SUCCESS := by
  rw [verify_sm2 sm2Env_ok, verify5]; rfl

/-- C28 as far as it holds: in runs without underflow and if `s·G ≠ t·Q`, `Verify` accepts exactly the signatures that
the standard calls valid for the point `Q` encoded by the public key (`SM2.Valid`), where the message is a caller's
32-byte hash or is prefixed by the identity hash. -/
theorem C28_verify_iff_standard_partial (E : Env) (hE : Sm2Env E) (pub : Bytes) (Q : SM2.c.Pt) (hQ : Encodes pub Q)
    (ID : Option Bytes) (msg sig : Bytes) (cv : (SM2.verifyR sm3Sum pub ID msg sig).bad = false)
    (hne : beNat (sig.drop 32) • SM2.good.G ≠ ((beNat (sig.take 32) + beNat (sig.drop 32)) % SM2.c.n) • Q) :
    Api.verify E pub ID msg sig SM = .ret SUCCESS ↔
      sig.length = 64 ∧ msg.length = 32 ∧ (∀ id, ID = some id → id.length < 8192) ∧
      SM2.Valid Q (SM2.digestOf sm3Sum Q ID msg) (beNat (sig.take 32)) (beNat (sig.drop 32)) := by
  have ht := SM2.verifyR_tri sm3Sum hQ ID msg sig cv
  dsimp only at ht
  rw [verify_sm2_iff hE, ht]
  rw [SM2.codeSum_eq (fun h => absurd h hne)]
  rfl

/-- and in runs without underflow with `s·G = t·Q` it compares `r` with `e` instead of `e + x(2 s G)`. -/
theorem C28_verify_equal_points (E : Env) (hE : Sm2Env E) (pub : Bytes) (Q : SM2.c.Pt) (hQ : Encodes pub Q)
    (ID : Option Bytes) (msg sig : Bytes) (cv : (SM2.verifyR sm3Sum pub ID msg sig).bad = false)
    (he : beNat (sig.drop 32) • SM2.good.G = ((beNat (sig.take 32) + beNat (sig.drop 32)) % SM2.c.n) • Q)
    (hv : Api.verify E pub ID msg sig SM = .ret SUCCESS) :
    SM2.digestOf sm3Sum Q ID msg % SM2.c.n = beNat (sig.take 32) := by
  have ht := SM2.verifyR_tri sm3Sum hQ ID msg sig cv
  dsimp only at ht
  rw [verify_sm2_iff hE, ht] at hv
  have := hv.2.2.2.2.2.2.2.2
  rw [SM2.codeSum, if_pos he] at this
  simpa [xval] using this

theorem sm2Pub_two : Encodes (c := SM2.c) sm2Pub (2 • SM2.good.G) := by
  have := (C05_genPubkey_sm2_partial sm2Env sm2Env_ok sm2Key sm2Pub (sm2Pub_gen _ sm2Env_ok) sm2Key_run.1).1
  rwa [show beNat sm2Key = 2 by decide +kernel] at this

example : Encodes (c := SM2.c) sm2Pub (2 • SM2.good.G) ∧ (SM2.verifyR sm3Sum sm2Pub none msg5 (rs 1 1)).bad = false ∧
    beNat ((rs 1 1).drop 32) • SM2.good.G ≠
      ((beNat ((rs 1 1).take 32) + beNat ((rs 1 1).drop 32)) % SM2.c.n) • (2 • SM2.good.G) := by
  refine ⟨sm2Pub_two, by rw [verify5], ?_⟩
  have e1 : beNat ((rs 1 1).drop 32) = 1 := by decide +kernel
  have e2 : (beNat ((rs 1 1).take 32) + beNat ((rs 1 1).drop 32)) % SM2.c.n = 2 := by decide +kernel
  rw [e2, e1, ← mul_nsmul']
  intro h
  exact absurd (SM2.smul_inj SM2.G_ne (by decide +kernel) (by decide +kernel) h) (by decide)

/-- the message `N - 1`. -/
def msgC : Bytes := be32 (SM2.c.n - 1)

theorem verifyC : SM2.verifyR sm3Sum sm2Pub none msgC (rs (SM2.c.n - 1) 2) = ⟨true, false⟩ := by
  rw [SM2.verifyR_eval (r := SM2.c.n - 1) (s := 2) (t := 1) sm2Pub_coords.2.2 (by decide +kernel) (by decide +kernel) sm2Pub_coords.1
    sm2Pub_coords.2.1 (by decide +kernel) (by decide +kernel) (by decide +kernel) (by norm_num) (by decide +kernel)
    (by decide +kernel) (by decide +kernel) (by norm_num) (SM2.base_two (by decide +kernel)) (SM2.mult2_one (by decide +kernel))
    SM2.add_two_two]
  exact congrArg (fun x => (⟨x, false⟩ : SM2.Gh _)) (by decide +kernel)

/-- a run that meets the hypotheses of `C28_verify_equal_points`. -/
example : Encodes (c := SM2.c) sm2Pub (2 • SM2.good.G) ∧ (SM2.verifyR sm3Sum sm2Pub none msgC (rs (SM2.c.n - 1) 2)).bad = false ∧
    beNat ((rs (SM2.c.n - 1) 2).drop 32) • SM2.good.G =
      ((beNat ((rs (SM2.c.n - 1) 2).take 32) + beNat ((rs (SM2.c.n - 1) 2).drop 32)) % SM2.c.n) • (2 • SM2.good.G) ∧
    Api.verify sm2Env sm2Pub none msgC (rs (SM2.c.n - 1) 2) SM = .ret SUCCESS := by
  refine ⟨sm2Pub_two, by rw [verifyC], ?_, by rw [verify_sm2 sm2Env_ok, verifyC]; rfl⟩
  have e1 : beNat ((rs (SM2.c.n - 1) 2).drop 32) = 2 := by decide +kernel
  have e2 : (beNat ((rs (SM2.c.n - 1) 2).take 32) + beNat ((rs (SM2.c.n - 1) 2).drop 32)) % SM2.c.n = 1 := by decide +kernel
  rw [e2, e1, one_nsmul]

/-- the equation of C28 is false of the code: a signature that `Verify` accepts under the key `2G` and that is not valid. -/
theorem C28_false_equal_points (E : Env) (hE : Sm2Env E) :
    Encodes (c := SM2.c) sm2Pub (2 • SM2.good.G) ∧
    Api.verify E sm2Pub none msgC (rs (SM2.c.n - 1) 2) SM = .ret SUCCESS ∧
    ¬ SM2.Valid (2 • SM2.good.G) (beNat msgC) (SM2.c.n - 1) 2 := by
  refine ⟨sm2Pub_two, by rw [verify_sm2 hE, verifyC]; rfl, ?_⟩
  rintro ⟨-, -, -, -, -, h⟩
  have e : (SM2.c.n - 1 + 2) % SM2.c.n = 1 := by decide +kernel
  have e' : 2 • SM2.good.G + 1 • (2 • SM2.good.G) = 4 • SM2.good.G := by
    rw [one_nsmul, ← add_nsmul]
  have h4 := SM2.scalarBaseMultGh_tri [4] (by rw [SM2.base_four (by decide +kernel)])
  rw [SM2.base_four (by decide +kernel), show beNat [4] = 4 by decide +kernel, enc_eq] at h4
  have hx : SM2.g4x = xval (4 • SM2.good.G) := by
    have := congrArg Prod.fst h4
    dsimp only at this
    exact_mod_cast this
  rw [e, e', ← hx] at h
  exact absurd h (by decide +kernel)

end Verif.Props
