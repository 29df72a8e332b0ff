import Verif.Pasta.ApiLemmas2
import Verif.Props.Ed2
import Verif.Props.Secp2

/-!
# Pasta: C54–C58 and C69–C73

The specification is `Verif/Pasta/Curve.lean` (Pallas, `y² = x³ + 5`), `Verif/Pasta/Spec.lean` (`wire`, `Reads`, `challenge`, `Schnorr`)
and `Verif/Pasta/PoseidonSpec.lean` (the sponge over the field).  `encoding/json` is a parameter `parse`; bytes from crypto/rand are a
list of 32-byte draws.
-/

namespace Verif.Props

open Verif.EC Verif.ECDSA Verif.Pasta Verif.Api

/-! ## C54: field arithmetic

Four words stand for a number `val`; canonical words have `val < m`.  Montgomery form of `x` is `x · 2²⁵⁶ mod m`. -/

/-- one of the two fields with its modulus. -/
def IsField (M : Md) (m : ℕ) : Prop :=
  (M = Fp ∧ m = 0x40000000000000000000000000000000224698fc094cf91b992d30ed00000001) ∨
  (M = Fq ∧ m = 0x40000000000000000000000000000000224698fc0994a8dd8c46eb2100000001)

/-- the words are the canonical Montgomery form of the residue. -/
def IsMont (m : ℕ) (a : Limbs) (x : ZMod m) : Prop := a.val < m ∧ (a.val : ZMod m) = x * 2 ^ 256

theorem isField_mont {M : Md} {m : ℕ} (h : IsField M m) : Mont M m := by
  rcases h with ⟨rfl, rfl⟩ | ⟨rfl, rfl⟩
  · exact FpM
  · exact FqM

theorem isField_prime {M : Md} {m : ℕ} (h : IsField M m) : Fact m.Prime := by
  rcases h with ⟨-, rfl⟩ | ⟨-, rfl⟩
  · exact ⟨prime_pastaP⟩
  · exact ⟨prime_pastaQ⟩

theorem pow256_ne {M : Md} {m : ℕ} (h : IsField M m) : ((2 : ZMod m) ^ 256) ≠ 0 := by
  have : (((2 ^ 256 : ℕ) : ℕ) : ZMod m) ≠ 0 := by
    rw [Ne, ZMod.natCast_eq_zero_iff, Nat.dvd_iff_mod_eq_zero]
    rcases h with ⟨rfl, rfl⟩ | ⟨rfl, rfl⟩ <;> decide +kernel
  exact_mod_cast this

theorem isMont_iff {M : Md} {m : ℕ} (h : IsField M m) (a : Limbs) (x : ZMod m) : IsMont m a x ↔ Red m a ∧ den m a = x := by
  have hM := isField_mont h
  have hp := isField_prime h
  have e := val_of_den hM a
  rw [Nat.cast_pow, Nat.cast_ofNat] at e
  unfold IsMont
  rw [e]
  constructor
  · rintro ⟨h1, h2⟩
    exact ⟨h1, mul_right_cancel₀ (pow256_ne h) h2⟩
  · rintro ⟨h1, rfl⟩
    exact ⟨h1, rfl⟩

/-- C54: in both fields, on canonical Montgomery words, `Add`, `Sub`, `Opp`, `Mul` and `Square` compute the operation of the field and
return canonical words; `Equals` is equality of the residues; `Nonzero` is zero exactly on zero. -/
theorem C54_ring (M : Md) (m : ℕ) (hM : IsField M m) (a b : Limbs) (x y : ZMod m) (ha : IsMont m a x) (hb : IsMont m b y) :
    IsMont m (add M a b) (x + y) ∧ IsMont m (sub M a b) (x - y) ∧ IsMont m (opp M a) (-x) ∧ IsMont m (mul M a b) (x * y) ∧
      IsMont m (square M a) (x ^ 2) ∧ (equals M a b = true ↔ x = y) ∧ (nonZero a = 0 ↔ x = 0) := by
  have H := isField_mont hM
  have hp := isField_prime hM
  rw [isMont_iff hM] at ha hb
  obtain ⟨ha, rfl⟩ := ha
  obtain ⟨hb, rfl⟩ := hb
  simp only [isMont_iff hM]
  refine ⟨den_add H a b ha hb, den_sub H a b ha hb, den_opp H a ha, den_mul H a b (.inl ha), ?_, equals_iff H ha hb, ?_⟩
  · rw [pow_two]; exact den_square H a ha
  · rw [nonZero_eq_zero, den_eq_zero_iff H ha]

/-- C54: entering Montgomery form reduces every 256-bit number, leaving it returns the canonical number, and the two are inverse. -/
theorem C54_montgomery (M : Md) (m : ℕ) (hM : IsField M m) (a : Limbs) :
    IsMont m (toMont M a) (a.val : ZMod m) ∧ (fromMont M (toMont M a)).val = a.val % m ∧
      ∀ x : ZMod m, IsMont m a x → (fromMont M a).val = x.val ∧ toMont M (fromMont M a) = a := by
  have H := isField_mont hM
  have hp := isField_prime hM
  have ht := den_toMont H a
  refine ⟨(isMont_iff hM _ _).mpr ht, ?_, ?_⟩
  · rw [fromMont_val H, ht.2, ZMod.val_natCast]
  · intro x hx
    rw [isMont_iff hM] at hx
    obtain ⟨hr, rfl⟩ := hx
    refine ⟨fromMont_val H a, ?_⟩
    have h2 := den_toMont H (fromMont M a)
    refine den_inj H h2.1 hr ?_
    rw [h2.2, fromMont_val H, ZMod.natCast_zmod_val]

/-- C54: bytes.  A 32-byte big-endian string is read modulo the prime, and what is written is the canonical big-endian number, so
reading what was written gives the same words. -/
theorem C54_bytes (b : Bytes) (hb : b.length = 32) :
    IsMont c.p (fpMont b) (beNat b : ZMod c.p) ∧ fpBytes (fpMont b) = be32 (beNat b % c.p) ∧
    IsMont c.n (fqMont b) (beNat b : ZMod c.n) ∧ fqBytes (fqMont b) = be32 (beNat b % c.n) := by
  have hp : IsField Fp c.p := .inl ⟨rfl, rfl⟩
  have hq : IsField Fq c.n := .inr ⟨rfl, rfl⟩
  refine ⟨(isMont_iff hp _ _).mpr (fpMont_spec hb), ?_, (isMont_iff hq _ _).mpr (fqMont_spec hb), ?_⟩
  · rw [fpBytes_spec, (fpMont_spec hb).2, ZMod.val_natCast]
  · rw [fqBytes_spec, (fqMont_spec hb).2, ZMod.val_natCast]

/-- the square root of the base field ends, fails exactly on non-squares, and otherwise returns a root. -/
theorem C54_sqrt (a : Limbs) (x : ZMod c.p) (ha : IsMont c.p a x) :
    (IsSquare x → ∃ y ψ, sqrt a = .ret (some y) ∧ IsMont c.p y ψ ∧ ψ ^ 2 = x) ∧ (¬ IsSquare x → sqrt a = .ret none) := by
  have hp : IsField Fp c.p := .inl ⟨rfl, rfl⟩
  have h := sqrt_spec ((isMont_iff hp a x).mp ha)
  refine ⟨fun hx => ?_, h.2⟩
  obtain ⟨y, ψ, h1, h2, h3⟩ := h.1 hx
  exact ⟨y, ψ, h1, (isMont_iff hp _ _).mpr h2, by rw [pow_two, h3]⟩

/-- non-trivial canonical words in both fields: 5 in Montgomery form. -/
example : IsMont c.p (toMont Fp ⟨5, 0, 0, 0⟩) 5 ∧ IsMont c.n (toMont Fq ⟨5, 0, 0, 0⟩) 5 := by
  have h1 := (C54_montgomery Fp c.p (.inl ⟨rfl, rfl⟩) ⟨5, 0, 0, 0⟩).1
  have h2 := (C54_montgomery Fq c.n (.inr ⟨rfl, rfl⟩) ⟨5, 0, 0, 0⟩).1
  rw [show (⟨5, 0, 0, 0⟩ : Limbs).val = 5 by decide +kernel] at h1 h2
  exact ⟨by exact_mod_cast h1, by exact_mod_cast h2⟩

/-! ## the environment and the dispatch -/

/-- the part of the library's environment that this file needs: the functions are those of package pasta. -/
structure PastaEnv (E : Env) (parse : Bytes → Option MinaMessage) (draws : List Bytes) : Prop where
  scheme : E.pasta = scheme parse draws
  mulAdd : E.pastaMulBaseAdd = fun a b => dropErr (Pasta.pointMulBaseGAdd a b)
  add : E.pastaAdd = fun a b => dropErr (Pasta.pointAdd a b)
  mul : E.pastaMul = fun a b => dropErr (Pasta.pointMul a b)
  dec : E.pastaDecompress = Pasta.pointDecompress
  len : ∀ b ∈ draws, b.length = 32
  nil : parse [] = none

example (E : Env) : PastaEnv { E with
    pasta := scheme (fun m => if m = [] then none else some ⟨[], [], fieldZero, fieldOne, fieldZero⟩) [be32 7],
    pastaMulBaseAdd := fun a b => dropErr (Pasta.pointMulBaseGAdd a b), pastaAdd := fun a b => dropErr (Pasta.pointAdd a b),
    pastaMul := fun a b => dropErr (Pasta.pointMul a b), pastaDecompress := Pasta.pointDecompress }
    (fun m => if m = [] then none else some ⟨[], [], fieldZero, fieldOne, fieldZero⟩) [be32 7] :=
  ⟨rfl, rfl, rfl, rfl, rfl, by simp; exact be32_length (by decide), rfl⟩

abbrev PST := ECC_CURVE_PASTA

section
variable {E : Env} {parse : Bytes → Option MinaMessage} {draws : List Bytes}

theorem genPub_pasta (hE : PastaEnv E parse draws) (k : Bytes) : genPubkey E k PST = .ret (genPubErr (Pasta.genPublicKey k)) := by
  unfold genPubkey
  rw [if_neg (by decide), if_neg (by decide), if_neg (by decide), if_neg (by decide), if_neg (by decide), if_neg (by decide),
    if_neg (by decide), if_neg (by decide), if_pos rfl, hE.scheme]
  rfl

theorem sign_pasta (hE : PastaEnv E parse draws) (k : Bytes) (ID : Option Bytes) (m : Bytes) (r : List Bytes) :
    signature E k ID m PST r = some (Pasta.sign parse draws k m >>= fun x => pure (signErr (noV x))) := by
  unfold signature
  rw [if_neg (by decide), if_neg (by decide), if_neg (by decide), if_neg (by decide), if_neg (by decide), if_neg (by decide),
    if_neg (by decide), if_neg (by decide), if_neg (by decide), if_pos rfl, hE.scheme]
  rfl

theorem verify_pasta (hE : PastaEnv E parse draws) (pub : Bytes) (ID : Option Bytes) (m s : Bytes) :
    Api.verify E pub ID m s PST = (Pasta.verify parse pub m s >>= fun b => pure (passCode b)) := by
  unfold Api.verify
  rw [if_neg (by decide), if_neg (by decide), if_neg (by decide), if_neg (by decide), if_neg (by decide), if_neg (by decide),
    if_neg (by decide), if_neg (by decide), if_neg (by decide), if_pos rfl, hE.scheme]
  rfl

theorem dec_pasta (hE : PastaEnv E parse draws) (b : Bytes) (hb : b.length = 33) :
    Api.pointDecompress E b PST = (Pasta.pointDecompress b >>= fun x => pure (okOrNil x)) := by
  unfold Api.pointDecompress
  rw [if_neg (by rw [hb]; simp), if_neg (by decide), if_neg (by decide), if_neg (by decide), if_pos rfl, hE.dec]

theorem add_pasta (hE : PastaEnv E parse draws) {b1 b2 p1 p2 : Bytes} (h1 : normPoint E b1 PST = .ret (some p1))
    (h2 : normPoint E b2 PST = .ret (some p2)) :
    Api.pointAdd E b1 b2 PST = (dropErr (Pasta.pointAdd p1 p2) >>= fun x => pure (x, SUCCESS)) := by
  unfold Api.pointAdd
  rw [if_neg (by decide), h1, Go.ret_bind]
  dsimp only
  rw [h2, Go.ret_bind]
  dsimp only
  rw [if_neg (by decide), if_neg (by decide), if_neg (by decide), if_pos rfl, hE.add]

theorem mul_pasta (hE : PastaEnv E parse draws) {b p k : Bytes} (h : normPoint E b PST = .ret (some p)) (hk : k.length = 32) :
    Api.pointMul E b k PST = (dropErr (Pasta.pointMul p k) >>= fun x => pure (x, SUCCESS)) := by
  unfold Api.pointMul
  rw [if_neg (by decide), h, Go.ret_bind]
  dsimp only
  rw [if_neg (by rw [hk]; simp), if_neg (by decide), if_neg (by decide), if_neg (by decide), if_pos rfl, hE.mul]

theorem mulAdd_pasta (hE : PastaEnv E parse draws) (b k : Bytes) (hk : k.length = 32) :
    Api.pointMulBaseGAdd E b k PST = (dropErr (Pasta.pointMulBaseGAdd b k) >>= fun x => pure (x, false)) := by
  unfold Api.pointMulBaseGAdd
  rw [if_neg (by rw [hk]; simp), if_neg (by decide), if_neg (by decide), if_neg (by decide), if_neg (by decide), if_neg (by decide),
    if_pos rfl, hE.mulAdd]

theorem mulBase_pasta (hE : PastaEnv E parse draws) (k : Bytes) (hk : k.length = 32) :
    Api.pointMulBaseG E k PST = .ret (pointCompress (okOrNil (Pasta.genPublicKey k)) PST) := by
  unfold Api.pointMulBaseG
  rw [if_neg (by rw [hk]; simp), if_neg (by decide), if_neg (by decide), if_neg (by decide), if_neg (by decide), if_neg (by decide),
    if_pos rfl, hE.scheme]
  rfl

/-! ## C55: key generation and signatures -/

/-- C55: `GenPubkey` succeeds exactly on 32-byte strings with the two top bits clear, and the key is the 64-byte form of `d·G`
(`d` is not required to be nonzero or below the group order). -/
theorem C55_genPubkey (hE : PastaEnv E parse draws) (d : Bytes) :
    genPubkey E d PST = .ret (if d.length = 32 ∧ beNat d < 2 ^ 254 then (wire (beNat d • good.G), SUCCESS) else ([], FAILURE)) := by
  rw [genPub_pasta hE, genPublicKey_spec]
  split <;> rfl

/-- C55: `Signature` with a usable draw succeeds exactly when the key is accepted and the message parses; a signature has 64 bytes. -/
theorem C55_signature (hE : PastaEnv E parse draws) (hex : ∃ b ∈ draws, beNat b % 2 ^ 250 ≠ 0) (d m : Bytes) (ID : Option Bytes)
    (rnd : List Bytes) :
    (d.length = 32 ∧ beNat d < 2 ^ 254 ∧ (parse m).isSome →
      ∃ sig, signature E d ID m PST rnd = some (.ret (sig, 0, SUCCESS)) ∧ sig.length = 64) ∧
    (¬ (d.length = 32 ∧ beNat d < 2 ^ 254 ∧ (parse m).isSome) → signature E d ID m PST rnd = some (.ret ([], 0, FAILURE))) := by
  constructor
  · rintro ⟨h1, h2, h3⟩
    obtain ⟨mm, hm⟩ := Option.isSome_iff_exists.mp h3
    obtain ⟨sig, hs⟩ := sign_ok hE.len hex h1 h2 hm
    refine ⟨sig, ?_, ?_⟩
    · rw [sign_pasta hE, hs]; rfl
    · obtain ⟨-, -, mm', -, a, κ, -, -, -, -, hsig⟩ := sign_spec hE.len hs
      rw [hsig, List.length_append, be32_length (lt_of_lt_of_le (xval_coe _).1 (by decide +kernel)), be32_length (val_lt_n _)]
  · intro h
    rw [sign_pasta hE]
    unfold Pasta.sign
    rw [genPublicKey_spec]
    by_cases hk : d.length = 32 ∧ beNat d < 2 ^ 254
    · rw [if_pos hk]
      obtain ⟨k, hk'⟩ := pickK_isSome hE.len hex
      dsimp only
      rw [hk']
      dsimp only
      cases hm : parse m with
      | none => rfl
      | some mm => exact absurd ⟨hk.1, hk.2, by rw [hm]; rfl⟩ h
    · rw [if_neg hk]; rfl

/-- C55 (partial): a signature returned by `Signature` is accepted by `Verify` under the key returned by `GenPubkey`, unless
`s ≡ -e·d` modulo the order with `s` not zero, `e` being the challenge (when the message's words are canonical, the Poseidon hash of the
specification).  In the excluded case the two points subtracted by `Verify` are opposite, and the code's addition can miss the doubling;
`C55_false` gives such a case. -/
theorem C55_roundtrip_partial (hE : PastaEnv E parse draws) (d m sig : Bytes) (v : UInt8) (ID : Option Bytes) (rnd : List Bytes)
    (h : signature E d ID m PST rnd = some (.ret (sig, v, SUCCESS))) :
    ∃ pub mm e, genPubkey E d PST = .ret (pub, SUCCESS) ∧ parse m = some mm ∧
      (∀ M, MsgOk mm M → e = challenge M (beNat d • good.G) (beNat (sig.take 32) : ZMod c.p)) ∧
      (c.n ∣ beNat (sig.drop 32) ∨ ¬ c.n ∣ beNat (sig.drop 32) + e * beNat d →
        Api.verify E pub ID m sig PST = .ret SUCCESS) := by
  rw [sign_pasta hE] at h
  have hs : Pasta.sign parse draws d m = .ret (.ok sig) := by
    cases hh : Pasta.sign parse draws d m with
    | panic => rw [hh] at h; cases h
    | ret x =>
      cases x with
      | error er => rw [hh] at h; cases er <;> simp [Go.ret_bind, noV, signErr, SUCCESS, FAILURE, ECC_PRIKEY_ILLEGAL, ECC_WRONG_TYPE, MESSAGE_ILLEGAL] at h
      | ok b =>
        rw [hh, Go.ret_bind] at h
        simp [noV, signErr] at h
        rw [h.1]
  obtain ⟨h1, h2, mm, hm, a, κ, ha, hA, hκ, hy, hsig⟩ := sign_spec hE.len hs
  set r := xval (κ.val • good.G) with hr
  have hrl : r < 256 ^ 32 := lt_of_lt_of_le (xval_coe _).1 (by decide +kernel)
  set e := beNat (hashOf a (fpMont (be32 r)) mm) with he
  set s := (κ + (e : ZMod c.n) * (beNat d : ZMod c.n)) with hsd
  have t1 : sig.take 32 = be32 r := by rw [hsig]; exact take_be32 hrl
  have t2 : sig.drop 32 = be32 s.val := by rw [hsig]; exact drop_be32 hrl
  have tr : beNat (sig.take 32) = r := by rw [t1]; exact beNat_be32 _
  have ts : beNat (sig.drop 32) = s.val := by rw [t2]; exact beNat_be32 _
  refine ⟨wire (beNat d • good.G), mm, e, ?_, hm, ?_, ?_⟩
  · rw [C55_genPubkey hE, if_pos ⟨h1, h2⟩]
  · intro M hM
    have hl : (be32 r).length = 32 := be32_length hrl
    have := hashOf_spec hA (fpMont_spec hl) hM
    rw [beNat_be32] at this
    rw [he, this, beNat_be32, tr]
  · intro hne
    have key : s.val • good.G - e • (beNat d • good.G) = κ.val • good.G := by
      have hmod : ∀ z : ZMod c.n, ∀ w : ℕ, (w : ZMod c.n) = z → z.val • good.G = w • good.G := by
        intro z w hw; rw [← hw, ZMod.val_natCast, smul_mod]
      have e1 : s.val • good.G = (κ.val + e * beNat d) • good.G := hmod s _ (by
        rw [hsd]; push_cast; rw [ZMod.natCast_zmod_val])
      rw [e1, add_nsmul, mul_nsmul', add_sub_cancel_right]
    have hv := verify_spec (parse := parse) (msg := m) ha hA (sig := sig) (by
      rw [hsig, List.length_append, be32_length hrl, be32_length (val_lt_n _)]) hm (by
      rw [t1, ← he, ts]
      rcases hne with h0 | h0
      · left
        obtain ⟨w, hw⟩ := ts ▸ h0
        rw [hw, mul_nsmul, n_smul, nsmul_zero]
      · right
        intro heq
        apply h0
        rw [ts]
        have h00 : (s.val + e * beNat d) • good.G = 0 := by
          rw [add_nsmul, heq, mul_nsmul', neg_add_cancel]
        exact (Pasta.smul_eq_zero_iff _ _ (WeierstrassCurve.Affine.Point.some_ne_zero _)).mp h00)
    rw [verify_pasta hE, hv, Go.ret_bind, t1, ← he, ts]
    have hS : Schnorr (beNat d • good.G) e (beNat (be32 r)) s.val := by
      unfold Schnorr
      rw [key, beNat_be32]
      exact ⟨by rw [← hr, Nat.mod_eq_of_lt (xval_coe _).1], hy⟩
    rw [decide_eq_true hS]
    rfl

/-- the hypotheses of `C55_signature` and `C55_roundtrip_partial` are met: key 5, nonce 7, an empty transaction. -/
example (hE : PastaEnv E (fun m => if m = [] then none else some ⟨[], [], fieldZero, fieldOne, fieldZero⟩) [be32 7]) (ID : Option Bytes)
    (rnd : List Bytes) : ∃ sig, signature E (be32 5) ID [1] PST rnd = some (.ret (sig, 0, SUCCESS)) := by
  obtain ⟨sig, h, -⟩ := (C55_signature hE ⟨be32 7, by simp, by rw [beNat_be32]; norm_num⟩ (be32 5) [1] ID rnd).1
    ⟨be32_length (by norm_num), by rw [beNat_be32]; norm_num, rfl⟩
  exact ⟨sig, h⟩

/-! ## C70: which signatures are accepted -/

/-- the strings that package pasta reads as a point of the curve (infinity included): 64 bytes, or 33 bytes compressed. -/
def PastaKey (b : Bytes) (Q : Pt) : Prop := Reads b Q ∨ EncodesCompressed b Q

theorem PastaKey.parses {b : Bytes} {Q : Pt} (h : PastaKey b Q) : ∃ a, parsePoint b = .ret (.ok a) ∧ AI a Q := by
  rcases h with h | h
  · exact parse64 h
  · exact parse33 h

/-- C70 (partial): for every key that is read as a curve point, every message with canonical words and every signature string, `Verify`
succeeds exactly on 64-byte strings that satisfy Mina's Schnorr equation; the case `s·G = -e·Q ≠ 0` is excluded. -/
theorem C70_verify_partial (hE : PastaEnv E parse draws) (pub m sig : Bytes) (ID : Option Bytes) (Q : Pt) (hp : PastaKey pub Q)
    (mm : MinaMessage) (hm : parse m = some mm) (M : Message) (hM : MsgOk mm M) (e r s : ℕ)
    (hr : r = beNat (sig.take 32)) (hs : s = beNat (sig.drop 32)) (he : e = challenge M Q (r : ZMod c.p))
    (hne : s • good.G = 0 ∨ s • good.G ≠ -(e • Q)) :
    (Api.verify E pub ID m sig PST = .ret SUCCESS ↔ sig.length = 64 ∧ Schnorr Q e r s) ∧
      (Api.verify E pub ID m sig PST = .ret FAILURE ↔ ¬ (sig.length = 64 ∧ Schnorr Q e r s)) := by
  rw [verify_pasta hE]
  by_cases hl : sig.length = 64
  · obtain ⟨a, ha, hA⟩ := hp.parses
    have l1 : (sig.take 32).length = 32 := by rw [List.length_take]; omega
    have hh := hashOf_spec hA (fpMont_spec l1) hM
    rw [← hr, ← he] at hh
    have heb : beNat (hashOf a (fpMont (sig.take 32)) mm) = e := by
      rw [hh, beNat_be32]
    have hv := verify_spec (parse := parse) (msg := m) ha hA (sig := sig) hl hm (by rw [heb, ← hs]; exact hne)
    rw [heb, ← hs, ← hr] at hv
    rw [hv, Go.ret_bind, Go.pure_eq, ret_inj, ret_inj, passCode_iff, passCode_fail, decide_eq_true_iff, decide_eq_false_iff_not]
    simp [hl]
  · have hv : Pasta.verify parse pub m sig = .ret false := by unfold Pasta.verify; rw [if_pos hl]
    rw [hv, Go.ret_bind, Go.pure_eq, ret_inj, ret_inj, passCode_iff, passCode_fail]
    simp [hl]

/-- the hypotheses of `C70_verify_partial` are met: the key `G`, an empty transaction, `s = 1` and any challenge other than `-1`
would do; here `s = 0`. -/
example : PastaKey (wire good.G) good.G ∧
    MsgOk ⟨[], [], fieldZero, fieldOne, fieldZero⟩ ⟨(0, 1, 0), [], []⟩ ∧ (0 : ℕ) • good.G = 0 :=
  ⟨.inl (wire_reads _), ⟨el_zero, el_one, el_zero, .nil, .nil⟩, zero_nsmul _⟩

/-- C70: a message that does not parse, a key of a length other than 33, 64 and 65 bytes, and a signature of a length other than 64
bytes are rejected. -/
theorem C70_reject (hE : PastaEnv E parse draws) (pub m sig : Bytes) (ID : Option Bytes)
    (h : parse m = none ∨ (pub.length ≠ 33 ∧ pub.length ≠ 64 ∧ pub.length ≠ 65) ∨ sig.length ≠ 64) :
    Api.verify E pub ID m sig PST = .ret FAILURE := by
  rw [verify_pasta hE]
  have : Pasta.verify parse pub m sig = .ret false := by
    by_cases hl : sig.length = 64
    swap
    · unfold Pasta.verify; rw [if_pos hl]
    rw [verify_core _ _ _ _ hl]
    unfold verifyCore
    have hpp : ∃ x, parsePoint pub = .ret x := by
      by_cases h33 : pub.length = 33
      · obtain ⟨a, y, e, -⟩ := parse33_any pub h33
        exact ⟨_, e⟩
      · unfold parsePoint
        rw [if_neg h33]
        split
        · split <;> exact ⟨_, rfl⟩
        · split <;> exact ⟨_, rfl⟩
    rcases h with h | h | h
    · obtain ⟨x, hx⟩ := hpp
      rw [hx, Go.ret_bind]
      cases x with
      | error e => rfl
      | ok a => dsimp only; rw [h]; rfl
    · have : parsePoint pub = .ret (.error .other) := by
        unfold parsePoint
        rw [if_neg h.1, if_neg h.2.2, if_neg h.2.1]
      rw [this]; rfl
    · exact absurd hl h
  rw [this]; rfl

/-! ## C56: encodings of a signature -/

/-- C56: `Verify` only looks at `r` modulo the field prime and at `s` modulo the group order, for every key and message. -/
theorem C56_residues (hE : PastaEnv E parse draws) (pub m sig sig' : Bytes) (ID : Option Bytes) (h : sig.length = 64) (h' : sig'.length = 64)
    (hr : beNat (sig.take 32) % c.p = beNat (sig'.take 32) % c.p) (hs : beNat (sig.drop 32) % c.n = beNat (sig'.drop 32) % c.n) :
    Api.verify E pub ID m sig PST = Api.verify E pub ID m sig' PST := by
  rw [verify_pasta hE, verify_pasta hE, verify_congr parse pub m sig sig' h h' hr hs]

theorem other_encoding {M n : ℕ} (hM : 2 * M ≤ 256 ^ 32) (h0 : 0 < M) (hn : n < 256 ^ 32) :
    ∃ n', n' ≠ n ∧ n' < 256 ^ 32 ∧ n' % M = n % M := by
  by_cases h : n + M < 256 ^ 32
  · exact ⟨n + M, by omega, h, by rw [Nat.add_mod_right]⟩
  · refine ⟨n - M, by omega, by omega, ?_⟩
    conv_rhs => rw [show n = (n - M) + M by omega, Nat.add_mod_right]

/-- C56 is false: every accepted signature has a second accepted encoding, with another `r`, and one with another `s`. -/
theorem C56_false (hE : PastaEnv E parse draws) (pub m sig : Bytes) (ID : Option Bytes)
    (h : Api.verify E pub ID m sig PST = .ret SUCCESS) :
    (∃ sig', sig'.take 32 ≠ sig.take 32 ∧ sig'.drop 32 = sig.drop 32 ∧ Api.verify E pub ID m sig' PST = .ret SUCCESS) ∧
    (∃ sig', sig'.take 32 = sig.take 32 ∧ sig'.drop 32 ≠ sig.drop 32 ∧ Api.verify E pub ID m sig' PST = .ret SUCCESS) := by
  have hl : sig.length = 64 := by
    by_contra hl
    rw [C70_reject hE pub m sig ID (.inr (.inr hl))] at h
    exact absurd (ret_inj.mp h) (by decide)
  have l1 : (sig.take 32).length = 32 := by rw [List.length_take]; omega
  have l2 : (sig.drop 32).length = 32 := by rw [List.length_drop]; omega
  have b1 := beNat_lt (sig.take 32)
  have b2 := beNat_lt (sig.drop 32)
  rw [l1] at b1
  rw [l2] at b2
  constructor
  · obtain ⟨n', hn1, hn2, hn3⟩ := other_encoding (M := c.p) (by decide +kernel) (by decide +kernel) b1
    have hl' : (be32 n').length = 32 := be32_length hn2
    have t1 : (be32 n' ++ sig.drop 32).take 32 = be32 n' := by rw [List.take_append_of_le_length (by omega), List.take_of_length_le (by omega)]
    have t2 : (be32 n' ++ sig.drop 32).drop 32 = sig.drop 32 := by
      rw [List.drop_append_of_le_length (by omega), List.drop_of_length_le (by omega), List.nil_append]
    refine ⟨be32 n' ++ sig.drop 32, ?_, t2, ?_⟩
    · rw [t1]; intro he; apply hn1; rw [← he, beNat_be32]
    · rw [← h]
      refine C56_residues hE pub m _ _ ID (by rw [List.length_append]; omega) hl ?_ (by rw [t2])
      rw [t1, beNat_be32, hn3]
  · obtain ⟨n', hn1, hn2, hn3⟩ := other_encoding (M := c.n) (by decide +kernel) (by decide +kernel) b2
    have hl' : (be32 n').length = 32 := be32_length hn2
    have t1 : (sig.take 32 ++ be32 n').take 32 = sig.take 32 := by rw [List.take_append_of_le_length (by omega), List.take_of_length_le (by omega)]
    have t2 : (sig.take 32 ++ be32 n').drop 32 = be32 n' := by
      rw [List.drop_append_of_le_length (by omega), List.drop_of_length_le (by omega), List.nil_append]
    refine ⟨sig.take 32 ++ be32 n', t1, ?_, ?_⟩
    · rw [t2]; intro he; apply hn1; rw [← he, beNat_be32]
    · rw [← h]
      refine C56_residues hE pub m _ _ ID (by rw [List.length_append]; omega) hl (by rw [t1]) ?_
      rw [t2, beNat_be32, hn3]

/-! ## C71: keys that are not public keys -/

theorem schnorr_zero (e : ℕ) : Schnorr 0 e 0 0 := by
  unfold Schnorr
  rw [zero_nsmul, nsmul_zero, sub_zero]
  exact ⟨rfl, rfl⟩

theorem verify_infinity {pub m : Bytes} {a : Affine} (ha : parsePoint pub = .ret (.ok a)) (hA : AI a 0) {mm : MinaMessage}
    (hm : parse m = some mm) : Pasta.verify parse pub m (List.replicate 64 0) = .ret true := by
  have z : beNat (List.replicate 32 0) = 0 := by decide +kernel
  have t1 : (List.replicate 64 (0 : UInt8)).take 32 = List.replicate 32 0 := by decide +kernel
  have t2 : (List.replicate 64 (0 : UInt8)).drop 32 = List.replicate 32 0 := by decide +kernel
  have hv := verify_spec (parse := parse) (msg := m) ha hA (sig := List.replicate 64 0) (by simp) hm (by
    left; rw [t2, z, zero_nsmul])
  rw [hv, t2, t1, z, decide_eq_true (schnorr_zero _)]

/-- C71 is false: a public key that stands for infinity is not rejected, and under it the signature of 64 zero bytes verifies for every
message that parses.  Such keys are 64 zero bytes, and every 65-byte string with prefix 4: the uncompressed form of a public key, which
other functions accept, is one of them. -/
theorem C71_false (hE : PastaEnv E parse draws) (pub m : Bytes) (ID : Option Bytes)
    (hp : pub = List.replicate 64 0 ∨ (pub.length = 65 ∧ pub.getD 0 0 = 4)) (hm : (parse m).isSome) :
    Api.verify E pub ID m (List.replicate 64 0) PST = .ret SUCCESS := by
  obtain ⟨mm, hm⟩ := Option.isSome_iff_exists.mp hm
  have ha : parsePoint pub = .ret (.ok ⟨fieldZero, fieldZero⟩) ∨ ∃ a, parsePoint pub = .ret (.ok a) ∧ AI a 0 := by
    rcases hp with rfl | h
    · right
      exact parse64 ⟨by simp, by decide +kernel, by decide +kernel⟩
    · left; exact parse65 pub h.1 h.2
  rw [verify_pasta hE]
  rcases ha with ha | ⟨a, ha, hA⟩
  · rw [verify_infinity ha AI.zeros hm]; rfl
  · rw [verify_infinity ha hA hm]; rfl

/-- a genuine public key with prefix 4 is such a key. -/
example : (4 :: wire good.G).length = 65 ∧ (4 :: wire good.G).getD 0 0 = 4 :=
  ⟨by rw [List.length_cons, wire_length], rfl⟩

/-! ## C57: point arguments -/

/-- the forms in which the point functions of the API read a point: 64 bytes, 65 bytes (a leading byte, whatever it is), 33 bytes
compressed.  Infinity is 64 zero bytes. -/
def PastaArg (b : Bytes) (Q : Pt) : Prop := Reads b Q ∨ (b.length = 65 ∧ Reads (b.drop 1) Q) ∨ EncodesCompressed b Q

example : PastaArg (wire good.G) good.G ∧ PastaArg (4 :: wire good.G) good.G ∧ PastaArg (wire 0) 0 :=
  ⟨.inl (wire_reads _), .inr (.inl ⟨by rw [List.length_cons, wire_length], wire_reads _⟩), .inl (wire_reads _)⟩

theorem dec_key {b : Bytes} {Q : Pt} (h : EncodesCompressed b Q) : Pasta.pointDecompress b = .ret (.ok (4 :: wire Q)) := by
  obtain ⟨a, ha, hA⟩ := parse33 h
  unfold Pasta.pointDecompress
  rw [ha, Go.ret_bind]
  dsimp only
  rw [hA.bytes]
  rfl

theorem norm_arg (hE : PastaEnv E parse draws) {b : Bytes} {Q : Pt} (h : PastaArg b Q) :
    ∃ p, normPoint E b PST = .ret (some p) ∧ Reads p Q := by
  unfold normPoint
  rcases h with h | ⟨hl, h⟩ | h
  · rw [if_neg (by rw [h.1]; simp), if_neg (by rw [h.1]; simp), if_neg (by rw [h.1]; simp)]
    exact ⟨b, rfl, h⟩
  · rw [if_neg (by rw [hl]; simp), if_pos hl]
    exact ⟨_, rfl, h⟩
  · rw [if_pos h.2.1, dec_pasta hE b h.2.1, dec_key h]
    refine ⟨wire Q, ?_, wire_reads Q⟩
    show (sliceFrom (4 :: wire Q) 1 >>= fun s => pure (some s)) = _
    unfold sliceFrom
    rw [if_pos (by rw [List.length_cons]; omega)]
    rfl

theorem pointAdd_reads {b1 b2 : Bytes} {P Q : Pt} (h1 : PastaKey b1 P) (h2 : PastaKey b2 Q) :
    Pasta.pointAdd b1 b2 = .ret (.ok (wire (P + Q))) := by
  obtain ⟨a1, e1, i1⟩ := h1.parses
  obtain ⟨a2, e2, i2⟩ := h2.parses
  unfold Pasta.pointAdd
  rw [e1, Go.ret_bind]
  dsimp only
  rw [e2, Go.ret_bind]
  dsimp only
  rw [(affineAdd_spec i1 i2).bytes]
  rfl

/-- C57: `Point_add` is the addition of the group, for every pair of points in every form, equal, opposite and infinite ones included. -/
theorem C57_point_add (hE : PastaEnv E parse draws) (b1 b2 : Bytes) (P Q : Pt) (h1 : PastaArg b1 P) (h2 : PastaArg b2 Q) :
    Api.pointAdd E b1 b2 PST = .ret (wire (P + Q), SUCCESS) := by
  obtain ⟨p1, n1, r1⟩ := norm_arg hE h1
  obtain ⟨p2, n2, r2⟩ := norm_arg hE h2
  rw [add_pasta hE n1 n2, pointAdd_reads (.inl r1) (.inl r2)]
  rfl

/-- C57: `Point_mul` is the scalar multiple, for every point in every form and every 32-byte scalar. -/
theorem C57_point_mul (hE : PastaEnv E parse draws) (b k : Bytes) (Q : Pt) (h : PastaArg b Q) (hk : k.length = 32) :
    Api.pointMul E b k PST = .ret (wire (beNat k • Q), SUCCESS) := by
  obtain ⟨p, n, r⟩ := norm_arg hE h
  obtain ⟨a, e, i⟩ := parse64 r
  rw [mul_pasta hE n hk]
  have : Pasta.pointMul p k = .ret (.ok (wire (beNat k • Q))) := by
    unfold Pasta.pointMul
    rw [if_neg (by rw [hk]; simp), e, Go.ret_bind]
    dsimp only
    rw [(affineScalarMul_spec _ (fqMont_spec hk).1 i).bytes, den_smul hk]
    rfl
  rw [this]
  rfl

/-- C57: `Point_mulBaseG` returns the compressed form of `k·G`, for every scalar below `2^254` with `k·G` not infinity, and nil
for other scalars of 32 bytes. -/
theorem C57_mulBaseG (hE : PastaEnv E parse draws) (k : Bytes) (hk : k.length = 32) :
    (beNat k < 2 ^ 254 → beNat k • good.G ≠ 0 →
      ∃ b, Api.pointMulBaseG E k PST = .ret b ∧ EncodesCompressed b (beNat k • good.G)) ∧
    (¬ beNat k < 2 ^ 254 → Api.pointMulBaseG E k PST = .ret []) := by
  rw [mulBase_pasta hE k hk, genPublicKey_spec]
  constructor
  · intro h h0
    rw [if_pos ⟨hk, h⟩]
    have he : Encodes (wire (beNat k • good.G)) (beNat k • good.G) := by
      have hb := xval_coe (beNat k • good.G)
      have hlt : xval (beNat k • good.G) < 256 ^ 32 := lt_of_lt_of_le hb.1 (by decide +kernel)
      refine ⟨h0, wire_length _, ?_, ?_⟩
      · unfold wire; rw [take_be32 hlt, beNat_be32]
      · unfold wire; rw [drop_be32 hlt, beNat_be32]
    exact ⟨_, rfl, (compress_encodes he PST (.inr (.inr (.inr rfl)))).1⟩
  · intro h
    rw [if_neg (fun hh => h hh.2)]
    rfl

/-- C57 (partial): `Point_mulBaseG_add` is `k·G + Q` for a point of 64 or 33 bytes; missing are the points of 65 bytes, see
`C57_false_mulBaseG_add`. -/
theorem C57_mulBaseG_add_partial (hE : PastaEnv E parse draws) (b k : Bytes) (Q : Pt) (h : PastaKey b Q) (hk : k.length = 32) :
    Api.pointMulBaseGAdd E b k PST = .ret (if beNat k < 2 ^ 254 then wire (beNat k • good.G + Q) else [], false) := by
  rw [mulAdd_pasta hE b k hk]
  unfold Pasta.pointMulBaseGAdd
  rw [if_neg (by rw [hk]; simp), genPublicKey_spec]
  by_cases hlt : beNat k < 2 ^ 254
  · rw [if_pos ⟨hk, hlt⟩, if_pos hlt]
    dsimp only
    rw [pointAdd_reads (.inl (wire_reads _)) h]
    rfl
  · rw [if_neg (fun hh => hlt hh.2), if_neg hlt]
    rfl

/-- C57 is false for `Point_mulBaseG_add` with a 65-byte point: the point is ignored. -/
theorem C57_false_mulBaseG_add (hE : PastaEnv E parse draws) (b k : Bytes) (hb : b.length = 65) (h4 : b.getD 0 0 = 4) (hk : k.length = 32)
    (hlt : beNat k < 2 ^ 254) : Api.pointMulBaseGAdd E b k PST = .ret (wire (beNat k • good.G), false) := by
  rw [mulAdd_pasta hE b k hk]
  unfold Pasta.pointMulBaseGAdd
  rw [if_neg (by rw [hk]; simp), genPublicKey_ok hk hlt]
  dsimp only
  unfold Pasta.pointAdd
  obtain ⟨a, e, i⟩ := parse64 (wire_reads (beNat k • good.G))
  rw [e, Go.ret_bind]
  dsimp only
  rw [parse65 b hb h4, Go.ret_bind]
  dsimp only
  rw [(affineAdd_spec i AI.zeros).bytes, add_zero]
  rfl

/-- C57: what `PointDecompress` returns on each of the 33-byte strings: `4 ‖ x ‖ y` with `x` reduced; if `x³ + 5` is a square then `y` is
its root with the parity asked for by the prefix byte (3: odd, every other byte: even), and otherwise `y` is zero. -/
theorem C57_decompress (hE : PastaEnv E parse draws) (b : Bytes) (hb : b.length = 33) :
    ∃ y : ZMod c.p, Api.pointDecompress E b PST = .ret (4 :: (be32 (beNat (b.drop 1) % c.p) ++ be32 y.val)) ∧
      (IsSquare (((beNat (b.drop 1) : ℕ) : ZMod c.p) ^ 3 + 5) →
        y ^ 2 = ((beNat (b.drop 1) : ℕ) : ZMod c.p) ^ 3 + 5 ∧ (y ≠ 0 → (y.val % 2 = 1 ↔ b.getD 0 0 = 3))) ∧
      (¬ IsSquare (((beNat (b.drop 1) : ℕ) : ZMod c.p) ^ 3 + 5) → y = 0) := by
  obtain ⟨a, y, e, hx, hy, h1, h2⟩ := parse33_any b hb
  refine ⟨y, ?_, h1, h2⟩
  rw [dec_pasta hE b hb]
  unfold Pasta.pointDecompress
  rw [e, Go.ret_bind]
  dsimp only
  unfold affineBytes
  rw [hx.bytes, hy.bytes, ZMod.val_natCast]
  rfl

/-- 5 is not a square modulo the prime: there is no point with `x = 0`. -/
theorem five_nonsquare : ¬ IsSquare (5 : ZMod c.p) := by
  rintro ⟨y, hy⟩
  have h1 : (5 : ZMod c.p) ^ (c.p / 2) = y ^ (c.p - 1) := by
    rw [hy, ← pow_two, ← pow_mul]; congr 1
  have hy0 : y ≠ 0 := by
    rintro rfl
    rw [mul_zero] at hy
    exact (Secp256r1.natCast_ne_zero_of (p := c.p) 5 (by decide +kernel)) (by exact_mod_cast hy)
  rw [ZMod.pow_card_sub_one_eq_one hy0] at h1
  have h2 := powMod_cast 5 (c.p / 2) c.p
  rw [Nat.cast_ofNat, h1] at h2
  have h3 : powMod 5 (c.p / 2) c.p = c.p - 1 := by decide +kernel
  rw [h3] at h2
  have h4 := (ZMod.natCast_eq_natCast_iff 1 (c.p - 1) c.p).mp (by rw [h2, Nat.cast_one])
  exact absurd h4 (by decide +kernel)

/-- C57 is false: bad prefix bytes and x-coordinates without a point are not rejected.  The prefix byte counts only by being 3 or not, and
`02 ‖ 0` is decompressed to `04 ‖ 0 ‖ 0`, which is no point of the curve but the encoding of infinity. -/
theorem C57_false_prefix (hE : PastaEnv E parse draws) (x : Bytes) (hx : x.length = 32) (f : UInt8) (hf : f ≠ 3) :
    Api.pointDecompress E (f :: x) PST = Api.pointDecompress E (2 :: x) PST ∧ Api.pointDecompress E (f :: x) PST ≠ .ret [] := by
  have hl : ∀ g : UInt8, (g :: x).length = 33 := fun g => by rw [List.length_cons, hx]
  constructor
  · rw [dec_pasta hE _ (hl f), dec_pasta hE _ (hl 2)]
    unfold Pasta.pointDecompress parsePoint
    rw [if_pos (hl f), if_pos (hl 2)]
    simp only [List.drop_succ_cons, List.drop_zero, List.getD_cons_zero]
    rw [show decide (f = 3) = decide ((2 : UInt8) = 3) by rw [decide_eq_decide]; exact ⟨fun h => absurd h hf, fun h => absurd h (by decide)⟩]
  · obtain ⟨y, e, -⟩ := C57_decompress hE (f :: x) (hl f)
    rw [e]
    intro h
    exact absurd (ret_inj.mp h) (by simp)

theorem C57_false_off_curve (hE : PastaEnv E parse draws) :
    Api.pointDecompress E (2 :: List.replicate 32 0) PST = .ret (4 :: List.replicate 64 0) ∧
      ∀ Q : Pt, Q ≠ 0 → xval Q ≠ 0 := by
  have hz : beNat ((2 :: List.replicate 32 (0 : UInt8)).drop 1) = 0 := by decide +kernel
  constructor
  · obtain ⟨y, e, -, h⟩ := C57_decompress hE (2 :: List.replicate 32 0) (by simp)
    rw [hz] at e h
    rw [e, h (by simpa using five_nonsquare)]
    decide +kernel
  · intro Q hQ hx
    cases Q with
    | zero => exact hQ rfl
    | some x y hn =>
      have hx0 : x = 0 := (ZMod.val_eq_zero x).mp hx
      have he := (W_equation _ _).mp hn.1
      apply five_nonsquare
      refine ⟨y, ?_⟩
      rw [hx0] at he
      have hcb : (c.b : ZMod c.p) = 5 := by show ((5 : ℕ) : ZMod c.p) = 5; push_cast; rfl
      rw [hcb] at he
      linear_combination -he

/-! ## C72: derived keys -/

/-- C72: adding `b·G` to the public key of `a` gives the public key of `(a + b) mod n`, in the 64-byte form and through the compressed
form. -/
theorem C72_child_key (hE : PastaEnv E parse draws) (a b s pub : Bytes) (ha : genPubkey E a PST = .ret (pub, SUCCESS)) (hb : b.length = 32)
    (hb' : beNat b < 2 ^ 254) (hs : s.length = 32) (hsv : beNat s = (beNat a + beNat b) % c.n) (hs' : beNat s < 2 ^ 254) :
    ∃ pub', genPubkey E s PST = .ret (pub', SUCCESS) ∧ Api.pointMulBaseGAdd E pub b PST = .ret (pub', false) ∧
      ∀ g, Api.pointMul E (wire good.G) b PST = .ret (g, SUCCESS) → Api.pointAdd E pub g PST = .ret (pub', SUCCESS) := by
  rw [C55_genPubkey hE] at ha
  by_cases hk : a.length = 32 ∧ beNat a < 2 ^ 254
  swap
  · rw [if_neg hk] at ha; exact absurd (congrArg Prod.snd (ret_inj.mp ha)) (show ¬ FAILURE = SUCCESS by decide)
  rw [if_pos hk] at ha
  have hpub : pub = wire (beNat a • good.G) := (congrArg Prod.fst (ret_inj.mp ha)).symm
  subst hpub
  have key : beNat s • good.G = beNat a • good.G + beNat b • good.G := by rw [hsv, smul_mod, add_nsmul]
  refine ⟨wire (beNat s • good.G), by rw [C55_genPubkey hE, if_pos ⟨hs, hs'⟩], ?_, ?_⟩
  · rw [C57_mulBaseG_add_partial hE _ b _ (.inl (wire_reads _)) hb, if_pos hb', key, add_comm]
  · intro g hg
    rw [C57_point_mul hE _ b good.G (.inl (wire_reads _)) hb] at hg
    have : g = wire (beNat b • good.G) := (congrArg Prod.fst (ret_inj.mp hg)).symm
    rw [this, C57_point_add hE _ _ _ _ (.inl (wire_reads _)) (.inl (wire_reads _)), key]

/-- the hypotheses are met by keys 5 and 7 and their sum. -/
example (hE : PastaEnv E parse draws) : ∃ pub, genPubkey E (be32 5) PST = .ret (pub, SUCCESS) ∧ (be32 7).length = 32 ∧
    beNat (be32 7) < 2 ^ 254 ∧ (be32 12).length = 32 ∧ beNat (be32 12) = (beNat (be32 5) + beNat (be32 7)) % c.n ∧ beNat (be32 12) < 2 ^ 254 := by
  refine ⟨wire (beNat (be32 5) • good.G), ?_, be32_length (by norm_num), ?_, be32_length (by norm_num), ?_, ?_⟩
  · rw [C55_genPubkey hE, if_pos ⟨be32_length (by norm_num), by rw [beNat_be32]; norm_num⟩]
  · rw [beNat_be32]; norm_num
  · rw [beNat_be32, beNat_be32, beNat_be32]; decide +kernel
  · rw [beNat_be32]; norm_num

/-- C72: both sides of a Diffie–Hellman exchange get the same point. -/
theorem C72_ecdh (hE : PastaEnv E parse draws) (a b pubA pubB : Bytes) (ha : genPubkey E a PST = .ret (pubA, SUCCESS))
    (hb : genPubkey E b PST = .ret (pubB, SUCCESS)) :
    Api.pointMul E pubB a PST = Api.pointMul E pubA b PST ∧
      Api.pointMul E pubB a PST = .ret (wire ((beNat a * beNat b) • good.G), SUCCESS) := by
  have gen : ∀ {d pub : Bytes}, genPubkey E d PST = .ret (pub, SUCCESS) → d.length = 32 ∧ pub = wire (beNat d • good.G) := by
    intro d pub h
    rw [C55_genPubkey hE] at h
    by_cases hk : d.length = 32 ∧ beNat d < 2 ^ 254
    · rw [if_pos hk] at h; exact ⟨hk.1, (congrArg Prod.fst (ret_inj.mp h)).symm⟩
    · rw [if_neg hk] at h; exact absurd (congrArg Prod.snd (ret_inj.mp h)) (show ¬ FAILURE = SUCCESS by decide)
  obtain ⟨la, rfl⟩ := gen ha
  obtain ⟨lb, rfl⟩ := gen hb
  rw [C57_point_mul hE _ a _ (.inl (wire_reads _)) la, C57_point_mul hE _ b _ (.inl (wire_reads _)) lb, ← mul_nsmul', ← mul_nsmul',
    mul_comm (beNat b)]
  exact ⟨rfl, rfl⟩

/-! ## C73: compression -/

theorem wire_encodes {Q : Pt} (h0 : Q ≠ 0) : Encodes (wire Q) Q := by
  have hlt : xval Q < 256 ^ 32 := lt_of_lt_of_le (xval_coe Q).1 (by decide +kernel)
  refine ⟨h0, wire_length _, ?_, ?_⟩
  · unfold wire; rw [take_be32 hlt, beNat_be32]
  · unfold wire; rw [drop_be32 hlt, beNat_be32]

/-- C73: decompressing the compressed form of a point, from the 64-byte or the 65-byte form, gives the 65-byte form back, for every point
of the curve; 64 zero bytes (infinity) included. -/
theorem C73_decompress_compress (hE : PastaEnv E parse draws) (Q : Pt) :
    Api.pointDecompress E (pointCompress (wire Q) PST) PST = .ret (4 :: wire Q) ∧
      pointCompress (4 :: wire Q) PST = pointCompress (wire Q) PST := by
  by_cases h0 : Q = 0
  · subst h0
    have hw : wire 0 = List.replicate 64 0 := by decide +kernel
    have e1 : pointCompress (wire 0) PST = 2 :: List.replicate 32 0 := by rw [hw]; decide +kernel
    rw [e1, (C57_false_off_curve hE).1, hw]
    exact ⟨rfl, by decide +kernel⟩
  · obtain ⟨h1, -, -, h2⟩ := compress_encodes (wire_encodes h0) PST (.inr (.inr (.inr rfl)))
    rw [dec_pasta hE _ h1.2.1, dec_key h1]
    exact ⟨rfl, h2⟩

end

/-! ## C58, C69: Poseidon -/

/-- C58: absorbing in any chunks is the same as absorbing at once: from every state, for every list of chunks. -/
theorem C58_chunks (ctx : Ctx) (chunks : List (List Limbs)) :
    chunks.foldl poseidonUpdate ctx = poseidonUpdate ctx chunks.flatten := by
  induction chunks generalizing ctx with
  | nil => rfl
  | cons x xs ih =>
    rw [List.foldl_cons, ih, List.flatten_cons]
    unfold poseidonUpdate
    rw [List.foldl_append]

/-- C69: the digest of every list of canonical elements, absorbed in any chunks, from every initial state, is the sponge hash of
the specification, as a 32-byte big-endian number. -/
theorem C69_poseidon (iv : Limbs × Limbs × Limbs) (chunks : List (List Limbs)) (t : PoseidonSpec.F × PoseidonSpec.F × PoseidonSpec.F)
    (xs : List PoseidonSpec.F) (h1 : IsMont c.p iv.1 t.1) (h2 : IsMont c.p iv.2.1 t.2.1) (h3 : IsMont c.p iv.2.2 t.2.2)
    (hx : List.Forall₂ (IsMont c.p) chunks.flatten xs) :
    poseidonDigest (chunks.foldl poseidonUpdate (poseidonInit [iv.1, iv.2.1, iv.2.2])) = be32 (PoseidonSpec.hash t xs).val := by
  have hp : IsField Fp c.p := .inl ⟨rfl, rfl⟩
  have hx' : List.Forall₂ El chunks.flatten xs := hx.imp fun a x h => (isMont_iff hp a x).mp h
  rw [isMont_iff hp] at h1 h2 h3
  rw [C58_chunks]
  have := hash_spec hx' (s := ⟨iv.1, iv.2.1, iv.2.2⟩) (t := t) ⟨h1, h2, h3⟩
  exact this.bytes

end Verif.Props
