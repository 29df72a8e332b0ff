import Verif.C25519.SchemeLemmas
import Verif.Props.C25519

/-!
# Properties of signatures on CURVE25519_SHA256: C52, C104, C105
-/

set_option maxHeartbeats 1000000

namespace Verif.Props

open Verif.Api
open Verif.C25519 (G L keyPoint Usable IsSigningKey xBytes xc yc absP)
open Verif.Ed25519 (F P P_eq)

variable {E : Env} {sha256 : Bytes → Bytes}

/-! ## C104: public keys are points -/

/-- C104: `GenPubkey` on CURVE25519_SHA256 returns the x-coordinate of `K·G`, `K` being the clamped private key, when that coordinate is not
one of the nineteen largest field elements. -/
theorem C104_genPubkey_partial (hE : C25519Env E sha256) (k : Bytes) (hk : k.length = 32) (hx : (xc (keyPoint k)).val < 2 ^ 255 - 19 - 19) :
    genPubkey E k C255 = .ret (xBytes (keyPoint k), SUCCESS) := by
  rw [C74_rfc7748_partial hE k hk (by rw [C25519.x25519_xc hk]; exact hx), C25519.x25519Bytes_xc hk]

/-- C104: the base point has the prime order `L`, and no private key gives the point at infinity. -/
theorem C104_order : Nat.Prime L ∧ addOrderOf G = L ∧ ∀ k : Bytes, k.length = 32 → keyPoint k ≠ 0 :=
  ⟨C25519.L_prime, C25519.G_order, fun _ hk => (C25519.keyPoint_mod hk).1⟩

/-- C104: two private keys have the same public key exactly if their clamped scalars are equal or opposite modulo the order. -/
theorem C104_same_key_partial (hE : C25519Env E sha256) (k k' : Bytes) (hk : k.length = 32) (hk' : k'.length = 32)
    (hx : (xc (keyPoint k)).val < 2 ^ 255 - 19 - 19) (hx' : (xc (keyPoint k')).val < 2 ^ 255 - 19 - 19) :
    genPubkey E k C255 = genPubkey E k' C255 ↔
      C25519.Spec.decodeScalar k % L = C25519.Spec.decodeScalar k' % L ∨ (C25519.Spec.decodeScalar k + C25519.Spec.decodeScalar k') % L = 0 := by
  rw [C104_genPubkey_partial hE k hk hx, C104_genPubkey_partial hE k' hk' hx']
  have h1 : (keyPoint k = keyPoint k' ↔ C25519.Spec.decodeScalar k % L = C25519.Spec.decodeScalar k' % L) := C25519.smul_eq_iff _ _
  have h2 : (keyPoint k = -keyPoint k' ↔ (C25519.Spec.decodeScalar k + C25519.Spec.decodeScalar k') % L = 0) := by
    rw [eq_neg_iff_add_eq_zero]
    unfold keyPoint
    rw [← add_nsmul, C25519.smul_zero_iff, Nat.dvd_iff_mod_eq_zero]
  rw [← h1, ← h2]
  constructor
  · intro h
    have hb : xBytes (keyPoint k) = xBytes (keyPoint k') := by
      injection h with h
      injection h
    exact C25519.xc_inj (C25519.keyPoint_mod hk).1 (C25519.keyPoint_mod hk').1 (C25519.xBytes_inj hb)
  · rintro (h | h)
    · rw [h]
    · unfold xBytes
      rw [h, C25519.xc_neg]

/-! ## C105: the signature scheme -/

/-- C105: every usable private key has exactly one signing key. -/
theorem C105_signingKey (k : Bytes) (hk : k.length = 32) (hu : Usable (keyPoint k)) : ∃! s, IsSigningKey k s :=
  ⟨_, C25519.keygenS_signingKey hk hu, fun _ h => C25519.signingKey_unique hk h (C25519.keygenS_signingKey hk hu)⟩

/-- C105: what `Signature` on CURVE25519_SHA256 returns.  With `s` the signing key, `x = SHA256(SHA256(m) ‖ s)` clamped and
`h = SHA256(SHA256(m) ‖ X)` for the x-coordinate `X` of `x·G`, it is `v ‖ h` where `v` is the number below the order with
`v·|K| + h·G = x·G`. -/
theorem C105_signature_partial (hE : C25519Env E sha256) (hsha : ∀ b, (sha256 b).length = 32) (k s m : Bytes) (hk : k.length = 32)
    (hu : Usable (keyPoint k)) (hs : IsSigningKey k s) (hX : (xc (keyPoint (sha256 (sha256 m ++ s)))).val < 2 ^ 255 - 19 - 19)
    (ID : Option Bytes) (rs : List Bytes) :
    let h := sha256 (sha256 m ++ xBytes (keyPoint (sha256 (sha256 m ++ s))))
    ∃ v : Bytes, v.length = 32 ∧ leNat v < L ∧ signature E k ID m C255 rs = some (.ret (v ++ h, 0, SUCCESS)) ∧
      leNat v • absP (keyPoint k) + leNat h • G = keyPoint (sha256 (sha256 m ++ s)) := by
  obtain ⟨v, h1, h2, h3, h4⟩ := C25519.sign_spec hsha hk hu hs (m := m) (by have := P_eq; omega)
  refine ⟨v, h1, h2, ?_, h4⟩
  rw [sign_c hE, h3]
  rfl

/-- C105: what `Verify` on CURVE25519_SHA256 accepts, for a public key that is the x-coordinate of a usable point of the curve: with `v` below
the order and a non-empty message, exactly the signatures `v ‖ h` with `h = SHA256(SHA256(m) ‖ x(v·|Q| + h·G))`. -/
theorem C105_verify_partial (hE : C25519Env E sha256) (Q : C25519.E.Point) (hQ : Q ≠ 0) (hu : Usable Q) (h0 : xc Q ≠ 0) (hs : xc (absP Q + G) ≠ 0)
    (hd : xc (absP Q - G) ≠ 0) (m v h : Bytes) (hv : v.length = 32) (hh : h.length = 32)
    (hR : (xc (leNat v • absP Q + leNat h • G)).val < 2 ^ 255 - 19 - 19) (ID : Option Bytes) :
    Api.verify E (xBytes Q) ID m (v ++ h) C255 = .ret SUCCESS ↔
      leNat v < L ∧ m ≠ [] ∧ h = sha256 (sha256 m ++ xBytes (leNat v • absP Q + leNat h • G)) := by
  rw [verify_c hE]
  have := C25519.verify_spec (sha256 := sha256) hQ hu h0 hs hd (m := m) hv hh (by have := P_eq; omega)
  rw [← this]
  cases C25519.verify sha256 (xBytes Q) m (v ++ h) <;> simp [passCode, SUCCESS, FAILURE]

/-- C105: the keys made by `GenPubkey` meet the conditions on the point of `C105_verify_partial`. -/
theorem C105_keys (k : Bytes) (hk : k.length = 32) (hu : Usable (keyPoint k)) :
    keyPoint k ≠ 0 ∧ xc (keyPoint k) ≠ 0 ∧ xc (absP (keyPoint k) + G) ≠ 0 ∧ xc (absP (keyPoint k) - G) ≠ 0 :=
  ⟨(C25519.keyPoint_mod hk).1, C25519.keyPoint_ok hk hu⟩

/-! ## C52: signatures verify -/

/-- C52 on CURVE25519_SHA256 (partial): the signature of a non-empty message verifies with the public key of the private key.  Missing: keys
that are not usable (the public key is 9, or a coordinate is one of the nineteen largest field elements), and nonces whose x-coordinate is one of
these. -/
theorem C52_sha256_partial (hE : C25519Env E sha256) (hsha : ∀ b, (sha256 b).length = 32) (k m : Bytes) (hk : k.length = 32) (hm : m ≠ [])
    (hu : Usable (keyPoint k)) (hX : ∀ s, IsSigningKey k s → (xc (keyPoint (sha256 (sha256 m ++ s)))).val < 2 ^ 255 - 19 - 19)
    (ID ID' : Option Bytes) (rs : List Bytes) :
    ∃ pub sig, genPubkey E k C255 = .ret (pub, SUCCESS) ∧ signature E k ID m C255 rs = some (.ret (sig, 0, SUCCESS)) ∧
      Api.verify E pub ID' m sig C255 = .ret SUCCESS := by
  have hs := C25519.keygenS_signingKey hk hu
  have hX' := hX _ hs
  obtain ⟨v, h1, h2, h3, h4⟩ := C105_signature_partial hE hsha k _ m hk hu hs hX' ID rs
  refine ⟨_, _, C104_genPubkey_partial hE k hk (by have := P_eq; have := hu.x; omega), h3, ?_⟩
  obtain ⟨c1, c2, c3, c4⟩ := C105_keys k hk hu
  rw [C105_verify_partial hE _ c1 hu c2 c3 c4 m v _ h1 (hsha _) (by rw [h4]; exact hX')]
  exact ⟨h2, hm, by rw [h4]⟩

/-! ## A key that meets the hypotheses -/

theorem usable_of {k : Bytes} (hk : k.length = 32) {x y : ℕ} (hx : C25519.Spec.x25519 k 9 = x) (hxl : x < 2 ^ 255 - 19 - 19) (h9 : x ≠ 9)
    (hy : (y ^ 2) % (2 ^ 255 - 19) = (x ^ 3 + 486662 * x ^ 2 + x) % (2 ^ 255 - 19)) (h0 : 0 < y) (h1 : y < 2 ^ 255 - 19 - 19) (h2 : 19 < y) :
    Usable (keyPoint k) := by
  have hP := P_eq
  rw [C25519.x25519_xc hk] at hx
  have hxc : xc (keyPoint k) = (x : ℕ) := by rw [← hx, ZMod.natCast_zmod_val]
  have hyv : ((y : ℕ) : F).val = y := by rw [ZMod.val_natCast, Nat.mod_eq_of_lt (by omega)]
  have hy0 : ((y : ℕ) : F) ≠ 0 := by
    intro h
    rw [h] at hyv
    have : (0 : F).val = 0 := ZMod.val_zero
    omega
  have hyn : (-((y : ℕ) : F)).val = P - y := by rw [C25519.neg_val hy0, hyv]
  have hyc : yc (keyPoint k) = (y : ℕ) ∨ yc (keyPoint k) = -((y : ℕ) : F) := by
    have hne := (C25519.keyPoint_mod hk).1
    have hsq : ((y : ℕ) : F) ^ 2 = (x : F) ^ 3 + 486662 * (x : F) ^ 2 + x := by
      have : ((y ^ 2 : ℕ) : F) = ((x ^ 3 + 486662 * x ^ 2 + x : ℕ) : F) := by
        rw [ZMod.natCast_eq_natCast_iff]
        unfold Nat.ModEq
        rw [hP]; exact hy
      exact_mod_cast this
    generalize keyPoint k = Q at *
    cases Q with
    | zero => exact absurd rfl hne
    | some x' y' hn =>
      have hx' : x' = (x : ℕ) := hxc
      have c := C25519.mont_eq.1 hn.1
      rw [hx', ← hsq] at c
      have : (y' - (y : ℕ)) * (y' + (y : ℕ)) = 0 := by linear_combination c
      rcases mul_eq_zero.1 this with h | h
      · left; exact sub_eq_zero.1 h
      · right; exact eq_neg_of_add_eq_zero_left h
  have hn9 : xc (keyPoint k) ≠ 9 := by
    rw [hxc]
    intro h
    have e : ((9 : ℕ) : F) = 9 := by norm_num
    rw [← e] at h
    have := congrArg ZMod.val h
    rw [ZMod.val_natCast, ZMod.val_natCast, Nat.mod_eq_of_lt (by omega), Nat.mod_eq_of_lt (by omega)] at this
    exact h9 this
  refine ⟨by omega, hn9, ?_, ?_⟩
  · rcases hyc with h | h <;> rw [h]
    · omega
    · omega
  · rcases hyc with h | h <;> rw [h]
    · omega
    · rw [neg_neg]; omega

/-- the key of 32 bytes 7 is usable, and for a hash function with the constant value of 32 bytes 7 so is every nonce. -/
theorem usable_sevens : Usable (keyPoint (List.replicate 32 7)) :=
  usable_of (k := List.replicate 32 7) (x := 49521034228830619629260891619225567055584564874474322184561959714842538393107)
    (y := 45386889210901728310178301990074770354921066259975840515567461955451152462755) rfl (by decide +kernel) (by norm_num) (by norm_num)
    (by decide +kernel) (by norm_num) (by norm_num) (by norm_num)

example : ∃ sha256 : Bytes → Bytes, (∀ b, (sha256 b).length = 32) ∧ ∃ k m : Bytes, k.length = 32 ∧ m ≠ [] ∧ Usable (keyPoint k) ∧
    (∃ s, IsSigningKey k s) ∧ ∀ s, IsSigningKey k s → (xc (keyPoint (sha256 (sha256 m ++ s)))).val < 2 ^ 255 - 19 - 19 := by
  refine ⟨fun _ => List.replicate 32 7, fun _ => rfl, List.replicate 32 7, [1], rfl, by simp, usable_sevens,
    ⟨_, C25519.keygenS_signingKey rfl usable_sevens⟩, fun s _ => ?_⟩
  have := usable_sevens.x
  have hP := P_eq
  show (xc (keyPoint (List.replicate 32 7))).val < _
  omega

end Verif.Props
