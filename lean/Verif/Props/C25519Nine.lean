import Verif.C25519.Nine
import Verif.Props.C25519Sign

/-!
# The excluded key of C52 and C105 on CURVE25519_SHA256
-/

set_option maxHeartbeats 1000000

namespace Verif.Props

open Verif.Api
open Verif.C25519 (G L keyPoint Usable IsSigningKey xBytes xc yc absP kNine)
open Verif.Ed25519 (F P P_eq)

/-- a function with 32-byte values: the second half of strings of 64 bytes, a constant for other strings. -/
def halfHash (b : Bytes) : Bytes := if b.length = 64 then b.drop 32 else List.replicate 32 7

theorem halfHash_length (b : Bytes) : (halfHash b).length = 32 := by
  unfold halfHash
  split
  · rw [List.length_drop]; omega
  · simp

/-- the signing key the code computes for the private key `kNine`: `L - 1`. -/
def sNine : Bytes := [236, 211, 245, 92, 26, 99, 18, 88, 214, 156, 247, 162, 222, 249, 222, 20, 0, 0, 0, 0, 0, 0, 0, 0, 0, 0, 0, 0, 0, 0, 0, 16]

/-- the x-coordinate of the nonce point. -/
def hNine : Bytes := [195, 166, 48, 25, 132, 99, 114, 14, 28, 223, 119, 38, 243, 122, 231, 159, 191, 27, 92, 243, 17, 18, 22, 201, 77, 251, 14, 81,
  224, 73, 208, 113]

theorem sNine_eq : (C25519.keygenS kNine).2 = sNine :=
  leNat_inj_of_length (C25519.kNine_s.1.trans rfl) (C25519.kNine_s.2.trans (by decide +kernel))

theorem nonce_xBytes : xBytes (keyPoint sNine) = hNine := by
  rw [← C25519.x25519Bytes_xc (k := sNine) rfl]
  decide +kernel

theorem nonce_keygen : (C25519.keygen sNine).1 = hNine := by
  rw [C25519.keygen_xBytes (k := sNine) rfl, nonce_xBytes]
  have h := C25519.x25519_xc (k := sNine) rfl
  rw [← h]
  have : C25519.Spec.x25519 sNine 9 = 51479365954430833700459071300875282738955432293730944669729963755181123348163 := by decide +kernel
  have hP := P_eq
  omega

theorem halfHash_half (a b : Bytes) (ha : a.length = 32) (hb : b.length = 32) : halfHash (a ++ b) = b := by
  unfold halfHash
  rw [if_pos (by rw [List.length_append]; omega), ← ha, List.drop_left]

/-- C105 and C52 fail for the private key `5L - 1`: there is a hash function for which the signature of some message does not satisfy the
equation of the scheme.  The public key is 9, and recovering the y-coordinate of this point fails, so the signing key has the wrong sign. -/
theorem C105_false_nine : ∃ sha256 : Bytes → Bytes, (∀ b, (sha256 b).length = 32) ∧ ∃ k m : Bytes, k.length = 32 ∧ m ≠ [] ∧
    (xc (keyPoint k)).val = 9 ∧ ∀ E : Env, C25519Env E sha256 → ∃ v h : Bytes, v.length = 32 ∧ h.length = 32 ∧
      signature E k none m C255 [] = some (.ret (v ++ h, 0, SUCCESS)) ∧
      h ≠ sha256 (sha256 m ++ xBytes (leNat v • absP (keyPoint k) + leNat h • G)) := by
  refine ⟨halfHash, halfHash_length, kNine, [1], rfl, by simp, ?_, ?_⟩
  · rw [C25519.kNine_point, C25519.xc_neg, C25519.xc_G]
    have e : (9 : F) = ((9 : ℕ) : F) := by norm_num
    rw [e, ZMod.val_natCast, Nat.mod_eq_of_lt]
    have hP := P_eq
    omega
  · intro E hE
    obtain ⟨v, x, h1, h2, h3, h4⟩ := C25519.kNine_sign halfHash_length [1]
    have hm : halfHash [1] = List.replicate 32 7 := by unfold halfHash; simp
    rw [sNine_eq, halfHash_half _ _ (halfHash_length _) rfl] at h2
    subst h2
    rw [nonce_keygen, halfHash_half _ _ (halfHash_length _) rfl] at h3 h4
    refine ⟨v, hNine, h1, rfl, by rw [sign_c hE, h3]; rfl, ?_⟩
    rw [halfHash_half _ _ (halfHash_length _) (C25519.xBytes_leNat _).1]
    intro hc
    rw [← nonce_xBytes] at hc
    have hx := C25519.xBytes_inj hc
    rw [nonce_xBytes] at hx
    generalize leNat v • absP (keyPoint kNine) + leNat hNine • G = R at *
    have hS : keyPoint sNine = C25519.Spec.decodeScalar sNine • G := rfl
    have hS0 : keyPoint sNine ≠ 0 := (C25519.keyPoint_mod (k := sNine) rfl).1
    have hne : (2 * leNat hNine) % L ≠ (C25519.Spec.decodeScalar sNine + C25519.Spec.decodeScalar sNine) % L := by decide +kernel
    have hne0 : (2 * leNat hNine) % L ≠ 0 % L := by decide +kernel
    have hR0 : R ≠ 0 := by
      intro h0
      rw [h0] at hx
      have : xc (0 : C25519.E.Point) = 0 := rfl
      rw [this] at hx
      have := C25519.x25519_xc (k := sNine) rfl
      rw [hx, ZMod.val_zero] at this
      revert this
      decide +kernel
    rcases C25519.xc_inj hS0 hR0 hx with h | h
    · rw [← h, hS, ← add_nsmul, C25519.smul_eq_iff] at h4
      exact hne h4.symm
    · rw [h, add_neg_cancel] at h4
      exact hne0 ((C25519.smul_eq_iff _ 0).1 (by rw [← h4, zero_nsmul]))

/-- the first half of the signature of the message `[1]`. -/
def vNine : Bytes := [1, 43, 79, 2, 53, 58, 59, 6, 153, 8, 145, 61, 87, 141, 74, 97, 191, 27, 92, 243, 17, 18, 22, 201, 77, 251, 14, 81, 224, 73,
  208, 1]

theorem vNine_sign : C25519.sign halfHash kNine [1] = .ok (vNine ++ hNine) := by
  unfold C25519.sign
  rw [if_neg (by simp [kNine]), sNine_eq]
  dsimp only
  rw [halfHash_half _ sNine (halfHash_length _) rfl, nonce_keygen, halfHash_half _ hNine (halfHash_length _) rfl]
  have hc : (C25519.keygen sNine).2 = C25519.clamp sNine := rfl
  rw [hc]
  obtain ⟨h1, h2⟩ := C25519.signV_spec (h := hNine) (x := C25519.clamp sNine) (s := sNine) rfl (by decide +kernel) rfl
  rw [leNat_inj_of_length (a := C25519.signV hNine (C25519.clamp sNine) sNine) (b := vNine) (h1.trans rfl) (h2.trans (by decide +kernel))]

set_option maxRecDepth 100000 in
theorem vNine_Y : C25519.verifyY vNine hNine (9 :: List.replicate 31 0) ≠ hNine := by decide +kernel

theorem verifyY_length (v h p : Bytes) : (C25519.verifyY v h p).length = 32 := by
  unfold C25519.verifyY
  exact C25519.pack_length _

/-- C52 on CURVE25519_SHA256 is false for non-empty messages too: there are a hash function, a private key and a message whose signature
does not verify under the public key of the private key, 9. -/
theorem C52_sha256_false : ∃ sha256 : Bytes → Bytes, (∀ b, (sha256 b).length = 32) ∧ ∃ k m : Bytes, k.length = 32 ∧ m ≠ [] ∧
    ∀ E : Env, C25519Env E sha256 → ∃ pub sig, genPubkey E k C255 = .ret (pub, SUCCESS) ∧
      signature E k none m C255 [] = some (.ret (sig, 0, SUCCESS)) ∧ Api.verify E pub none m sig C255 = .ret FAILURE := by
  refine ⟨halfHash, halfHash_length, kNine, [1], rfl, by simp, fun E hE => ⟨9 :: List.replicate 31 0, vNine ++ hNine, ?_, ?_, ?_⟩⟩
  · have h9 : C25519.Spec.x25519 kNine 9 = 9 := by decide +kernel
    rw [C74_rfc7748_partial hE kNine rfl (by rw [h9]; norm_num)]
    unfold C25519.Spec.x25519Bytes
    rw [h9]
    have : (be32 9).reverse = (9 :: List.replicate 31 0 : Bytes) := by decide +kernel
    rw [this]
  · rw [sign_c hE, vNine_sign]; rfl
  · rw [verify_c hE]
    have : C25519.verify halfHash (9 :: List.replicate 31 0) [1] (vNine ++ hNine) = false := by
      have ht : (vNine ++ hNine).take 32 = vNine := rfl
      have hd : (vNine ++ hNine).drop 32 = hNine := rfl
      unfold C25519.verify
      rw [if_neg (by simp [vNine, hNine]), ht, hd]
      split
      · rfl
      · split
        · rfl
        · dsimp only
          rw [halfHash_half _ _ (halfHash_length _) (verifyY_length _ _ _)]
          rw [beq_eq_false_iff_ne]
          exact fun h => vNine_Y h.symm
    rw [this]
    rfl

end Verif.Props
