import Verif.C25519.Ladder
import Verif.C25519.SignLemmas
import Verif.Api.Lemmas
import Verif.Api.Memory
import Verif.Ed25519.Curve

/-!
# Properties of CURVE25519_SHA256 and of the caller's memory: C51, C52, C53, C74, C75, C76
-/

namespace Verif.Props

open Verif.Api

/-- the CURVE25519_SHA256 functions of the environment are those of the model. -/
def C25519Env (E : Env) (sha256 : Bytes → Bytes) : Prop := E.c25519sha256 = C25519.scheme sha256

abbrev C255 : UInt32 := ECC_CURVE_CURVE25519_SHA256

theorem genPub_c {E : Env} {sha256 : Bytes → Bytes} (hE : C25519Env E sha256) (k : Bytes) :
    genPubkey E k C255 = .ret (genPubErr (C25519.genPub k)) := by
  unfold genPubkey
  rw [hE]
  rfl

theorem sign_c {E : Env} {sha256 : Bytes → Bytes} (hE : C25519Env E sha256) (k : Bytes) (ID : Option Bytes) (m : Bytes) (rs : List Bytes) :
    signature E k ID m C255 rs = some (.ret (signErr (noV (C25519.sign sha256 k m)))) := by
  unfold signature
  rw [hE]
  rfl

theorem verify_c {E : Env} {sha256 : Bytes → Bytes} (hE : C25519Env E sha256) (pub : Bytes) (ID : Option Bytes) (m sig : Bytes) :
    Api.verify E pub ID m sig C255 = .ret (passCode (C25519.verify sha256 pub m sig)) := by
  unfold Api.verify
  rw [hE]
  rfl

variable {E : Env} {sha256 : Bytes → Bytes}

/-! ## C74: public keys are those of RFC 7748 -/

/-- C74 (partial): `GenPubkey` on CURVE25519_SHA256 returns the 32 bytes of X25519(k, 9) of RFC 7748.  Missing: keys for which that
u-coordinate is one of the nineteen largest field elements (see `C74_false_pack`); no such key is known. -/
theorem C74_rfc7748_partial (hE : C25519Env E sha256) (k : Bytes) (hk : k.length = 32)
    (hu : C25519.Spec.x25519 k 9 < 2 ^ 255 - 19 - 19) :
    genPubkey E k C255 = .ret (C25519.Spec.x25519Bytes k 9, SUCCESS) := by
  rw [genPub_c hE]
  unfold C25519.genPub
  rw [if_neg (by simpa using hk)]
  show Go.ret (C25519.corePx (C25519.clamp k), SUCCESS) = _
  rw [C25519.corePx_spec hk (by rw [Ed25519.P_eq]; exact hu)]

/-- C74: a private key of another length is refused. -/
theorem C74_length (hE : C25519Env E sha256) (k : Bytes) (hk : k.length ≠ 32) : genPubkey E k C255 = .ret ([], FAILURE) := by
  rw [genPub_c hE]
  unfold C25519.genPub
  rw [if_pos hk]
  rfl

/-- a private key of RFC 7748, section 6.1 (Alice), and the public key given there. -/
def rfcKey : Bytes := [0x77, 0x07, 0x6d, 0x0a, 0x73, 0x18, 0xa5, 0x7d, 0x3c, 0x16, 0xc1, 0x72, 0x51, 0xb2, 0x66, 0x45, 0xdf, 0x4c, 0x2f, 0x87,
  0xeb, 0xc0, 0x99, 0x2a, 0xb1, 0x77, 0xfb, 0xa5, 0x1d, 0xb9, 0x2c, 0x2a]
def rfcPub : Bytes := [0x85, 0x20, 0xf0, 0x09, 0x89, 0x30, 0xa7, 0x54, 0x74, 0x8b, 0x7d, 0xdc, 0xb4, 0x3e, 0xf7, 0x5a, 0x0d, 0xbf, 0x3a, 0x0d,
  0x26, 0x38, 0x1a, 0xf4, 0xeb, 0xa4, 0xa9, 0x8e, 0xaa, 0x9b, 0x4e, 0x6a]

/-- the specification reproduces the test vector, and its key meets the hypotheses. -/
example : rfcKey.length = 32 ∧ C25519.Spec.x25519Bytes rfcKey 9 = rfcPub ∧ C25519.Spec.x25519 rfcKey 9 < 2 ^ 255 - 19 - 19 := by decide +kernel

/-- C74: why the largest field elements are excluded.  The product of the limb vectors of `-1` and `1` is packed as `2^256 - 1`, not as `p - 1`:
`isOverflow` and the test for a negative value cancel each other. -/
theorem C74_false_pack :
    leNat (C25519.pack (C25519.mul ⟨-1, 0, 0, 0, 0, 0, 0, 0, 0, 0⟩ (C25519.set 1))) = 2 ^ 256 - 1 ∧ (2 ^ 256 - 1) % (2 ^ 255 - 19) = 37 := by
  decide +kernel

/-! ## C75: canonical signatures and public keys -/

/-- C75: what `Verify` on CURVE25519_SHA256 accepts: a signature of 64 bytes whose first half is a number below the order of the base point, a
public key of 32 bytes that is a number below the prime, a non-empty message, and a second half that is the hash of the message digest and
of the 32 bytes computed from the rest. -/
theorem C75_accepts (hE : C25519Env E sha256) (pub : Bytes) (ID : Option Bytes) (m sig : Bytes) :
    (Api.verify E pub ID m sig C255 = .ret SUCCESS ↔
      sig.length = 64 ∧ leNat (sig.take 32) < 2 ^ 252 + 27742317777372353535851937790883648493 ∧ pub.length = 32 ∧ leNat pub < 2 ^ 255 - 19 ∧
        m ≠ [] ∧ sig.drop 32 = sha256 (sha256 m ++ C25519.verifyY (sig.take 32) (sig.drop 32) pub)) ∧
    (Api.verify E pub ID m sig C255 = .ret SUCCESS ∨ Api.verify E pub ID m sig C255 = .ret FAILURE) := by
  rw [verify_c hE]
  have key : C25519.verify sha256 pub m sig = true ↔
      sig.length = 64 ∧ leNat (sig.take 32) < 2 ^ 252 + 27742317777372353535851937790883648493 ∧ pub.length = 32 ∧ leNat pub < 2 ^ 255 - 19 ∧
        m ≠ [] ∧ sig.drop 32 = sha256 (sha256 m ++ C25519.verifyY (sig.take 32) (sig.drop 32) pub) := by
    unfold C25519.verify
    by_cases h : sig.length ≠ 64 ∨ pub.length ≠ 32 ∨ m.length = 0
    · rw [if_pos h]
      constructor
      · intro c; cases c
      · rintro ⟨h1, -, h2, -, h3, -⟩
        rcases h with h | h | h
        · exact absurd h1 h
        · exact absurd h2 h
        · exact absurd (List.length_eq_zero_iff.1 h) h3
    · rw [if_neg h]
      simp only [not_or, not_not] at h
      obtain ⟨h1, h2, h3⟩ := h
      have hs := C25519.isCanonicalSignature_iff (v := sig) (by omega)
      have hp := C25519.isCanonicalPublicKey_iff pub
      unfold C25519.L at hs
      by_cases cs : C25519.isCanonicalSignature sig = true
      · rw [if_neg (by simpa using cs)]
        by_cases cp : C25519.isCanonicalPublicKey pub = true
        · rw [if_neg (by simpa using cp)]
          simp only [beq_iff_eq]
          exact ⟨fun e => ⟨h1, hs.1 cs, h2, (hp.1 cp).2, fun e => h3 (by rw [e]; rfl), e⟩, fun e => e.2.2.2.2.2⟩
        · rw [if_pos (by simpa using cp)]
          exact ⟨fun c => by (cases c), fun e => absurd (hp.2 ⟨e.2.2.1, e.2.2.2.1⟩) cp⟩
      · rw [if_pos (by simpa using cs)]
        exact ⟨fun c => by (cases c), fun e => absurd (hs.2 e.2.1) cs⟩
  rw [← key]
  cases C25519.verify sha256 pub m sig <;> simp [passCode, SUCCESS, FAILURE]

/-- C75 (C51 for this curve): signatures of another length or with a first half not below the order are refused, so no second signature is
obtained by adding the order. -/
theorem C75_rejects (hE : C25519Env E sha256) (pub : Bytes) (ID : Option Bytes) (m sig : Bytes)
    (h : sig.length ≠ 64 ∨ leNat (sig.take 32) ≥ 2 ^ 252 + 27742317777372353535851937790883648493 ∨ pub.length ≠ 32 ∨ leNat pub ≥ 2 ^ 255 - 19) :
    Api.verify E pub ID m sig C255 = .ret FAILURE := by
  obtain ⟨h1, h2⟩ := C75_accepts hE pub ID m sig
  refine h2.resolve_left fun c => ?_
  obtain ⟨a, b, c, d, -⟩ := h1.1 c
  omega

example : (List.replicate 63 (0 : UInt8)).length ≠ 64 ∧ leNat ((List.replicate 64 (16 : UInt8)).take 32) ≥ 2 ^ 252 + 27742317777372353535851937790883648493 ∧
    leNat (List.replicate 32 (255 : UInt8)) ≥ 2 ^ 255 - 19 := by decide +kernel

/-- C52 on CURVE25519_SHA256: the empty message can be signed and the signature does not verify. -/
theorem C52_sha256_empty_false (hE : C25519Env E sha256) (k : Bytes) (hk : k.length = 32) (ID : Option Bytes) (rs : List Bytes) :
    (∃ sig, signature E k ID [] C255 rs = some (.ret (sig, 0, SUCCESS))) ∧
      ∀ pub ID' sig, Api.verify E pub ID' [] sig C255 = .ret FAILURE := by
  constructor
  · rw [sign_c hE]
    unfold C25519.sign
    rw [if_neg (by simpa using hk)]
    exact ⟨_, rfl⟩
  · intro pub ID' sig
    obtain ⟨h1, h2⟩ := C75_accepts hE pub ID' [] sig
    exact h2.resolve_left fun c => (h1.1 c).2.2.2.2.1 rfl

example : (List.replicate 32 (7 : UInt8)).length = 32 := rfl

/-! ## C76: five bits of the private key are ignored -/

/-- C76: two keys that agree as clamped scalars have the same public key and the same signatures. -/
theorem C76_clamped (hE : C25519Env E sha256) (k k' : Bytes) (hk : k.length = 32) (hk' : k'.length = 32)
    (he : leNat k / 8 % 2 ^ 251 = leNat k' / 8 % 2 ^ 251) (ID ID' : Option Bytes) (m : Bytes) (rs rs' : List Bytes) :
    genPubkey E k C255 = genPubkey E k' C255 ∧ signature E k ID m C255 rs = signature E k' ID' m C255 rs' := by
  have hc : C25519.clamp k = C25519.clamp k' := by
    apply leNat_inj_of_length
    · rw [C25519.clamp_length, C25519.clamp_length, hk, hk']
    · rw [C25519.clamp_leNat hk, C25519.clamp_leNat hk']
      unfold C25519.Spec.decodeScalar
      rw [he]
  have hkg : C25519.keygen k = C25519.keygen k' := by unfold C25519.keygen; rw [hc]
  have hks : C25519.keygenS k = C25519.keygenS k' := by unfold C25519.keygenS; rw [hc]
  rw [genPub_c hE, genPub_c hE, sign_c hE, sign_c hE]
  unfold C25519.genPub C25519.sign
  rw [if_neg (by simpa using hk), if_neg (by simpa using hk'), if_neg (by simpa using hk), if_neg (by simpa using hk'), hkg, hks]
  exact ⟨rfl, rfl⟩

example : leNat (List.replicate 32 (0 : UInt8)) / 8 % 2 ^ 251 = leNat (7 :: (List.replicate 30 (0 : UInt8) ++ [192])) / 8 % 2 ^ 251 ∧
    List.replicate 32 (0 : UInt8) ≠ 7 :: (List.replicate 30 (0 : UInt8) ++ [192]) := by decide

/-! ## C53: the caller's memory -/

theorem read_write {mem b : Bytes} {s : Slice} (h : s.off ≤ mem.length) (hb : b.length = s.len) : s.read (write mem s.off b) = b := by
  have hto : (mem.take s.off).length = s.off := by rw [List.length_take]; omega
  unfold write Slice.read
  rw [List.append_assoc, List.drop_append_of_le_length hto.ge, List.drop_of_length_le hto.le, List.nil_append,
    List.take_append_of_le_length hb.ge, List.take_of_length_le hb.le]

theorem genPubMem_ok {mem : Bytes} {s : Slice} (h : (s.read mem).length = 32) :
    (genPubC25519Mem mem s).2 = .ok (C25519.corePx (C25519.clamp (s.read mem))) := by
  unfold genPubC25519Mem
  simp only [h, ne_eq, not_true, if_false]
  rfl

/-- what `GenPubkey` on CURVE25519_SHA256 leaves in the caller's memory: nothing but the key changes, and the key becomes the clamped scalar. -/
theorem C53_clamps (mem : Bytes) (s : Slice) (hv : s.Valid mem) (hl : s.len = 32) :
    let mem' := (genPubC25519Mem mem s).1
    mem'.length = mem.length ∧ mem'.take s.off = mem.take s.off ∧ mem'.drop (s.off + 32) = mem.drop (s.off + 32) ∧
      leNat (s.read mem') = 2 ^ 254 + 8 * (leNat (s.read mem) / 8 % 2 ^ 251) ∧
      (genPubC25519Mem mem s).2 = C25519.genPub (s.read mem) ∧ (genPubC25519Mem mem' s).2 = (genPubC25519Mem mem s).2 := by
  obtain ⟨hv1, hv2⟩ := hv
  have hr : (s.read mem).length = 32 := by unfold Slice.read; rw [List.length_take, List.length_drop]; omega
  have hk : (C25519.keygen (s.read mem)).2 = C25519.clamp (s.read mem) := rfl
  have hkl : (C25519.keygen (s.read mem)).2.length = 32 := by rw [hk, C25519.clamp_length, hr]
  have e1 : (genPubC25519Mem mem s).1 = write mem s.off (C25519.keygen (s.read mem)).2 := by
    unfold genPubC25519Mem
    simp only [hr, ne_eq, not_true, if_false]
  have e2 : (genPubC25519Mem mem s).2 = .ok (C25519.keygen (s.read mem)).1 := by
    unfold genPubC25519Mem
    simp only [hr, ne_eq, not_true, if_false]
  have hto : (mem.take s.off).length = s.off := by rw [List.length_take]; omega
  have e3 : s.read (genPubC25519Mem mem s).1 = C25519.clamp (s.read mem) := by
    rw [e1, read_write (by omega) (by rw [hkl, hl]), hk]
  have hidem : C25519.clamp (C25519.clamp (s.read mem)) = C25519.clamp (s.read mem) := by
    apply leNat_inj_of_length
    · rw [C25519.clamp_length]
    · rw [C25519.clamp_leNat (by rw [C25519.clamp_length, hr]), C25519.clamp_leNat hr]
      unfold C25519.Spec.decodeScalar
      rw [C25519.clamp_leNat hr]
      unfold C25519.Spec.decodeScalar
      omega
  dsimp only
  refine ⟨?_, ?_, ?_, ?_, ?_, ?_⟩
  · rw [e1]
    unfold write
    simp only [List.length_append, List.length_take, List.length_drop, hkl]
    omega
  · rw [e1]
    unfold write
    rw [List.append_assoc, List.take_append_of_le_length (by omega), List.take_of_length_le (by omega)]
  · rw [e1]
    unfold write
    rw [List.drop_append, List.drop_of_length_le (by rw [List.length_append, hto, hkl]), List.nil_append, List.length_append, hto, hkl, Nat.sub_self,
      List.drop_zero]
  · rw [e3, C25519.clamp_leNat hr]; rfl
  · rw [e2]
    unfold C25519.genPub
    rw [if_neg (by simpa using hr)]
  · rw [genPubMem_ok (mem := mem) hr, genPubMem_ok (by rw [e3, C25519.clamp_length, hr]), e3, hidem]

example : Slice.Valid ⟨1, 32, 33⟩ (List.replicate 34 (7 : UInt8)) := by constructor <;> decide

/-- C53 is false on CURVE25519_SHA256: after `GenPubkey` the caller's private key is a different byte string. -/
theorem C53_false_key : ∃ (mem : Bytes) (s : Slice), s.Valid mem ∧ s.len = 32 ∧ s.read (genPubC25519Mem mem s).1 ≠ s.read mem := by
  have hv : Slice.Valid ⟨0, 32, 32⟩ (List.replicate 32 (0 : UInt8)) := by constructor <;> decide
  refine ⟨List.replicate 32 0, ⟨0, 32, 32⟩, hv, rfl, fun h => ?_⟩
  have := (C53_clamps (List.replicate 32 0) ⟨0, 32, 32⟩ hv rfl).2.2.2.1
  rw [h] at this
  revert this
  decide

/-- C53: `Verify` on BLS AUG with a public key slice that has no spare capacity leaves the memory alone, and checks the arguments as given. -/
theorem C53_verify_aug_partial (mem : Bytes) (pub msg sig : Slice) (h : pub.cap = pub.len) (hm : (msg.read mem).length ≠ 0) :
    verifyAugMem E mem pub msg sig =
      (mem, E.bls.verify (pub.read mem) (AUG_SCHEME_DST ++ (pub.read mem ++ msg.read mem)) (sig.read mem)) := by
  unfold verifyAugMem appendMem
  have : ¬ (pub.len + (msg.read mem).length ≤ pub.cap) := by omega
  simp only [this, if_false]

example : (Slice.read ⟨0, 3, 3⟩ ([1, 2, 3] : Bytes)).length ≠ 0 := by decide

/-- C53 is false for `Verify` on BLS AUG: for a public key at the start of a buffer that also holds the signature, the message is written over
the signature before the signature is read. -/
theorem C53_false_verify_aug : ∃ (mem : Bytes) (pub msg sig : Slice), pub.Valid mem ∧ msg.Valid mem ∧ sig.Valid mem ∧ pub.len = 48 ∧ sig.len = 96 ∧
    (verifyAugMem E mem pub msg sig).1 ≠ mem ∧ sig.read (verifyAugMem E mem pub msg sig).1 ≠ sig.read mem := by
  have hmem : (verifyAugMem E (List.replicate 144 0 ++ [1, 2]) ⟨0, 48, 146⟩ ⟨144, 2, 2⟩ ⟨48, 96, 98⟩).1 =
      appendMem (List.replicate 144 0 ++ [1, 2]) ⟨0, 48, 146⟩ (Slice.read ⟨144, 2, 2⟩ (List.replicate 144 0 ++ [1, 2])) := rfl
  refine ⟨List.replicate 144 0 ++ [1, 2], ⟨0, 48, 146⟩, ⟨144, 2, 2⟩, ⟨48, 96, 98⟩, ?_, ?_, ?_, rfl, rfl, ?_, ?_⟩
  · constructor <;> decide +kernel
  · constructor <;> decide +kernel
  · constructor <;> decide +kernel
  · rw [hmem]; decide +kernel
  · rw [hmem]; decide +kernel

end Verif.Props
