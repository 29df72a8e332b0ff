import Verif.Ed25519.ApiLemmas
import Verif.Props.Ed

/-!
# Ed25519 and X25519 through the API: C49–C52, C64–C68

The specification is `Verif/Ed25519/Curve.lean`: the twisted Edwards curve `-x² + y² = 1 + d x² y²` over `2^255 - 19` with its group
law, the base point, the encoding `enc` of a point as a number below `2^256` and the relation `Decodes`.  SHA-512 is a parameter that
returns 64 bytes; bytes from crypto/rand are a parameter.
-/

namespace Verif.Props

open Verif.Ed25519 Verif.Api Edwards

/-- the part of the library's environment that this file needs: the schemes are those of package eddsa. -/
structure EdEnv (E : Env) (sha512 : Bytes → Bytes) (rnd rnd64 : Bytes) : Prop where
  normal : E.edNormal = edNormalScheme sha512
  raw : E.ed = edScheme sha512 rnd
  x : E.x25519 = xScheme sha512 rnd64
  mulAdd : E.edMulBaseAdd = fun a b => .ret (edMulBaseAdd a b)
  add : E.edAdd = fun a b => .ret (edAdd a b)
  sha : ∀ m, (sha512 m).length = 64

example (E : Env) : EdEnv { E with
    edNormal := edNormalScheme (fun m => m.take 0 ++ List.replicate 64 7), ed := edScheme (fun m => m.take 0 ++ List.replicate 64 7) [1],
    x25519 := xScheme (fun m => m.take 0 ++ List.replicate 64 7) [2], edMulBaseAdd := fun a b => .ret (edMulBaseAdd a b),
    edAdd := fun a b => .ret (edAdd a b) } (fun m => m.take 0 ++ List.replicate 64 7) [1] [2] :=
  ⟨rfl, rfl, rfl, rfl, rfl, fun _ => by simp⟩

/-- the 32-byte canonical encoding of a point (RFC 8032, section 5.1.2). -/
def EncodesEd (b : Bytes) (A : Pt) : Prop := b.length = 32 ∧ leNat b = enc A

/-- `b` is one of the strings that are read as the point `A`: the low 255 bits are `y` modulo the prime and the top bit is the parity of
`x`; the top bit is ignored when `x = 0`. -/
def ReadsEd (b : Bytes) (A : Pt) : Prop := b.length = 32 ∧ Decodes b A

theorem EncodesEd.reads {b : Bytes} {A : Pt} (h : EncodesEd b A) : ReadsEd b A := ⟨h.1, decodes_of_enc h.2⟩

theorem EncodesEd.unique {b c : Bytes} {A : Pt} (h : EncodesEd b A) (h' : EncodesEd c A) : b = c :=
  leNat_inj_of_length (by rw [h.1, h'.1]) (by rw [h.2, h'.2])

abbrev EDN := ECC_CURVE_ED25519_NORMAL
abbrev EDR := ECC_CURVE_ED25519
abbrev X255 := ECC_CURVE_X25519

theorem passCode_iff (b : Bool) : passCode b = SUCCESS ↔ b = true := by cases b <;> simp [passCode, SUCCESS, FAILURE]

theorem passCode_fail (b : Bool) : passCode b = FAILURE ↔ b = false := by cases b <;> simp [passCode, SUCCESS, FAILURE]

section
variable {E : Env} {sha512 : Bytes → Bytes} {rnd rnd64 : Bytes}

theorem genPub_normal (hE : EdEnv E sha512 rnd rnd64) (k : Bytes) :
    genPubkey E k EDN = .ret (genPubErr (curveGenPub sha512 k)) := by
  unfold genPubkey; rw [if_pos rfl, hE.normal]; rfl

theorem genPub_raw (hE : EdEnv E sha512 rnd rnd64) (k : Bytes) : genPubkey E k EDR = .ret (genPubErr (edGenPub k)) := by
  unfold genPubkey; rw [if_neg (by decide), if_pos rfl, hE.raw]; rfl

theorem genPub_x (hE : EdEnv E sha512 rnd rnd64) (k : Bytes) : genPubkey E k X255 = .ret (genPubErr (xGenPub k)) := by
  unfold genPubkey; rw [if_neg (by decide), if_neg (by decide), if_pos rfl, hE.x]; rfl

theorem sign_normal (hE : EdEnv E sha512 rnd rnd64) (k : Bytes) (ID : Option Bytes) (m : Bytes) (r : List Bytes) :
    signature E k ID m EDN r = some (.ret (signErr (noV (curveSign sha512 k m)))) := by
  unfold signature; rw [if_pos rfl, hE.normal]; rfl

theorem sign_raw (hE : EdEnv E sha512 rnd rnd64) (k : Bytes) (ID : Option Bytes) (m : Bytes) (r : List Bytes) :
    signature E k ID m EDR r = some (.ret (signErr (noV (edSign sha512 rnd k m)))) := by
  unfold signature; rw [if_neg (by decide), if_pos rfl, hE.raw]; rfl

theorem sign_x (hE : EdEnv E sha512 rnd rnd64) (k : Bytes) (ID : Option Bytes) (m : Bytes) (r : List Bytes) :
    signature E k ID m X255 r = some (.ret (signErr (noV (xSign sha512 rnd64 k m)))) := by
  unfold signature; rw [if_neg (by decide), if_neg (by decide), if_pos rfl, hE.x]; rfl

theorem verify_normal (hE : EdEnv E sha512 rnd rnd64) (pub : Bytes) (ID : Option Bytes) (m s : Bytes) :
    verify E pub ID m s EDN = .ret (passCode (edVerify sha512 pub m s)) := by
  unfold verify; rw [if_pos rfl, hE.normal]; rfl

theorem verify_raw (hE : EdEnv E sha512 rnd rnd64) (pub : Bytes) (ID : Option Bytes) (m s : Bytes) :
    verify E pub ID m s EDR = .ret (passCode (edVerify sha512 pub m s)) := by
  unfold verify; rw [if_neg (by decide), if_pos rfl, hE.raw]; rfl

theorem verify_x (hE : EdEnv E sha512 rnd rnd64) (pub : Bytes) (ID : Option Bytes) (m s : Bytes) :
    verify E pub ID m s X255 = .ret (passCode (xVerify sha512 pub m s)) := by
  unfold verify; rw [if_neg (by decide), if_neg (by decide), if_pos rfl, hE.x]; rfl

theorem ret_inj {α : Type} {a b : α} : (Go.ret a = Go.ret b) ↔ a = b := ⟨fun h => by injection h, fun h => by rw [h]⟩

/-! ## C64: which signatures are accepted -/

/-- the number a hash of RFC 8032 stands for, modulo the order. -/
def hashInt (sha512 : Bytes → Bytes) (m : Bytes) : ℕ := leNat (sha512 m) % edOrder

/-- the equation of RFC 8032, section 5.1.7, without the cofactor: `R` is the encoding of `s B - h A`, and `s` has its three top bits
clear. -/
def EdAccepts (sha512 : Bytes → Bytes) (pub m sig : Bytes) : Prop :=
  sig.length = 64 ∧ leNat (sig.drop 32) < 2 ^ 253 ∧
    ∃ A, ReadsEd pub A ∧
      EncodesEd (sig.take 32) (leNat (sig.drop 32) • base - hashInt sha512 (sig.take 32 ++ pub ++ m) • A)

theorem edVerify_accepts (hsha : ∀ m, (sha512 m).length = 64) (pub m sig : Bytes) :
    edVerify sha512 pub m sig = true ↔ EdAccepts sha512 pub m sig := by
  rw [edVerify_iff hsha]
  unfold EdAccepts ReadsEd EncodesEd hashInt
  rw [edOrder_eq]
  constructor
  · rintro ⟨h1, h2, h3, A, h4, h5⟩
    exact ⟨h2, h3, A, ⟨h1, h4⟩, by rw [List.length_take, h2]; rfl, h5⟩
  · rintro ⟨h2, h3, A, ⟨h1, h4⟩, _, h5⟩
    exact ⟨h1, h2, h3, A, h4, h5⟩

/-- C64: `Verify` on ED25519_NORMAL and ED25519 succeeds exactly on the strings that satisfy the equation, for every public key,
message and signature of any length. -/
theorem C64_ed25519 (hE : EdEnv E sha512 rnd rnd64) (t : UInt32) (ht : t = EDN ∨ t = EDR) (pub : Bytes) (ID : Option Bytes)
    (m sig : Bytes) :
    (verify E pub ID m sig t = .ret SUCCESS ↔ EdAccepts sha512 pub m sig) ∧
      (verify E pub ID m sig t = .ret FAILURE ↔ ¬ EdAccepts sha512 pub m sig) := by
  have e : verify E pub ID m sig t = .ret (passCode (edVerify sha512 pub m sig)) := by
    rcases ht with rfl | rfl
    · exact verify_normal hE pub ID m sig
    · exact verify_raw hE pub ID m sig
  rw [e, ret_inj, ret_inj, passCode_iff, passCode_fail, ← edVerify_accepts hE.sha]
  simp

/-- on X25519 the public key is a Montgomery `u`; the Edwards point has `y = (u - 1) / (u + 1)` and its sign is the top bit of the
signature, which is not part of `s`. -/
def XAccepts (sha512 : Bytes → Bytes) (pub m sig : Bytes) : Prop :=
  pub.length = 32 ∧ sig.length = 64 ∧ m ≠ [] ∧ leNat (sig.drop 32) % 2 ^ 255 < 2 ^ 253 ∧
    ∃ pk A, pk.length = 32 ∧
      leNat pk = ((((leNat pub % 2 ^ 255 : ℕ) : F) - 1) / (((leNat pub % 2 ^ 255 : ℕ) : F) + 1)).val +
        2 ^ 255 * (leNat (sig.drop 32) / 2 ^ 255) ∧
      ReadsEd pk A ∧
      EncodesEd (sig.take 32) ((leNat (sig.drop 32) % 2 ^ 255) • base - hashInt sha512 (sig.take 32 ++ pk ++ m) • A)

theorem xVerify_accepts (hsha : ∀ m, (sha512 m).length = 64) (pub m sig : Bytes) :
    xVerify sha512 pub m sig = true ↔ XAccepts sha512 pub m sig := by
  rw [xVerify_iff hsha]
  unfold XAccepts ReadsEd EncodesEd hashInt edY
  rw [edOrder_eq]
  constructor
  · rintro ⟨h1, h2, h3, h4, pk, A, h5, h6, h7, h8⟩
    exact ⟨h1, h2, h3, h4, pk, A, h5, h6, ⟨h5, h7⟩, by rw [List.length_take, h2]; rfl, h8⟩
  · rintro ⟨h1, h2, h3, h4, pk, A, h5, h6, ⟨_, h7⟩, _, h8⟩
    exact ⟨h1, h2, h3, h4, pk, A, h5, h6, h7, h8⟩

/-- C64 on X25519. -/
theorem C64_x25519 (hE : EdEnv E sha512 rnd rnd64) (pub : Bytes) (ID : Option Bytes) (m sig : Bytes) :
    (verify E pub ID m sig X255 = .ret SUCCESS ↔ XAccepts sha512 pub m sig) ∧
      (verify E pub ID m sig X255 = .ret FAILURE ↔ ¬ XAccepts sha512 pub m sig) := by
  rw [verify_x hE, ret_inj, ret_inj, passCode_iff, passCode_fail, ← xVerify_accepts hE.sha]
  simp

/-! ## C65: keys and signatures are those of RFC 8032 -/

/-- the secret scalar of RFC 8032, section 5.1.5: of the 256-bit number the three low bits and the top bit are cleared and bit 254 is
set. -/
def clamp (n : ℕ) : ℕ := 2 ^ 254 + n % 2 ^ 254 / 8 * 8

theorem clamp_eq (n : ℕ) : clamp n = clampNat n := rfl

/-- C65: `GenPubkey` on ED25519_NORMAL is the public key of RFC 8032. -/
theorem C65_genPub (hE : EdEnv E sha512 rnd rnd64) (k : Bytes) (hk : k.length = 32) :
    ∃ pub, genPubkey E k EDN = .ret (pub, SUCCESS) ∧ EncodesEd pub (clamp (leNat ((sha512 k).take 32)) • base) := by
  obtain ⟨pub, h1, h2, h3⟩ := curveGenPub_spec hE.sha hk
  refine ⟨pub, ?_, h2, h3⟩
  rw [genPub_normal hE, h1]; rfl

/-- C65: a seed of another length is refused. -/
theorem C65_length (hE : EdEnv E sha512 rnd rnd64) (k : Bytes) (hk : k.length ≠ 32) (t : UInt32) (ht : t = EDN ∨ t = EDR ∨ t = X255)
    (ID : Option Bytes) (m : Bytes) (r : List Bytes) :
    genPubkey E k t = .ret ([], FAILURE) ∧ signature E k ID m t r = some (.ret ([], 0, FAILURE)) := by
  have e : edGenPub k = .error .other := by unfold edGenPub; rw [if_pos hk]
  have e' : curveGenPub sha512 k = .error .other := by unfold curveGenPub; rw [if_pos hk]
  rcases ht with rfl | rfl | rfl
  · rw [genPub_normal hE, sign_normal hE, curveSign, e']; exact ⟨rfl, rfl⟩
  · rw [genPub_raw hE, sign_raw hE, edSign, e]; exact ⟨rfl, rfl⟩
  · rw [genPub_x hE, sign_x hE, xSign, e, xGenPub, if_pos hk]; exact ⟨rfl, rfl⟩

/-- C65: `Signature` on ED25519_NORMAL is the deterministic signature of RFC 8032, section 5.1.6. -/
theorem C65_sign (hE : EdEnv E sha512 rnd rnd64) (k : Bytes) (hk : k.length = 32) (ID : Option Bytes) (m : Bytes) (rs : List Bytes) :
    ∃ sig pub, signature E k ID m EDN rs = some (.ret (sig, 0, SUCCESS)) ∧ genPubkey E k EDN = .ret (pub, SUCCESS) ∧
      let a := clamp (leNat ((sha512 k).take 32))
      let r := hashInt sha512 ((sha512 k).drop 32 ++ m)
      sig.length = 64 ∧ EncodesEd (sig.take 32) (r • base) ∧
        leNat (sig.drop 32) = (r + hashInt sha512 (sig.take 32 ++ pub ++ m) * a) % edOrder := by
  obtain ⟨pub, h1, h2, h3⟩ := curveGenPub_spec hE.sha hk
  have ht : ((sha512 k).take 32).length = 32 := by rw [List.length_take, hE.sha]; rfl
  have sp := signCore_spec hE.sha (pub := pub) (seed := (sha512 k).drop 32) (msg := m)
    (show (clampSign ((sha512 k).take 32)).length = 32 by rw [clampSign_length, ht])
  refine ⟨signCore sha512 (clampSign ((sha512 k).take 32)) pub ((sha512 k).drop 32) m, pub, ?_, ?_, ?_⟩
  · rw [sign_normal hE, curveSign, h1]; rfl
  · rw [genPub_normal hE, h1]; rfl
  · dsimp only at sp ⊢
    generalize signCore sha512 (clampSign ((sha512 k).take 32)) pub ((sha512 k).drop 32) m = sig at *
    obtain ⟨s1, s2, s3⟩ := sp
    refine ⟨s1, ⟨by rw [List.length_take, s1]; rfl, ?_⟩, ?_⟩
    · rw [s2, hashInt, edOrder_eq]
    · rw [s3, clampSign_val ht, clamp_eq, hashInt, hashInt, edOrder_eq, Nat.add_comm]

example : (List.replicate 32 (7 : UInt8)).length = 32 := rfl

/-- C65 on ED25519: the public key of a raw scalar. -/
theorem C65_raw (hE : EdEnv E sha512 rnd rnd64) (k : Bytes) (hk : k.length = 32) (hlt : leNat k < 2 ^ 255) :
    ∃ pub, genPubkey E k EDR = .ret (pub, SUCCESS) ∧ pointMulBaseG E k EDR = .ret pub ∧ EncodesEd pub (leNat k • base) := by
  obtain ⟨pub, h1, h2, h3⟩ := edGenPub_spec hk hlt
  refine ⟨pub, ?_, ?_, h2, h3⟩
  · rw [genPub_raw hE, h1]; rfl
  · unfold pointMulBaseG
    rw [if_neg (by simpa using hk), if_neg (by decide), if_neg (by decide), if_neg (by decide), if_pos rfl, hE.raw]
    simp only [edScheme, Go.ret_bind]
    rw [h1]; rfl

/-- C65 on X25519: the public key is the Montgomery `u = (1 + y) / (1 - y)` of the same point. -/
theorem C65_x25519 (hE : EdEnv E sha512 rnd rnd64) (k : Bytes) (hk : k.length = 32) (hlt : leNat k < 2 ^ 255) :
    ∃ pub, genPubkey E k X255 = .ret (pub, SUCCESS) ∧ pub.length = 32 ∧
      leNat pub = ((1 + (leNat k • base).y) / (1 - (leNat k • base).y)).val := by
  obtain ⟨pub, h1, h2, h3⟩ := xGenPub_spec hk hlt
  refine ⟨pub, ?_, h2, h3⟩
  rw [genPub_x hE, h1]; rfl

example : (List.replicate 32 (7 : UInt8)).length = 32 ∧ leNat (List.replicate 32 (7 : UInt8)) < 2 ^ 255 := by decide

/-! ## C49 -/

/-- C49: on ED25519_NORMAL every signature verifies. -/
theorem C49 (hE : EdEnv E sha512 rnd rnd64) (k : Bytes) (hk : k.length = 32) (ID ID' : Option Bytes) (m : Bytes) (rs : List Bytes) :
    ∃ pub sig, genPubkey E k EDN = .ret (pub, SUCCESS) ∧ signature E k ID m EDN rs = some (.ret (sig, 0, SUCCESS)) ∧
      verify E pub ID' m sig EDN = .ret SUCCESS := by
  obtain ⟨pub, h1, h2, h3⟩ := curveGenPub_spec hE.sha hk
  have ht : ((sha512 k).take 32).length = 32 := by rw [List.length_take, hE.sha]; rfl
  refine ⟨pub, signCore sha512 (clampSign ((sha512 k).take 32)) pub ((sha512 k).drop 32) m, ?_, ?_, ?_⟩
  · rw [genPub_normal hE, h1]; rfl
  · rw [sign_normal hE, curveSign, h1]; rfl
  · have key := sign_verify_iff hE.sha (seed := (sha512 k).drop 32) (msg := m)
      (show (clampSign ((sha512 k).take 32)).length = 32 by rw [clampSign_length, ht]) h2 h3
    dsimp only at key
    rw [verify_normal hE, ret_inj, passCode_iff, key, clampSign_val ht, sub_self, mul_zero]
    exact dvd_zero _

example : (List.replicate 32 (0 : UInt8)).length = 32 := rfl

/-! ## C50 -/

/-- C50: on ED25519 the signature of a scalar `k < 2^255` is accepted exactly when the order divides `h (clamp k - k)`: `GenPubkey` uses
`k`, `Signature` uses `clamp k`. -/
theorem C50_exact (hE : EdEnv E sha512 rnd rnd64) (k : Bytes) (hk : k.length = 32) (hlt : leNat k < 2 ^ 255) (ID ID' : Option Bytes)
    (m : Bytes) (rs : List Bytes) :
    ∃ pub sig, genPubkey E k EDR = .ret (pub, SUCCESS) ∧ signature E k ID m EDR rs = some (.ret (sig, 0, SUCCESS)) ∧
      (verify E pub ID' m sig EDR = .ret SUCCESS ↔
        (edOrder : Int) ∣ (leNat (sha512 (sig.take 32 ++ pub ++ m)) : Int) * ((clamp (leNat k) : Int) - leNat k)) := by
  obtain ⟨pub, h1, h2, h3⟩ := edGenPub_spec hk hlt
  refine ⟨pub, signCore sha512 (clampSign k) pub rnd m, ?_, ?_, ?_⟩
  · rw [genPub_raw hE, h1]; rfl
  · rw [sign_raw hE, edSign, h1]; rfl
  · have key := sign_verify_iff hE.sha (expanded := clampSign k) (seed := rnd) (msg := m) (by rw [clampSign_length, hk]) h2 h3
    dsimp only at key
    rw [verify_raw hE, ret_inj, passCode_iff, key, clampSign_val hk, edOrder_eq, clamp_eq]

example : (List.replicate 32 (7 : UInt8)).length = 32 ∧ leNat (List.replicate 32 (7 : UInt8)) < 2 ^ 255 := by decide

/-- C50 as far as it holds: every signature of a clamped scalar verifies. -/
theorem C50_clamped_partial (hE : EdEnv E sha512 rnd rnd64) (k : Bytes) (hk : k.length = 32) (hc : clamp (leNat k) = leNat k)
    (ID ID' : Option Bytes) (m : Bytes) (rs : List Bytes) :
    ∃ pub sig, genPubkey E k EDR = .ret (pub, SUCCESS) ∧ signature E k ID m EDR rs = some (.ret (sig, 0, SUCCESS)) ∧
      verify E pub ID' m sig EDR = .ret SUCCESS := by
  obtain ⟨pub, sig, h1, h2, h3⟩ := C50_exact hE k hk (by rw [← hc]; exact clampNat_lt _) ID ID' m rs
  refine ⟨pub, sig, h1, h2, h3.mpr ?_⟩
  rw [hc, sub_self, mul_zero]
  exact dvd_zero _

example : (List.replicate 32 (0x40 : UInt8)).length = 32 ∧
    clamp (leNat (List.replicate 32 (0x40 : UInt8))) = leNat (List.replicate 32 (0x40 : UInt8)) := by decide

/-- C50 is false for scalars that clamping changes modulo the order: such a signature is accepted only if its hash is a multiple of the
order. -/
theorem C50_fails (hE : EdEnv E sha512 rnd rnd64) (k : Bytes) (hk : k.length = 32) (hlt : leNat k < 2 ^ 255)
    (hc : clamp (leNat k) % edOrder ≠ leNat k % edOrder) (ID ID' : Option Bytes) (m : Bytes) (rs : List Bytes) :
    ∃ pub sig, genPubkey E k EDR = .ret (pub, SUCCESS) ∧ signature E k ID m EDR rs = some (.ret (sig, 0, SUCCESS)) ∧
      (hashInt sha512 (sig.take 32 ++ pub ++ m) ≠ 0 → verify E pub ID' m sig EDR = .ret FAILURE) := by
  obtain ⟨pub, sig, h1, h2, h3⟩ := C50_exact hE k hk hlt ID ID' m rs
  refine ⟨pub, sig, h1, h2, fun hh => ?_⟩
  have hne : verify E pub ID' m sig EDR ≠ .ret SUCCESS := by
    intro hs
    have hp : Prime (edOrder : Int) := by
      rw [edOrder_eq]; exact Nat.prime_iff_prime_int.mp (Fact.out : Nat.Prime L)
    rcases hp.dvd_or_dvd (h3.mp hs) with hd | hd
    · apply hh
      exact Nat.mod_eq_zero_of_dvd (Int.natCast_dvd_natCast.mp hd)
    · apply hc
      have h4 : ((clamp (leNat k) : ℕ) : Int) % (edOrder : ℕ) = ((leNat k : ℕ) : Int) % (edOrder : ℕ) :=
        Int.emod_eq_emod_iff_emod_sub_eq_zero.mpr (Int.emod_eq_zero_of_dvd hd)
      exact_mod_cast h4
  rw [verify_raw hE, Ne, ret_inj, passCode_iff] at hne
  rw [verify_raw hE, ret_inj, passCode_fail]
  simpa using hne

/-- the scalar 1 is such a scalar. -/
example : (1 :: List.replicate 31 (0 : UInt8)).length = 32 ∧ leNat (1 :: List.replicate 31 (0 : UInt8)) < 2 ^ 255 ∧
    clamp (leNat (1 :: List.replicate 31 (0 : UInt8))) % edOrder ≠ leNat (1 :: List.replicate 31 (0 : UInt8)) % edOrder := by decide

/-! ## C51 -/

/-- C51: on ED25519_NORMAL and ED25519, a signature that is not 64 bytes long or has one of the three top bits set is refused. -/
theorem C51_ed25519 (hE : EdEnv E sha512 rnd rnd64) (t : UInt32) (ht : t = EDN ∨ t = EDR) (pub : Bytes) (ID : Option Bytes)
    (m sig : Bytes) (h : sig.length ≠ 64 ∨ (sig.getD 63 0).toNat ≥ 32) : verify E pub ID m sig t = .ret FAILURE := by
  rw [(C64_ed25519 hE t ht pub ID m sig).2]
  rintro ⟨h1, h2, _⟩
  rcases h with h | h
  · exact h h1
  · have hd : (sig.drop 32).length = 32 := by rw [List.length_drop, h1]
    have := (top_bits hd).mpr h2
    rw [getD_drop, and_224] at this
    have e : 32 + 31 = 63 := rfl
    rw [e] at this
    omega

example : (List.replicate 64 (0xFF : UInt8)).length ≠ 64 ∨ ((List.replicate 64 (0xFF : UInt8)).getD 63 0).toNat ≥ 32 := by decide

/-- C51 on X25519: bits 253 and 254 of `s` are checked; bit 255 carries the sign of the key. -/
theorem C51_x25519_partial (hE : EdEnv E sha512 rnd rnd64) (pub : Bytes) (ID : Option Bytes)
    (m sig : Bytes) (h : sig.length ≠ 64 ∨ (sig.getD 63 0).toNat % 128 ≥ 32) : verify E pub ID m sig X255 = .ret FAILURE := by
  rw [(C64_x25519 hE pub ID m sig).2]
  rintro ⟨_, h1, _, h2, _⟩
  rcases h with h | h
  · exact h h1
  · have hd : (sig.drop 32).length = 32 := by rw [List.length_drop, h1]
    rw [(low255 hd).1, getD_drop] at h2
    have e : 32 + 31 = 63 := rfl
    rw [e] at h2
    have : 256 ^ 31 * 32 ≤ 256 ^ 31 * ((sig.getD 63 0).toNat % 128) := Nat.mul_le_mul_left _ h
    have h31 : (256 : ℕ) ^ 31 * 32 = 2 ^ 253 := by norm_num
    omega

example : (List.replicate 64 (0x7F : UInt8)).length ≠ 64 ∨ ((List.replicate 64 (0x7F : UInt8)).getD 63 0).toNat % 128 ≥ 32 := by decide

/-- C51 as stated is false on X25519: with the key of the scalar `L - 1`, whose point has an odd `x`, accepted signatures have the top
bit set. -/
theorem C51_x25519_false (hE : EdEnv E sha512 rnd rnd64) (k : Bytes) (hk : k.length = 32) (hv : leNat k = edOrder - 1) (m : Bytes)
    (hm : m ≠ []) (ID ID' : Option Bytes) (rs : List Bytes) :
    ∃ pub sig, genPubkey E k X255 = .ret (pub, SUCCESS) ∧ signature E k ID m X255 rs = some (.ret (sig, 0, SUCCESS)) ∧
      verify E pub ID' m sig X255 = .ret SUCCESS ∧ (sig.getD 63 0).toNat ≥ 128 := by
  rw [edOrder_eq] at hv
  have hLv := L_eq
  have hlt : leNat k < 2 ^ 255 := by
    have := L_lt
    omega
  have h0 : leNat k % L ≠ 0 := by
    rw [hv, Nat.mod_eq_of_lt (by omega)]
    omega
  obtain ⟨pub, sig, h1, h2, h3⟩ := xSign_verifies hE.sha (random := rnd64) hk hlt h0 hm
  obtain ⟨pk, sig', p1, p2, p3, p4, p5, p6⟩ := xSign_spec hE.sha (msg := m) (random := rnd64) hk hlt
  rw [h2] at p3
  injection p3 with p3
  subst p3
  refine ⟨pub, sig, by rw [genPub_x hE, h1]; rfl, by rw [sign_x hE, h2]; rfl, by rw [verify_x hE, h3]; rfl, ?_⟩
  have e : leNat k • base = -base := by
    rw [hv]
    apply eq_neg_of_add_eq_zero_left
    have := L_base
    rw [show L = (L - 1) + 1 by omega, add_smul, one_smul] at this
    exact this
  have hx : base.x = ((baseX : ℕ) : F) := rfl
  have hxv : base.x.val = baseX := by rw [hx]; exact ZMod.val_natCast_of_lt (by rw [P_eq]; decide)
  have hx0 : base.x ≠ 0 := by
    intro h
    rw [h, ZMod.val_zero] at hxv
    exact absurd hxv (by decide)
  have hpar := neg_parity hx0
  have hbase : base.x.val % 2 = 0 := by rw [hxv]; decide
  have hd : (sig.drop 32).length = 32 := by rw [List.length_drop, p4]
  have hlow : ∀ n, n % L < 2 ^ 255 := fun n => lt_trans (lt_trans (Nat.mod_lt _ (by decide)) L_lt) (by norm_num)
  have hT : leNat (sig.drop 32) / 2 ^ 255 = leNat pk / 2 ^ 255 := by
    rw [p6, Nat.add_mul_div_left _ _ (by positivity), Nat.div_eq_of_lt (hlow _), Nat.zero_add]
  rw [(low255 hd).2, getD_drop, p2, enc_high, e, neg_x] at hT
  have e63 : 32 + 31 = 63 := rfl
  rw [e63] at hT
  omega

example : ∃ k : Bytes, k.length = 32 ∧ leNat k = edOrder - 1 :=
  ⟨[0xec, 0xd3, 0xf5, 0x5c, 0x1a, 0x63, 0x12, 0x58, 0xd6, 0x9c, 0xf7, 0xa2, 0xde, 0xf9, 0xde, 0x14, 0, 0, 0, 0, 0, 0, 0, 0, 0, 0, 0, 0,
    0, 0, 0, 0x10], by decide⟩

/-! ## C52 -/

/-- C52 on X25519 as far as it holds: every signature on a non-empty message verifies, for scalars below `2^255` that are not multiples
of the order. -/
theorem C52_x25519_partial (hE : EdEnv E sha512 rnd rnd64) (k : Bytes) (hk : k.length = 32) (hlt : leNat k < 2 ^ 255)
    (h0 : leNat k % edOrder ≠ 0) (m : Bytes) (hm : m ≠ []) (ID ID' : Option Bytes) (rs : List Bytes) :
    ∃ pub sig, genPubkey E k X255 = .ret (pub, SUCCESS) ∧ signature E k ID m X255 rs = some (.ret (sig, 0, SUCCESS)) ∧
      verify E pub ID' m sig X255 = .ret SUCCESS := by
  rw [edOrder_eq] at h0
  obtain ⟨pub, sig, h1, h2, h3⟩ := xSign_verifies hE.sha (random := rnd64) hk hlt h0 hm
  refine ⟨pub, sig, ?_, ?_, ?_⟩
  · rw [genPub_x hE, h1]; rfl
  · rw [sign_x hE, h2]; rfl
  · rw [verify_x hE, h3]; rfl

example : (List.replicate 32 (7 : UInt8)).length = 32 ∧ leNat (List.replicate 32 (7 : UInt8)) < 2 ^ 255 ∧
    leNat (List.replicate 32 (7 : UInt8)) % edOrder ≠ 0 ∧ ([1] : Bytes) ≠ [] := by decide

/-- C52 is false for the empty message: it is signed, and no signature on it is accepted. -/
theorem C52_empty_false (hE : EdEnv E sha512 rnd rnd64) (k : Bytes) (hk : k.length = 32) (ID : Option Bytes) (rs : List Bytes) :
    (∃ sig, signature E k ID [] X255 rs = some (.ret (sig, 0, SUCCESS))) ∧
      ∀ pub ID' sig, verify E pub ID' [] sig X255 = .ret FAILURE := by
  constructor
  · rw [sign_x hE, xSign, edGenPub, if_neg (by simpa using hk)]
    exact ⟨_, rfl⟩
  · intro pub ID' sig
    rw [(C64_x25519 hE pub ID' [] sig).2]
    rintro ⟨_, _, h, _⟩
    exact h rfl

/-! ## C68: signatures are malleable -/

theorem exists_le (n : ℕ) : ∀ w, w < 256 ^ n → ∃ b : Bytes, b.length = n ∧ leNat b = w := by
  induction n with
  | zero => intro w h; exact ⟨[], rfl, by simp at h; simp [leNat, h]⟩
  | succ n ih =>
    intro w h
    obtain ⟨b, h1, h2⟩ := ih (w / 256) (by rw [pow_succ] at h; omega)
    refine ⟨UInt8.ofNat (w % 256) :: b, by simp [h1], ?_⟩
    simp only [leNat, h2, UInt8.toNat_ofNat']
    omega

/-- C68 is false: whenever a signature with `s < 2^253 - order` is accepted, the signature with `s + order` is accepted too, for the same
key and message; RFC 8032 refuses it. -/
theorem C68_malleable (hE : EdEnv E sha512 rnd rnd64) (t : UInt32) (ht : t = EDN ∨ t = EDR) (pub : Bytes) (ID : Option Bytes)
    (m sig : Bytes) (h : verify E pub ID m sig t = .ret SUCCESS) (hs : leNat (sig.drop 32) + edOrder < 2 ^ 253) :
    ∃ sig', sig' ≠ sig ∧ leNat (sig'.drop 32) = leNat (sig.drop 32) + edOrder ∧ verify E pub ID m sig' t = .ret SUCCESS := by
  obtain ⟨h1, h2, A, h3, h4⟩ := (C64_ed25519 hE t ht pub ID m sig).1.mp h
  obtain ⟨b, b1, b2⟩ := exists_le 32 (leNat (sig.drop 32) + edOrder) (lt_trans hs (by norm_num))
  have ht32 : (sig.take 32).length = 32 := h4.1
  have et : (sig.take 32 ++ b).take 32 = sig.take 32 := List.take_left' ht32
  have ed : (sig.take 32 ++ b).drop 32 = b := List.drop_left' ht32
  have hpos : 0 < edOrder := by decide
  refine ⟨sig.take 32 ++ b, ?_, by rw [ed, b2], ?_⟩
  · intro e
    have := congrArg (fun l : Bytes => leNat (l.drop 32)) e
    rw [ed, b2] at this
    omega
  · rw [(C64_ed25519 hE t ht pub ID m _).1]
    refine ⟨by rw [List.length_append, ht32, b1], by rw [ed, b2]; exact hs, A, h3, ?_⟩
    have e : (leNat (sig.drop 32) + edOrder) • base = leNat (sig.drop 32) • base := by
      rw [add_smul, edOrder_eq, L_base, add_zero]
    rw [et, ed, b2, e]
    exact h4

/-- the hypotheses are met: with a hash that is always 1, the signature of a seed has `s = (1 + 2^254) mod L`. -/
example (hE : EdEnv E (fun m => m.take 0 ++ 1 :: List.replicate 63 0) rnd rnd64) : ∃ pub sig, verify E pub none [1] sig EDN = .ret SUCCESS ∧
    leNat (sig.drop 32) + edOrder < 2 ^ 253 := by
  obtain ⟨pub, sig, h1, h2, h3⟩ := C49 hE (List.replicate 32 7) rfl none none [1] []
  obtain ⟨sig', pub', s1, s2, s3, s4, s5⟩ := C65_sign hE (List.replicate 32 7) rfl none [1] []
  rw [h2] at s1
  injection s1 with s1
  injection s1 with s1
  injection s1 with s1
  refine ⟨pub, sig, h3, ?_⟩
  rw [← s1] at s5
  rw [s5]
  have e : ∀ m : Bytes, hashInt (fun m => m.take 0 ++ 1 :: List.replicate 63 0) m = 1 := by
    intro m
    simp only [hashInt, List.take_zero, List.nil_append]
    decide
  rw [e, e, List.take_zero, List.nil_append]
  decide

/-! ## C66: point arithmetic -/

/-- C66: `Point_add` on ED25519 of two strings that decode to points: the encoding of the sum, or FAILURE for the identity. -/
theorem C66_add (hE : EdEnv E sha512 rnd rnd64) (a b : Bytes) (A B : Pt) (ha : ReadsEd a A) (hb : ReadsEd b B) :
    (A + B = 0 → pointAdd E a b EDR = .ret ([], FAILURE)) ∧
      (A + B ≠ 0 → ∃ out, pointAdd E a b EDR = .ret (out, SUCCESS) ∧ EncodesEd out (A + B)) := by
  have e : pointAdd E a b EDR = .ret (infCode (edAdd a b)) := by
    unfold pointAdd
    rw [if_pos rfl, if_neg (by simp [ha.1, hb.1]), hE.add]
    rfl
  obtain ⟨h1, h2⟩ := edAdd_spec ha.1 hb.1 ha.2 hb.2
  rw [e]
  constructor
  · intro h; rw [h1 h]; rfl
  · intro h
    obtain ⟨out, o1, o2, o3⟩ := h2 h
    exact ⟨out, by rw [o1]; rfl, o2, o3⟩

/-- C66: `Point_mulBaseG_add` on ED25519. -/
theorem C66_mulBaseAdd (hE : EdEnv E sha512 rnd rnd64) (a k : Bytes) (A : Pt) (ha : ReadsEd a A) (hk : k.length = 32)
    (hlt : leNat k < 2 ^ 253) :
    (A + leNat k • base = 0 → pointMulBaseGAdd E a k EDR = .ret ([], true)) ∧
      (A + leNat k • base ≠ 0 → ∃ out, pointMulBaseGAdd E a k EDR = .ret (out, false) ∧ EncodesEd out (A + leNat k • base)) := by
  have e : pointMulBaseGAdd E a k EDR = .ret (edMulBaseAdd a k) := by
    unfold pointMulBaseGAdd
    rw [if_neg (by simpa using hk), if_neg (by decide), if_neg (by decide), if_neg (by decide), if_pos rfl, hE.mulAdd]
  obtain ⟨h1, h2⟩ := edMulBaseAdd_spec ha.1 hk ha.2 hlt
  rw [e]
  constructor
  · intro h; rw [h1 h]
  · intro h
    obtain ⟨out, o1, o2, o3⟩ := h2 h
    exact ⟨out, by rw [o1], o2, o3⟩

/-- C66: key derivation: adding `b G` to the public key of `a` is the public key of any `c` congruent to `a + b`. -/
theorem C66_derive (hE : EdEnv E sha512 rnd rnd64) (a b c : Bytes) (ha : a.length = 32) (hb : b.length = 32) (hc : c.length = 32)
    (la : leNat a < 2 ^ 255) (lb : leNat b < edOrder) (lc : leNat c < 2 ^ 255)
    (h : leNat c % edOrder = (leNat a + leNat b) % edOrder) (h0 : leNat c % edOrder ≠ 0) :
    ∃ pa pc, genPubkey E a EDR = .ret (pa, SUCCESS) ∧ genPubkey E c EDR = .ret (pc, SUCCESS) ∧
      pointMulBaseGAdd E pa b EDR = .ret (pc, false) := by
  obtain ⟨pa, a1, _, a3⟩ := C65_raw hE a ha la
  obtain ⟨pc, c1, _, c3⟩ := C65_raw hE c hc lc
  refine ⟨pa, pc, a1, c1, ?_⟩
  rw [edOrder_eq] at h h0 lb
  have e : leNat a • base + leNat b • base = leNat c • base := by
    rw [← add_smul]; exact (nsmul_base_eq.mpr h).symm
  obtain ⟨out, o1, o2⟩ := (C66_mulBaseAdd hE pa b _ a3.reads hb (lt_trans lb L_lt)).2 (by
    rw [e]
    intro hz
    apply h0
    have : leNat c • base = 0 • base := by rw [hz, zero_smul]
    simpa using nsmul_base_eq.mp this)
  rw [e] at o2
  rw [o1, o2.unique c3]

example : leNat (9 :: List.replicate 31 (0 : UInt8)) % edOrder =
    (leNat (4 :: List.replicate 31 (0 : UInt8)) + leNat (5 :: List.replicate 31 (0 : UInt8))) % edOrder ∧
    leNat (9 :: List.replicate 31 (0 : UInt8)) % edOrder ≠ 0 := by decide

/-- the hypotheses of C66 are met by the base point and its double. -/
example : ∃ a b, ReadsEd a base ∧ ReadsEd b (2 • base) ∧ base + 2 • base ≠ 0 := by
  obtain ⟨p1, _, h1, h1'⟩ := edGenPub_spec (k := 1 :: List.replicate 31 0) rfl (by decide)
  obtain ⟨p2, _, h2, h2'⟩ := edGenPub_spec (k := 2 :: List.replicate 31 0) rfl (by decide)
  have e1 : leNat (1 :: List.replicate 31 (0 : UInt8)) = 1 := by decide
  have e2 : leNat (2 :: List.replicate 31 (0 : UInt8)) = 2 := by decide
  rw [e1, one_smul] at h1'
  rw [e2] at h2'
  refine ⟨p1, p2, EncodesEd.reads ⟨h1, h1'⟩, EncodesEd.reads ⟨h2, h2'⟩, ?_⟩
  intro h
  have : (3 : ℕ) • base = 0 • base := by rw [zero_smul, ← h]; abel
  have := nsmul_base_eq.mp this
  rw [L_eq] at this
  norm_num at this

end

/-! ## C67: conversion between X25519 and Ed25519 public keys -/

/-- C67: `CURVE25519_convert_X_to_Ed` on a canonical `u`: the canonical `y = (u - 1) / (u + 1)` with the sign bit clear; a
non-canonical `u` or another length is refused. -/
theorem C67_xToEd (x : Bytes) :
    (x.length = 32 → leNat x < edPrime →
      ∃ b, apiXToEd x = .ok b ∧ b.length = 32 ∧ leNat b = (((leNat x : F) - 1) / ((leNat x : F) + 1)).val) ∧
    (x.length ≠ 32 ∨ leNat x ≥ edPrime → apiXToEd x = .error .other) := by
  rw [edPrime_eq]
  unfold apiXToEd
  constructor
  · intro h hlt
    rw [if_neg (by simpa using h)]
    exact (convertXToEd_spec h).1 hlt
  · intro h
    by_cases hl : x.length = 32
    · rw [if_neg (by simpa using hl)]
      exact (convertXToEd_spec hl).2 (by rcases h with h | h; exacts [absurd hl h, h])
    · rw [if_pos hl]

/-- C67: `CURVE25519_convert_Ed_to_X`: the canonical `u = (1 + y) / (1 - y)`; the sign bit is ignored. -/
theorem C67_edToX (ed : Bytes) (h : ed.length = 32) : let y : F := ((leNat ed % 2 ^ 255 : ℕ) : F)
    ∃ b, apiEdToX ed = .ok b ∧ b.length = 32 ∧ leNat b = ((1 + y) / (1 - y)).val := by
  intro y
  unfold apiEdToX
  rw [if_neg (by simpa using h)]
  exact convertEdToX_spec h

/-- C67: converting there and back gives the same key, except for `u = -1`. -/
theorem C67_roundTrip (x : Bytes) (h : x.length = 32) (hlt : leNat x < edPrime) (hne : leNat x ≠ edPrime - 1) :
    ∃ b, apiXToEd x = .ok b ∧ apiEdToX b = .ok x := by
  obtain ⟨b, h1, h2, h3⟩ := (C67_xToEd x).1 h hlt
  obtain ⟨c, c1, c2, c3⟩ := C67_edToX b h2
  refine ⟨b, h1, ?_⟩
  rw [c1]
  congr 1
  have hP : P < 2 ^ 255 := by rw [P_eq]; norm_num
  rw [edPrime_eq] at hlt hne
  have hb : leNat b % 2 ^ 255 = leNat b := Nat.mod_eq_of_lt (by rw [h3]; exact lt_trans (val_lt_P _) hP)
  rw [hb, h3, ZMod.natCast_zmod_val] at c3
  have hu : (leNat x : F) + 1 ≠ 0 := by
    intro e
    have e' : ((leNat x + 1 : ℕ) : F) = 0 := by push_cast; exact e
    rw [ZMod.natCast_eq_zero_iff] at e'
    have := Nat.le_of_dvd (by omega) e'
    omega
  have hv : (1 + ((leNat x : F) - 1) / ((leNat x : F) + 1)) / (1 - ((leNat x : F) - 1) / ((leNat x : F) + 1)) = (leNat x : F) := by
    have h4 : 1 + ((leNat x : F) - 1) / ((leNat x : F) + 1) = 2 * (leNat x : F) / ((leNat x : F) + 1) := by field_simp; ring
    have h5 : 1 - ((leNat x : F) - 1) / ((leNat x : F) + 1) = 2 / ((leNat x : F) + 1) := by field_simp; ring
    rw [h4, h5]
    field_simp [two_ne_zero_F]
  rw [hv, ZMod.val_natCast_of_lt hlt] at c3
  exact leNat_inj_of_length (by rw [c2, h]) c3

example : (List.replicate 32 (7 : UInt8)).length = 32 ∧ leNat (List.replicate 32 (7 : UInt8)) < edPrime ∧
    leNat (List.replicate 32 (7 : UInt8)) ≠ edPrime - 1 := by decide

/-- C67: the conversion agrees with the two key generations: the ED25519 key of a scalar converts to its X25519 key. -/
theorem C67_keys {E : Env} {sha512 : Bytes → Bytes} {rnd rnd64 : Bytes} (hE : EdEnv E sha512 rnd rnd64) (k : Bytes)
    (hk : k.length = 32) (hlt : leNat k < 2 ^ 255) :
    ∃ pe px, genPubkey E k EDR = .ret (pe, SUCCESS) ∧ genPubkey E k X255 = .ret (px, SUCCESS) ∧ apiEdToX pe = .ok px := by
  obtain ⟨pe, h1, _, h2⟩ := C65_raw hE k hk hlt
  obtain ⟨px, g1, g2, g3⟩ := C65_x25519 hE k hk hlt
  obtain ⟨c, c1, c2, c3⟩ := C67_edToX pe h2.1
  refine ⟨pe, px, h1, g1, ?_⟩
  rw [c1]
  congr 1
  rw [h2.2, enc_low, ZMod.natCast_zmod_val] at c3
  exact leNat_inj_of_length (by rw [c2, g2]) (by rw [c3, g3])

end Verif.Props
