import Verif.Pasta.Reject
import Verif.Props.Pasta

/-!
# Pasta: the excluded case of C55 and C70

`C55_roundtrip_partial` and `C70_verify_partial` leave out `s·G = -(e·Q) ≠ 0`.  Here: what `Verify` does then, and an honest signature
that it rejects.
-/

namespace Verif.Props

open Verif.EC Verif.ECDSA Verif.Pasta Verif.Api

variable {E : Env} {parse : Bytes → Option MinaMessage} {draws : List Bytes}

/-- C70: in the case that `C70_verify_partial` excludes, `Verify` either decides the Schnorr equation or behaves as if `s·G - e·Q` were
infinity: it accepts exactly when `r ≡ 0`. -/
theorem C70_excluded (hE : PastaEnv E parse draws) (pub m sig : Bytes) (ID : Option Bytes) (Q : Pt) (hp : PastaKey pub Q)
    (mm : MinaMessage) (hm : parse m = some mm) (M : Message) (hM : MsgOk mm M) (e r s : ℕ) (hl : sig.length = 64)
    (hr : r = beNat (sig.take 32)) (hs : s = beNat (sig.drop 32)) (he : e = challenge M Q (r : ZMod c.p))
    (h0 : s • good.G ≠ 0) (hne : s • good.G = -(e • Q)) :
    Api.verify E pub ID m sig PST = .ret (if Schnorr Q e r s then SUCCESS else FAILURE) ∨
      Api.verify E pub ID m sig PST = .ret (if r % c.p = 0 then SUCCESS else FAILURE) := by
  obtain ⟨a, ha, hA⟩ := hp.parses
  have l1 : (sig.take 32).length = 32 := by rw [List.length_take]; omega
  have l2 : (sig.drop 32).length = 32 := by rw [List.length_drop]; omega
  have hh := hashOf_spec hA (fpMont_spec l1) hM
  rw [← hr, ← he] at hh
  have l3 : (hashOf a (fpMont (sig.take 32)) mm).length = 32 := poseidonDigest_length _
  have hg := groupScalarMul_spec (fqMont (sig.drop 32)) (fqMont_spec l2).1 _ _ (affineToGroup_spec affineOne_spec)
  have hk := neg_spec (groupScalarMul_spec (fqMont (hashOf a (fpMont (sig.take 32)) mm)) (fqMont_spec l3).1 _ _ (affineToGroup_spec hA))
  rw [den_smul l2, ← hs] at hg
  rw [den_smul l3, hh, beNat_be32] at hk
  have hfr := fpMont_spec l1
  rw [← hr] at hfr
  rw [verify_pasta hE, verify_parsed ha hl hm]
  dsimp only
  rw [hh]
  rw [hne] at hg
  by_cases heq : groupScalarMul (fqMont (sig.drop 32)) (affineToGroup affineOne) =
      ⟨(groupScalarMul (fqMont (be32 e)) (affineToGroup a)).X, opp Fp (groupScalarMul (fqMont (be32 e)) (affineToGroup a)).Y,
        (groupScalarMul (fqMont (be32 e)) (affineToGroup a)).Z⟩
  · left
    have hadd := groupAdd_spec hg hk (.inr (.inr (.inr heq)))
    rw [verify_final (affineFromGroup_spec hadd) hfr, Go.ret_bind]
    have hS : Schnorr Q e r s ↔ xval (-(e • Q) + -(e • Q)) = r % c.p ∧ yval (-(e • Q) + -(e • Q)) % 2 = 0 := by
      unfold Schnorr
      rw [hne, sub_eq_add_neg]
    by_cases hc : xval (-(e • Q) + -(e • Q)) = r % c.p ∧ yval (-(e • Q) + -(e • Q)) % 2 = 0
    · rw [if_pos (hS.mpr hc), decide_eq_true hc]; rfl
    · rw [if_neg (fun h => hc (hS.mp h)), decide_eq_false hc]; rfl
  · right
    have hadd := groupAdd_same hg hk heq (hne ▸ h0)
    rw [verify_final (affineFromGroup_spec hadd) hfr, Go.ret_bind]
    have hz : (xval (0 : Pt) = r % c.p ∧ yval (0 : Pt) % 2 = 0) ↔ r % c.p = 0 :=
      ⟨fun h => h.1.symm, fun h => ⟨h.symm, rfl⟩⟩
    by_cases hc : r % c.p = 0
    · rw [if_pos hc, decide_eq_true (hz.mpr hc)]; rfl
    · rw [if_neg hc, decide_eq_false (fun h => hc (hz.mp h))]; rfl

/-- C70 is false without the exclusion: a key, a message and a signature that satisfies the Schnorr equation and is rejected. -/
theorem C70_false (hE : PastaEnv E parse draws) (m : Bytes) (ID : Option Bytes) (hm : parse m = some badMessage) :
    ∃ (pub sig : Bytes) (Q : Pt) (M : Message), PastaKey pub Q ∧ MsgOk badMessage M ∧ sig.length = 64 ∧
      Schnorr Q (challenge M Q (beNat (sig.take 32) : ZMod c.p)) (beNat (sig.take 32)) (beNat (sig.drop 32)) ∧
      Api.verify E pub ID m sig PST = .ret FAILURE := by
  refine ⟨wire (badKey • good.G), be32 badR ++ be32 1, badKey • good.G, badM, .inl (wire_reads _), bad_msg, ?_, ?_, ?_⟩
  · rw [List.length_append, be32_length badR_lt, be32_length (by norm_num)]
  · rw [take_be32 badR_lt, drop_be32 badR_lt, beNat_be32, beNat_be32, bad_challenge]
    exact bad_schnorr
  · rw [verify_pasta hE, bad_verify hm]; rfl

/-- C55 is false: a private key, a message and a nonce for which the signature made by `Signature` is rejected by `Verify` under the
key made by `GenPubkey`.  The key is `(n - 1)/2`, the nonce 2, and the message's initial state makes the challenge 2. -/
theorem C55_false (hE : PastaEnv E parse [be32 2]) (m : Bytes) (ID : Option Bytes) (rnd : List Bytes)
    (hm : parse m = some badMessage) :
    ∃ pub sig, genPubkey E (be32 badKey) PST = .ret (pub, SUCCESS) ∧
      signature E (be32 badKey) ID m PST rnd = some (.ret (sig, 0, SUCCESS)) ∧ Api.verify E pub ID m sig PST = .ret FAILURE := by
  refine ⟨wire (badKey • good.G), be32 badR ++ be32 1, ?_, ?_, ?_⟩
  · rw [C55_genPubkey hE, if_pos ⟨be32_length badKey_lt, by rw [beNat_be32]; decide +kernel⟩, beNat_be32]
  · rw [sign_pasta hE, bad_sign hm]; rfl
  · rw [verify_pasta hE, bad_verify hm]; rfl

/-- the hypotheses of `C55_false`, `C70_false` and `C70_excluded` are met. -/
example (E : Env) : PastaEnv { E with
    pasta := scheme (fun m => if m = [] then none else some badMessage) [be32 2],
    pastaMulBaseAdd := fun a b => dropErr (Pasta.pointMulBaseGAdd a b), pastaAdd := fun a b => dropErr (Pasta.pointAdd a b),
    pastaMul := fun a b => dropErr (Pasta.pointMul a b), pastaDecompress := Pasta.pointDecompress }
    (fun m => if m = [] then none else some badMessage) [be32 2] ∧
    (1 : ℕ) • good.G = -(2 • (badKey • good.G)) ∧ challenge badM (badKey • good.G) (badR : ZMod c.p) = 2 :=
  ⟨⟨rfl, rfl, rfl, rfl, rfl, by simp; exact be32_length (by decide), rfl⟩, by rw [bad_double, neg_neg, one_nsmul], bad_challenge⟩

end Verif.Props
