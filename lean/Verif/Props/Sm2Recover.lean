import Verif.Props.Sm2Sign2

/-!
# C34: `RecoverPubkey` on SM2 solves the ECDSA equation, not the SM2 one
-/

namespace Verif.Props

open Verif.EC Verif.ECDSA Verif.Api WeierstrassCurve
open Verif.SM3 (sm3Sum)

/-- C19: the hypotheses of `C19_child_key_sm2_partial` hold for the parent key 2 and the tweak 1. -/
example : genPubkey sm2Env sm2Key SM = .ret (sm2Pub, SUCCESS) ∧ (SM2.genPublicKeyR sm2Key).bad = false ∧
    (be32 1).length = 32 ∧ beNat (be32 1) % SM2.c.n ≠ beNat sm2Key ∧ (SM2.scalarBaseMultGh (be32 1)).bad = false ∧
    (addRun (beNat (be32 1) • SM2.good.G) (beNat sm2Key • SM2.good.G)).bad = false ∧
    (beNat sm2Key + beNat (be32 1)) % SM2.c.n ≠ 0 := by
  refine ⟨sm2Pub_gen _ sm2Env_ok, sm2Key_run.1, by decide +kernel, by decide +kernel, by rw [SM2.base_one (by decide +kernel)], ?_,
    by decide +kernel⟩
  rw [show beNat (be32 1) = 1 by decide +kernel, show beNat sm2Key = 2 by decide +kernel, one_nsmul]
  exact add3.1

/-! ## What `recoverPublic` returns -/

theorem recoverStep_some {C : Curve} {rhs : Int → Int} {rInv : Option Int} {rb sb hash pub : Bytes} {pre : UInt8} {s : Int}
    (h : recoverStep C rhs rInv rb sb hash pre s = .ret (some pub)) :
    ∃ x y k, pub = encode64 (C.scalarMult x y k) ∧
      verifyesdsa C (C.scalarMult x y k).1 (C.scalarMult x y k).2 hash (beNat rb) (beNat sb) = .ret true := by
  unfold recoverStep at h
  dsimp only at h
  cases hdec : decompress C.P rhs (pre :: rb) with
  | error e => rw [hdec] at h; exact nomatch h
  | ok buf =>
  rw [hdec] at h
  dsimp only at h
  cases h1 : sliceTo buf 33 with
  | panic => rw [h1] at h; exact nomatch h
  | ret t =>
    cases h2 : sliceFrom buf 33 with
    | panic => rw [h1, h2] at h; exact nomatch h
    | ret y =>
      cases rInv with
      | none => rw [h1, h2] at h; exact nomatch h
      | some ri =>
        rw [h1, h2] at h
        simp only [Go.ret_bind, deref] at h
        refine ⟨(C.add (C.scalarMult (beNat (t.drop 1)) (beNat y) (natBytes s.natAbs)).1
            (C.scalarMult (beNat (t.drop 1)) (beNat y) (natBytes s.natAbs)).2 (C.scalarBaseMult hash).1
            (C.P - (C.scalarBaseMult hash).2)).1,
          (C.add (C.scalarMult (beNat (t.drop 1)) (beNat y) (natBytes s.natAbs)).1
            (C.scalarMult (beNat (t.drop 1)) (beNat y) (natBytes s.natAbs)).2 (C.scalarBaseMult hash).1
            (C.P - (C.scalarBaseMult hash).2)).2, natBytes ri.natAbs, ?_⟩
        · generalize C.scalarMult _ _ (natBytes ri.natAbs) = q at h ⊢
          cases hv : verifyesdsa C q.1 q.2 hash (beNat rb) (beNat sb) with
          | panic => rw [hv] at h; exact nomatch h
          | ret b =>
            rw [hv] at h
            simp only [Go.ret_bind] at h
            cases b with
            | false => exact nomatch h
            | true =>
              simp only [if_true] at h
              injection h with h
              injection h with h
              exact ⟨h.symm, rfl⟩

theorem recoverPublic_ok {C : Curve} {rhs : Int → Int} {sig msg pub : Bytes} (h : recoverPublic C rhs sig msg = .ret (.ok pub)) :
    ∃ x y k, pub = encode64 (C.scalarMult x y k) ∧ verifyesdsa C (C.scalarMult x y k).1 (C.scalarMult x y k).2 msg
      (beNat (sig.take 32)) (beNat ((sig.drop 32).take 32)) = .ret true := by
  unfold recoverPublic at h
  split at h
  · exact nomatch h
  dsimp only at h
  generalize modInverse (beNat (sig.take 32)) C.N = ri at h
  cases h1 : recoverStep C rhs ri (sig.take 32) ((sig.drop 32).take 32) msg 0x02
      (if sig.getD 64 0 = 1 then C.N - beNat ((sig.drop 32).take 32) else 0) with
  | panic => rw [h1] at h; exact nomatch h
  | ret o =>
    rw [h1] at h
    simp only [Go.ret_bind] at h
    cases o with
    | some k =>
      injection h with h
      injection h with h
      subst h
      exact recoverStep_some h1
    | none =>
      dsimp only at h
      generalize h2 : recoverStep C rhs ri (sig.take 32) ((sig.drop 32).take 32) msg 0x03 _ = g at h
      match g with
      | .panic => exact nomatch h
      | .ret none => exact nomatch h
      | .ret (some k) =>
        injection h with h
        injection h with h
        subst h
        exact recoverStep_some h2

theorem toAffine_range (p : SM2.Jac) : ∃ x y : ℕ, (SM2.toAffine p).val = ((x : Int), (y : Int)) ∧ x < SM2.c.p ∧ y < SM2.c.p := by
  obtain ⟨f, g, h⟩ : ∃ f g, (SM2.toAffine p).val = (SM2.toBig f, SM2.toBig g) := by
    unfold SM2.toAffine
    dsimp only
    generalize SM2.fromBig _ = z
    generalize SM2.square z = m1
    obtain ⟨z2, _⟩ := m1
    exact ⟨_, _, rfl⟩
  have hf := SM2.toBig_range f
  have hg := SM2.toBig_range g
  rw [SM2.P_eq] at hf hg
  refine ⟨(SM2.toBig f).toNat, (SM2.toBig g).toNat, ?_, by omega, by omega⟩
  rw [h, Int.toNat_of_nonneg hf.1, Int.toNat_of_nonneg hg.1]

theorem gh_bind_val {α β : Type} (m : SM2.Gh α) (f : α → SM2.Gh β) : (m >>= f).val = (f m.val).val := rfl

theorem scalarMult_range (x y : Int) (k : Bytes) : ∃ a b : ℕ, SM2.curve.scalarMult x y k = ((a : Int), (b : Int)) ∧
    a < SM2.c.p ∧ b < SM2.c.p := by
  rw [curve_mul]
  unfold SM2.scalarMultGh
  generalize SM2.scalarMultJ (SM2.fromBig x) (SM2.fromBig y) (SM2.getScalar k) = m
  rw [gh_bind_val]
  exact toAffine_range m.val

theorem encode64_inj {a b a' b' : ℕ} (ha : a < 2 ^ 256) (ha' : a' < 2 ^ 256)
    (h : encode64 ((a : Int), (b : Int)) = encode64 ((a' : Int), (b' : Int))) : a = a' ∧ b = b' := by
  unfold encode64 at h
  simp only [Int.natAbs_natCast] at h
  have := List.append_inj h (by rw [be32_length (by norm_num at ha ⊢; omega), be32_length (by norm_num at ha' ⊢; omega)])
  exact ⟨be32_inj this.1, be32_inj this.2⟩

/-- For every signature and message: if `RecoverPubkey` on SM2 succeeds, then the key it returns passes the ECDSA
verification of utils.go (on the SM2 curve), which is not SM2's. -/
theorem C34_recover_solves_ecdsa (E : Env) (hE : Sm2Env E) (sig msg pub : Bytes)
    (h : recoverPubkey E sig msg SM = .ret (pub, SUCCESS)) :
    ∃ X Y : ℕ, X < SM2.c.p ∧ Y < SM2.c.p ∧ pub = be32 X ++ be32 Y ∧
      verifyesdsa SM2.curve X Y msg (beNat (sig.take 32)) (beNat ((sig.drop 32).take 32)) = .ret true := by
  have hr : recoverPublic SM2.curve SM2.rhs sig msg = .ret (.ok pub) := by
    unfold recoverPubkey at h
    rw [if_neg (by decide), if_neg (by decide), if_pos rfl, hE] at h
    have e : (SM2.backend sm3Sum).recover sig msg = recoverPublic SM2.curve SM2.rhs sig msg := rfl
    rw [e] at h
    generalize recoverPublic SM2.curve SM2.rhs sig msg = g at h ⊢
    match g with
    | .panic => exact nomatch h
    | .ret (.error e) => injection h with h; injection h with _ h; exact absurd h (by decide)
    | .ret (.ok b) => injection h with h; injection h with h; rw [h]
  obtain ⟨x, y, k, hp, hv⟩ := recoverPublic_ok hr
  obtain ⟨a, b, he, ha, hb⟩ := scalarMult_range x y k
  rw [he] at hp hv
  exact ⟨a, b, ha, hb, by rw [hp]; rfl, hv⟩

/-! ## The counterexample: nonce 1, `r = s` -/

def recKey : Bytes := be32 0xb4e5f89aa3f85d8b265d2c7ca1251b0d9c3ead30cee05e24b0990631d246c904
def recMsg : Bytes := be32 0x9a76a3a6c1ccfdcd40cdf7732b8c6cd6523dc7eb3cf9ed68710768f6d33c5795
def recR : ℕ := 0xcd3b51d2e0e67ee6a066fbb995c6366ae220d3ab2f5ff949e261ae800688cc5c
def recX : ℕ := 0xf0f3ae66b93a44c9b36bbb4ee0738c06afef0630b1da378c1cd6552ef59c1910
def recY : ℕ := 0xad7ee7ef83061c563021bc89acb8ff668ef9b992e9fd435ee09078752333679d
def recPub : Bytes := be32 recX ++ be32 recY

set_option maxRecDepth 1000000 in
theorem recPub_gen : (SM2.scalarBaseMultGh recKey).val = ((recX : Int), (recY : Int)) := by decide +kernel

theorem rec_sign : (SM2.signR sm3Sum recKey none recMsg [draw 1]).val = .ret (some (.ok (rs recR recR, 0))) := by
  rw [SM2.signR_val (p := (SM2.Gx, SM2.Gy)) (by decide +kernel) (by decide +kernel) (by decide +kernel) (by decide +kernel)
    (SM2.base_one (by decide +kernel))]
  decide +kernel

set_option maxRecDepth 1000000 in
theorem recQ_one {b : Bytes} (h : beNat b = 1) :
    (SM2.scalarMultGh recX recY b).val = ((recX : Int), (recY : Int)) := by
  have hs := SM2.getScalar_small h (by norm_num)
  rw [SM2.scalarMultGh_small _ _ b (j := 1) (by norm_num) (by rw [hs]; norm_num), hs]
  decide +kernel

set_option maxRecDepth 1000000 in
theorem rec_add : ((SM2.addGh SM2.g2x SM2.g2y recX recY).val.1 % SM2.N == (recR : Int)) = false := by decide +kernel

theorem rec_not_ecdsa : verifyesdsa SM2.curve recX recY recMsg recR recR = .ret false := by
  have hN : SM2.curve.N = SM2.N := rfl
  unfold verifyesdsa
  rw [if_neg (by decide +kernel), if_neg (by rw [hN]; decide +kernel)]
  unfold verifyGeneric
  have hi : modInverse (recR : Int) SM2.curve.N =
      some 0x69cbf13647f0bb164cba58f9424a361bc6797af67bfab71e0d76185a6ab850e6 := by rw [hN]; decide +kernel
  rw [hi]
  simp only [deref, Go.ret_bind]
  have h1 : beNat (natBytes (hashToInt SM2.curve.N recMsg *
      0x69cbf13647f0bb164cba58f9424a361bc6797af67bfab71e0d76185a6ab850e6 % SM2.curve.N).natAbs) = 2 := by
    rw [hN]; decide +kernel
  have h2 : beNat (natBytes ((recR : Int) *
      0x69cbf13647f0bb164cba58f9424a361bc6797af67bfab71e0d76185a6ab850e6 % SM2.curve.N).natAbs) = 1 := by
    rw [hN]; decide +kernel
  rw [curve_base, curve_mul, SM2.base_two h1, recQ_one h2]
  dsimp only
  rw [curve_add, hN, rec_add]
  split <;> rfl

/-- C34 is false of the code: a key pair and an SM2 signature made by `Signature` for which `RecoverPubkey` does not
return the signer's public key, whichever recovery byte is appended. -/
theorem C34_false (E : Env) (hE : Sm2Env E) :
    genPubkey E recKey SM = .ret (recPub, SUCCESS) ∧
    signature E recKey none recMsg SM [draw 1] = some (.ret (rs recR recR, 0, SUCCESS)) ∧
    ∀ v, recoverPubkey E (rs recR recR ++ [v]) recMsg SM ≠ .ret (recPub, SUCCESS) := by
  refine ⟨?_, ?_, ?_⟩
  · rw [genPubkey_sm2 hE]
    unfold genPublicKey
    have hN : SM2.curve.N = SM2.N := rfl
    dsimp only
    rw [if_neg (by decide +kernel), if_neg (by decide +kernel), if_neg (by rw [hN]; decide +kernel), curve_base, recPub_gen]
    rfl
  · rw [signature_sm2 hE, rec_sign]; rfl
  · intro v h
    obtain ⟨X, Y, hX, hY, hp, hv⟩ := C34_recover_solves_ecdsa E hE _ _ _ h
    have h256 := SM2.c_p256
    obtain ⟨rfl, rfl⟩ := encode64_inj (a := recX) (a' := X) (b := recY) (b' := Y) (by decide +kernel) (by omega) hp
    have hl : (be32 recR).length = 32 := by decide +kernel
    have e1 : beNat ((rs recR recR ++ [v]).take 32) = recR := by
      unfold rs
      rw [List.append_assoc, List.take_left' hl, beNat_be32]
    have e2 : beNat (((rs recR recR ++ [v]).drop 32).take 32) = recR := by
      unfold rs
      rw [List.append_assoc, List.drop_left' hl, List.take_left' hl, beNat_be32]
    rw [e1, e2, rec_not_ecdsa] at hv
    exact nomatch hv

end Verif.Props
