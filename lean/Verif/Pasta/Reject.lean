import Verif.Pasta.ApiLemmas2

/-!
# A signature that `Verify` rejects although it is genuine: the computations

The key is `(n - 1)/2`, the nonce 2, and the message's initial state is chosen so that the challenge is 2.  Then `s = 1` and
`s·G = G = -(2·Q)`.
-/

namespace Verif.Pasta

open Verif.EC Verif.ECDSA

/-- the private key `(n - 1)/2`. -/
def badKey : ℕ := 0x2000000000000000000000000000000011234c7e04ca546ec623759080000000
def badX : ℕ := 0x26347f0a2b1c02095168504e2c2accdc0066fd86dff40417e8ea6ce7ef11bb65
def badY : ℕ := 0x2f2bd23fd58ea06cd75a39fbae2f0af1938c32b86cb41a2413fbe5171faca6b7
def badR : ℕ := 0x28000000000000000000000000000000156c1f9d85d01bb13fbc3e941fffffff
def badRY : ℕ := 0x88fe18ff4899d4d432b1d955dce6e12f8590375f1009580e23563c65a3e7950

/-- the initial state of the message. -/
def badIv : ℕ × ℕ × ℕ :=
  (0x190c85d6e8b1c9c3236897278fc70b4066d224164191004935c7744c2ab4ebad,
   0x2fd57823af79669b17f0f4597f2ca7bced90b55310603b06b5b5be57c20f697f,
   0x2c83c92c15fb576ed4ea437a3f121687e2529f2d75134125c7f27a4809a1bb6d)

attribute [irreducible] badKey badX badY badR badRY badIv

/-- the message: no transaction fields, an initial state. -/
def badMessage : MinaMessage := ⟨[], [], fpMont (be32 badIv.1), fpMont (be32 badIv.2.1), fpMont (be32 badIv.2.2)⟩

/-! ### the permutation on numbers -/

def mixN (s : ℕ × ℕ × ℕ) : ℕ × ℕ × ℕ :=
  let d (m : ℕ × ℕ × ℕ) : ℕ := (s.1 * m.1 + s.2.1 * m.2.1 + s.2.2 * m.2.2) % c.p
  (d (PoseidonSpec.matrix.getD 0 (0, 0, 0)), d (PoseidonSpec.matrix.getD 1 (0, 0, 0)), d (PoseidonSpec.matrix.getD 2 (0, 0, 0)))

def roundN (s k : ℕ × ℕ × ℕ) : ℕ × ℕ × ℕ :=
  mixN ((s.1 + k.1) ^ 5 % c.p, (s.2.1 + k.2.1) ^ 5 % c.p, (s.2.2 + k.2.2) ^ 5 % c.p)

def permuteN (s : ℕ × ℕ × ℕ) : ℕ × ℕ × ℕ :=
  let k := PoseidonSpec.keys.getD 63 (0, 0, 0)
  let s := (PoseidonSpec.keys.take 63).foldl roundN s
  ((s.1 + k.1) % c.p, (s.2.1 + k.2.1) % c.p, (s.2.2 + k.2.2) % c.p)

theorem mixN_el (s : ℕ × ℕ × ℕ) : PoseidonSpec.el (mixN s) = PoseidonSpec.mix (PoseidonSpec.el s) := by
  simp only [PoseidonSpec.el, mixN, PoseidonSpec.mix, PoseidonSpec.dot, ZMod.natCast_mod, Nat.cast_add, Nat.cast_mul]

theorem roundN_el (s k : ℕ × ℕ × ℕ) :
    PoseidonSpec.el (roundN s k) = PoseidonSpec.mix (PoseidonSpec.sbox (PoseidonSpec.addKey (PoseidonSpec.el s) (PoseidonSpec.el k))) := by
  unfold roundN
  rw [mixN_el]
  simp only [PoseidonSpec.el, PoseidonSpec.sbox, PoseidonSpec.addKey, ZMod.natCast_mod, Nat.cast_add, Nat.cast_pow]

theorem roundsN_el (ks : List (ℕ × ℕ × ℕ)) (s : ℕ × ℕ × ℕ) :
    PoseidonSpec.el (ks.foldl roundN s) =
      ks.foldl (fun s k => PoseidonSpec.mix (PoseidonSpec.sbox (PoseidonSpec.addKey s (PoseidonSpec.el k)))) (PoseidonSpec.el s) := by
  induction ks generalizing s with
  | nil => rfl
  | cons k ks ih => rw [List.foldl_cons, List.foldl_cons, ih, roundN_el]

theorem permuteN_el (s : ℕ × ℕ × ℕ) : PoseidonSpec.el (permuteN s) = PoseidonSpec.permute (PoseidonSpec.el s) := by
  unfold PoseidonSpec.permute permuteN
  rw [← roundsN_el]
  simp only [PoseidonSpec.el, PoseidonSpec.addKey, ZMod.natCast_mod, Nat.cast_add]

def hashN (iv : ℕ × ℕ × ℕ) (x y r : ℕ) : ℕ :=
  let t := permuteN (iv.1 + x, iv.2.1 + y, iv.2.2)
  (permuteN (t.1 + r, t.2.1, t.2.2)).1

theorem hashN_eq (iv : ℕ × ℕ × ℕ) (x y r : ℕ) :
    PoseidonSpec.hash (PoseidonSpec.el iv) [(x : PoseidonSpec.F), y, r] = (hashN iv x y r : PoseidonSpec.F) := by
  unfold PoseidonSpec.hash
  rw [PoseidonSpec.sponge, PoseidonSpec.sponge]
  have e1 : ((PoseidonSpec.el iv).1 + (x : PoseidonSpec.F), (PoseidonSpec.el iv).2.1 + (y : PoseidonSpec.F), (PoseidonSpec.el iv).2.2) =
      PoseidonSpec.el (iv.1 + x, iv.2.1 + y, iv.2.2) := by
    simp only [PoseidonSpec.el, Nat.cast_add]
  rw [e1, ← permuteN_el]
  unfold hashN
  dsimp only
  generalize permuteN (iv.1 + x, iv.2.1 + y, iv.2.2) = t
  have e2 : ((PoseidonSpec.el t).1 + (r : PoseidonSpec.F), (PoseidonSpec.el t).2) = PoseidonSpec.el (t.1 + r, t.2.1, t.2.2) := by
    simp only [PoseidonSpec.el, Nat.cast_add]
  rw [e2, ← permuteN_el]
  simp only [PoseidonSpec.el]

theorem badHash : hashN badIv badX badY badR = 2 := by decide +kernel

/-! ### the points -/

theorem badPub : Ref.mul c c.gx c.gy badKey = ((badX : Int), (badY : Int)) := by decide +kernel
theorem badNonce : Ref.mul c c.gx c.gy 2 = ((badR : Int), (badRY : Int)) := by decide +kernel

def badA : Affine := ⟨fpMont (be32 badX), fpMont (be32 badY)⟩

/-- the scalars 2 and 1. -/
def badK : Limbs := fqMont (be32 2)
def badS : Limbs := fqMont (be32 1)
attribute [irreducible] badA badK badS

theorem badA_eq : badA = ⟨fpMont (be32 badX), fpMont (be32 badY)⟩ := by unfold badA; rfl
theorem badK_eq : fqMont (be32 2) = badK := by unfold badK; rfl
theorem badS_eq : fqMont (be32 1) = badS := by unfold badS; rfl

theorem badK_spec : Red c.n badK ∧ den c.n badK = ((2 : ℕ) : ZMod c.n) := by
  have := fqMont_spec (b := be32 2) (be32_length (by norm_num))
  rwa [badK_eq, beNat_be32] at this

theorem badS_spec : Red c.n badS ∧ den c.n badS = ((1 : ℕ) : ZMod c.n) := by
  have := fqMont_spec (b := be32 1) (be32_length (by norm_num))
  rwa [badS_eq, beNat_be32] at this

theorem badSg : (groupScalarMul badS (affineToGroup affineOne)).Z = fieldOne := by decide +kernel
theorem badE : (groupScalarMul badK (affineToGroup badA)).Z ≠ fieldOne := by decide +kernel

theorem enc_fst (Q : Pt) : (enc c Q).1 = (xval Q : Int) := by cases Q <;> rfl
theorem enc_snd (Q : Pt) : (enc c Q).2 = (yval Q : Int) := by cases Q <;> rfl

theorem coords {k x y : ℕ} (h : Ref.mul c c.gx c.gy k = ((x : Int), (y : Int))) : xval (k • good.G) = x ∧ yval (k • good.G) = y := by
  rw [Ref.mul_spec good (Ref.repG good)] at h
  generalize k • good.G = Q at h ⊢
  have h1 := (enc_fst Q).symm.trans (congrArg Prod.fst h)
  have h2 := (enc_snd Q).symm.trans (congrArg Prod.snd h)
  exact ⟨Int.ofNat_inj.mp h1, Int.ofNat_inj.mp h2⟩

theorem badQ : xval (badKey • good.G) = badX ∧ yval (badKey • good.G) = badY := coords badPub
theorem badN : xval (2 • good.G) = badR ∧ yval (2 • good.G) = badRY := coords badNonce

/-- `2·Q = -G`. -/
theorem bad_double : 2 • (badKey • good.G) = -good.G := by
  rw [← mul_nsmul', eq_neg_iff_add_eq_zero]
  conv_lhs => rw [← one_nsmul good.G, ← mul_nsmul', ← add_nsmul]
  rw [show 2 * badKey * 1 + 1 = c.n by decide +kernel]
  exact n_smul _

theorem badR_lt : badR < 256 ^ 32 := by decide +kernel
theorem badKey_lt : badKey < 256 ^ 32 := by decide +kernel

/-- the message as field elements. -/
def badM : Message := ⟨PoseidonSpec.el badIv, [], []⟩

theorem bad_msg : MsgOk badMessage badM := by
  have h : ∀ v : ℕ, v < 256 ^ 32 → El (fpMont (be32 v)) (v : ZMod c.p) := fun v hv => by
    have := fpMont_spec (be32_length hv)
    rwa [beNat_be32] at this
  exact ⟨h _ (by decide +kernel), h _ (by decide +kernel), h _ (by decide +kernel), .nil, .nil⟩

theorem bad_challenge : challenge badM (badKey • good.G) (badR : ZMod c.p) = 2 := by
  unfold challenge
  rw [badQ.1, badQ.2]
  show (PoseidonSpec.hash (PoseidonSpec.el badIv) [(badX : PoseidonSpec.F), badY, badR]).val = 2
  rw [hashN_eq, badHash, ZMod.val_natCast]
  decide +kernel

theorem bad_pick : pickK [be32 2] = some badK := by decide +kernel

theorem bad_hash {a : Affine} (hA : AI a (badKey • good.G)) {r : Limbs} (hr : El r (badR : ZMod c.p)) : hashOf a r badMessage = be32 2 := by
  rw [hashOf_spec hA hr bad_msg, bad_challenge]

/-- the signature: `r` is the x-coordinate of `2·G`, `s = 1`. -/
theorem bad_sign {parse : Bytes → Option MinaMessage} {m : Bytes} (hm : parse m = some badMessage) :
    sign parse [be32 2] (be32 badKey) m = .ret (.ok (be32 badR ++ be32 1)) := by
  have kl : (be32 badKey).length = 32 := be32_length badKey_lt
  have two : (be32 2).length = 32 := be32_length (by norm_num)
  obtain ⟨a, ha, hA⟩ := parse64 (wire_reads (badKey • good.G))
  obtain ⟨k3, k4⟩ := badK_spec
  have hr := affineScalarMul_spec badK k3 affineOne_spec
  rw [k4, ZMod.val_natCast_of_lt (by decide +kernel)] at hr
  have hrx := (AI.iff.mp hr).1
  have hry := (AI.iff.mp hr).2
  rw [badN.1] at hrx
  have hrb : (affineBytes (affineScalarMul badK affineOne)).take 32 = be32 badR := by
    rw [hr.bytes]; unfold wire
    rw [badN.1]
    exact take_be32 badR_lt
  have hodd : fieldIsOdd (affineScalarMul badK affineOne).Y = false := by
    unfold fieldIsOdd
    rw [decide_eq_false_iff_not, odd_word, hry.val, ZMod.val_natCast_of_lt (xval_coe _).2, badN.2]
    decide +kernel
  obtain ⟨n1, n2⟩ := fqMont_spec kl
  obtain ⟨p1, p2⟩ := den_mul FqM badK (fqMont (be32 badKey)) (.inl k3)
  obtain ⟨q1, q2⟩ := den_add FqM badK _ k3 p1
  rw [k4, p2, k4, n2, beNat_be32] at q2
  have hs : ((2 : ℕ) : ZMod c.n) + ((2 : ℕ) : ZMod c.n) * (badKey : ZMod c.n) = ((2 + 2 * badKey : ℕ) : ZMod c.n) := by
    rw [Nat.cast_add, Nat.cast_mul]
  unfold sign
  rw [genPublicKey_ok kl (by rw [beNat_be32]; decide +kernel), beNat_be32]
  dsimp only
  rw [bad_pick]
  dsimp only
  rw [hm]
  dsimp only
  rw [messageHash_eq ha, Go.ret_bind, bad_hash hA hrx, badK_eq, hrb, hodd, if_neg Bool.false_ne_true, fqBytes_spec, q2, hs, ZMod.val_natCast,
    show (2 + 2 * badKey) % c.n = 1 by decide +kernel]
  rfl

/-- `Verify` rejects it. -/
theorem bad_verify {parse : Bytes → Option MinaMessage} {m : Bytes} (hm : parse m = some badMessage) :
    verify parse (wire (badKey • good.G)) m (be32 badR ++ be32 1) = .ret false := by
  have rl : (be32 badR).length = 32 := be32_length badR_lt
  have ol : (be32 1).length = 32 := be32_length (by norm_num)
  have two : (be32 2).length = 32 := be32_length (by norm_num)
  obtain ⟨a, ha, hA⟩ := parse64 (wire_reads (badKey • good.G))
  have haeq : a = badA := by
    have hx : (be32 badX).length = 32 := be32_length (by decide +kernel)
    have hy : (be32 badY).length = 32 := be32_length (by decide +kernel)
    have e1 := fpMont_spec hx
    have e2 := fpMont_spec hy
    have h := AI.iff.mp hA
    rw [badQ.1, badQ.2] at h
    rw [beNat_be32] at e1 e2
    have i1 := h.1.inj e1
    have i2 := h.2.inj e2
    cases a
    dsimp only at i1 i2
    rw [i1, i2, badA_eq]
  have hrE := fpMont_spec rl
  rw [beNat_be32] at hrE
  rw [verify_parsed ha (by rw [List.length_append, rl, ol]) hm]
  dsimp only
  rw [take_be32 badR_lt, drop_be32 badR_lt, bad_hash hA hrE, badK_eq, badS_eq]
  have hs := groupScalarMul_spec badS badS_spec.1 _ _ (affineToGroup_spec affineOne_spec)
  have he := neg_spec (groupScalarMul_spec badK badK_spec.1 _ _ (affineToGroup_spec hA))
  rw [badS_spec.2, ZMod.val_natCast_of_lt (by decide +kernel), one_nsmul] at hs
  rw [badK_spec.2, ZMod.val_natCast_of_lt (by decide +kernel), bad_double, neg_neg] at he
  have hne : groupScalarMul badS (affineToGroup affineOne) ≠
      ⟨(groupScalarMul badK (affineToGroup a)).X, opp Fp (groupScalarMul badK (affineToGroup a)).Y,
        (groupScalarMul badK (affineToGroup a)).Z⟩ := by
    intro h
    have h := congrArg Group.Z h
    rw [badSg, haeq] at h
    exact badE h.symm
  have hadd := groupAdd_same hs he hne (WeierstrassCurve.Affine.Point.some_ne_zero _)
  rw [verify_final (affineFromGroup_spec hadd) hrE]
  rw [decide_eq_false]
  rintro ⟨h1, -⟩
  exact absurd h1 (by show ¬ (0 = badR % c.p); decide +kernel)

/-- although the Schnorr equation holds. -/
theorem bad_schnorr : Schnorr (badKey • good.G) 2 badR 1 := by
  unfold Schnorr
  rw [bad_double, one_nsmul, sub_neg_eq_add, ← two_nsmul, badN.1, badN.2]
  decide +kernel

end Verif.Pasta
