import Verif.Props.Sm2

/-!
# C19–C21, C24, C26–C28, C34: SM2 points and signatures through the API

See `Verif/Props/Sm2.lean` for the ghost flag `bad`.
-/

namespace Verif.Props

open Verif.EC Verif.ECDSA Verif.Api WeierstrassCurve
open Verif.SM3 (sm3Sum)

/-! ## C21, C24, C19, C20 -/

theorem sm2_normPoint {E : Env} (hE : Sm2Env E) {b : Bytes} {Q : SM2.c.Pt} (h : PointArg b Q) :
    ∃ b', normPoint E b SM = .ret (some b') ∧ Encodes b' Q :=
  normPoint_spec E sm2_decGood (fun _ hb => dec_sm2 hE _ hb) h

/-- The run of the group operation behind `Point_add`: `Add` on the coordinates of the two points. -/
def addRun (P Q : SM2.c.Pt) : SM2.Gh (Int × Int) := SM2.addGh (xval P) (yval P) (xval Q) (yval Q)

theorem addRun_def (P Q : SM2.c.Pt) : addRun P Q = SM2.addGh (xval P) (yval P) (xval Q) (yval Q) := rfl

theorem curve_add (x1 y1 x2 y2 : Int) : SM2.curve.add x1 y1 x2 y2 = (SM2.addGh x1 y1 x2 y2).val := rfl
theorem curve_mul (x y : Int) (k : Bytes) : SM2.curve.scalarMult x y k = (SM2.scalarMultGh x y k).val := rfl
theorem curve_base (k : Bytes) : SM2.curve.scalarBaseMult k = (SM2.scalarBaseMultGh k).val := rfl

theorem pointAdd_sm2 {E : Env} (hE : Sm2Env E) {b1 b2 : Bytes} {P Q : SM2.c.Pt} (h1 : PointArg b1 P) (h2 : PointArg b2 Q) :
    pointAdd E b1 b2 SM = .ret (infCode (if (addRun P Q).val.1 = 0 then ([], true) else (encode64 (addRun P Q).val, false))) := by
  obtain ⟨c1, e1, d1⟩ := sm2_normPoint hE h1
  obtain ⟨c2, e2, d2⟩ := sm2_normPoint hE h2
  have hdef : pointAdd E b1 b2 SM = (do return infCode (← addPoints SM2.curve c1 c2)) := by
    unfold pointAdd
    rw [if_neg (by decide), e1]
    simp only [Go.ret_bind]
    rw [e2, hE]
    rfl
  rw [hdef]
  unfold addPoints
  rw [sliceTo64 d1.2.1, sliceFrom64 d1.2.1, sliceTo64 d2.2.1, sliceFrom64 d2.2.1]
  simp only [Go.ret_bind, d1.2.2.1, d1.2.2.2, d2.2.2.1, d2.2.2.2, and_self]
  rw [curve_add, ← addRun_def]
  generalize addRun P Q = m
  split <;> rfl

theorem rep_self (Q : SM2.c.Pt) : Rep SM2.c (xval Q) (yval Q) Q := by
  have := rep_enc (c := SM2.c) Q
  rwa [enc_eq] at this

/-- C21 on SM2 as far as it holds: for different points whose sum does not have x-coordinate 0, in a run without
underflow, `Point_add` is the group law.  (Equal points: C24.) -/
theorem C21_add_sm2_partial (E : Env) (hE : Sm2Env E) (b1 b2 : Bytes) (P Q : SM2.c.Pt) (h1 : PointArg b1 P)
    (h2 : PointArg b2 Q) (hne : P ≠ Q) (hx : P + Q ≠ 0 → xval (P + Q) ≠ 0) (hc : (addRun P Q).bad = false) :
    (P + Q = 0 → pointAdd E b1 b2 SM = .ret ([], FAILURE)) ∧
    (P + Q ≠ 0 → ∃ out, pointAdd E b1 b2 SM = .ret (out, SUCCESS) ∧ Encodes out (P + Q)) := by
  rw [pointAdd_sm2 hE h1 h2]
  rw [addRun_def] at hc ⊢
  rw [SM2.addGh_tri (rep_self P) (rep_self Q) (fun h => absurd h hne) hc]
  constructor
  · intro h; rw [h]; rfl
  · intro h
    have hx' := hx h
    rw [if_neg (by rw [enc_eq]; show ¬ ((xval (P + Q) : Int) = 0); omega)]
    exact ⟨_, rfl, encodes_encode64 SM2.c_p256 h⟩

/-- C24 is false for every point: `Point_add(P, P)` returns FAILURE whenever no field multiplication underflows, although
`2P` is never infinity. -/
theorem C24_add_self_fails (E : Env) (hE : Sm2Env E) (b1 b2 : Bytes) (P : SM2.c.Pt) (h1 : PointArg b1 P)
    (h2 : PointArg b2 P) (hc : (addRun P P).bad = false) :
    pointAdd E b1 b2 SM = .ret ([], FAILURE) ∧ P + P ≠ 0 := by
  have hP : P ≠ 0 := by
    rcases h1 with h | ⟨-, h⟩ | h <;> exact h.1
  refine ⟨?_, ?_⟩
  · rw [addRun_def] at hc
    rw [pointAdd_sm2 hE h1 h2, addRun_def, SM2.addGh_self_tri (rep_self P) (rep_self P) hc]
    rfl
  rw [← two_nsmul]
  exact SM2.smul_ne_zero hP (by norm_num) (by decide +kernel)

theorem sm2G_coords : xval SM2.good.G = SM2.c.gx ∧ yval SM2.good.G = SM2.c.gy := by
  obtain ⟨-, -, hx, hy⟩ := sm2G_encodes
  exact ⟨by rw [← hx]; decide +kernel, by rw [← hy]; decide +kernel⟩

theorem addRun_G : (addRun SM2.good.G SM2.good.G).bad = false := by
  rw [addRun_def, sm2G_coords.1, sm2G_coords.2]
  decide +kernel

/-- C24 is false, concretely: `Point_add(G, G)` returns FAILURE. -/
theorem C24_false : ∃ (b : Bytes) (P : SM2.c.Pt), Encodes b P ∧ P + P ≠ 0 ∧
    ∀ E, Sm2Env E → pointAdd E b b SM = .ret ([], FAILURE) :=
  ⟨_, _, sm2G_encodes, (C24_add_self_fails sm2Env sm2Env_ok _ _ _ (.inl sm2G_encodes) (.inl sm2G_encodes) addRun_G).2,
   fun E hE => (C24_add_self_fails E hE _ _ _ (.inl sm2G_encodes) (.inl sm2G_encodes) addRun_G).1⟩

/-- `2G`, in the form of the public key of 2. -/
theorem sm2Pub_encodes : Encodes sm2Pub ((2 : ℕ) • SM2.good.G) := by
  have h := (C05_genPubkey_sm2_partial sm2Env sm2Env_ok sm2Key sm2Pub
    (by rw [genPubkey_sm2 sm2Env_ok, sm2Key_run.2]; rfl) sm2Key_run.1).1
  have : beNat sm2Key = 2 := by decide +kernel
  rwa [this] at h

-- the hypotheses of C21_add_sm2_partial: G and 2G
theorem add3 : (addRun SM2.good.G ((2 : ℕ) • SM2.good.G)).bad = false ∧
    (addRun SM2.good.G ((2 : ℕ) • SM2.good.G)).val.1 ≠ 0 := by
  rw [addRun_def, sm2G_coords.1, sm2G_coords.2, ← sm2Pub_encodes.2.2.1, ← sm2Pub_encodes.2.2.2]
  decide +kernel

example : ∃ P Q : SM2.c.Pt, P ≠ Q ∧ (P + Q ≠ 0 → xval (P + Q) ≠ 0) ∧ (addRun P Q).bad = false := by
  have hne : SM2.good.G ≠ (2 : ℕ) • SM2.good.G := by
    intro h
    have := SM2.smul_inj SM2.G_ne (a := 1) (b := 2) (by decide +kernel) (by decide +kernel) (by rw [one_nsmul]; exact h)
    omega
  obtain ⟨hb, hv⟩ := add3
  refine ⟨_, _, hne, fun _ h => hv ?_, hb⟩
  rw [addRun_def] at hb ⊢
  rw [SM2.addGh_tri (rep_self SM2.good.G) (rep_self ((2 : ℕ) • SM2.good.G)) (fun h => absurd h hne) hb, enc_eq, h]
  rfl

/-- The run of `ScalarMult` behind `Point_mul`. -/
def mulRun (Q : SM2.c.Pt) (k : Bytes) : SM2.Gh (Int × Int) := SM2.scalarMultGh (xval Q) (yval Q) k

theorem mulRun_def (Q : SM2.c.Pt) (k : Bytes) : mulRun Q k = SM2.scalarMultGh (xval Q) (yval Q) k := rfl

/-- C02 on SM2 as far as it holds: in a run without underflow `Point_mul` is scalar multiplication. -/
theorem C02_point_mul_sm2_partial (E : Env) (hE : Sm2Env E) (b k : Bytes) (Q : SM2.c.Pt) (h : PointArg b Q)
    (hk : k.length = 32) (hc : (mulRun Q k).bad = false) :
    (beNat k • Q = 0 → pointMul E b k SM = .ret ([], FAILURE)) ∧
    (beNat k • Q ≠ 0 → ∃ out, pointMul E b k SM = .ret (out, SUCCESS) ∧ Encodes out (beNat k • Q)) := by
  obtain ⟨c1, e1, d1⟩ := sm2_normPoint hE h
  have hv : (mulRun Q k).val = EC.enc SM2.c (beNat k • Q) := by
    rw [mulRun_def] at hc ⊢
    rw [SM2.scalarMultGh_tri d1.1 (rep_self Q) k hc]
  have hdef : pointMul E b k SM = (do return infCode (← mulPoint SM2.curve c1 k)) := by
    unfold pointMul
    rw [if_neg (by decide), e1]
    simp only [Go.ret_bind]
    rw [if_neg (by omega), hE]
    rfl
  have hm : mulPoint SM2.curve c1 k = .ret (if (mulRun Q k).val.1 = 0 ∧ (mulRun Q k).val.2 = 0 then ([], true)
      else (encode64 (mulRun Q k).val, false)) := by
    unfold mulPoint
    rw [sliceTo64 d1.2.1, sliceFrom64 d1.2.1]
    simp only [Go.ret_bind, d1.2.2.1, d1.2.2.2]
    rw [curve_mul, ← mulRun_def]
    generalize mulRun Q k = m
    split <;> rfl
  rw [hdef, hm, hv]
  constructor
  · intro h; rw [h]; rfl
  · intro h
    rw [if_neg (fun h0 => h ((SM2.good.enc_zero_iff _).mp (Prod.ext h0.1 h0.2)))]
    exact ⟨_, rfl, encodes_encode64 SM2.c_p256 h⟩

/-- C20 on SM2 as far as it holds: both sides of a Diffie–Hellman exchange get the same point. -/
theorem C20_ecdh_sm2_partial (E : Env) (hE : Sm2Env E) (a b pubA pubB : Bytes)
    (ha : genPubkey E a SM = .ret (pubA, SUCCESS)) (hb : genPubkey E b SM = .ret (pubB, SUCCESS))
    (ca : (SM2.genPublicKeyR a).bad = false) (cb : (SM2.genPublicKeyR b).bad = false)
    (cA : (mulRun (beNat a • SM2.good.G) b).bad = false) (cB : (mulRun (beNat b • SM2.good.G) a).bad = false) :
    ∃ shared, pointMul E pubA b SM = .ret (shared, SUCCESS) ∧ pointMul E pubB a SM = .ret (shared, SUCCESS) ∧
      Encodes shared ((beNat a * beNat b) • SM2.good.G) := by
  have va : a.length = 32 ∧ 1 ≤ beNat a ∧ beNat a < SM2.c.n := by
    by_contra hk; rw [(C04_genPubkey_sm2 E hE a).2 hk] at ha; injection ha with h; injection h with _ h; exact absurd h (by decide)
  have vb : b.length = 32 ∧ 1 ≤ beNat b ∧ beNat b < SM2.c.n := by
    by_contra hk; rw [(C04_genPubkey_sm2 E hE b).2 hk] at hb; injection hb with h; injection h with _ h; exact absurd h (by decide)
  have eA := (C05_genPubkey_sm2_partial E hE a pubA ha ca).1
  have eB := (C05_genPubkey_sm2_partial E hE b pubB hb cb).1
  have e1 : beNat b • beNat a • SM2.good.G = (beNat a * beNat b) • SM2.good.G := by rw [← mul_nsmul', mul_comm]
  have e2 : beNat a • beNat b • SM2.good.G = (beNat a * beNat b) • SM2.good.G := by rw [← mul_nsmul']
  have hne : (beNat a * beNat b) • SM2.good.G ≠ 0 := by
    rw [← e2]
    exact SM2.smul_ne_zero (SM2.smul_ne_zero SM2.G_ne (by omega) vb.2.2) (by omega) va.2.2
  obtain ⟨o1, p1, q1⟩ := (C02_point_mul_sm2_partial E hE pubA b _ (.inl eA) vb.1 cA).2 (by rw [e1]; exact hne)
  obtain ⟨o2, p2, q2⟩ := (C02_point_mul_sm2_partial E hE pubB a _ (.inl eB) va.1 cB).2 (by rw [e2]; exact hne)
  rw [e1] at q1
  rw [e2] at q2
  have : o2 = o1 := q2.unique q1
  subst this
  exact ⟨o2, p1, p2, q1⟩

-- the hypotheses of C20_ecdh_sm2_partial, for a = b = 2
example : (SM2.genPublicKeyR sm2Key).bad = false ∧ (mulRun (beNat sm2Key • SM2.good.G) sm2Key).bad = false := by
  have : beNat sm2Key = 2 := by decide +kernel
  refine ⟨sm2Key_run.1, ?_⟩
  rw [this, mulRun_def, ← sm2Pub_encodes.2.2.1, ← sm2Pub_encodes.2.2.2,
    SM2.scalarMultGh_small _ _ _ (j := 1) (by norm_num) (by decide +kernel)]
  set_option maxRecDepth 1000000 in decide +kernel

/-- C19 on SM2 as far as it holds: for `a ≠ b` (otherwise the code adds equal points, C24) and runs without underflow. -/
theorem C19_child_key_sm2_partial (E : Env) (hE : Sm2Env E) (a b pub : Bytes) (ha : genPubkey E a SM = .ret (pub, SUCCESS))
    (ca : (SM2.genPublicKeyR a).bad = false) (hb : b.length = 32) (hab : beNat b % SM2.c.n ≠ beNat a)
    (cb : (SM2.scalarBaseMultGh b).bad = false)
    (cs : (addRun (beNat b • SM2.good.G) (beNat a • SM2.good.G)).bad = false) :
    ((beNat a + beNat b) % SM2.c.n = 0 → pointMulBaseGAdd E pub b SM = .ret ([], true)) ∧
    ((beNat a + beNat b) % SM2.c.n ≠ 0 → ∃ child, pointMulBaseGAdd E pub b SM = .ret (child, false) ∧
      Encodes child (((beNat a + beNat b) % SM2.c.n) • SM2.good.G)) := by
  have va : a.length = 32 ∧ 1 ≤ beNat a ∧ beNat a < SM2.c.n := by
    by_contra hk; rw [(C04_genPubkey_sm2 E hE a).2 hk] at ha; injection ha with h; injection h with _ h; exact absurd h (by decide)
  have eA := (C05_genPubkey_sm2_partial E hE a pub ha ca).1
  have hne : beNat b • SM2.good.G ≠ beNat a • SM2.good.G := by
    intro h
    rw [← SM2.mod_smul] at h
    exact hab (SM2.smul_inj SM2.G_ne (Nat.mod_lt _ SM2.good.np.pos) va.2.2 h)
  have hv : SM2.curve.add (SM2.curve.scalarBaseMult b).1 (SM2.curve.scalarBaseMult b).2 (beNat (pub.take 32)) (beNat (pub.drop 32)) =
      EC.enc SM2.c (((beNat a + beNat b) % SM2.c.n) • SM2.good.G) := by
    rw [curve_base, SM2.scalarBaseMultGh_tri b cb, enc_eq, eA.2.2.1, eA.2.2.2, curve_add, SM2.mod_smul, add_comm, add_nsmul]
    rw [addRun_def] at cs
    rw [SM2.addGh_tri (rep_self _) (rep_self _) (fun h => absurd h hne) cs]
  have hdef : pointMulBaseGAdd E pub b SM = mulBaseGAdd SM2.curve pub b := by
    unfold pointMulBaseGAdd
    rw [if_neg (by omega), if_neg (by decide), if_neg (by decide), if_pos rfl, hE]
    rfl
  rw [hdef]
  unfold mulBaseGAdd
  rw [sliceTo64 eA.2.1, sliceFrom64 eA.2.1]
  simp only [Go.ret_bind]
  rw [hv]
  constructor
  · intro h; rw [h, zero_nsmul]; rfl
  · intro h
    have h' := SM2.smul_ne_zero SM2.G_ne h (Nat.mod_lt _ SM2.good.np.pos)
    rw [if_neg (fun h0 => h' ((SM2.good.enc_zero_iff _).mp (Prod.ext h0.1 h0.2)))]
    exact ⟨_, rfl, encodes_encode64 SM2.c_p256 h'⟩

/-! ## C26–C28 -/

theorem signature_sm2 {E : Env} (hE : Sm2Env E) (key : Bytes) (ID : Option Bytes) (msg : Bytes) (rnd : List Bytes) :
    signature E key ID msg SM rnd =
      (SM2.outcome (SM2.signR sm3Sum key ID msg rnd).val).map fun r => do return signErr (← r) := by
  unfold signature
  rw [if_neg (by decide), if_neg (by decide), if_neg (by decide), if_neg (by decide), if_neg (by decide),
    if_neg (by decide), if_pos rfl, hE]
  rfl

theorem verify_sm2 {E : Env} (hE : Sm2Env E) (pub : Bytes) (ID : Option Bytes) (msg sig : Bytes) :
    Api.verify E pub ID msg sig SM = .ret (passCode (SM2.verifyR sm3Sum pub ID msg sig).val) := by
  unfold Api.verify
  rw [if_neg (by decide), if_neg (by decide), if_neg (by decide), if_neg (by decide), if_neg (by decide),
    if_neg (by decide), if_pos rfl, hE]
  rfl

theorem passCode_success {b : Bool} : passCode b = SUCCESS ↔ b = true := by cases b <;> decide

theorem verify_sm2_iff {E : Env} (hE : Sm2Env E) (pub : Bytes) (ID : Option Bytes) (msg sig : Bytes) :
    Api.verify E pub ID msg sig SM = .ret SUCCESS ↔ (SM2.verifyR sm3Sum pub ID msg sig).val = true := by
  rw [verify_sm2 hE, Go.ret.injEq, passCode_success]

/-- a successful signature is one that the signing loop returned. -/
theorem signature_sm2_success {E : Env} (hE : Sm2Env E) {key : Bytes} {ID : Option Bytes} {msg : Bytes} {rnd : List Bytes}
    {sig : Bytes} {v : UInt8} (h : signature E key ID msg SM rnd = some (.ret (sig, v, SUCCESS))) :
    (SM2.signR sm3Sum key ID msg rnd).val = .ret (some (.ok (sig, v))) := by
  rw [signature_sm2 hE] at h
  generalize (SM2.signR sm3Sum key ID msg rnd).val = g at h ⊢
  match g with
  | .panic => cases h
  | .ret none => cases h
  | .ret (some (.ok (s, w))) => cases h; rfl
  | .ret (some (.error e)) => cases e <;> cases h

/-- C26 as far as it holds: what `Signature` returns, in runs without underflow, is accepted by `Verify` under the
signer's key, except when `r + s ≡ 0 (mod N)` (equivalently `r + k = N`) or `s·G = t·Q`. -/
theorem C26_sign_verify_sm2_partial (E : Env) (hE : Sm2Env E) (key : Bytes) (ID : Option Bytes) (msg : Bytes)
    (rnd : List Bytes) (sig : Bytes) (v : UInt8) (pub : Bytes)
    (hp : genPubkey E key SM = .ret (pub, SUCCESS)) (hs : signature E key ID msg SM rnd = some (.ret (sig, v, SUCCESS)))
    (cp : (SM2.genPublicKeyR key).bad = false) (cs : (SM2.signR sm3Sum key ID msg rnd).bad = false)
    (cv : (SM2.verifyR sm3Sum pub ID msg sig).bad = false)
    (ht : (beNat (sig.take 32) + beNat (sig.drop 32)) % SM2.c.n ≠ 0)
    (hne : beNat (sig.drop 32) • SM2.good.G ≠
      ((beNat (sig.take 32) + beNat (sig.drop 32)) % SM2.c.n) • (beNat key • SM2.good.G)) :
    Api.verify E pub ID msg sig SM = .ret SUCCESS := by
  have ep := (C05_genPubkey_sm2_partial E hE key pub hp cp).1
  obtain ⟨hkl, hk0, hkn, hml, hid, r, s, rfl, hsig⟩ :=
    (SM2.signR_tri sm3Sum key ID msg rnd cs).sig sig v (signature_sm2_success hE hs)
  rw [verify_sm2_iff hE]
  have hv := SM2.verifyR_tri sm3Sum ep ID msg (be32 r ++ be32 s) cv
  have h256 := SM2.c_n256
  have hr : r < 256 ^ 32 := by have := hsig.2.1; norm_num at h256 ⊢; omega
  have hs' : s < 256 ^ 32 := by have := hsig.2.2.2.1; norm_num at h256 ⊢; omega
  have e1 : beNat ((be32 r ++ be32 s).take 32) = r := by
    rw [List.take_left' (be32_length hr), beNat_be32]
  have e2 : beNat ((be32 r ++ be32 s).drop 32) = s := by
    rw [List.drop_left' (be32_length hr), beNat_be32]
  dsimp only at hv
  rw [e1, e2] at hv ht hne
  rw [hv]
  refine ⟨by rw [List.length_append, be32_length hr, be32_length hs'], hml, hid, hsig.1, hsig.2.1, hsig.2.2.1,
    hsig.2.2.2.1, ht, ?_⟩
  rw [SM2.codeSum_eq (fun h => absurd h hne)]
  exact hsig.point

end Verif.Props
