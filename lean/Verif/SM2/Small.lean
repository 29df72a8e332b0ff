import Verif.SM2.ProtocolLemmas

/-!
# Scalar multiplication by small scalars: the leading passes do nothing

Used only to evaluate the model on concrete small scalars in the examples and counterexamples: the kernel then does not
evaluate the passes over the leading zero digits, which double and add zeros.
-/

namespace Verif.SM2

theorem bind_clean {α β : Type} {m : Gh α} (h : m.bad = false) (f : α → Gh β) : (m >>= f) = f m.val := by
  rw [Gh.bind_def, h]; rfl

/-- the start value of the accumulators. -/
def zeroJ : Jac := ⟨Fe.zero, Fe.zero, Fe.zero⟩
/-- the accumulator of the base point multiplication after a pass over zeros. -/
def infJ : Jac := ⟨Fe.zero, Fe.zero, factor 1⟩

theorem quad_zero_bad : (quadruple 1 zeroJ).bad = false := by decide +kernel
theorem quad_zero_z : toBig (quadruple 1 zeroJ).val.z = 0 := by decide +kernel
theorem toBig_zero : toBig zeroJ.z = 0 := by decide +kernel

theorem quad_pos {i : Nat} (h : i ≠ 0) (p : Jac) : quadruple i p = quadruple 1 p := by
  unfold quadruple; rw [if_pos h, if_pos (by omega)]

theorem pointAdd_left {p q : Jac} (h : toBig p.z = 0) : pointAdd p q = pure q := by
  unfold pointAdd; rw [if_pos h]

theorem multLoop_skip (k : Nat) (table : List Jac) (n : Nat) (h : windowIndex k (63 - n) = 0) :
    multLoop k table (n + 1) (zeroJ, true) = multLoop k table n (zeroJ, true) := by
  obtain ⟨q, hq, hz⟩ : ∃ q, quadruple (63 - n) zeroJ = (⟨q, false⟩ : Gh Jac) ∧ toBig q.z = 0 := by
    by_cases hi : 63 - n = 0
    · refine ⟨zeroJ, ?_, toBig_zero⟩
      unfold quadruple; rw [if_neg (by omega)]; rfl
    · refine ⟨(quadruple 1 zeroJ).val, ?_, quad_zero_z⟩
      rw [quad_pos hi]
      have := quad_zero_bad
      generalize quadruple 1 zeroJ = m at this ⊢
      cases m; cases this; rfl
  rw [multLoop]
  dsimp only
  rw [hq, bind_clean rfl]
  rw [pointAdd_left hz, h, bind_clean rfl]
  rfl

theorem multLoop_small (k : Nat) (table : List Jac) {j : Nat} (hk : k < 16 ^ j) (d : Nat) (hj : j + d ≤ 64) :
    multLoop k table (j + d) (zeroJ, true) = multLoop k table j (zeroJ, true) := by
  induction d with
  | zero => rfl
  | succ d ih =>
    rw [← Nat.add_assoc, multLoop_skip k table (j + d) ?_, ih (by omega)]
    unfold windowIndex
    have : k < 2 ^ (4 * (63 - (63 - (j + d)))) := by
      refine lt_of_lt_of_le hk ?_
      rw [show (16 : ℕ) = 2 ^ 4 by norm_num, ← pow_mul]
      exact Nat.pow_le_pow_right (by norm_num) (by omega)
    rw [Nat.div_eq_of_lt this]

theorem bind_assoc2 {α β γ δ : Type} (m : Gh α) (f : α → Gh β) (g : β → γ) (h : γ → Gh δ) :
    ((m >>= fun t => f t >>= fun st => (pure (g st) : Gh γ)) >>= h) = m >>= fun t => f t >>= fun st => h (g st) := by
  simp only [Gh.bind_def, Gh.pure_def, Bool.or_assoc, Bool.false_or]

theorem bind_assoc1 {β γ δ : Type} (f : Gh β) (g : β → γ) (h : γ → Gh δ) :
    ((f >>= fun st => (pure (g st) : Gh γ)) >>= h) = f >>= fun st => h (g st) := by
  simp only [Gh.bind_def, Gh.pure_def]
  simp [Bool.or_assoc]

/-- `scalarMultGh` for a scalar of at most `j` hexadecimal digits. -/
theorem scalarMultGh_small (x y : Int) (b : Bytes) {j : Nat} (hj : j ≤ 64) (hk : getScalar b < 16 ^ j) :
    scalarMultGh x y b = (do
      let table ← precomp (fromBig x) (fromBig y)
      let st ← multLoop (getScalar b) table j (zeroJ, true)
      toAffine st.1) := by
  unfold scalarMultGh scalarMultJ
  have h := fun t => multLoop_small (getScalar b) t hk (64 - j) (by omega)
  rw [show j + (64 - j) = 64 by omega] at h
  have e : (⟨Fe.zero, Fe.zero, Fe.zero⟩ : Jac) = zeroJ := rfl
  rw [e, bind_assoc2]
  simp only [h]

theorem double_inf_bad : (pointDouble infJ).bad = false := by decide +kernel

theorem baseAdd_zero (table : List (Fe × Fe)) {p : Jac} (h : (pointAddMixed p Fe.zero Fe.zero).bad = false) :
    baseAdd table 0 (p, true) = pure (infJ, true) := by
  unfold baseAdd selectAffine
  rw [if_pos rfl]
  dsimp only
  rw [bind_clean h]
  rfl

theorem mixed_inf : (pointAddMixed infJ Fe.zero Fe.zero).bad = false := by decide +kernel
theorem mixed_zero : (pointAddMixed zeroJ Fe.zero Fe.zero).bad = false := by decide +kernel
theorem mixed_dbl : (pointAddMixed (pointDouble infJ).val Fe.zero Fe.zero).bad = false := by decide +kernel

theorem combIndex_zero {k n j : Nat} (_hj : j = 0 ∨ j = 32) (hn : n ≤ 31) (h : k < 2 ^ n) : combIndex k (31 - n) j = 0 := by
  have hb (m : Nat) (hm : n ≤ m) : getBit k m = 0 := by
    unfold getBit
    rw [Nat.div_eq_of_lt (lt_of_lt_of_le h (Nat.pow_le_pow_right (by norm_num) hm))]
  unfold combIndex
  rw [hb _ (by omega), hb _ (by omega), hb _ (by omega), hb _ (by omega)]

theorem baseLoop_first {k : Nat} (h : k < 2 ^ 31) :
    baseLoop k 32 (zeroJ, true) = baseLoop k 31 (infJ, true) := by
  rw [baseLoop]
  dsimp only
  rw [show (31 - 31 : ℕ) = 0 from rfl, combIndex_zero (n := 31) (.inl rfl) le_rfl h, combIndex_zero (n := 31) (.inr rfl) le_rfl h]
  unfold doubleUnlessFirst
  rw [if_neg (by simp), bind_clean rfl]
  show (baseAdd table0 0 (zeroJ, true) >>= _) = _
  rw [baseAdd_zero _ mixed_zero, bind_clean rfl]
  show (baseAdd table1 0 (infJ, true) >>= _) = _
  rw [baseAdd_zero _ mixed_inf, bind_clean rfl]
  rfl

theorem baseLoop_skip {k n : Nat} (hn : n < 31) (h : k < 2 ^ n) :
    baseLoop k (n + 1) (infJ, true) = baseLoop k n (infJ, true) := by
  rw [baseLoop]
  dsimp only
  rw [combIndex_zero (.inl rfl) (by omega) h, combIndex_zero (.inr rfl) (by omega) h]
  unfold doubleUnlessFirst
  rw [if_pos (by omega), bind_clean double_inf_bad, baseAdd_zero _ mixed_dbl, bind_clean rfl]
  show (baseAdd table1 0 (infJ, true) >>= _) = _
  rw [baseAdd_zero _ mixed_inf, bind_clean rfl]
  rfl

theorem baseLoop_small {k j : Nat} (hk : k < 2 ^ j) (d : Nat) (hj : j + d ≤ 31) :
    baseLoop k (j + d) (infJ, true) = baseLoop k j (infJ, true) := by
  induction d with
  | zero => rfl
  | succ d ih =>
    rw [← Nat.add_assoc, baseLoop_skip (by omega) (lt_of_lt_of_le hk (Nat.pow_le_pow_right (by norm_num) (by omega))),
      ih (by omega)]

/-- `scalarBaseMultGh` for a scalar of at most `j` bits. -/
theorem scalarBaseMultGh_small (b : Bytes) {j : Nat} (hj : j ≤ 31) (hk : getScalar b < 2 ^ j) :
    scalarBaseMultGh b = (do
      let st ← baseLoop (getScalar b) j (infJ, true)
      toAffine st.1) := by
  unfold scalarBaseMultGh scalarBaseMultJ
  have h := baseLoop_small hk (31 - j) (by omega)
  rw [show j + (31 - j) = 31 by omega,
    ← baseLoop_first (lt_of_lt_of_le hk (Nat.pow_le_pow_right (by norm_num) hj))] at h
  have e : (⟨Fe.zero, Fe.zero, Fe.zero⟩ : Jac) = zeroJ := rfl
  rw [e, h, bind_assoc1]

theorem gh_eq {α : Type} {m : Gh α} {v : α} (h1 : m.val = v) (h2 : m.bad = false) : m = ⟨v, false⟩ := by
  cases m; cases h1; cases h2; rfl

theorem genPublicKeyR_eval {key : Bytes} {p : Int × Int} (hl : key.length = 32) (h0 : (beNat key : Int) ≠ 0)
    (hn : ¬ (beNat key : Int) ≥ N) (hp : scalarBaseMultGh key = ⟨p, false⟩) :
    genPublicKeyR key = ⟨.ret (.ok (Verif.ECDSA.encode64 p)), false⟩ := by
  unfold genPublicKeyR
  dsimp only
  rw [if_neg (by omega), if_neg h0, if_neg hn, hp]
  rfl

/-- one pass of the signing loop, after the point `k G` is known (sm2_std.go:1072-1099). -/
def signTail (D e k : Int) (p : Int × Int) : Go (Option (Int × Int × UInt8)) :=
  let r := (p.1 + e) % N
  let v : UInt8 := if p.2 % 2 = 1 then 0x01 else 0x00
  if r = 0 ∧ ¬ (r + k = N) then .ret none else
  match modInverse (D + 1) N with
  | none => .panic
  | some i =>
    let s := (k - D * r) * i % N
    if s = 0 then .ret none else .ret (some (r, s, v))

theorem run_bind_clean {α β : Type} (p : α) (f : α → Run β) : ((⟨p, false⟩ : Gh α).run >>= f) = f p := by
  show (⟨(f p).val, false || (f p).bad⟩ : Run β) = f p
  rw [Bool.false_or]

theorem ret_bind_run {α β : Type} (p : α) (f : α → Run β) : ((⟨.ret p, false⟩ : Run α) >>= f) = f p := by
  show (⟨(f p).val, false || (f p).bad⟩ : Run β) = f p
  rw [Bool.false_or]

theorem signTry_eval {D e : Int} {b : Bytes} {p : Int × Int}
    (hp : scalarBaseMultGh (natBytes (Verif.ECDSA.randFieldElement N b).natAbs) = ⟨p, false⟩) :
    signTry D e b = ⟨signTail D e (Verif.ECDSA.randFieldElement N b) p, false⟩ := by
  unfold signTry signTail
  dsimp only
  rw [hp, run_bind_clean]
  generalize Verif.ECDSA.randFieldElement N b = k
  generalize (if p.2 % 2 = 1 then (1 : UInt8) else 0) = v
  split_ifs with h
  · rfl
  · cases modInverse (D + 1) N with
    | none => rfl
    | some i =>
      have : ofGo (deref (some i)) = (⟨.ret i, false⟩ : Run Int) := rfl
      rw [this, ret_bind_run]
      dsimp only
      split_ifs <;> rfl

theorem signTry_val (D e : Int) (b : Bytes) :
    (signTry D e b).val = signTail D e (Verif.ECDSA.randFieldElement N b)
      (scalarBaseMultGh (natBytes (Verif.ECDSA.randFieldElement N b).natAbs)).val := by
  unfold signTry signTail
  dsimp only
  generalize scalarBaseMultGh (natBytes (Verif.ECDSA.randFieldElement N b).natAbs) = m
  generalize Verif.ECDSA.randFieldElement N b = k
  obtain ⟨p, bad⟩ := m
  rw [Run.bind_val]
  show ((_ : Go (Int × Int)) >>= _) = _
  simp only [Gh.run, Go.ret_bind]
  generalize (if p.2 % 2 = 1 then (1 : UInt8) else 0) = v
  split_ifs with h
  · rfl
  · cases modInverse (D + 1) N with
    | none => rfl
    | some i =>
      have : ofGo (deref (some i)) = (⟨.ret i, false⟩ : Run Int) := rfl
      rw [this, ret_bind_run]
      dsimp only
      split_ifs <;> rfl

/-- the bytes of a signature. -/
def sigBytes : Option (Int × Int × UInt8) → Option (Except Err (Bytes × UInt8))
  | none => none
  | some (r, s, v) => some (.ok (be32 r.natAbs ++ be32 s.natAbs, v))

theorem signR_eval {H : Bytes → Bytes} {key hash b : Bytes} {P p : Int × Int} (hl : key.length = 32) (hm : hash.length = 32)
    (h0 : (beNat key : Int) ≠ 0) (hn : ¬ (beNat key : Int) ≥ N) (hP : scalarBaseMultGh key = ⟨P, false⟩)
    (hp : scalarBaseMultGh (natBytes (Verif.ECDSA.randFieldElement N b).natAbs) = ⟨p, false⟩) :
    signR H key none hash [b] =
      ⟨(do return sigBytes (← signTail (beNat key) (beNat hash) (Verif.ECDSA.randFieldElement N b) p)), false⟩ := by
  have hd : digest H P.1 P.2 hash none = .ok (beNat hash : Int) := by
    unfold digest; rw [if_neg (by omega)]
  obtain ⟨f, hf, he⟩ : ∃ f : Int × Int → Run (Option (Except Err (Bytes × UInt8))),
      (∀ q e, digest H q.1 q.2 hash none = .ok e → f q = (signLoop (beNat key) e [b] >>= fun o => pure (sigBytes o))) ∧
      signR H key none hash [b] = (scalarBaseMultGh key).run >>= f := by
    refine ⟨_, ?_, (if_neg (by omega)).trans ((if_neg (by omega)).trans ((if_neg h0).trans (if_neg hn)))⟩
    intro q e hq
    rw [hq]
    dsimp only
    congr 1
    funext o
    match o with
    | none => rfl
    | some (r, s, v) => rfl
  rw [he, hP, run_bind_clean, hf P _ hd, signLoop, signTry_eval hp]
  generalize signTail (beNat key) (beNat hash) (Verif.ECDSA.randFieldElement N b) p = g
  match g with
  | .panic => rfl
  | .ret none => rw [ret_bind_run]; rfl
  | .ret (some (r, s, v)) => rw [ret_bind_run]; rfl

/-- the value of `sign` without an identity does not depend on the public key. -/
theorem signR_val {H : Bytes → Bytes} {key hash b : Bytes} {p : Int × Int} (hl : key.length = 32) (hm : hash.length = 32)
    (h0 : (beNat key : Int) ≠ 0) (hn : ¬ (beNat key : Int) ≥ N)
    (hp : scalarBaseMultGh (natBytes (Verif.ECDSA.randFieldElement N b).natAbs) = ⟨p, false⟩) :
    (signR H key none hash [b]).val =
      (do return sigBytes (← signTail (beNat key) (beNat hash) (Verif.ECDSA.randFieldElement N b) p)) := by
  have hd (q : Int × Int) : digest H q.1 q.2 hash none = .ok (beNat hash : Int) := by
    unfold digest; rw [if_neg (by omega)]
  obtain ⟨f, hf, he⟩ : ∃ f : Int × Int → Run (Option (Except Err (Bytes × UInt8))),
      (∀ q e, digest H q.1 q.2 hash none = .ok e → f q = (signLoop (beNat key) e [b] >>= fun o => pure (sigBytes o))) ∧
      signR H key none hash [b] = (scalarBaseMultGh key).run >>= f := by
    refine ⟨_, ?_, (if_neg (by omega)).trans ((if_neg (by omega)).trans ((if_neg h0).trans (if_neg hn)))⟩
    intro q e hq
    rw [hq]
    dsimp only
    congr 1
    funext o
    match o with
    | none => rfl
    | some (r, s, v) => rfl
  rw [he]
  generalize scalarBaseMultGh key = m
  obtain ⟨q, bad⟩ := m
  rw [Run.bind_val]
  simp only [Gh.run, Go.ret_bind]
  rw [hf q _ (hd q), signLoop, signTry_eval hp]
  generalize signTail (beNat key) (beNat hash) (Verif.ECDSA.randFieldElement N b) p = g
  match g with
  | .panic => rfl
  | .ret none => rw [ret_bind_run]; rfl
  | .ret (some (r, s, v)) => rw [ret_bind_run]; rfl

/-- `2G`. -/
def g2x : ℕ := 0x56cefd60d7c87c000d58ef57fa73ba4d9c0dfa08c08a7331495c2e1da3f2bd52
def g2y : ℕ := 0x31b7e7e6cc8189f668535ce0f8eaf1bd6de84c182f6c8e716f780d3a970a23c3

set_option maxRecDepth 1000000 in
theorem base_two {b : Bytes} (h : beNat b = 2) : scalarBaseMultGh b = ⟨((g2x : Int), (g2y : Int)), false⟩ := by
  have hs : getScalar b = 2 := by unfold getScalar; rw [h, if_neg (by decide +kernel)]
  rw [scalarBaseMultGh_small b (j := 2) (by norm_num) (by rw [hs]; norm_num), hs]
  apply gh_eq
  · decide +kernel
  · decide +kernel

/-- `4G` and `5G`. -/
def g4x : ℕ := 0xc239507105c683242a81052ff641ed69009a084ad5cc937db21646cd34a0ced5
def g4y : ℕ := 0xb1bf7ec4080f3c8735f1294ac0db19686bee2e96ab8c71fb7a253666cb66e009
def g5x : ℕ := 0xc749061668652e26040e008fdd5eb77a344a417b7fce19dba575da57cc372a9e
def g5y : ℕ := 0xf2df5db2d144e9454504c622b51cf38f5006206eb579ff7da6976eff5fbe6480

theorem getScalar_small {b : Bytes} {k : ℕ} (h : beNat b = k) (hk : k < 100) : getScalar b = k := by
  unfold getScalar
  rw [h, if_neg]
  have : (100 : Int) < N := by decide +kernel
  omega

set_option maxRecDepth 1000000 in
theorem base_one {b : Bytes} (h : beNat b = 1) : scalarBaseMultGh b = ⟨(Gx, Gy), false⟩ := by
  have hs := getScalar_small h (by norm_num)
  rw [scalarBaseMultGh_small b (j := 1) (by norm_num) (by rw [hs]; norm_num), hs]
  apply gh_eq <;> decide +kernel

set_option maxRecDepth 1000000 in
theorem base_four {b : Bytes} (h : beNat b = 4) : scalarBaseMultGh b = ⟨((g4x : Int), (g4y : Int)), false⟩ := by
  have hs := getScalar_small h (by norm_num)
  rw [scalarBaseMultGh_small b (j := 3) (by norm_num) (by rw [hs]; norm_num), hs]
  apply gh_eq <;> decide +kernel

set_option maxRecDepth 1000000 in
theorem base_five {b : Bytes} (h : beNat b = 5) : scalarBaseMultGh b = ⟨((g5x : Int), (g5y : Int)), false⟩ := by
  have hs := getScalar_small h (by norm_num)
  rw [scalarBaseMultGh_small b (j := 3) (by norm_num) (by rw [hs]; norm_num), hs]
  apply gh_eq <;> decide +kernel

set_option maxRecDepth 1000000 in
theorem mult2_one {b : Bytes} (h : beNat b = 1) :
    scalarMultGh g2x g2y b = ⟨((g2x : Int), (g2y : Int)), false⟩ := by
  have hs := getScalar_small h (by norm_num)
  rw [scalarMultGh_small _ _ b (j := 1) (by norm_num) (by rw [hs]; norm_num), hs]
  apply gh_eq <;> decide +kernel

set_option maxRecDepth 1000000 in
theorem mult2_two {b : Bytes} (h : beNat b = 2) :
    scalarMultGh g2x g2y b = ⟨((g4x : Int), (g4y : Int)), false⟩ := by
  have hs := getScalar_small h (by norm_num)
  rw [scalarMultGh_small _ _ b (j := 1) (by norm_num) (by rw [hs]; norm_num), hs]
  apply gh_eq <;> decide +kernel

set_option maxRecDepth 1000000 in
theorem add_two_two : addGh g2x g2y g2x g2y = ⟨(0, 0), false⟩ := by
  apply gh_eq <;> decide +kernel

set_option maxRecDepth 1000000 in
theorem add_one_four : addGh Gx Gy g4x g4y = ⟨((g5x : Int), (g5y : Int)), false⟩ := by
  apply gh_eq <;> decide +kernel

theorem verifyR_eval {H : Bytes → Bytes} {pub hash sig : Bytes} {r s t : ℕ} {X Y : Int} {p1 p2 p : Int × Int}
    (hp : pub.length = 64) (hm : hash.length = 32) (hl : sig.length = 64)
    (hX : (beNat (pub.take 32) : Int) = X) (hY : (beNat (pub.drop 32) : Int) = Y)
    (hr : beNat (sig.take 32) = r) (hs : beNat (sig.drop 32) = s)
    (hr0 : 0 < r) (hs0 : 0 < s) (hrN : (r : Int) < N) (hsN : (s : Int) < N) (ht : ((r : Int) + s) % N = t) (ht0 : t ≠ 0)
    (h1 : scalarBaseMultGh (natBytes s) = ⟨p1, false⟩) (h2 : scalarMultGh X Y (natBytes t) = ⟨p2, false⟩)
    (h3 : addGh p1.1 p1.2 p2.1 p2.2 = ⟨p, false⟩) :
    verifyR H pub none hash sig = ⟨(p.1 + (beNat hash : Int)) % N == r, false⟩ := by
  have hd : digest H X Y hash none = .ok (beNat hash : Int) := by
    unfold digest; rw [if_neg (by omega)]
  have hc : verifyCore X Y (beNat hash) r s = ⟨(p.1 + (beNat hash : Int)) % N == r, false⟩ := by
    unfold verifyCore
    rw [if_neg (by omega), if_neg (by omega)]
    dsimp only
    rw [ht, if_neg (by exact_mod_cast ht0), Int.natAbs_natCast, Int.natAbs_natCast, h1, bind_clean rfl, h2, bind_clean rfl]
    dsimp only
    rw [h3, bind_clean rfl]
    rfl
  obtain ⟨f, hf, he⟩ : ∃ f : Except Err Int → Gh Bool,
      (∀ e, f (.ok e) = verifyCore X Y e r s) ∧ verifyR H pub none hash sig = f (digest H X Y hash none) := by
    subst hX hY hr hs
    exact ⟨fun o => match o with
      | .error _ => pure false
      | .ok e => verifyCore (beNat (pub.take 32)) (beNat (pub.drop 32)) e (beNat (sig.take 32)) (beNat (sig.drop 32)),
      fun e => rfl, (if_neg (by omega)).trans ((if_neg (by omega)).trans (if_neg (by omega)))⟩
  rw [he, hd, hf, hc]

end Verif.SM2
