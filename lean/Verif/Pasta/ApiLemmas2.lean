import Verif.Pasta.ApiLemmas

/-!
# Package pasta: residues, the draws, strings that are not encodings
-/

namespace Verif.Pasta

open Verif.EC Verif.ECDSA WeierstrassCurve

/-! ### a coordinate or scalar counts modulo the prime only -/

theorem fpMont_congr {a b : Bytes} (ha : a.length = 32) (hb : b.length = 32) (h : beNat a % c.p = beNat b % c.p) : fpMont a = fpMont b := by
  have e : (beNat a : ZMod c.p) = (beNat b : ZMod c.p) := (ZMod.natCast_eq_natCast_iff _ _ _).mpr h
  have h1 := fpMont_spec ha
  have h2 := fpMont_spec hb
  rw [e] at h1
  exact h1.inj h2

theorem fqMont_congr {a b : Bytes} (ha : a.length = 32) (hb : b.length = 32) (h : beNat a % c.n = beNat b % c.n) : fqMont a = fqMont b := by
  have e : (beNat a : ZMod c.n) = (beNat b : ZMod c.n) := (ZMod.natCast_eq_natCast_iff _ _ _).mpr h
  have h1 := fqMont_spec ha
  have h2 := fqMont_spec hb
  exact den_inj FqM h1.1 h2.1 (by rw [h1.2, h2.2, e])

/-- verification as a function of the two numbers. -/
def verifyCore (parse : Bytes → Option MinaMessage) (pub msg : Bytes) (r s : Limbs) : Go Bool := do
    match ← parsePoint pub with
    | .error _ => return false
    | .ok pubA =>
      match parse msg with
      | none => return false
      | some mm =>
        let hash ← messageHash pub r mm
        let e := fqMont hash
        let sg := groupScalarMul s (affineToGroup affineOne)
        let epub := groupScalarMul e (affineToGroup pubA)
        let neg : Group := ⟨epub.X, opp Fp epub.Y, epub.Z⟩
        let raff := affineFromGroup (groupAdd sg neg)
        return (((fromMont Fp raff.Y).l0 &&& 1 = 0 : Bool) && equals Fp raff.X r)

theorem verify_core (parse : Bytes → Option MinaMessage) (pub msg sig : Bytes) (h : sig.length = 64) :
    verify parse pub msg sig = verifyCore parse pub msg (fpMont (sig.take 32)) (fqMont (sig.drop 32)) := by
  unfold verify
  rw [if_neg (by rw [h]; simp)]
  rfl

theorem verify_congr (parse : Bytes → Option MinaMessage) (pub msg sig sig' : Bytes) (h : sig.length = 64) (h' : sig'.length = 64)
    (hr : beNat (sig.take 32) % c.p = beNat (sig'.take 32) % c.p) (hs : beNat (sig.drop 32) % c.n = beNat (sig'.drop 32) % c.n) :
    verify parse pub msg sig = verify parse pub msg sig' := by
  rw [verify_core _ _ _ _ h, verify_core _ _ _ _ h',
    fpMont_congr (by rw [List.length_take]; omega) (by rw [List.length_take]; omega) hr,
    fqMont_congr (by rw [List.length_drop]; omega) (by rw [List.length_drop]; omega) hs]

/-! ### strings that are not encodings -/

theorem decompressWith_none (l : Limbs) (odd : Bool) : decompressWith l odd none = ⟨l, fieldZero⟩ := by
  rw [decompressWith]

theorem decompress_tail_none {g : Go (Option Limbs)} {l : Limbs} (odd : Bool) (h : g = .ret none) :
    goMap (decompressWith l odd) g = .ret ⟨l, fieldZero⟩ := by
  rw [h, goMap, decompressWith_none]

theorem decompress_none {l : Limbs} {x : ZMod c.p} (hx : El l x) (he : ¬ IsSquare (x ^ 3 + 5)) (odd : Bool) :
    decompress l odd = .ret ⟨l, fieldZero⟩ := by
  have h2 : El (curveRhs l) (x ^ 3 + 5) := ((hx.sq.mul hx).add el_b).congr (by
    show _ + ((5 : ℕ) : ZMod c.p) = _
    push_cast; ring)
  exact decompress_tail_none odd ((sqrt_spec h2).2 he)

/-- a 33-byte string, whatever it is, is read as a pair of field elements. -/
theorem parse33_any (b : Bytes) (hl : b.length = 33) :
    ∃ (a : Affine) (y : ZMod c.p), parsePoint b = .ret (.ok a) ∧ El a.X (beNat (b.drop 1) : ZMod c.p) ∧ El a.Y y ∧
      (IsSquare (((beNat (b.drop 1) : ℕ) : ZMod c.p) ^ 3 + 5) →
        y ^ 2 = ((beNat (b.drop 1) : ℕ) : ZMod c.p) ^ 3 + 5 ∧ (y ≠ 0 → (y.val % 2 = 1 ↔ b.getD 0 0 = 3))) ∧
      (¬ IsSquare (((beNat (b.drop 1) : ℕ) : ZMod c.p) ^ 3 + 5) → y = 0) := by
  have hX : El (fpMont (b.drop 1)) _ := fpMont_spec (by rw [List.length_drop]; omega)
  generalize hxx : ((beNat (b.drop 1) : ℕ) : ZMod c.p) = x at *
  have hp : parsePoint b = (decompress (fpMont (b.drop 1)) (b.getD 0 0 = 3) >>= fun a => pure (.ok a)) := by
    unfold parsePoint
    rw [if_pos hl]
  by_cases hsq : IsSquare (x ^ 3 + 5)
  · have hsq' := hsq
    obtain ⟨y, hy⟩ := hsq
    have hca : (c.a : ZMod c.p) = 0 := Nat.cast_zero
    have hcb : (c.b : ZMod c.p) = 5 := by show ((5 : ℕ) : ZMod c.p) = 5; push_cast; rfl
    -- the root with the parity asked for
    have hz : ∃ z : ZMod c.p, z ^ 2 = x ^ 3 + 5 ∧ (z = 0 ∨ decide (b.getD 0 0 = 3) = decide (z.val % 2 = 1)) := by
      by_cases h0 : y = 0
      · exact ⟨y, by rw [hy]; ring, .inl h0⟩
      · by_cases h1 : decide (b.getD 0 0 = 3) = decide (y.val % 2 = 1)
        · exact ⟨y, by rw [hy]; ring, .inr h1⟩
        · refine ⟨-y, by rw [hy]; ring, .inr ?_⟩
          have : NeZero y := ⟨h0⟩
          rw [decide_eq_decide] at h1 ⊢
          rw [ZMod.val_neg_of_ne_zero]
          have h2 := ZMod.val_lt y
          have h3 := p_odd
          by_cases h4 : b.getD 0 0 = 3
          · simp only [h4, true_iff] at h1 ⊢; omega
          · simp only [h4, false_iff] at h1 ⊢; omega
    obtain ⟨z, hz1, hz2⟩ := hz
    have he : z ^ 2 = x ^ 3 + c.a * x + c.b := by rw [hz1, hca, hcb]; ring
    rcases hz2 with rfl | hz2
    · -- both parities give the root zero
      by_cases h4 : b.getD 0 0 = 3
      · have h2 : El (curveRhs (fpMont (b.drop 1))) ((0 : ZMod c.p) * 0) :=
          ((hX.sq.mul hX).add el_b).congr (by rw [hcb]; linear_combination -hz1)
        obtain ⟨w, ψ, e1, e2, e3⟩ := (sqrt_spec h2).1 ⟨0, rfl⟩
        have hψ : ψ = 0 := by
          have : ψ * ψ = 0 := by rw [e3, mul_zero]
          exact mul_self_eq_zero.mp this
        subst hψ
        refine ⟨⟨fpMont (b.drop 1), pickRoot w true⟩, 0, ?_, hX, ?_, fun _ => ⟨by rw [hz1], fun h => absurd rfl h⟩, fun h => absurd hsq' h⟩
        · rw [hp, decompress_eq _ e1]
          simp only [h4, decide_true]
          rfl
        · unfold pickRoot
          split
          · exact e2
          · exact e2.opp.congr neg_zero
      · obtain ⟨a, e1, e2, e3⟩ := decompress_spec hX he (decide (b.getD 0 0 = 3)) (by
          rw [decide_eq_decide, ZMod.val_zero]; exact ⟨fun h => absurd h h4, fun h => absurd h (by decide)⟩)
        exact ⟨a, 0, by rw [hp, e1]; rfl, e2, e3, fun _ => ⟨by rw [hz1], fun h => absurd rfl h⟩, fun h => absurd hsq' h⟩
    · obtain ⟨a, e1, e2, e3⟩ := decompress_spec hX he (decide (b.getD 0 0 = 3)) hz2
      refine ⟨a, z, by rw [hp, e1]; rfl, e2, e3, fun _ => ⟨hz1, fun _ => ?_⟩, fun h => absurd hsq' h⟩
      rw [decide_eq_decide] at hz2
      exact hz2.symm
  · refine ⟨⟨fpMont (b.drop 1), fieldZero⟩, 0, ?_, hX, el_zero, fun h => absurd h hsq, fun _ => rfl⟩
    rw [hp, decompress_none hX hsq]
    rfl

/-- a 65-byte string with prefix 4 is read as infinity, whatever the rest. -/
theorem parse65 (b : Bytes) (hl : b.length = 65) (h4 : b.getD 0 0 = 4) :
    parsePoint b = .ret (.ok ⟨fieldZero, fieldZero⟩) := by
  unfold parsePoint
  rw [if_neg (by omega), if_pos hl, if_neg (by rw [h4]; simp)]

theorem AI.zeros : AI ⟨fieldZero, fieldZero⟩ (0 : Pt) := ⟨el_zero, el_zero⟩

/-! ### the draws -/

theorem and3 (b : UInt8) : (b &&& 3).toNat = b.toNat % 4 := by
  have : ∀ b : Fin 256, ((UInt8.ofNat b.val) &&& 3).toNat = (UInt8.ofNat b.val).toNat % 4 := by decide +kernel
  have h := this ⟨b.toNat, b.toNat_lt⟩
  simpa using h

theorem drawK_val {b : Bytes} (h : b.length = 32) : beNat ((b.getD 0 0 &&& 0x03) :: b.drop 1) = beNat b % 2 ^ 250 := by
  obtain ⟨x, xs, rfl⟩ : ∃ x xs, b = x :: xs := by
    cases b with
    | nil => simp at h
    | cons x xs => exact ⟨x, xs, rfl⟩
  have hl : xs.length = 31 := by simpa using h
  simp only [List.getD_cons_zero, List.drop_succ_cons, List.drop_zero]
  rw [beNat_cons, beNat_cons, hl, and3]
  have := beNat_lt xs
  rw [hl] at this
  have e : (256 : ℕ) ^ 31 = 2 ^ 248 := by norm_num
  have e2 : (2 : ℕ) ^ 250 = 2 ^ 248 * 4 := by norm_num
  rw [e] at this ⊢
  rw [e2]
  generalize 2 ^ 248 = K at *
  generalize x.toNat = n
  rw [Nat.mod_mul]
  rw [show n * K + beNat xs = beNat xs + K * n by ring, Nat.add_mul_mod_self_left, Nat.mod_eq_of_lt this,
    Nat.add_mul_div_left _ _ (by omega), Nat.div_eq_of_lt this]
  ring_nf

theorem drawK_zero {b : Bytes} (h : b.length = 32) : nonZero (drawK b) = 0 ↔ beNat b % 2 ^ 250 = 0 := by
  have hl : ((b.getD 0 0 &&& 0x03) :: b.drop 1).length = 32 := by simp [h]
  have hs := fqMont_spec hl
  rw [drawK_val h] at hs
  rw [nonZero_eq_zero]
  unfold drawK
  rw [← den_eq_zero_iff FqM hs.1, hs.2, ZMod.natCast_eq_zero_iff]
  constructor
  · intro hd
    have h1 : beNat b % 2 ^ 250 < 2 ^ 250 := Nat.mod_lt _ (by norm_num)
    have h2 : 2 ^ 250 < c.n := by decide +kernel
    exact Nat.eq_zero_of_dvd_of_lt hd (by omega)
  · intro h0; rw [h0]; exact dvd_zero _

theorem pickK_isSome : ∀ {draws : List Bytes}, (∀ b ∈ draws, b.length = 32) → (∃ b ∈ draws, beNat b % 2 ^ 250 ≠ 0) →
    ∃ k, pickK draws = some k := by
  intro draws
  induction draws with
  | nil => rintro - ⟨b, hb, -⟩; simp at hb
  | cons x xs ih =>
    intro hl hex
    unfold pickK
    dsimp only
    by_cases h0 : nonZero (drawK x) = 0
    · rw [if_pos h0]
      apply ih (fun b hb => hl b (List.mem_cons_of_mem _ hb))
      obtain ⟨b, hb, hb'⟩ := hex
      rcases List.mem_cons.mp hb with rfl | hb
      · exact absurd ((drawK_zero (hl _ List.mem_cons_self)).mp h0) hb'
      · exact ⟨b, hb, hb'⟩
    · rw [if_neg h0]; exact ⟨_, rfl⟩

theorem pickK_none : ∀ {draws : List Bytes}, (∀ b ∈ draws, b.length = 32) → (∀ b ∈ draws, beNat b % 2 ^ 250 = 0) →
    pickK draws = none := by
  intro draws
  induction draws with
  | nil => intros; rfl
  | cons x xs ih =>
    intro hl h
    unfold pickK
    dsimp only
    rw [if_pos ((drawK_zero (hl _ List.mem_cons_self)).mpr (h _ List.mem_cons_self))]
    exact ih (fun b hb => hl b (List.mem_cons_of_mem _ hb)) (fun b hb => h b (List.mem_cons_of_mem _ hb))

/-- signing returns a signature whenever the key is accepted, the message parses and a draw is usable. -/
theorem sign_ok {parse : Bytes → Option MinaMessage} {draws : List Bytes} {d msg : Bytes} (hd : ∀ b ∈ draws, b.length = 32)
    (hex : ∃ b ∈ draws, beNat b % 2 ^ 250 ≠ 0) (h1 : d.length = 32) (h2 : beNat d < 2 ^ 254) {mm : MinaMessage}
    (hm : parse msg = some mm) : ∃ sig, sign parse draws d msg = .ret (.ok sig) := by
  obtain ⟨k, hk⟩ := pickK_isSome hd hex
  obtain ⟨a, ha, -⟩ := parse64 (wire_reads (beNat d • good.G))
  unfold sign
  rw [genPublicKey_ok h1 h2]
  dsimp only
  rw [hk]
  dsimp only
  rw [hm]
  dsimp only
  rw [messageHash_eq ha]
  exact ⟨_, rfl⟩

end Verif.Pasta
