import Verif.Bls.GroupLemmas

/-!
# Serialisation of group elements

Lemmas: `ToCompressed`, `FromCompressed`, `ToUncompressed`, `FromUncompressed`, `ToBytes`, `FromBytes`
against the formats of `GroupSpec.lean`, over any field operations.
-/

namespace Verif.Bls

open Verif.EC WeierstrassCurve

theorem forall_u8 {P : UInt8 → Prop} (h : ∀ i : Fin 256, P (UInt8.ofNat i.val)) (x : UInt8) : P x := by
  have := h ⟨x.toNat, x.toNat_lt⟩
  simpa using this

theorem u8_decode : ∀ h : UInt8, h &&& 0x80 ≠ 0 → h &&& 0x40 = 0 →
    (if h &&& 0x20 ≠ 0 then (0xa0 : UInt8) else 0x80) ||| (h &&& 0x1f) = h := by
  apply forall_u8; decide +kernel

theorem u8_lo : ∀ h : UInt8, (h &&& 0x1f).toNat < 32 := by
  apply forall_u8; decide +kernel

theorem u8_enc : ∀ c : UInt8, c.toNat < 32 →
    ((0x80 : UInt8) ||| c) &&& 0x80 = 0x80 ∧ ((0x80 : UInt8) ||| c) &&& 0x40 = 0 ∧
      ((0x80 : UInt8) ||| c) &&& 0x20 = 0 ∧ ((0x80 : UInt8) ||| c) &&& 0x1f = c ∧
    ((0xa0 : UInt8) ||| c) &&& 0x80 = 0x80 ∧ ((0xa0 : UInt8) ||| c) &&& 0x40 = 0 ∧
      ((0xa0 : UInt8) ||| c) &&& 0x20 = 0x20 ∧ ((0xa0 : UInt8) ||| c) &&& 0x1f = c ∧
    c ||| 0x20 ||| 0x80 = 0xa0 ||| c ∧ c ||| 0x80 = 0x80 ||| c ∧
    c &&& 0x80 = 0 ∧ c &&& 0x40 = 0 ∧ c &&& 0x20 = 0 ∧ c &&& 0x1f = c := by
  apply forall_u8; decide +kernel

theorem u8_plain : ∀ h : UInt8, h &&& 0x80 = 0 → h &&& 0x20 = 0 → h &&& 0x40 = 0 → h &&& 0x1f = h := by
  apply forall_u8; decide +kernel

theorem all_zero_iff (t : Bytes) : t.all (· == 0) = true ↔ t = List.replicate t.length 0 := by
  rw [List.all_eq_true, List.eq_replicate_iff]
  simp

theorem onlyFlag_iff (h : UInt8) (b : Bytes) (hb : b ≠ []) :
    Ops.onlyFlag h b = true ↔ b = h :: List.replicate (b.length - 1) 0 := by
  cases b with
  | nil => exact absurd rfl hb
  | cons c t =>
    rw [Ops.onlyFlag, Bool.and_eq_true, beq_iff_eq, all_zero_iff, List.cons.injEq]
    simp

namespace Sem

variable {α : Type} {g : Ops α} {F : Type} [Field F] [DecidableEq F] {S : Sem g F}

/-- the compressed format for `S`. -/
abbrev comp (S : Sem g F) : S.W.Point → Bytes := Spec.compress S.W g.size S.bytes S.larger

/-- the uncompressed format for `S`. -/
abbrev uncomp (S : Sem g F) : S.W.Point → Bytes := Spec.uncompress S.W g.size S.bytes

/-- the plain format for `S`. -/
abbrev plain (S : Sem g F) : S.W.Point → Bytes := Spec.plain S.W g.size S.bytes

theorem comp_length (P : S.W.Point) : (S.comp P).length = g.size := by
  cases P with
  | zero =>
    have := S.size_pos
    simp only [comp, Spec.compress, List.length_cons, List.length_replicate]; omega
  | some x y h =>
    obtain ⟨c, t, e, -⟩ := S.bytes_head x
    have := S.bytes_length x
    simp only [comp, Spec.compress]
    rw [e] at this ⊢
    exact this

theorem toCompressed_eq {p : P3 α} {P : S.W.Point} (hp : S.Rep p P) : g.toCompressed p = S.comp P := by
  cases P with
  | zero =>
    rw [Ops.toCompressed, affine_inf hp]
    simp only
    rw [if_pos ((isInf_iff hp).mpr rfl)]
    simp only [comp, Spec.compress]
    obtain ⟨n, hn⟩ : ∃ n, g.size = n + 1 := ⟨g.size - 1, by have := S.size_pos; omega⟩
    rw [hn, List.replicate_succ]
    rfl
  | some x y h =>
    have hr := rep_affine_of hp
    obtain ⟨h1, e1, h2, e2, h3, e3⟩ := affine_some hp
    rw [Ops.toCompressed]
    simp only
    rw [if_neg (by rw [isInf_iff hr]; exact Affine.Point.some_ne_zero h), S.toBytes h1, e1]
    simp only [comp, Spec.compress]
    obtain ⟨c, t, e, hc⟩ := S.bytes_head x
    have hu := u8_enc c hc
    rw [e]
    by_cases hl : S.larger y
    · have : g.signBE (g.affine p).y = false := by
        rw [Bool.eq_false_iff]; intro hs
        exact (S.signBE h2).mp hs (by rw [e2]; exact hl)
      rw [this, if_pos hl, Bool.not_false, if_pos rfl]
      simp only [Ops.orHead, Spec.setFlags]
      rw [hu.2.2.2.2.2.2.2.2.1]
    · have : g.signBE (g.affine p).y = true := (S.signBE h2).mpr (by rw [e2]; exact hl)
      rw [this, if_neg hl, Bool.not_true, if_neg Bool.false_ne_true]
      simp only [Ops.orHead, Spec.setFlags]
      rw [hu.2.2.2.2.2.2.2.2.2.1]

/-- a point killed by the (odd) group order has `y ≠ 0`. -/
theorem y_ne {x y : F} {h : S.W.Nonsingular x y} {P : S.W.Point} (hP : P = .some x y h) (ho : order • P = 0) :
    y ≠ 0 := by
  intro hy
  have h2 : P + P = 0 := by
    rw [hP]
    apply Affine.Point.add_of_Y_eq rfl
    simp [Affine.negY, sw, hy]
  obtain ⟨k, hk⟩ : ∃ k, order = 2 * k + 1 := ⟨order / 2, by decide +kernel⟩
  rw [hk, add_smul, mul_comm, mul_smul, two_nsmul, h2, smul_zero, zero_add, one_smul, hP] at ho
  exact Affine.Point.some_ne_zero h ho

theorem solveY_some {a : Bool} {x : α} {p : P3 α} (rx : S.Red x) (h : g.solveY a x = some p) :
    ∃ P : S.W.Point, S.Rep p P ∧ order • P = 0 ∧ ∃ Y hN, P = .some (S.den x) Y hN ∧ (S.larger Y ↔ a = true) := by
  rw [Ops.solveY] at h
  simp only at h
  obtain ⟨q1, f1⟩ := S.square rx
  obtain ⟨q2, f2⟩ := S.mul q1 rx
  obtain ⟨q3, f3⟩ := S.add q2 S.b.1
  obtain ⟨q4, f4, f5⟩ := S.sqrt q3
  generalize g.sqrt (g.add (g.mul (g.square x) x) g.b) = rt at h q4 f4 f5
  by_cases hs : rt.2 = true
  · rw [hs, Bool.not_true, if_neg Bool.false_ne_true] at h
    have hroot := f5 hs
    rw [f3, f2, f1, S.b.2] at hroot
    obtain ⟨qn, fn⟩ := S.neg q4
    have hy : S.Red (if (g.signBE rt.1 == a) = true then g.neg rt.1 else rt.1) := by
      split <;> assumption
    have hyy : S.den (if (g.signBE rt.1 == a) = true then g.neg rt.1 else rt.1) ^ 2 = S.den x ^ 3 + S.bF := by
      split
      · rw [fn]; linear_combination hroot
      · linear_combination hroot
    have hsign : S.den rt.1 ≠ 0 →
        (S.larger (S.den (if (g.signBE rt.1 == a) = true then g.neg rt.1 else rt.1)) ↔ a = true) := by
      intro hne
      have hsb := S.signBE q4
      by_cases hh : (g.signBE rt.1 == a) = true
      · rw [if_pos hh, fn, S.larger_neg hne, ← hsb]
        rw [beq_iff_eq] at hh
        rw [hh]
      · rw [if_neg hh]
        rw [beq_iff_eq] at hh
        cases a
        · simp only [Bool.not_eq_false] at hh
          simp only [Bool.false_eq_true, iff_false]
          exact hsb.mp hh
        · rw [hsb, not_not] at hh
          exact ⟨fun _ => rfl, fun _ => hh⟩
    have hzero : S.den rt.1 = 0 →
        S.den (if (g.signBE rt.1 == a) = true then g.neg rt.1 else rt.1) = 0 := by
      intro h0
      split
      · rw [fn, h0, neg_zero]
      · exact h0
    generalize (if (g.signBE rt.1 == a) = true then g.neg rt.1 else rt.1) = y at *
    have hrep := rep_affine rx hy hyy
    have hpt : S.pt hyy = .some (S.den x) (S.den y) (S.nonsing hyy) := rfl
    generalize S.pt hyy = P at hrep hpt
    by_cases hg : g.inSubgroup ⟨x, y, g.one⟩ = true
    · rw [if_pos hg] at h
      obtain rfl := Option.some.inj h
      have ho := (inSubgroup_iff hrep).mp hg
      exact ⟨P, hrep, ho, _, _, hpt, hsign (fun h0 => y_ne hpt ho (hzero h0))⟩
    · rw [if_neg hg] at h; cases h
  · rw [Bool.eq_false_iff.mpr hs, Bool.not_false, if_pos rfl] at h; cases h

theorem fromCompressed_some {bs : Bytes} {p : P3 α} (h : g.fromCompressed bs = some p) :
    g.size ≤ bs.length ∧ ∃ P : S.W.Point, S.Rep p P ∧ order • P = 0 ∧ S.comp P = bs.take g.size := by
  rw [Ops.fromCompressed] at h
  by_cases hl : bs.length < g.size
  · rw [if_pos hl] at h; cases h
  rw [if_neg hl] at h
  refine ⟨Nat.le_of_not_lt hl, ?_⟩
  simp only at h
  have hlen : (bs.take g.size).length = g.size := by rw [List.length_take]; omega
  generalize bs.take g.size = inp at h hlen
  obtain ⟨c, t, rfl⟩ : ∃ c t, inp = c :: t := by
    cases inp with
    | nil => have := S.size_pos; simp at hlen; omega
    | cons c t => exact ⟨c, t, rfl⟩
  rw [List.headD_cons, Ops.parseCompressed, Ops.clearFlags] at h
  by_cases h7 : c &&& 0x80 = 0
  · rw [if_pos (by rw [h7]; rfl)] at h; cases h
  rw [if_neg (by simpa using h7)] at h
  by_cases h6 : c &&& 0x40 = 0
  · rw [if_neg (by simp [h6])] at h
    cases hf : g.fromBytes ((c &&& 0x1f) :: t) with
    | none => rw [hf] at h; cases h
    | some x =>
      rw [hf] at h
      simp only at h
      obtain ⟨rx, ex⟩ := S.fromBytes_some hf
      obtain ⟨P, hrep, ho, Y, hN, hP, hL⟩ := solveY_some rx h
      refine ⟨P, hrep, ho, ?_⟩
      rw [hP]
      simp only [comp, Spec.compress, ex, Spec.setFlags]
      have hd := u8_decode c h7 h6
      clear ho hrep
      by_cases h5 : c &&& 0x20 = 0
      · rw [if_neg (by simp [h5])] at hd
        rw [if_neg (by rw [hL]; simp [h5]), hd]
      · rw [if_pos h5] at hd
        rw [if_pos (by rw [hL]; simp [h5]), hd]
  · rw [if_pos (by simpa using h6)] at h
    by_cases ho : Ops.onlyFlag 0xc0 (c :: t) = true
    · rw [if_pos ho] at h
      obtain rfl := Option.some.inj h
      refine ⟨0, rep_infinity, smul_zero _, ?_⟩
      rw [onlyFlag_iff _ _ (by simp), hlen] at ho
      rw [ho]; rfl
    · rw [if_neg ho] at h; cases h

theorem solveY_of {x y : F} {h : S.W.Nonsingular x y} {P : S.W.Point} (hP : P = .some x y h) (ho : order • P = 0)
    {a : α} (ha2 : S.Red a) (ha3 : S.den a = x) (fl : Bool) (hfl : fl = true ↔ S.larger y) :
    ∃ p, g.solveY fl a = some p ∧ S.Rep p P := by
  have hy0 := y_ne hP ho
  have he := (sw_equation _ _ _ _).mp h.1
  obtain ⟨q1, f1⟩ := S.square ha2
  obtain ⟨q2, f2⟩ := S.mul q1 ha2
  obtain ⟨q3, f3⟩ := S.add q2 S.b.1
  obtain ⟨q4, f4, f5⟩ := S.sqrt q3
  obtain ⟨qn, fn⟩ := S.neg q4
  have hs : (g.sqrt (g.add (g.mul (g.square a) a) g.b)).2 = true :=
    f4.mpr ⟨y, by rw [f3, f2, f1, S.b.2, ha3]; linear_combination he⟩
  have hroot := f5 hs
  rw [f3, f2, f1, S.b.2, ha3] at hroot
  have hpm : S.den (g.sqrt (g.add (g.mul (g.square a) a) g.b)).1 = y ∨
      S.den (g.sqrt (g.add (g.mul (g.square a) a) g.b)).1 = -y := by
    apply mul_self_eq_mul_self_iff.mp
    linear_combination hroot - he
  have hsb := S.signBE q4
  rw [Ops.solveY]
  simp only
  generalize g.sqrt (g.add (g.mul (g.square a) a) g.b) = rt at *
  rw [hs, Bool.not_true, if_neg Bool.false_ne_true]
  have hy : S.Red (if (g.signBE rt.1 == fl) = true then g.neg rt.1 else rt.1) := by
    split <;> assumption
  have hey : S.den (if (g.signBE rt.1 == fl) = true then g.neg rt.1 else rt.1) = y := by
    have hneg := S.larger_neg hy0
    rcases hpm with hr | hr
    · have : ¬ (g.signBE rt.1 == fl) = true := by
        rw [beq_iff_eq]
        intro hq
        rw [hr, hq, hfl] at hsb
        by_cases hl : S.larger y
        · exact hsb.mp hl hl
        · exact hl (hsb.mpr hl)
      rw [if_neg this, hr]
    · have : (g.signBE rt.1 == fl) = true := by
        rw [beq_iff_eq, Bool.eq_iff_iff, hsb, hr, hfl, hneg, not_not]
      rw [if_pos this, fn, hr, neg_neg]
  generalize (if (g.signBE rt.1 == fl) = true then g.neg rt.1 else rt.1) = y' at *
  have hrep : S.Rep ⟨a, y', g.one⟩ P := by
    rw [hP]
    exact Rep.mk' ha2 hy S.one.1 ha3 hey S.one.2 ⟨one_ne_zero, by simp, by simp⟩
  rw [if_pos ((inSubgroup_iff hrep).mpr ho)]
  exact ⟨_, rfl, hrep⟩

theorem fromCompressed_comp {P : S.W.Point} (ho : order • P = 0) (tail : Bytes) :
    ∃ p, g.fromCompressed (S.comp P ++ tail) = some p ∧ S.Rep p P := by
  have hlen := comp_length P
  rw [Ops.fromCompressed, if_neg (by rw [List.length_append, hlen]; omega)]
  have htake : (S.comp P ++ tail).take g.size = S.comp P := by
    rw [List.take_append_of_le_length (by omega), List.take_of_length_le (by omega)]
  simp only
  rw [htake]
  by_cases hP0 : P = 0
  · subst hP0
    refine ⟨g.infinity, ?_, rep_infinity⟩
    have hc : Ops.onlyFlag 0xc0 (S.comp 0) = true := by
      rw [onlyFlag_iff _ _ (by show S.comp .zero ≠ []; simp [comp, Spec.compress]), hlen]; rfl
    have hh : (S.comp 0).headD 0 = 0xc0 := rfl
    rw [hh, Ops.parseCompressed, hc]
    rfl
  · obtain ⟨x, y, h, hP⟩ : ∃ x y h, P = .some x y h := by
      cases P with
      | zero => exact absurd rfl hP0
      | some x y h => exact ⟨x, y, h, rfl⟩
    obtain ⟨c, t, e, hc⟩ := S.bytes_head x
    have hu := u8_enc c hc
    obtain ⟨a, ha1, ha2, ha3⟩ := S.fromBytes_bytes x
    rw [e] at ha1
    have hcomp : S.comp P = ((if S.larger y then (0xa0 : UInt8) else 0x80) ||| c) :: t := by
      rw [hP]
      simp only [comp, Spec.compress]
      rw [e, Spec.setFlags]
    rw [hcomp, List.headD_cons]
    by_cases hL : S.larger y
    · rw [if_pos hL, Ops.parseCompressed, Ops.clearFlags, hu.2.2.2.2.1, hu.2.2.2.2.2.1, hu.2.2.2.2.2.2.1,
        hu.2.2.2.2.2.2.2.1, ha1]
      exact solveY_of hP ho ha2 ha3 true (by simp [hL])
    · rw [if_neg hL, Ops.parseCompressed, Ops.clearFlags, hu.1, hu.2.1, hu.2.2.1, hu.2.2.2.1, ha1]
      exact solveY_of hP ho ha2 ha3 false (by simp [hL])

/-- `FromCompressed` accepts exactly the strings that start with the encoding of a point of the subgroup. -/
theorem fromCompressed_isSome_iff (S : Sem g F) (bs : Bytes) :
    (g.fromCompressed bs).isSome = true ↔ ∃ P : S.W.Point, order • P = 0 ∧ ∃ tail, bs = S.comp P ++ tail := by
  constructor
  · intro h
    obtain ⟨p, hp⟩ := Option.isSome_iff_exists.mp h
    obtain ⟨-, P, -, ho, e⟩ := fromCompressed_some (S := S) hp
    exact ⟨P, ho, bs.drop g.size, by rw [e, List.take_append_drop]⟩
  · rintro ⟨P, ho, tail, rfl⟩
    obtain ⟨p, hp, -⟩ := fromCompressed_comp ho tail
    rw [hp]; rfl

omit [DecidableEq F] in
theorem bytes_inj (S : Sem g F) {x y : F} (h : S.bytes x = S.bytes y) : x = y := by
  obtain ⟨a, h1, -, h2⟩ := S.fromBytes_bytes x
  obtain ⟨b, h3, -, h4⟩ := S.fromBytes_bytes y
  rw [h, h3] at h1
  obtain rfl := Option.some.inj h1
  rw [← h2, h4]

theorem comp_inj {P P' : S.W.Point} (hP : order • P = 0) (hP' : order • P' = 0) (h : S.comp P = S.comp P') : P = P' := by
  obtain ⟨p, h1, h2⟩ := fromCompressed_comp hP []
  obtain ⟨p', h3, h4⟩ := fromCompressed_comp hP' []
  rw [h, h3] at h1
  obtain rfl := Option.some.inj h1
  exact ((eqPt_iff h2 h4).symm.trans (eqPt_iff h2 h2)).mpr rfl

theorem toUncompressed_eq {p : P3 α} {P : S.W.Point} (hp : S.Rep p P) : g.toUncompressed p = S.uncomp P := by
  cases P with
  | zero =>
    rw [Ops.toUncompressed, if_pos ((isInf_iff hp).mpr rfl)]
    obtain ⟨n, hn⟩ : ∃ n, 2 * g.size = n + 1 := ⟨2 * g.size - 1, by have := S.size_pos; omega⟩
    simp only [uncomp, Spec.uncompress]
    rw [hn, List.replicate_succ]; rfl
  | some x y h =>
    rw [Ops.toUncompressed, if_neg (by rw [isInf_iff hp]; exact Affine.Point.some_ne_zero h)]
    obtain ⟨h1, e1, h2, e2, h3, e3⟩ := affine_some hp
    simp only [uncomp, Spec.uncompress]
    rw [S.toBytes h1, S.toBytes h2, e1, e2]

theorem toBytesPt_eq {p : P3 α} {P : S.W.Point} (hp : S.Rep p P) : g.toBytesPt p = S.plain P := by
  cases P with
  | zero =>
    rw [Ops.toBytesPt, if_pos ((isInf_iff hp).mpr rfl)]; rfl
  | some x y h =>
    rw [Ops.toBytesPt, if_neg (by rw [isInf_iff hp]; exact Affine.Point.some_ne_zero h)]
    obtain ⟨h1, e1, h2, e2, h3, e3⟩ := affine_some hp
    simp only [plain, Spec.plain]
    rw [S.toBytes h1, S.toBytes h2, e1, e2]

/-- `x`, `y` parsed from `x ‖ y`. -/
theorem rep_xy {bx by' : Bytes} {x y : α} (hx : g.fromBytes bx = some x) (hy : g.fromBytes by' = some y) :
    g.isOnCurve ⟨x, y, g.one⟩ = true ↔
      ∃ P : S.W.Point, ∃ X Y, ∃ h, P = .some X Y h ∧ S.bytes X = bx ∧ S.bytes Y = by' ∧ S.Rep ⟨x, y, g.one⟩ P := by
  obtain ⟨rx, ex⟩ := S.fromBytes_some hx
  obtain ⟨ry, ey⟩ := S.fromBytes_some hy
  rw [isOnCurve_iff rx ry S.one.1]
  constructor
  · rintro ⟨P, hP⟩
    cases P with
    | zero => exact absurd hP.2.2.2 (by show ¬ S.den g.one = 0; rw [S.one.2]; exact one_ne_zero)
    | some X Y h =>
      refine ⟨_, X, Y, h, rfl, ?_, ?_, hP⟩
      · have := hP.2.2.2.2.1
        simp only [S.one.2, one_pow, mul_one] at this
        rw [← this, ex]
      · have := hP.2.2.2.2.2
        simp only [S.one.2, one_pow, mul_one] at this
        rw [← this, ey]
  · rintro ⟨P, -, -, -, -, -, -, h⟩; exact ⟨P, h⟩

theorem fromUncompressed_some {bs : Bytes} {p : P3 α} (h : g.fromUncompressed bs = some p) :
    2 * g.size ≤ bs.length ∧
      ∃ P : S.W.Point, S.Rep p P ∧ order • P = 0 ∧ S.uncomp P = bs.take (2 * g.size) := by
  rw [Ops.fromUncompressed] at h
  by_cases hl : bs.length < 2 * g.size
  · rw [if_pos hl] at h; cases h
  rw [if_neg hl] at h
  refine ⟨Nat.le_of_not_lt hl, ?_⟩
  simp only at h
  have hlen : (bs.take (2 * g.size)).length = 2 * g.size := by rw [List.length_take]; omega
  generalize bs.take (2 * g.size) = inp at h hlen
  obtain ⟨c, t, rfl⟩ : ∃ c t, inp = c :: t := by
    cases inp with
    | nil => have := S.size_pos; simp at hlen; omega
    | cons c t => exact ⟨c, t, rfl⟩
  rw [List.headD_cons, Ops.parseUncompressed] at h
  by_cases h7 : c &&& 0x80 = 0
  swap
  · rw [if_pos (by simpa using h7)] at h; cases h
  rw [if_neg (by simp [h7])] at h
  by_cases h5 : c &&& 0x20 = 0
  swap
  · rw [if_pos (by simpa using h5)] at h; cases h
  rw [if_neg (by simp [h5])] at h
  by_cases h6 : c &&& 0x40 = 0
  · rw [if_neg (by simp [h6])] at h
    have hcl : Ops.clearFlags (c :: t) = c :: t := by rw [Ops.clearFlags, u8_plain c h7 h5 h6]
    rw [hcl] at h
    simp only at h
    cases hf : g.fromBytes ((c :: t).take g.size) with
    | none => rw [hf] at h; cases h
    | some x =>
      cases hf' : g.fromBytes ((c :: t).drop g.size) with
      | none => rw [hf, hf'] at h; cases h
      | some y =>
        rw [hf, hf'] at h
        simp only at h
        by_cases hc : g.isOnCurve ⟨x, y, g.one⟩ = true
        · rw [hc, Bool.not_true, if_neg Bool.false_ne_true] at h
          obtain ⟨P, X, Y, hN, rfl, eX, eY, hrep⟩ := (rep_xy (S := S) hf hf').mp hc
          by_cases hg : g.inSubgroup ⟨x, y, g.one⟩ = true
          · rw [hg, Bool.not_true, if_neg Bool.false_ne_true] at h
            obtain rfl := Option.some.inj h
            refine ⟨_, hrep, (inSubgroup_iff hrep).mp hg, ?_⟩
            simp only [uncomp, Spec.uncompress]
            rw [eX, eY, List.take_append_drop]
          · rw [Bool.eq_false_iff.mpr hg, Bool.not_false, if_pos rfl] at h; cases h
        · rw [Bool.eq_false_iff.mpr hc, Bool.not_false, if_pos rfl] at h; cases h
  · rw [if_pos (by simpa using h6)] at h
    by_cases ho : Ops.onlyFlag 0x40 (c :: t) = true
    · rw [if_pos ho] at h
      obtain rfl := Option.some.inj h
      refine ⟨0, rep_infinity, smul_zero _, ?_⟩
      rw [onlyFlag_iff _ _ (by simp), hlen] at ho
      rw [ho]; rfl
    · rw [if_neg ho] at h; cases h

theorem take_xy {a b : Bytes} {n : ℕ} (h : a.length = n) : (a ++ b).take n = a ∧ (a ++ b).drop n = b := by
  subst h; simp

theorem rep_some {X Y : F} {h : S.W.Nonsingular X Y} {x y : α} (hx : S.Red x) (hy : S.Red y)
    (ex : S.den x = X) (ey : S.den y = Y) : S.Rep ⟨x, y, g.one⟩ (.some X Y h) :=
  Rep.mk' hx hy S.one.1 ex ey S.one.2 ⟨one_ne_zero, by simp, by simp⟩

theorem fromUncompressed_uncomp {P : S.W.Point} (ho : order • P = 0) (tail : Bytes) :
    ∃ p, g.fromUncompressed (S.uncomp P ++ tail) = some p ∧ S.Rep p P := by
  have hpos := S.size_pos
  have hlen : (S.uncomp P).length = 2 * g.size := by
    cases P with
    | zero => simp only [uncomp, Spec.uncompress, List.length_cons, List.length_replicate]; omega
    | some x y h => simp only [uncomp, Spec.uncompress, List.length_append, S.bytes_length]; omega
  rw [Ops.fromUncompressed, if_neg (by rw [List.length_append, hlen]; omega)]
  simp only
  rw [(take_xy hlen).1]
  by_cases hP0 : P = 0
  · subst hP0
    refine ⟨g.infinity, ?_, rep_infinity⟩
    have hc : Ops.onlyFlag 0x40 (S.uncomp 0) = true := by
      rw [onlyFlag_iff _ _ (by show S.uncomp .zero ≠ []; simp [uncomp, Spec.uncompress]), hlen]; rfl
    have hh : (S.uncomp 0).headD 0 = 0x40 := rfl
    rw [hh, Ops.parseUncompressed, hc]
    rfl
  · obtain ⟨x, y, h, hP⟩ : ∃ x y h, P = .some x y h := by
      cases P with
      | zero => exact absurd rfl hP0
      | some x y h => exact ⟨x, y, h, rfl⟩
    obtain ⟨c, t, e, hc⟩ := S.bytes_head x
    have hu := u8_enc c hc
    obtain ⟨a, ha1, ha2, ha3⟩ := S.fromBytes_bytes x
    obtain ⟨b, hb1, hb2, hb3⟩ := S.fromBytes_bytes y
    have hrep : S.Rep ⟨a, b, g.one⟩ P := by rw [hP]; exact rep_some ha2 hb2 ha3 hb3
    refine ⟨⟨a, b, g.one⟩, ?_, hrep⟩
    have hcur : g.isOnCurve ⟨a, b, g.one⟩ = true := (isOnCurve_iff ha2 hb2 S.one.1).mpr ⟨_, hrep⟩
    have hsub : g.inSubgroup ⟨a, b, g.one⟩ = true := (inSubgroup_iff hrep).mpr ho
    have hunc : S.uncomp P = S.bytes x ++ S.bytes y := by rw [hP]; rfl
    rw [hunc]
    have hh : (S.bytes x ++ S.bytes y).headD 0 = c := by rw [e]; rfl
    have hcl : Ops.clearFlags (S.bytes x ++ S.bytes y) = S.bytes x ++ S.bytes y := by
      rw [e, List.cons_append, Ops.clearFlags, hu.2.2.2.2.2.2.2.2.2.2.2.2.2]
    rw [Ops.parseUncompressed, hh, hcl, hu.2.2.2.2.2.2.2.2.2.2.1, hu.2.2.2.2.2.2.2.2.2.2.2.1,
      hu.2.2.2.2.2.2.2.2.2.2.2.2.1]
    simp only
    rw [(take_xy (S.bytes_length x)).1, (take_xy (S.bytes_length x)).2, ha1, hb1]
    simp only
    rw [hcur, hsub]
    rfl

/-- `FromBytes` accepts exactly the plain encodings of the points of the curve (any subgroup), given
that `(0, 0)` is not on the curve. -/
theorem fromBytesPt_some (hz : S.bytes 0 = List.replicate g.size 0) {bs : Bytes} {p : P3 α}
    (h : g.fromBytesPt bs = some p) : ∃ P : S.W.Point, S.Rep p P ∧ S.plain P = bs := by
  rw [Ops.fromBytesPt] at h
  split_ifs at h with hl
  cases hf : g.fromBytes (bs.take g.size) with
  | none => rw [hf] at h; cases h
  | some x =>
    cases hf' : g.fromBytes (bs.drop g.size) with
    | none => rw [hf, hf'] at h; cases h
    | some y =>
      rw [hf, hf'] at h
      simp only at h
      obtain ⟨rx, ex⟩ := S.fromBytes_some hf
      obtain ⟨ry, ey⟩ := S.fromBytes_some hf'
      by_cases h00 : (g.isZero x && g.isZero y) = true
      · rw [if_pos h00] at h
        obtain rfl := Option.some.inj h
        rw [Bool.and_eq_true, S.isZero rx, S.isZero ry] at h00
        refine ⟨0, rep_infinity, ?_⟩
        rw [← List.take_append_drop g.size bs, ← ex, ← ey, h00.1, h00.2, hz]
        show List.replicate (2 * g.size) 0 = _
        rw [two_mul, List.replicate_add]
      · rw [if_neg h00] at h
        by_cases hc : g.isOnCurve ⟨x, y, g.one⟩ = true
        · rw [hc, Bool.not_true, if_neg Bool.false_ne_true] at h
          obtain rfl := Option.some.inj h
          obtain ⟨P, X, Y, hN, rfl, eX, eY, hrep⟩ := (rep_xy (S := S) hf hf').mp hc
          refine ⟨_, hrep, ?_⟩
          simp only [plain, Spec.plain]
          rw [eX, eY, List.take_append_drop]
        · rw [Bool.eq_false_iff.mpr hc, Bool.not_false, if_pos rfl] at h; cases h

theorem fromBytesPt_plain (hz : S.bytes 0 = List.replicate g.size 0) (P : S.W.Point) :
    ∃ p, g.fromBytesPt (S.plain P) = some p ∧ S.Rep p P := by
  cases P with
  | zero =>
    refine ⟨g.infinity, ?_, rep_infinity⟩
    have e : S.plain .zero = S.bytes 0 ++ S.bytes 0 := by
      rw [hz, ← List.replicate_add, ← two_mul]; rfl
    obtain ⟨a, ha1, ha2, ha3⟩ := S.fromBytes_bytes 0
    rw [e, Ops.fromBytesPt, if_neg (by rw [List.length_append, S.bytes_length]; omega),
      (take_xy (S.bytes_length 0)).1, (take_xy (S.bytes_length 0)).2, ha1]
    simp only
    rw [(S.isZero ha2).mpr ha3]; rfl
  | some x y h =>
    obtain ⟨a, ha1, ha2, ha3⟩ := S.fromBytes_bytes x
    obtain ⟨b, hb1, hb2, hb3⟩ := S.fromBytes_bytes y
    have hrep : S.Rep ⟨a, b, g.one⟩ (.some x y h) := rep_some ha2 hb2 ha3 hb3
    refine ⟨⟨a, b, g.one⟩, ?_, hrep⟩
    have hcur : g.isOnCurve ⟨a, b, g.one⟩ = true := (isOnCurve_iff ha2 hb2 S.one.1).mpr ⟨_, hrep⟩
    have h00 : ¬ (g.isZero a && g.isZero b) = true := by
      rw [Bool.and_eq_true, S.isZero ha2, S.isZero hb2, ha3, hb3]
      rintro ⟨rfl, rfl⟩
      have he := (sw_equation _ _ _ _).mp h.1
      apply S.b_ne
      linear_combination -he
    simp only [plain, Spec.plain]
    rw [Ops.fromBytesPt, if_neg (by rw [List.length_append, S.bytes_length, S.bytes_length]; omega),
      (take_xy (S.bytes_length x)).1, (take_xy (S.bytes_length x)).2, ha1, hb1]
    simp only
    rw [if_neg h00, hcur]
    rfl

end Sem

end Verif.Bls
