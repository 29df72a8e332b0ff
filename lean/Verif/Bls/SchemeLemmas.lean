import Verif.Bls.Scheme
import Verif.Bls.HashMap

/-!
# Lemmas about the BLS scheme functions (amd64 build)
-/

namespace Verif.Bls

open Verif.EC WeierstrassCurve Sem

theorem size1 : (g1 .amd64).size = 48 := by simp only [g1]
theorem size2 : (g2 .amd64).size = 96 := by simp only [g2]

theorem comp1_eq (P : Spec.E1.Point) : sem1.comp P = Spec.compress1 P := by
  rw [Sem.comp, Spec.compress1, size1]; rfl

theorem comp2_eq (P : Spec.E2.Point) : sem2.comp P = Spec.compress2 P := by
  rw [Sem.comp, Spec.compress2, size2]; rfl

theorem order_eq : order = Spec.r := by decide +kernel

theorem ord1 (P : Spec.E1.Point) : order • P = 0 ↔ Spec.r • P = 0 := by rw [order_eq]
theorem ord2 (P : Spec.E2.Point) : order • P = 0 ↔ Spec.r • P = 0 := by rw [order_eq]

theorem compress1_length (P : Spec.E1.Point) : (Spec.compress1 P).length = 48 :=
  (congrArg List.length (comp1_eq P)).symm.trans ((comp_length (S := sem1) P).trans size1)

theorem compress2_length (P : Spec.E2.Point) : (Spec.compress2 P).length = 96 :=
  (congrArg List.length (comp2_eq P)).symm.trans ((comp_length (S := sem2) P).trans size2)

/-! ## the compressed format determines every point, in the subgroup or not -/

section
variable {α : Type} {g : Ops α} {F : Type} [Field F] [DecidableEq F] {S : Sem g F}

theorem u8_or_inj : ∀ c d : UInt8, c.toNat < 32 → d.toNat < 32 → (((0x80 : UInt8) ||| c = 0x80 ||| d ∨ (0xa0 : UInt8) ||| c = 0xa0 ||| d) → c = d) ∧
    (0x80 : UInt8) ||| c ≠ 0xa0 ||| d ∧ (0xc0 : UInt8) ≠ 0x80 ||| c ∧ (0xc0 : UInt8) ≠ 0xa0 ||| c := by
  intro c d hc hd
  have e1 := (u8_enc c hc)
  have e2 := (u8_enc d hd)
  refine ⟨?_, ?_, ?_, ?_⟩
  · rintro (h | h)
    · rw [← e1.2.2.2.1, ← e2.2.2.2.1, h]
    · rw [← e1.2.2.2.2.2.2.2.1, ← e2.2.2.2.2.2.2.2.1, h]
  · intro h
    have a := e1.2.2.1
    rw [h, e2.2.2.2.2.2.2.1] at a
    exact absurd a (by decide)
  · intro h
    have a := e1.2.1
    rw [← h] at a
    exact absurd a (by decide)
  · intro h
    have a := e1.2.2.2.2.2.1
    rw [← h] at a
    exact absurd a (by decide)

theorem setFlags_inj (f f' : Bool) {x x' : F}
    (h : Spec.setFlags (if f then 0xa0 else 0x80) (S.bytes x) = Spec.setFlags (if f' then 0xa0 else 0x80) (S.bytes x')) :
    f = f' ∧ x = x' := by
  obtain ⟨c, t, e, hc⟩ := S.bytes_head x
  obtain ⟨c', t', e', hc'⟩ := S.bytes_head x'
  rw [e, e'] at h
  simp only [Spec.setFlags, List.cons.injEq] at h
  obtain ⟨h1, rfl⟩ := h
  have i1 := u8_or_inj c c' hc hc'
  have i2 := u8_or_inj c' c hc' hc
  cases f <;> cases f' <;> simp only [Bool.false_eq_true, if_false, if_true] at h1
  · exact ⟨rfl, bytes_inj S (by rw [e, e', i1.1 (.inl h1)])⟩
  · exact absurd h1 i1.2.1
  · exact absurd h1.symm i2.2.1
  · exact ⟨rfl, bytes_inj S (by rw [e, e', i1.1 (.inr h1)])⟩

theorem comp_inj_all {P P' : S.W.Point} (h : S.comp P = S.comp P') : P = P' := by
  have aux : ∀ (x y : F) (hn : S.W.Nonsingular x y), S.comp .zero ≠ S.comp (.some x y hn) := by
    intro x y hn h
    obtain ⟨c, t, e, hc⟩ := S.bytes_head x
    simp only [comp, Spec.compress] at h
    rw [e] at h
    have := u8_or_inj c c hc hc
    split_ifs at h <;> simp only [Spec.setFlags, List.cons.injEq] at h
    · exact this.2.2.2 h.1
    · exact this.2.2.1 h.1
  cases P with
  | zero =>
    cases P' with
    | zero => rfl
    | some x' y' h' => exact absurd h (aux _ _ _)
  | some x y hn =>
    cases P' with
    | zero => exact absurd h.symm (aux _ _ _)
    | some x' y' hn' =>
      have h2 : Spec.setFlags (if decide (S.larger y) then 0xa0 else 0x80) (S.bytes x) =
          Spec.setFlags (if decide (S.larger y') then 0xa0 else 0x80) (S.bytes x') := by
        simp only [comp, Spec.compress] at h
        simp only [decide_eq_true_eq]
        exact h
      obtain ⟨hl, rfl⟩ := setFlags_inj _ _ h2
      have hl : S.larger y ↔ S.larger y' := by simpa using hl
      have e1 := (sw_equation _ _ _ _).mp hn.1
      have e2 := (sw_equation _ _ _ _).mp hn'.1
      rcases sq_eq_sq_iff_eq_or_eq_neg.mp (e1.trans e2.symm) with rfl | rfl
      · rfl
      · by_cases h0 : y' = 0
        · subst h0; simp only [neg_zero]
        · exact absurd hl (by rw [S.larger_neg h0]; tauto)

end

/-! ## aggregation -/

/-- `s` starts with the encoding of the subgroup point `P`. -/
def Encodes2 (s : Bytes) (P : Spec.E2.Point) : Prop := Spec.r • P = 0 ∧ ∃ tail, s = Spec.compress2 P ++ tail

theorem Encodes2.inj {s : Bytes} {P P' : Spec.E2.Point} (h : Encodes2 s P) (h' : Encodes2 s P') : P = P' := by
  obtain ⟨-, t, e⟩ := h
  obtain ⟨-, t', e'⟩ := h'
  have e := e.symm.trans e'
  have := List.append_inj_left e (by rw [compress2_length, compress2_length])
  exact comp_inj_all (S := sem2) ((comp2_eq P).trans (this.trans (comp2_eq P').symm))

theorem fromCompressed2_of {s : Bytes} {P : Spec.E2.Point} (h : Encodes2 s P) :
    ∃ p, (g2 .amd64).fromCompressed s = some p ∧ sem2.Rep p P := by
  obtain ⟨ho, t, rfl⟩ := h
  have := fromCompressed_comp (S := sem2) ((ord2 P).mpr ho) t
  rw [← comp2_eq]
  exact this

theorem fromCompressed2_some {s : Bytes} {p : P3 Fe2} (h : (g2 .amd64).fromCompressed s = some p) :
    ∃ P, Encodes2 s P ∧ sem2.Rep p P := by
  obtain ⟨-, P, hP, ho, hc⟩ := fromCompressed_some (S := sem2) h
  refine ⟨P, ⟨(ord2 P).mp ho, s.drop (g2 .amd64).size, ?_⟩, hP⟩
  have e : Spec.compress2 P = s.take (g2 .amd64).size := (comp2_eq P).symm.trans hc
  exact (List.take_append_drop (g2 .amd64).size s).symm.trans (congrArg (· ++ _) e.symm)

theorem aggregateLoop_some : ∀ (ss : List Bytes) (Ps : List Spec.E2.Point) (acc : P3 Fe2) (A : Spec.E2.Point),
    List.Forall₂ Encodes2 ss Ps → sem2.Rep acc A → ∃ p, aggregateLoop .amd64 acc ss = some p ∧ sem2.Rep p (A + Ps.sum) := by
  intro ss
  induction ss with
  | nil =>
    intro Ps acc A h hA
    cases h
    refine ⟨acc, rfl, ?_⟩
    rw [List.sum_nil, add_zero]; exact hA
  | cons s ss ih =>
    intro Ps acc A h hA
    cases h with
    | cons h1 h2 =>
      obtain ⟨p, e, hp⟩ := fromCompressed2_of h1
      obtain ⟨q, e2, hq⟩ := ih _ _ _ h2 (rep_add hA hp)
      refine ⟨q, ?_, ?_⟩
      · rw [aggregateLoop, e]; exact e2
      · rw [List.sum_cons, ← add_assoc]; exact hq

theorem aggregateLoop_none : ∀ (ss : List Bytes) (acc : P3 Fe2), (∃ s ∈ ss, ∀ P, ¬ Encodes2 s P) →
    aggregateLoop .amd64 acc ss = none := by
  intro ss
  induction ss with
  | nil => rintro acc ⟨s, hs, -⟩; cases hs
  | cons s ss ih =>
    rintro acc ⟨s', hs, h⟩
    rw [aggregateLoop]
    cases e : (g2 .amd64).fromCompressed s with
    | none => rfl
    | some p =>
      rcases List.mem_cons.mp hs with rfl | hs
      · obtain ⟨P, hP, -⟩ := fromCompressed2_some e
        exact absurd hP (h P)
      · exact ih _ ⟨s', hs, h⟩

theorem aggregate_some {ss : List Bytes} {Ps : List Spec.E2.Point} (h : List.Forall₂ Encodes2 ss Ps) :
    aggregate .amd64 ss = .ok (Spec.compress2 Ps.sum) := by
  obtain ⟨p, e, hp⟩ := aggregateLoop_some ss Ps _ 0 h rep_blank
  rw [aggregate, e]
  simp only
  rw [toCompressed_eq hp, zero_add, comp2_eq]

theorem aggregate_none {ss : List Bytes} (h : ∃ s ∈ ss, ∀ P, ¬ Encodes2 s P) : aggregate .amd64 ss = .error .other := by
  rw [aggregate, aggregateLoop_none _ _ h]

/-- either every element encodes a point or one encodes none. -/
theorem encodes_or (ss : List Bytes) : (∃ Ps, List.Forall₂ Encodes2 ss Ps) ∨ ∃ s ∈ ss, ∀ P, ¬ Encodes2 s P := by
  induction ss with
  | nil => exact .inl ⟨[], .nil⟩
  | cons s ss ih =>
    by_cases h : ∃ P, Encodes2 s P
    · obtain ⟨P, hP⟩ := h
      rcases ih with ⟨Ps, h⟩ | ⟨s', h1, h2⟩
      · exact .inl ⟨P :: Ps, .cons hP h⟩
      · exact .inr ⟨s', List.mem_cons_of_mem _ h1, h2⟩
    · exact .inr ⟨s, List.mem_cons_self, not_exists.mp h⟩

theorem forall₂_perm {ss ss' : List Bytes} (h : ss.Perm ss') : ∀ {Ps : List Spec.E2.Point}, List.Forall₂ Encodes2 ss Ps →
    ∃ Ps', List.Forall₂ Encodes2 ss' Ps' ∧ Ps'.sum = Ps.sum := by
  induction h with
  | nil => intro Ps h; exact ⟨Ps, h, rfl⟩
  | cons x _ ih =>
    intro Ps h
    cases h with
    | cons h1 h2 =>
      obtain ⟨Ps', h3, h4⟩ := ih h2
      exact ⟨_ :: Ps', .cons h1 h3, by rw [List.sum_cons, List.sum_cons, h4]⟩
  | swap x y l =>
    intro Ps h
    cases h with
    | cons h1 h2 => cases h2 with
      | cons h3 h4 => exact ⟨_ :: _ :: _, .cons h3 (.cons h1 h4), by simp only [List.sum_cons]; abel⟩
  | trans _ _ ih1 ih2 =>
    intro Ps h
    obtain ⟨Ps', h1, h2⟩ := ih1 h
    obtain ⟨Ps'', h3, h4⟩ := ih2 h1
    exact ⟨Ps'', h3, h4.trans h2⟩

theorem aggregate_perm {ss ss' : List Bytes} (h : ss.Perm ss') : aggregate .amd64 ss = aggregate .amd64 ss' := by
  rcases encodes_or ss with ⟨Ps, hP⟩ | ⟨s, h1, h2⟩
  · obtain ⟨Ps', hP', e⟩ := forall₂_perm h hP
    rw [aggregate_some hP, aggregate_some hP', e]
  · rw [aggregate_none ⟨s, h1, h2⟩, aggregate_none ⟨s, h.mem_iff.mp h1, h2⟩]

/-! ## hashing and signing -/

theorem basicDst_length : basicDst.length = 43 := by decide +kernel
theorem augDst_length : augDst.length = 43 := by decide +kernel

theorem hashPoint_basic (bd : Build) (H : Bytes → Bytes) (m : Bytes) : hashPoint bd H (basicDst ++ m) = hashToG2 bd H m basicDst := by
  rw [hashPoint, if_pos (List.isPrefixOf_iff_prefix.mpr (List.prefix_append _ _)), List.drop_left, List.take_left]

theorem hashPoint_aug (bd : Build) (H : Bytes → Bytes) (m : Bytes) : hashPoint bd H (augDst ++ m) = hashToG2 bd H m augDst := by
  have h : ¬ basicDst.isPrefixOf (augDst ++ m) = true := by
    rw [List.isPrefixOf_iff_prefix]
    intro h
    have := List.prefix_iff_eq_take.mp h
    rw [basicDst_length, ← augDst_length, List.take_left] at this
    exact absurd this (by decide +kernel)
  rw [hashPoint, if_neg h, if_pos (List.isPrefixOf_iff_prefix.mpr (List.prefix_append _ _)), List.drop_left, List.take_left]

theorem hashToField_some (H : Bytes → Bytes) (msg dst : Bytes) (hd : dst.length ≤ 255) :
    ∃ u, Spec.hashToField H msg dst = some u := by
  unfold Spec.hashToField Spec.expand
  simp only []
  rw [if_neg (by omega)]
  exact ⟨_, rfl⟩

theorem hashToG2_ret {H : Bytes → Bytes} (hH : ∀ m, (H m).length = 32) (msg dst : Bytes) (hd : dst.length ≤ 255) (bd : Build) :
    ∃ p, hashToG2 bd H msg dst = .ret (some p) := by
  obtain ⟨⟨u0, u1⟩, hu⟩ := hashToField_some H msg dst hd
  obtain ⟨a0, a1, h, -⟩ := hashToG2_fields hH msg dst bd hu
  exact ⟨_, h⟩

/-- hashing returns a point of the curve that RFC 9380 gives, away from the exceptional inputs. -/
theorem hashToG2_spec {H : Bytes → Bytes} (hH : ∀ m, (H m).length = 32) (msg dst : Bytes) {u0 u1 : Fq2}
    (hu : Spec.hashToField H msg dst = some (u0, u1)) (h0 : u0 ≠ 0) (h1 : u1 ≠ 0) (hx : ∀ x y, ¬ (Spec.Sswu u0 x y ∧ Spec.Sswu u1 x y)) :
    ∃ p P, hashToG2 .amd64 H msg dst = .ret (some p) ∧ Spec.HashesTo u0 u1 P ∧ sem2.Rep p P := by
  obtain ⟨a0, a1, h, r0, r1, rfl, rfl⟩ := hashToG2_fields hH msg dst .amd64 hu
  obtain ⟨P, hP, hR⟩ := mapToG2_spec r0 r1 h0 h1 hx
  exact ⟨_, P, h, hP, hR⟩

theorem sign_of_hash {H : Bytes → Bytes} {k m : Bytes} (hk : k.length = 32) {p : P3 Fe2} {P : Spec.E2.Point}
    (h : hashPoint .amd64 H m = .ret (some p)) (hP : sem2.Rep p P) :
    sign .amd64 H k m = .ret (.ok (Spec.compress2 ((beNat k % Spec.r) • P))) := by
  rw [sign, if_neg (by rw [hk]; decide), h]
  simp only [Go.ret_bind, deref, Go.pure_eq]
  have e : (g2 .amd64).toCompressed ((g2 .amd64).mulScalar p (newScalar k)) = Spec.compress2 (newScalar k • P) :=
    (toCompressed_eq (S := sem2) (rep_mul hP _)).trans (comp2_eq _)
  rw [e, newScalar, order_eq]

/-! ## verification -/

/-- `s` is the encoding of the subgroup point `P`. -/
def Encodes1 (s : Bytes) (P : Spec.E1.Point) : Prop := Spec.r • P = 0 ∧ s = Spec.compress1 P

theorem fromCompressed1_of {s : Bytes} {P : Spec.E1.Point} (h : Encodes1 s P) :
    ∃ p, (g1 .amd64).fromCompressed s = some p ∧ sem1.Rep p P := by
  obtain ⟨ho, rfl⟩ := h
  have := fromCompressed_comp (S := sem1) ((ord1 P).mpr ho) []
  rw [List.append_nil] at this
  rw [← comp1_eq]
  exact this

theorem fromCompressed1_some {s : Bytes} {p : P3 Fe} (hl : s.length = 48) (h : (g1 .amd64).fromCompressed s = some p) :
    ∃ P, Encodes1 s P ∧ sem1.Rep p P := by
  obtain ⟨-, P, hP, ho, hc⟩ := fromCompressed_some (S := sem1) h
  refine ⟨P, ⟨(ord1 P).mp ho, ?_⟩, hP⟩
  rw [size1, List.take_of_length_le (by omega)] at hc
  exact hc.symm.trans (comp1_eq P)

theorem Encodes2.exact {s : Bytes} {P : Spec.E2.Point} (hl : s.length = 96) (h : Encodes2 s P) : s = Spec.compress2 P := by
  obtain ⟨-, t, e⟩ := h
  have : t.length = 0 := by
    have := congrArg List.length e
    rw [List.length_append, compress2_length] at this
    omega
  rw [e, List.length_eq_zero_iff.mp this, List.append_nil]

/-- `Verify` on a signature string of the right length that encodes no subgroup point. -/
theorem verify_badSig {H : Bytes → Bytes} {pk m s : Bytes} {q : Option (P3 Fe2)} (hh : hashPoint .amd64 H m = .ret q)
    (h : ∀ P, ¬ Encodes2 s P) : verify .amd64 H pk m s = .ret false := by
  rw [verify]
  split_ifs with hl
  · rfl
  · rw [hh]
    simp only [Go.ret_bind]
    cases e : (g2 .amd64).fromCompressed s with
    | none => rfl
    | some p =>
      obtain ⟨P, hP, -⟩ := fromCompressed2_some e
      exact absurd hP (h P)

/-- `Verify` on a public key string of the right length that encodes no subgroup point. -/
theorem verify_badKey {H : Bytes → Bytes} {pk m s : Bytes} {q : Option (P3 Fe2)} (hh : hashPoint .amd64 H m = .ret q)
    (hp : pk.length = 48) (hm : m ≠ []) (hs : s.length = 96) {S : Spec.E2.Point} (hS : Encodes2 s S)
    (h : ∀ P, ¬ Encodes1 pk P) : verify .amd64 H pk m s = .panic := by
  rw [verify, if_neg (by rw [hp, hs]; simpa using hm), hh]
  obtain ⟨p, e, -⟩ := fromCompressed2_of hS
  simp only [Go.ret_bind, e]
  cases e1 : (g1 .amd64).fromCompressed pk with
  | none => rfl
  | some p =>
    obtain ⟨P, hP, -⟩ := fromCompressed1_some hp e1
    exact absurd hP (h P)

/-- `Verify` on well-formed input is the pairing check on the points. -/
theorem verify_good {H : Bytes → Bytes} {pk m s : Bytes} {q : P3 Fe2} (hh : hashPoint .amd64 H m = .ret (some q))
    (hp : pk.length = 48) (hm : m ≠ []) (hs : s.length = 96) {A : Spec.E1.Point} (hA : Encodes1 pk A) {S : Spec.E2.Point} (hS : Encodes2 s S) :
    ∃ a p, sem1.Rep a A ∧ sem2.Rep p S ∧ verify .amd64 H pk m s = .ret (validatePairing .amd64 a q (g1 .amd64).gen p) := by
  rw [verify, if_neg (by rw [hp, hs]; simpa using hm), hh]
  obtain ⟨p, e, hr⟩ := fromCompressed2_of hS
  obtain ⟨a, e1, hr1⟩ := fromCompressed1_of hA
  refine ⟨a, p, hr1, hr, ?_⟩
  simp only [Go.ret_bind, e, e1, deref, Go.pure_eq]

theorem check_nil (bd : Build) : check bd [] = true := by
  rw [check, calculate, if_pos List.length_nil]
  decide +kernel

/-- with the infinity signature and the infinity key (or an infinity hash) no pair reaches the pairing. -/
theorem validatePairing_inf {p1 p3 : P3 Fe} {p2 p4 : P3 Fe2} (h1 : (g1 .amd64).isInf p1 = true ∨ (g2 .amd64).isInf p2 = true)
    (h4 : (g2 .amd64).isInf p4 = true) : validatePairing .amd64 p1 p2 p3 p4 = true := by
  have e1 : addPair .amd64 [] p1 p2 = [] := by
    rw [addPair, if_neg]
    rw [Bool.not_eq_true', Bool.not_eq_false, Bool.or_eq_true]
    exact h1
  have e2 : ∀ ps, addPairInv .amd64 ps p3 p4 = ps := by
    intro ps
    rw [addPairInv, addPair, if_neg]
    rw [Bool.not_eq_true', Bool.not_eq_false, Bool.or_eq_true]
    exact .inr h4
  rw [validatePairing, e1, e2, check_nil]

/-- the 48-byte encoding of the point at infinity of G1. -/
theorem compress1_zero : Spec.compress1 0 = 0xc0 :: List.replicate 47 0 := rfl

/-- the 96-byte encoding of the point at infinity of G2. -/
theorem compress2_zero : Spec.compress2 0 = 0xc0 :: List.replicate 95 0 := rfl

theorem rzero1 (n : ℕ) : n • (0 : Spec.E1.Point) = 0 := nsmul_zero n
theorem rzero2 (n : ℕ) : n • (0 : Spec.E2.Point) = 0 := nsmul_zero n

theorem encodes1_zero : Encodes1 (0xc0 :: List.replicate 47 0) 0 := by
  unfold Encodes1
  rw [rzero1, compress1_zero]
  exact ⟨rfl, rfl⟩

theorem encodes2_zero : Encodes2 (0xc0 :: List.replicate 95 0) 0 := by
  unfold Encodes2
  rw [rzero2, compress2_zero]
  exact ⟨rfl, [], (List.append_nil _).symm⟩

theorem verify_infinity {H : Bytes → Bytes} {m : Bytes} {q : P3 Fe2} (hh : hashPoint .amd64 H m = .ret (some q)) (hm : m ≠ []) :
    verify .amd64 H (0xc0 :: List.replicate 47 0) m (0xc0 :: List.replicate 95 0) = .ret true := by
  obtain ⟨a, p, ha, hp, e⟩ := verify_good hh (by decide) hm (by decide) encodes1_zero encodes2_zero
  rw [e, validatePairing_inf (.inl ((isInf_iff ha).mpr rfl)) ((isInf_iff hp).mpr rfl)]

theorem verify_unprefixed {H : Bytes → Bytes} {pk m : Bytes} (hp : pk.length = 48) (hm : m ≠ [])
    (h1 : ¬ basicDst <+: m) (h2 : ¬ augDst <+: m) {A : Spec.E1.Point} (hA : Encodes1 pk A) :
    verify .amd64 H pk m (0xc0 :: List.replicate 95 0) = .ret true := by
  have hh : hashPoint .amd64 H m = .ret (some (g2 .amd64).blank) := by
    rw [hashPoint, if_neg (by rw [List.isPrefixOf_iff_prefix]; exact h1), if_neg (by rw [List.isPrefixOf_iff_prefix]; exact h2)]
  obtain ⟨a, p, ha, hp, e⟩ := verify_good hh hp hm (by decide) hA encodes2_zero
  rw [e, validatePairing_inf (.inr ((isInf_iff (S := sem2) rep_blank).mpr rfl)) ((isInf_iff hp).mpr rfl)]

end Verif.Bls
