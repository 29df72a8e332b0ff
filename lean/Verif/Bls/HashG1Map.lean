import Verif.Bls.HashG1Lemmas

/-!
# Hashing to G1: `isogenyMapG1`, `MapToCurve`, `EncodeToPoint`, `HashToCurve`
-/

set_option linter.constructorNameAsVariable false

namespace Verif.Bls

open Verif.EC WeierstrassCurve PolyNat

/-! ## Horner's rule -/

theorem foldr_poly (x : Fq) : ∀ ks : List ℕ, ks.foldr (fun (k : ℕ) (a : Fq) => a * x + (k : Fq)) 0 = Spec.poly x ks
  | [] => rfl
  | k :: ks => by rw [List.foldr_cons, foldr_poly x ks, Spec.poly]; ring

theorem fold_rel {A B C D : Type*} {R : A → B → Prop} {rel : C → D → Prop} {f : A → C → A} {g : B → D → B}
    (hf : ∀ a b c d, R a b → rel c d → R (f a c) (g b d)) :
    ∀ (cs : List C) (ds : List D) (a : A) (b : B), R a b → List.Forall₂ rel cs ds → R (cs.foldl f a) (ds.foldl g b) := by
  intro cs ds a b h h2
  induction h2 generalizing a b with
  | nil => exact h
  | cons hc _ ih => exact ih _ _ (hf _ _ _ _ h hc)

theorem horner_fold {x : Fe} (hx : Fe.Red x) (cs : List Fe) (ks : List ℕ) (acc : Fe) (ha : Fe.Red acc)
    (h : List.Forall₂ (fun c k => Fe.Red c ∧ Fe.den c = ((k : ℕ) : Fq)) cs ks) :
    Fe.Red (cs.foldl (fun acc k => Fe.add (Fe.mul acc x) k) acc) ∧
      Fe.den (cs.foldl (fun acc k => Fe.add (Fe.mul acc x) k) acc) =
        ks.foldl (fun (a : Fq) (k : ℕ) => a * Fe.den x + (k : Fq)) (Fe.den acc) := by
  refine fold_rel (R := fun a b => Fe.Red a ∧ Fe.den a = b) ?_ cs ks acc (Fe.den acc) ⟨ha, rfl⟩ h
  rintro a b c k ⟨h1, e1⟩ ⟨h2, e2⟩
  obtain ⟨h3, e3⟩ := Fe.rmul h1 hx
  obtain ⟨h4, e4⟩ := Fe.den_add h3 h2
  exact ⟨h4, by rw [e4, e3, e1, e2]⟩

theorem horner1_spec {x : Fe} (hx : Fe.Red x) {cs : List Fe} {ks : List ℕ} (h0 : ks ≠ [])
    (h : List.Forall₂ (fun c k => Fe.Red c ∧ Fe.den c = ((k : ℕ) : Fq)) cs ks.reverse) :
    Fe.Red (horner1 x cs) ∧ Fe.den (horner1 x cs) = Spec.poly (Fe.den x) ks := by
  have e : Spec.poly (Fe.den x) ks = ks.reverse.foldl (fun (a : Fq) (k : ℕ) => a * Fe.den x + (k : Fq)) 0 := by
    rw [List.foldl_reverse, foldr_poly]
  rw [e]
  have h0' : ks.reverse ≠ [] := by simpa using h0
  generalize ks.reverse = ls at *
  cases h with
  | nil => exact absurd rfl h0'
  | cons hc ht =>
    rename_i c k cs ks
    have := horner_fold hx cs ks c hc.1 ht
    rw [horner1, List.foldl_cons, zero_mul, zero_add, ← hc.2]
    exact this

theorem consts_of : ∀ {cs : List Fe} {ks : List ℕ}, cs.map Fe.val = ks.map (· * 2 ^ 384 % Q) →
    List.Forall₂ (fun c k => Fe.Red c ∧ Fe.den c = ((k : ℕ) : Fq)) cs ks
  | [], [], _ => .nil
  | [], _ :: _, h => by simp at h
  | _ :: _, [], h => by simp at h
  | c :: cs, k :: ks, h => by
    rw [List.map_cons, List.map_cons, List.cons.injEq] at h
    exact .cons (den_of ⟨by rw [h.1]; exact Nat.mod_lt _ Fe.Q_pos, h.1⟩) (consts_of h.2)

theorem iso1xNum_spec {x : Fe} (hx : Fe.Red x) :
    Fe.Red (horner1 x iso1xNum) ∧ Fe.den (horner1 x iso1xNum) = Spec.poly (Fe.den x) Spec.k1 := by
  rw [← poly_append_zeros (Fe.den x) 4 Spec.k1]
  exact horner1_spec hx (by decide) (consts_of (by decide +kernel))

theorem iso1xDen_spec {x : Fe} (hx : Fe.Red x) :
    Fe.Red (horner1 x iso1xDen) ∧ Fe.den (horner1 x iso1xDen) = Spec.poly (Fe.den x) Spec.k2 := by
  rw [← poly_append_zeros (Fe.den x) 5 Spec.k2]
  exact horner1_spec hx (by decide) (consts_of (by decide +kernel))

theorem iso1yNum_spec {x : Fe} (hx : Fe.Red x) :
    Fe.Red (horner1 x iso1yNum) ∧ Fe.den (horner1 x iso1yNum) = Spec.poly (Fe.den x) Spec.k3 :=
  horner1_spec hx (by decide) (consts_of (by decide +kernel))

theorem iso1yDen_spec {x : Fe} (hx : Fe.Red x) :
    Fe.Red (horner1 x iso1yDen) ∧ Fe.den (horner1 x iso1yDen) = Spec.poly (Fe.den x) Spec.k4 :=
  horner1_spec hx (by decide) (consts_of (by decide +kernel))

/-- `isogenyMapG1` evaluates the fractions of appendix E.2 (with `1/0 = 0`). -/
theorem isogenyG1_spec {x y : Fe} (hx : Fe.Red x) (hy : Fe.Red y) :
    ∃ a b, isogenyG1 x y = (a, b) ∧ Fe.Red a ∧ Fe.Red b ∧
      Fe.den a = Spec.poly (Fe.den x) Spec.k1 / Spec.poly (Fe.den x) Spec.k2 ∧
      Fe.den b = Fe.den y * Spec.poly (Fe.den x) Spec.k3 / Spec.poly (Fe.den x) Spec.k4 := by
  obtain ⟨h1, e1⟩ := iso1xNum_spec hx
  obtain ⟨h2, e2⟩ := iso1xDen_spec hx
  obtain ⟨h3, e3⟩ := iso1yNum_spec hx
  obtain ⟨h4, e4⟩ := iso1yDen_spec hx
  obtain ⟨h5, e5⟩ := Fe.rinv h2
  obtain ⟨h6, e6⟩ := Fe.rinv h4
  obtain ⟨h7, e7⟩ := Fe.rmul h1 h5
  obtain ⟨h8, e8⟩ := Fe.rmul h3 h6
  obtain ⟨h9, e9⟩ := Fe.rmul h8 hy
  simp only [isogenyG1]
  refine ⟨_, _, rfl, h7, h9, ?_, ?_⟩
  · rw [e7, e5, e1, e2]; exact (div_eq_mul_inv _ _).symm
  · rw [e9, e8, e6, e3, e4, div_eq_mul_inv]; ring

theorem exc_iff (x : Fq) : (Spec.poly x Spec.k2 = 0 ∨ Spec.poly x Spec.k4 = 0) ↔ Spec.poly x kk = 0 := by
  rw [k2_eq, k4_eq, pow_eq_zero_iff (by decide), pow_eq_zero_iff (by decide), or_self]

/-- the isogeny of the specification is total and single-valued. -/
theorem Iso1_exists (P : Spec.E1'.Point) : ∃ R, Spec.Iso1 P R := by
  cases P with
  | zero => exact ⟨0, rfl⟩
  | some x y h =>
    by_cases hk : Spec.poly x Spec.k2 = 0 ∨ Spec.poly x Spec.k4 = 0
    · refine ⟨0, ?_⟩
      rw [Spec.Iso1, if_pos hk]
    · have hc : y ^ 2 = Spec.g1' x := (sw_equation _ _ _ _).mp h.1
      have hn := sem1.nonsing (iso1_on_curve hc (fun k => hk ((exc_iff x).mpr k)))
      refine ⟨.some _ _ hn, ?_⟩
      rw [Spec.Iso1, if_neg hk]
      exact ⟨hn, rfl⟩

theorem Iso1_unique {P : Spec.E1'.Point} {R R' : Spec.E1.Point} (h : Spec.Iso1 P R) (h' : Spec.Iso1 P R') : R = R' := by
  cases P with
  | zero => exact h.trans h'.symm
  | some x y hn =>
    rw [Spec.Iso1] at h h'
    by_cases hk : Spec.poly x Spec.k2 = 0 ∨ Spec.poly x Spec.k4 = 0
    · rw [if_pos hk] at h h'; exact h.trans h'.symm
    · rw [if_neg hk] at h h'
      obtain ⟨_, e⟩ := h
      obtain ⟨_, e'⟩ := h'
      rw [e, e']

theorem Sswu1_unique {u : Fq} {P P' : Spec.E1'.Point} (h : Spec.Sswu1 u P) (h' : Spec.Sswu1 u P') : P = P' := by
  obtain ⟨x, y, hn, e, hx, hs⟩ := h
  obtain ⟨x', y', hn', e', hx', hs'⟩ := h'
  have ex : x = x' := hx.trans hx'.symm
  subst ex
  have hc : y ^ 2 = Spec.g1' x := (sw_equation _ _ _ _).mp hn.1
  have hc' : y' ^ 2 = Spec.g1' x := (sw_equation _ _ _ _).mp hn'.1
  have hy0 : y' ≠ 0 := by
    rintro rfl
    rw [zero_pow (by decide)] at hc'
    exact g1'_ne x hc'.symm
  rcases sq_eq_sq_iff_eq_or_eq_neg.mp (hc.trans hc'.symm) with h | h
  · subst h; rw [e, e']
  · exfalso
    apply neg_parity hy0
    rw [← h, hs, hs']

/-- the isogeny applied by the code to a point in affine form. -/
theorem iso_step {x y z : Fe} (hx : Fe.Red x) (hy : Fe.Red y) (hz : Fe.Red z) (z1 : Fe.den z = 1)
    {h : Spec.E1'.Nonsingular (Fe.den x) (Fe.den y)} (hk : ¬ Spec.Exceptional (.some _ _ h)) :
    ∃ T, Spec.Iso1 (.some _ _ h) T ∧ sem1.Rep ⟨(isogenyG1 x y).1, (isogenyG1 x y).2, z⟩ T := by
  obtain ⟨a, b, e, ra, rb, ea, eb⟩ := isogenyG1_spec hx hy
  rw [e]
  have hk' : ¬ (Spec.poly (Fe.den x) Spec.k2 = 0 ∨ Spec.poly (Fe.den x) Spec.k4 = 0) := hk
  have hc : Fe.den y ^ 2 = Spec.g1' (Fe.den x) := (sw_equation _ _ _ _).mp h.1
  have hn := sem1.nonsing (iso1_on_curve hc (fun k => hk' ((exc_iff _).mpr k)))
  refine ⟨.some _ _ hn, ?_, ?_⟩
  · rw [Spec.Iso1, if_neg hk']
    exact ⟨hn, rfl⟩
  · exact Sem.Rep.mk' ra rb hz ea eb z1 jrep_one

theorem iso_step' {x y z : Fe} (hx : Fe.Red x) (hy : Fe.Red y) (hz : Fe.Red z) (z1 : Fe.den z = 1)
    {h : Spec.E1'.Nonsingular (Fe.den x) (Fe.den y)} {P : Spec.E1'.Point} (hP : .some _ _ h = P) (hk : ¬ Spec.Exceptional P) :
    ∃ T, Spec.Iso1 P T ∧ sem1.Rep ⟨(isogenyG1 x y).1, (isogenyG1 x y).2, z⟩ T := by
  subst hP; exact iso_step hx hy hz z1 hk

theorem cofactor1_eq : cofactorEffG1 = Spec.hEff1 := by decide +kernel

/-- `MapToCurve` and `EncodeToPoint` from the field element on. -/
theorem encodeG1_spec {u : Fe} (hu : Fe.Red u) (hk : ∀ P, Spec.Sswu1 (Fe.den u) P → ¬ Spec.Exceptional P) :
    ∃ R, Spec.EncodesTo1 (Fe.den u) R ∧ sem1.Rep (encodeG1 .amd64 u) R := by
  obtain ⟨x, y, e, rx, ry, h, hs⟩ := swuG1_spec hu
  have hne := hk _ hs
  generalize hP : (Affine.Point.some (Fe.den x) (Fe.den y) h : Spec.E1'.Point) = P at *
  obtain ⟨T, h1, h2⟩ := iso_step' rx ry Fe.red_one Fe.den_one hP hne
  have h3 : sem1.Rep (encodeG1 .amd64 u) (Spec.hEff1 • T) := by
    rw [← cofactor1_eq]
    simp only [encodeG1, e, clearCofactorG1]
    exact Sem.rep_affine_of (Sem.rep_mul h2 _)
  exact ⟨_, ⟨P, T, hs, h1, rfl⟩, h3⟩

/-! ## the sum of two points of `E1'` -/

section
variable {α : Type} {g : Ops α} {F : Type} [Field F] [DecidableEq F] (S : Sem g F)

theorem addPt_cancel {p q : P3 α} (px : S.Red p.x) (py : S.Red p.y) (pz : S.Red p.z) (qx : S.Red q.x) (qy : S.Red q.y)
    (qz : S.Red q.z) (hz1 : S.den p.z = 1) (hz2 : S.den q.z = 1) (hx : S.den q.x = S.den p.x) (hy : S.den q.y ≠ S.den p.y) :
    g.addPt p q = g.infinity := by
  have hi : ¬ g.isInf p = true := by rw [Ops.isInf, S.isZero pz, hz1]; exact one_ne_zero
  have hk : ¬ g.isInf q = true := by rw [Ops.isInf, S.isZero qz, hz2]; exact one_ne_zero
  rw [Ops.addPt, if_neg hi, if_neg hk]
  obtain ⟨h7, e7⟩ := S.square pz
  obtain ⟨h1, e1⟩ := S.mul qx h7
  obtain ⟨h2, e2⟩ := S.mul pz h7
  obtain ⟨h0, e0⟩ := S.mul qy h2
  obtain ⟨h8, e8⟩ := S.square qz
  obtain ⟨h3, e3⟩ := S.mul px h8
  obtain ⟨h4, e4⟩ := S.mul qz h8
  obtain ⟨h2', e2'⟩ := S.mul py h4
  simp only
  rw [if_pos, if_neg]
  · rw [S.equal h0 h2', e0, e2, e7, e2', e4, e8, hz1, hz2, mul_one, mul_one, mul_one, mul_one]; exact hy
  · rw [S.equal h1 h3, e1, e7, e3, e8, hz1, hz2, mul_one, mul_one, mul_one, hx]

include S in
theorem affine_infinity : g.affine g.infinity = g.infinity := by
  have : g.isInf g.infinity = true := by rw [Ops.isInf]; exact (S.isZero S.zero.1).mpr S.zero.2
  rw [Ops.affine, if_pos this]

end

/-- `HashToCurve` from the field elements on. -/
theorem mapToG1_spec {u0 u1 : Fe} (h0 : Fe.Red u0) (h1 : Fe.Red u1)
    (hr : ∀ P0 P1, Spec.Sswu1 (Fe.den u0) P0 → Spec.Sswu1 (Fe.den u1) P1 → P0 ≠ P1 ∧ ¬ Spec.Exceptional (P0 + P1)) :
    ∃ R, Spec.HashesTo1 (Fe.den u0) (Fe.den u1) R ∧ sem1.Rep (mapToG1 .amd64 u0 u1) R := by
  obtain ⟨x0, y0, e0, rx0, ry0, m0, s0⟩ := swuG1_spec h0
  obtain ⟨x1, y1, e1, rx1, ry1, m1, s1⟩ := swuG1_spec h1
  obtain ⟨hne, hex⟩ := hr _ _ s0 s1
  simp only [mapToG1, e0, e1, clearCofactorG1]
  have o1 : sem1.Red Fe.one := sem1.one.1
  have o2 : sem1.den Fe.one = 1 := sem1.one.2
  by_cases hx : Fe.den x1 = Fe.den x0
  · have hy : Fe.den y1 ≠ Fe.den y0 := by
      intro hy
      apply hne
      simp only [hx, hy]
    have hc := addPt_cancel sem1 (p := ⟨x0, y0, Fe.one⟩) (q := ⟨x1, y1, Fe.one⟩) rx0 ry0 o1 rx1 ry1 o1 o2 o2 hx hy
    rw [hc, affine_infinity sem1]
    have c0 : Fe.den y0 ^ 2 = Spec.g1' (Fe.den x0) := (sw_equation _ _ _ _).mp m0.1
    have c1 : Fe.den y1 ^ 2 = Spec.g1' (Fe.den x1) := (sw_equation _ _ _ _).mp m1.1
    rw [hx] at c1
    have hy' : Fe.den y1 = -Fe.den y0 := (sq_eq_sq_iff_eq_or_eq_neg.mp (c1.trans c0.symm)).resolve_left hy
    have hsum : (.some _ _ m0 : Spec.E1'.Point) + .some _ _ m1 = 0 :=
      Affine.Point.add_of_Y_eq hx.symm (by rw [hy', hx]; simp [Affine.negY, sw])
    refine ⟨Spec.hEff1 • 0, ⟨_, _, 0, s0, s1, by rw [hsum]; exact rfl, rfl⟩, ?_⟩
    obtain ⟨a, b, e, ra, rb, -, -⟩ := isogenyG1_spec (x := (g1 .amd64).infinity.x) (y := (g1 .amd64).infinity.y) sem1.zero.1 sem1.one.1
    rw [e]
    have hz : sem1.Rep ⟨a, b, (g1 .amd64).infinity.z⟩ 0 := ⟨ra, rb, sem1.zero.1, sem1.zero.2⟩
    rw [← cofactor1_eq]
    exact Sem.rep_affine_of (Sem.rep_mul hz _)
  · obtain ⟨a1, a2, a3, aj⟩ := addPt_chord sem1 (p := ⟨x0, y0, Fe.one⟩) (q := ⟨x1, y1, Fe.one⟩)
      (P := .some _ _ m0) (Q := .some _ _ m1) rx0 ry0 o1 rx1 ry1 o1
      ⟨by rw [o2]; exact one_ne_zero, by rw [o2, one_pow, mul_one]; rfl, by rw [o2, one_pow, mul_one]; rfl⟩
      ⟨by rw [o2]; exact one_ne_zero, by rw [o2, one_pow, mul_one]; rfl, by rw [o2, one_pow, mul_one]; rfl⟩
      (by rw [o2]; exact one_ne_zero) (by rw [o2]; exact one_ne_zero)
      (by rw [o2, one_pow, mul_one, mul_one]; exact hx)
    obtain ⟨R, hR⟩ : ∃ R, (.some _ _ m0 : Spec.E1'.Point) + .some _ _ m1 = R := ⟨_, rfl⟩
    rw [hR] at aj hex
    cases R with
    | zero =>
      exfalso
      have : (.some _ _ m0 : Spec.E1'.Point) = -.some _ _ m1 := eq_neg_of_add_eq_zero_left hR
      rw [Affine.Point.neg_some, Affine.Point.some.injEq] at this
      exact hx this.1.symm
    | some x y hn =>
      generalize (g1 .amd64).addPt ⟨x0, y0, Fe.one⟩ ⟨x1, y1, Fe.one⟩ = p at *
      obtain ⟨b1, f1, b2, f2, b3, f3⟩ := affine_jrep sem1 a1 a2 a3 aj
      generalize (g1 .amd64).affine p = p' at *
      have f1' : Fe.den p'.x = x := f1
      have f2' : Fe.den p'.y = y := f2
      subst f1' f2'
      obtain ⟨T, hT, hrep⟩ := iso_step b1 b2 b3 f3 hex
      rw [← hR] at hT
      refine ⟨Spec.hEff1 • T, ⟨_, _, T, s0, s1, hT, rfl⟩, ?_⟩
      rw [← cofactor1_eq]
      exact Sem.rep_affine_of (Sem.rep_mul hrep _)

end Verif.Bls
