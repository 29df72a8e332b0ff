import Verif.Bls.HashIso

/-!
# Hashing to G2: `HashToCurve`
-/

namespace Verif.Bls

open Verif.EC WeierstrassCurve

/-! ## chord addition on any short Weierstrass curve -/

section
variable {α : Type} {g : Ops α} {F : Type} [Field F] [DecidableEq F] (S : Sem g F)

theorem addPt_chord {a b : F} {p q : P3 α} {P Q : (sw a b).Point} (px : S.Red p.x) (py : S.Red p.y)
    (pz : S.Red p.z) (qx : S.Red q.x) (qy : S.Red q.y) (qz : S.Red q.z)
    (pj : JRep (sw a b) (S.den p.x) (S.den p.y) (S.den p.z) P)
    (qj : JRep (sw a b) (S.den q.x) (S.den q.y) (S.den q.z) Q)
    (hz1 : S.den p.z ≠ 0) (hz2 : S.den q.z ≠ 0)
    (hx : S.den q.x * S.den p.z ^ 2 ≠ S.den p.x * S.den q.z ^ 2) :
    S.Red (g.addPt p q).x ∧ S.Red (g.addPt p q).y ∧ S.Red (g.addPt p q).z ∧
      JRep (sw a b) (S.den (g.addPt p q).x) (S.den (g.addPt p q).y) (S.den (g.addPt p q).z) (P + Q) := by
  have hi : ¬ g.isInf p = true := by rw [Ops.isInf, S.isZero pz]; exact hz1
  have hk : ¬ g.isInf q = true := by rw [Ops.isInf, S.isZero qz]; exact hz2
  rw [Ops.addPt, if_neg hi, if_neg hk]
  obtain ⟨h7, e7⟩ := S.square pz
  obtain ⟨h1, e1⟩ := S.mul qx h7
  obtain ⟨h2, e2⟩ := S.mul pz h7
  obtain ⟨h0, e0⟩ := S.mul qy h2
  obtain ⟨h8, e8⟩ := S.square qz
  obtain ⟨h3, e3⟩ := S.mul px h8
  obtain ⟨h4, e4⟩ := S.mul qz h8
  obtain ⟨h2', e2'⟩ := S.mul py h4
  simp only
  have eU1 : S.den (g.mul p.x (g.square q.z)) = S.den p.x * S.den q.z ^ 2 := by rw [e3, e8]; ring
  have eU2 : S.den (g.mul q.x (g.square p.z)) = S.den q.x * S.den p.z ^ 2 := by rw [e1, e7]; ring
  have eS1 : S.den (g.mul p.y (g.mul q.z (g.square q.z))) = S.den p.y * S.den q.z ^ 3 := by rw [e2', e4, e8]; ring
  have eS2 : S.den (g.mul q.y (g.mul p.z (g.square p.z))) = S.den q.y * S.den p.z ^ 3 := by rw [e0, e2, e7]; ring
  have hx' : ¬ g.equal (g.mul q.x (g.square p.z)) (g.mul p.x (g.square q.z)) = true := by
    rw [S.equal h1 h3, eU1, eU2]; exact hx
  rw [if_neg hx']
  obtain ⟨k1, f1⟩ := S.sub h1 h3
  obtain ⟨k2, f2⟩ := S.double k1
  obtain ⟨k3, f3⟩ := S.square k2
  obtain ⟨k4, f4⟩ := S.mul k1 k3
  obtain ⟨k5, f5⟩ := S.sub h0 h2'
  obtain ⟨k6, f6⟩ := S.double k5
  obtain ⟨k7, f7⟩ := S.square k6
  obtain ⟨k8, f8⟩ := S.sub k7 k4
  obtain ⟨k9, f9⟩ := S.mul h3 k3
  obtain ⟨k10, f10⟩ := S.double k9
  obtain ⟨k11, f11⟩ := S.sub k8 k10
  obtain ⟨k12, f12⟩ := S.sub k9 k11
  obtain ⟨k13, f13⟩ := S.mul h2' k4
  obtain ⟨k14, f14⟩ := S.double k13
  obtain ⟨k15, f15⟩ := S.mul k6 k12
  obtain ⟨k16, f16⟩ := S.sub k15 k14
  obtain ⟨k17, f17⟩ := S.add pz qz
  obtain ⟨k18, f18⟩ := S.square k17
  obtain ⟨k19, f19⟩ := S.sub k18 h7
  obtain ⟨k20, f20⟩ := S.sub k19 h8
  obtain ⟨k21, f21⟩ := S.mul k20 k1
  have hj := (jadd pj qj hz1 hz2 rfl rfl rfl rfl rfl rfl
      (by rintro ⟨h, -⟩; exact hx (sub_eq_zero.mp h)) rfl rfl rfl).scale S.two_ne
  refine ⟨k11, k16, k21, hj.congr ?_ ?_ ?_⟩
  · rw [f11, f10, f9, f8, f7, f6, f5, f4, f3, f2, f1, eU1, eU2, eS1, eS2]; ring
  · rw [f16, f15, f14, f13, f12, f11, f10, f9, f8, f7, f6, f5, f4, f3, f2, f1, eU1, eU2, eS1, eS2]; ring
  · rw [f21, f20, f19, f18, f17, f1, eU1, eU2, e7, e8]; ring

/-- the sum of affine points with the same x-coordinate and different y-coordinates. -/
theorem addPt_opposite {x0 y0 x1 y1 : α} (rx0 : S.Red x0) (ry0 : S.Red y0) (rx1 : S.Red x1) (ry1 : S.Red y1)
    (hx : S.den x0 = S.den x1) (hy : S.den y0 ≠ S.den y1) : g.addPt ⟨x0, y0, g.one⟩ ⟨x1, y1, g.one⟩ = g.infinity := by
  obtain ⟨o1, o2⟩ := S.one
  have hi : ∀ x y : α, ¬ g.isInf ⟨x, y, g.one⟩ = true := by
    intro x y
    rw [Ops.isInf, S.isZero o1, o2]
    exact one_ne_zero
  rw [Ops.addPt, if_neg (hi _ _), if_neg (hi _ _)]
  obtain ⟨h7, e7⟩ := S.square o1
  obtain ⟨h1, e1⟩ := S.mul rx1 h7
  obtain ⟨h2, e2⟩ := S.mul o1 h7
  obtain ⟨h0, e0⟩ := S.mul ry1 h2
  obtain ⟨h3, e3⟩ := S.mul rx0 h7
  obtain ⟨h4, e4⟩ := S.mul ry0 h2
  simp only
  rw [if_pos ((S.equal h1 h3).mpr (by rw [e1, e3, hx])), if_neg]
  rw [S.equal h0 h4, e0, e4, e2, e7, o2, one_mul, one_mul, mul_one, mul_one]
  exact Ne.symm hy

theorem affine_jrep {a b : F} {p : P3 α} {x y : F} {h : (sw a b).Nonsingular x y} (hx : S.Red p.x) (hy : S.Red p.y)
    (hz : S.Red p.z) (hj : JRep (sw a b) (S.den p.x) (S.den p.y) (S.den p.z) (.some x y h)) :
    S.Red (g.affine p).x ∧ S.den (g.affine p).x = x ∧ S.Red (g.affine p).y ∧ S.den (g.affine p).y = y ∧
      S.Red (g.affine p).z ∧ S.den (g.affine p).z = 1 := by
  obtain ⟨hz0, ex, ey⟩ := hj
  have hni : ¬ g.isInf p = true := by rw [Ops.isInf, S.isZero hz]; exact hz0
  rw [Ops.affine, if_neg hni]
  by_cases ha : g.isAffine p = true
  · rw [ha, Bool.not_true, if_neg Bool.false_ne_true]
    rw [Ops.isAffine, S.equal hz S.one.1, S.one.2] at ha
    rw [ha] at ex ey
    exact ⟨hx, by simpa using ex, hy, by simpa using ey, hz, ha⟩
  · rw [Bool.eq_false_iff.mpr ha, Bool.not_false, if_pos rfl]
    obtain ⟨h1, e1⟩ := S.inverse hz
    obtain ⟨h2, e2⟩ := S.square h1
    obtain ⟨h3, e3⟩ := S.mul hx h2
    obtain ⟨h4, e4⟩ := S.mul h1 h2
    obtain ⟨h5, e5⟩ := S.mul hy h4
    refine ⟨h3, ?_, h5, ?_, S.one.1, S.one.2⟩
    · rw [e3, e2, e1, ex]; field_simp
    · rw [e5, e4, e2, e1, ey]; field_simp

end

theorem sw_Δ {F : Type} [Field F] (a b : F) : (sw a b).Δ = -16 * (4 * a ^ 3 + 27 * b ^ 2) := by
  simp only [sw, WeierstrassCurve.Δ, WeierstrassCurve.b₂, WeierstrassCurve.b₄, WeierstrassCurve.b₆,
    WeierstrassCurve.b₈]
  ring

theorem E'_nonsing {x y : Fq2} (h : y ^ 2 = Spec.g' x) : Spec.E'.Nonsingular x y := by
  have hΔ : Spec.E'.Δ ≠ 0 := by
    rw [sw_Δ, isoA_eq, isoB_eq]
    have e : (-16 : Fq2) * (4 * (240 * Spec.I) ^ 3 + 27 * (1012 * (1 + Spec.I)) ^ 2) =
        -(((124416 : ℕ) : Fq2) * Spec.I) := by
      push_cast
      linear_combination (-16 * (4 * 240 ^ 3 * Spec.I + 27 * 1012 ^ 2)) * I_sq
    rw [e]
    exact neg_ne_zero.mpr (mul_ne_zero (nat_ne2 (by decide +kernel)) I_ne)
  exact (Affine.equation_iff_nonsingular_of_Δ_ne_zero hΔ).mp ((sw_equation _ _ _ _).mpr h)

theorem E2_nonsing {x y : Fq2} (h : y ^ 2 = x ^ 3 + Spec.b2) : Spec.E2.Nonsingular x y := sem2.nonsing h

theorem cofactor_eq : cofactorG2 = Spec.hEff := by decide +kernel

/-- the point `HashToCurve` computes from two field elements. -/
theorem mapToG2_spec {u0 u1 : Fe2} (h0 : Fe2.Red u0) (h1 : Fe2.Red u1) (n0 : Fe2.den u0 ≠ 0)
    (n1 : Fe2.den u1 ≠ 0) (hno : ∀ x y, ¬ (Spec.Sswu (Fe2.den u0) x y ∧ Spec.Sswu (Fe2.den u1) x y)) :
    ∃ P, Spec.HashesTo (Fe2.den u0) (Fe2.den u1) P ∧ sem2.Rep (mapToG2 .amd64 u0 u1) P := by
  obtain ⟨rx0, ry0, c0, s0⟩ := swuG2_spec h0
  obtain ⟨rx1, ry1, c1, s1⟩ := swuG2_spec h1
  have s0 := s0 n0
  have s1 := s1 n1
  simp only [mapToG2]
  generalize swuG2 .amd64 u0 = q0 at *
  generalize swuG2 .amd64 u1 = q1 at *
  obtain ⟨x0, y0⟩ := q0
  obtain ⟨x1, y1⟩ := q1
  simp only at rx0 ry0 c0 rx1 ry1 c1 s0 s1 ⊢
  have o1 : sem2.Red Fe2.one := sem2.one.1
  have o2 : sem2.den Fe2.one = 1 := sem2.one.2
  have m0 := E'_nonsing c0
  have m1 := E'_nonsing c1
  by_cases hne : Fe2.den x0 = Fe2.den x1
  · -- opposite points: the sum is infinity
    have hy : Fe2.den y0 ≠ Fe2.den y1 := by
      intro hy
      refine hno (Fe2.den x0) (Fe2.den y0) ⟨s0, ?_⟩
      rw [hne, hy]
      exact s1
    have hy' : Fe2.den y0 = -Fe2.den y1 := by
      have : Fe2.den y0 ^ 2 = Fe2.den y1 ^ 2 := by rw [c0, c1, hne]
      exact (sq_eq_sq_iff_eq_or_eq_neg.mp this).resolve_left hy
    have hsum : (.some _ _ m0 : Spec.E'.Point) + .some _ _ m1 = .zero := by
      have : (.some _ _ m0 : Spec.E'.Point) = -.some _ _ m1 := by
        rw [Affine.Point.neg_some, Affine.Point.some.injEq]
        refine ⟨hne, ?_⟩
        rw [hy', Affine.negY]
        simp [sw]
      rw [this]
      exact neg_add_cancel _
    have hadd : (g2 .amd64).addPt ⟨x0, y0, Fe2.one⟩ ⟨x1, y1, Fe2.one⟩ = (g2 .amd64).infinity :=
      addPt_opposite sem2 rx0 ry0 rx1 ry1 hne hy
    rw [hadd]
    refine ⟨Spec.hEff • (0 : Spec.E2.Point), ⟨_, _, _, _, m0, m1, 0, s0, s1, by rw [hsum]; rfl, rfl⟩, ?_⟩
    have hz : (g2 .amd64).isInf (g2 .amd64).infinity = true := (sem2.isZero sem2.zero.1).mpr sem2.zero.2
    have haff : (g2 .amd64).affine (g2 .amd64).infinity = (g2 .amd64).infinity := by rw [Ops.affine, if_pos hz]
    rw [haff]
    obtain ⟨i1, i2, -, -⟩ := isogenyG2_spec (x := Fe2.zero) (y := Fe2.one) sem2.zero.1 sem2.one.1
    have hP : sem2.Rep ⟨(isogenyG2 .amd64 Fe2.zero Fe2.one).1, (isogenyG2 .amd64 Fe2.zero Fe2.one).2, Fe2.zero⟩ 0 :=
      ⟨i1, i2, sem2.zero.1, sem2.zero.2⟩
    rw [← cofactor_eq]
    exact Sem.rep_affine_of (Sem.rep_mul hP _)
  obtain ⟨a1, a2, a3, aj⟩ := addPt_chord sem2 (p := ⟨x0, y0, Fe2.one⟩) (q := ⟨x1, y1, Fe2.one⟩)
    (P := .some _ _ m0) (Q := .some _ _ m1) rx0 ry0 o1 rx1 ry1 o1
    ⟨by rw [o2]; exact one_ne_zero, by rw [o2, one_pow, mul_one]; rfl, by rw [o2, one_pow, mul_one]; rfl⟩
    ⟨by rw [o2]; exact one_ne_zero, by rw [o2, one_pow, mul_one]; rfl, by rw [o2, one_pow, mul_one]; rfl⟩
    (by rw [o2]; exact one_ne_zero) (by rw [o2]; exact one_ne_zero)
    (by rw [o2, one_pow, mul_one, mul_one]; exact Ne.symm hne)
  obtain ⟨R, hR⟩ : ∃ R, (.some _ _ m0 : Spec.E'.Point) + .some _ _ m1 = R := ⟨_, rfl⟩
  rw [hR] at aj
  cases R with
  | zero =>
    exfalso
    have : (.some _ _ m0 : Spec.E'.Point) = -.some _ _ m1 := eq_neg_of_add_eq_zero_left hR
    rw [Affine.Point.neg_some, Affine.Point.some.injEq] at this
    exact hne this.1
  | some x y hn =>
    generalize (g2 .amd64).addPt ⟨x0, y0, Fe2.one⟩ ⟨x1, y1, Fe2.one⟩ = p at *
    obtain ⟨b1, f1, b2, f2, b3, f3⟩ := affine_jrep sem2 a1 a2 a3 aj
    generalize (g2 .amd64).affine p = p' at *
    obtain ⟨i1, i2, j1, j2⟩ := isogenyG2_spec b1 b2
    have f1' : Fe2.den p'.x = x := f1
    have f2' : Fe2.den p'.y = y := f2
    rw [f1'] at j1
    rw [f1', f2'] at j2
    generalize isogenyG2 .amd64 p'.x p'.y = i at *
    obtain ⟨ix, iy⟩ := i
    simp only at i1 i2 j1 j2 ⊢
    have hc : y ^ 2 = Spec.g' x := (sw_equation _ _ _ _).mp hn.1
    have hE := iso_on_curve hc
    have hP : sem2.Rep ⟨ix, iy, p'.z⟩ (.some (Spec.isoX x) (Spec.isoY x y) (E2_nonsing hE)) := by
      refine Sem.Rep.mk' i1 i2 b3 j1 j2 f3 ⟨one_ne_zero, ?_, ?_⟩ <;> simp
    refine ⟨Spec.hEff • (.some (Spec.isoX x) (Spec.isoY x y) (E2_nonsing hE) : Spec.E2.Point),
      ⟨_, _, _, _, m0, m1, _, s0, s1, by rw [hR]; exact ⟨E2_nonsing hE, rfl⟩, rfl⟩, ?_⟩
    rw [← cofactor_eq]
    exact Sem.rep_affine_of (Sem.rep_mul hP _)

/-! ## hash_to_field -/

theorem two256_spec : Fe.Red two256 ∧ Fe.den two256 = ((256 ^ 32 : ℕ) : Fq) := by
  refine ⟨by decide +kernel, ?_⟩
  rw [Fe.den_rat (c := two256) 1 (256 ^ 32) 0 (by decide +kernel) (by decide +kernel)]
  rw [Nat.cast_zero, Nat.cast_one, sub_zero, div_one]

theorem from64Bytes_spec {b : Bytes} (h : b.length = 64) :
    ∃ a, Fe.from64Bytes b = some a ∧ Fe.Red a ∧ Fe.den a = (beNat b : Fq) := by
  have hQ : 256 ^ 32 ≤ Q := by decide +kernel
  have l1 : (b.take 32).length = 32 := by rw [List.length_take]; omega
  have l2 : (b.drop 32).length = 32 := by rw [List.length_drop]; omega
  have pad : ∀ c : Bytes, c.length = 32 → (List.replicate 16 (0 : UInt8) ++ c).length = 48 ∧
      beNat (List.replicate 16 (0 : UInt8) ++ c) = beNat c ∧ beNat c < Q := by
    intro c hc
    refine ⟨by rw [List.length_append, List.length_replicate, hc], ?_, ?_⟩
    · rw [beNat_append, beNat_replicate_zero, Nat.zero_mul, Nat.zero_add]
    · have := beNat_lt c
      rw [hc] at this
      exact Nat.lt_of_lt_of_le this hQ
  obtain ⟨p1, p2, p3⟩ := pad _ l1
  obtain ⟨q1, q2, q3⟩ := pad _ l2
  obtain ⟨e0, h0, r0, d0⟩ := (Fe.fromBytes_spec (List.replicate 16 0 ++ b.take 32)).1 ⟨p1, by rw [p2]; exact p3⟩
  obtain ⟨e1, h1, r1, d1⟩ := (Fe.fromBytes_spec (List.replicate 16 0 ++ b.drop 32)).1 ⟨q1, by rw [q2]; exact q3⟩
  obtain ⟨k1, f1⟩ := Fe.den_mul r0.lz two256_spec.1.lz
  obtain ⟨k2, f2⟩ := Fe.den_add r1 k1
  refine ⟨_, ?_, k2, ?_⟩
  · rw [Fe.from64Bytes, if_neg (by rw [h]; decide), h0]
    simp only
    rw [h1]
  · rw [f2, f1, d0, d1, p2, q2, two256_spec.2]
    have : beNat b = beNat (b.take 32) * 256 ^ 32 + beNat (b.drop 32) := by
      conv_lhs => rw [← List.take_append_drop 32 b]
      rw [beNat_append, l2]
    rw [this, Nat.cast_add, Nat.cast_mul, add_comm]

theorem hashElems_spec (rand : Bytes) : ∀ n i, (i + n) * 64 ≤ rand.length →
    ∃ es, hashElems rand n i = some es ∧ es.length = n ∧
      ∀ k (hk : k < es.length), Fe.Red es[k] ∧ Fe.den es[k] = Spec.fieldElem rand (i + k) := by
  intro n
  induction n with
  | zero => intro i _; exact ⟨[], rfl, rfl, fun k hk => absurd hk (by simp)⟩
  | succ n ih =>
    intro i hl
    obtain ⟨es, h1, h2, h3⟩ := ih (i + 1) (by omega)
    have hlen : ((rand.drop (i * 64)).take 64).length = 64 := by
      rw [List.length_take, List.length_drop]; omega
    obtain ⟨e, h4, h5, h6⟩ := from64Bytes_spec hlen
    refine ⟨e :: es, ?_, by rw [List.length_cons, h2], ?_⟩
    · rw [hashElems, h4]; simp only; rw [h1]
    · intro k hk
      cases k with
      | zero =>
        rw [List.getElem_cons_zero]
        refine ⟨h5, ?_⟩
        rw [h6, Spec.fieldElem, Nat.add_zero, Nat.mul_comm 64 i]
      | succ k =>
        rw [List.getElem_cons_succ]
        have := h3 k (by rw [List.length_cons] at hk; omega)
        rw [show i + (k + 1) = i + 1 + k by omega]
        exact this

/-- `HashToCurve` up to the map: it returns `mapToG2` of the two elements of RFC 9380's `hash_to_field`. -/
theorem hashToG2_fields {H : Bytes → Bytes} (hH : ∀ m, (H m).length = 32) (msg dst : Bytes) (bd : Build) {u0 u1 : Fq2}
    (hu : Spec.hashToField H msg dst = some (u0, u1)) :
    ∃ a0 a1, hashToG2 bd H msg dst = .ret (some (mapToG2 bd a0 a1)) ∧ Fe2.Red a0 ∧ Fe2.Red a1 ∧
      Fe2.den a0 = u0 ∧ Fe2.den a1 = u1 := by
  unfold Spec.hashToField at hu
  obtain ⟨u, hu1, hu2⟩ := Option.map_eq_some_iff.mp hu
  obtain ⟨he, hl⟩ := expandMsg_spec hH (by decide) hu1
  obtain ⟨es, h1, h2, h3⟩ := hashElems_spec u 4 0 (by omega)
  rw [Prod.mk.injEq] at hu2
  match es, h2, h3 with
  | [a, b, c, d], _, h3 =>
    have k0 := h3 0 (by simp)
    have k1 := h3 1 (by simp)
    have k2 := h3 2 (by simp)
    have k3 := h3 3 (by simp)
    simp only [List.getElem_cons_zero, List.getElem_cons_succ, Nat.zero_add] at k0 k1 k2 k3
    refine ⟨⟨a, b⟩, ⟨c, d⟩, ?_, ⟨k0.1, k1.1⟩, ⟨k2.1, k3.1⟩, ?_, ?_⟩
    · have he' : hashToFp H msg dst 4 = .ret (some [a, b, c, d]) := by
        unfold hashToFp
        rw [show 4 * 64 = 256 from rfl, he, ← h1]
        rfl
      unfold hashToG2
      rw [he']
      rfl
    · rw [Fe2.den_mk, k0.2, k1.2]; exact hu2.1
    · rw [Fe2.den_mk, k2.2, k3.2]; exact hu2.2

end Verif.Bls
