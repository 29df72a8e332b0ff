import Verif.SM2.Sem

/-!
# The point formulas of sm2_std.go compute the group law (lemmas)
-/

namespace Verif.SM2

open Verif.EC WeierstrassCurve

/-- Jacobian limb vectors that stand for a point. -/
structure JFe (p : Jac) (Q : Pt) : Prop where
  x : p.x.Ok
  y : p.y.Ok
  z : p.z.Ok
  rep : JRep c.W (den p.x) (den p.y) (den p.z) Q

theorem JFe.z_iff {p : Jac} {Q : Pt} (h : JFe p Q) : den p.z = 0 ↔ Q = 0 := h.rep.zero_iff

theorem pointDouble_tri {p : Jac} {Q : Pt} (h : JFe p Q) : (pointDouble p).Tri (JFe · (Q + Q)) := by
  have hx : IsFe p.x (den p.x) := ⟨h.x, rfl⟩
  have hy : IsFe p.y (den p.y) := ⟨h.y, rfl⟩
  have hz : IsFe p.z (den p.z) := ⟨h.z, rfl⟩
  unfold pointDouble
  refine Tri.bind (square_tri hx) fun x2 hx2 => ?_
  refine Tri.bind (square_tri hy) fun y2 hy2 => ?_
  refine Tri.bind (square_tri hz) fun z2 hz2 => ?_
  refine Tri.bind (square_tri hz) fun z4 hz4 => ?_
  refine Tri.bind (mul_tri hz4 hz) fun z4 hz4 => ?_
  refine Tri.bind (mul_tri hz4 hz) fun z4 hz4 => ?_
  refine Tri.bind (square_tri hy) fun y4 hy4 => ?_
  refine Tri.bind (mul_tri hy4 hy) fun y4 hy4 => ?_
  refine Tri.bind (mul_tri hy4 hy) fun y4 hy4 => ?_
  refine Tri.bind (scalar_tri hy4 (by norm_num)) fun y4 hy4 => ?_
  refine Tri.bind (mul_tri hx hy2) fun s hs => ?_
  refine Tri.bind (scalar_tri hs (by norm_num)) fun s hs => ?_
  refine Tri.bind (scalar_tri hx2 (by norm_num)) fun m hm => ?_
  refine Tri.bind (mul_tri feA_isFe hz4) fun az4 haz4 => ?_
  have hm' := add_isFe hm haz4
  refine Tri.bind (square_tri hm') fun m2 hm2 => ?_
  refine Tri.bind (square_tri (add_isFe hy hz)) fun z3 hz3 => ?_
  have hz3' := sub_isFe (sub_isFe hz3 hz2) hy2
  have hx3 := sub_isFe (sub_isFe hm2 hs) hs
  refine Tri.bind (mul_tri (sub_isFe hs hx3) hm') fun y3 hy3 => ?_
  have hy3' := sub_isFe hy3 hy4
  refine Tri.pure ⟨hx3.1, hy3'.1, hz3'.1, ?_⟩
  refine jdbl good.two h.rep rfl rfl ?_ ?_ ?_
  · rw [hx3.2]; push_cast; ring
  · rw [hy3'.2, hx3.2]; push_cast; ring
  · rw [hz3'.2]; push_cast; ring

/-- mixed addition; the second operand is the affine point `R`. -/
theorem pointAddMixed_tri {p : Jac} {x y : Fe} {Q R : Pt} (h : JFe p Q) (hR : JFe ⟨x, y, factor 1⟩ R)
    (hQ0 : Q ≠ 0) (hne : Q ≠ R) : (pointAddMixed p x y).Tri (JFe · (Q + R)) := by
  have hx1 : IsFe p.x (den p.x) := ⟨h.x, rfl⟩
  have hy1 : IsFe p.y (den p.y) := ⟨h.y, rfl⟩
  have hz1 : IsFe p.z (den p.z) := ⟨h.z, rfl⟩
  have hx2 : IsFe x (den x) := ⟨hR.x, rfl⟩
  have hy2 : IsFe y (den y) := ⟨hR.y, rfl⟩
  have hZ1 : den p.z ≠ 0 := fun e => hQ0 (h.z_iff.mp e)
  have hone : den (factor 1) = 1 := by
    have := (factor_isFe (k := 1) (by norm_num)).2
    rw [this]; simp
  have r2 := hR.rep
  dsimp only at r2
  rw [hone] at r2
  unfold pointAddMixed
  refine Tri.bind (square_tri hz1) fun zz hzz => ?_
  refine Tri.bind (mul_tri hx2 hzz) fun u2 hu2 => ?_
  refine Tri.bind (mul_tri hz1 hzz) fun zzz hzzz => ?_
  refine Tri.bind (mul_tri hy2 hzzz) fun s2 hs2 => ?_
  have hh := sub_isFe hu2 hx1
  refine Tri.bind (square_tri (add_isFe hh hh)) fun i hi => ?_
  refine Tri.bind (mul_tri hh hi) fun j hj => ?_
  have hr := sub_isFe hs2 hy1
  have hr' := add_isFe hr hr
  refine Tri.bind (mul_tri hx1 hi) fun v hv => ?_
  refine Tri.bind (mul_tri (add_isFe hz1 hz1) hh) fun zo hzo => ?_
  refine Tri.bind (square_tri hr') fun rr hrr => ?_
  have hxo := sub_isFe (sub_isFe (sub_isFe hrr hj) hv) hv
  refine Tri.bind (mul_tri (sub_isFe hv hxo) hr') fun yo hyo => ?_
  refine Tri.bind (mul_tri hy1 hj) fun t ht => ?_
  have hyo' := sub_isFe (sub_isFe hyo ht) ht
  refine Tri.pure ⟨hxo.1, hyo'.1, hzo.1, ?_⟩
  have hj := jadd h.rep r2 hZ1 one_ne_zero (U1 := den p.x) (U2 := den x * den p.z ^ 2) (S1 := den p.y)
    (S2 := den y * den p.z ^ 3) (by ring) rfl (by ring) rfl rfl rfl
    (by
      rintro ⟨ha, hb⟩
      apply hne
      refine jrep_eq h.rep r2 hZ1 one_ne_zero ?_ ?_
      · linear_combination -ha
      · linear_combination -hb) rfl rfl rfl
  have hs := hj.scale good.two
  refine JRep.congr ?_ ?_ ?_ hs
  · rw [hxo.2]; ring
  · rw [hyo'.2]; ring
  · rw [hzo.2]; ring

/-- `sm2_stdPointAdd` on different points, or when one of them is infinity. -/
theorem pointAdd_tri {p q : Jac} {Q R : Pt} (h1 : JFe p Q) (h2 : JFe q R) (hne : Q = R → Q = 0) :
    (pointAdd p q).Tri (JFe · (Q + R)) := by
  have hx1 : IsFe p.x (den p.x) := ⟨h1.x, rfl⟩
  have hy1 : IsFe p.y (den p.y) := ⟨h1.y, rfl⟩
  have hz1 : IsFe p.z (den p.z) := ⟨h1.z, rfl⟩
  have hx2 : IsFe q.x (den q.x) := ⟨h2.x, rfl⟩
  have hy2 : IsFe q.y (den q.y) := ⟨h2.y, rfl⟩
  have hz2 : IsFe q.z (den q.z) := ⟨h2.z, rfl⟩
  unfold pointAdd
  by_cases hp : toBig p.z = 0
  · rw [if_pos hp]
    have : Q = 0 := h1.z_iff.mp ((toBig_zero_iff _).mp hp)
    rw [this, zero_add]; exact Tri.pure h2
  rw [if_neg hp]
  by_cases hq : toBig q.z = 0
  · rw [if_pos hq]
    have : R = 0 := h2.z_iff.mp ((toBig_zero_iff _).mp hq)
    rw [this, add_zero]; exact Tri.pure h1
  rw [if_neg hq]
  have hZ1 : den p.z ≠ 0 := fun e => hp ((toBig_zero_iff _).mpr e)
  have hZ2 : den q.z ≠ 0 := fun e => hq ((toBig_zero_iff _).mpr e)
  refine Tri.bind (square_tri hz1) fun z12 hz12 => ?_
  refine Tri.bind (square_tri hz2) fun z22 hz22 => ?_
  refine Tri.bind (mul_tri hz12 hz1) fun z13 hz13 => ?_
  refine Tri.bind (mul_tri hz22 hz2) fun z23 hz23 => ?_
  refine Tri.bind (mul_tri hx1 hz22) fun u1 hu1 => ?_
  refine Tri.bind (mul_tri hx2 hz12) fun u2 hu2 => ?_
  refine Tri.bind (mul_tri hy1 hz23) fun s1 hs1 => ?_
  refine Tri.bind (mul_tri hy2 hz13) fun s2 hs2 => ?_
  have hneq : ¬ (toBig u1 = toBig u2 ∧ toBig s1 = toBig s2) := by
    rintro ⟨e1, e2⟩
    rw [toBig_eq_iff, hu1.2, hu2.2] at e1
    rw [toBig_eq_iff, hs1.2, hs2.2] at e2
    have := jrep_eq h1.rep h2.rep hZ1 hZ2 e1 (by linear_combination e2)
    exact hZ1 (h1.z_iff.mpr (hne this))
  simp only [hneq, if_false]
  refine Tri.bind (Q := fun p' => p' = p) (Tri.pure rfl) fun p' hp' => ?_
  subst hp'
  have hh := sub_isFe hu2 hu1
  have hr := sub_isFe hs2 hs1
  refine Tri.bind (square_tri hr) fun r2 hr2 => ?_
  refine Tri.bind (square_tri hh) fun h2' hh2 => ?_
  refine Tri.bind (mul_tri hh2 hh) fun t1 ht1 => ?_
  refine Tri.bind (mul_tri hu1 hh2) fun t2 ht2 => ?_
  refine Tri.bind (scalar_tri ht2 (by norm_num)) fun t3 ht3 => ?_
  have hx3 := sub_isFe (sub_isFe hr2 ht1) ht3
  refine Tri.bind (mul_tri hu1 hh2) fun t4 ht4 => ?_
  refine Tri.bind (mul_tri hr (sub_isFe ht4 hx3)) fun y3 hy3 => ?_
  refine Tri.bind (mul_tri hh2 hh) fun t5 ht5 => ?_
  refine Tri.bind (mul_tri ht5 hs1) fun t6 ht6 => ?_
  have hy3' := sub_isFe hy3 ht6
  refine Tri.bind (mul_tri hz1 hz2) fun z3 hz3 => ?_
  refine Tri.bind (mul_tri hz3 hh) fun z3' hz3' => ?_
  refine Tri.pure ⟨hx3.1, hy3'.1, hz3'.1, ?_⟩
  refine jadd h1.rep h2.rep hZ1 hZ2 (U1 := den p'.x * den q.z ^ 2) (U2 := den q.x * den p'.z ^ 2)
    (S1 := den p'.y * den q.z ^ 3) (S2 := den q.y * den p'.z ^ 3) rfl rfl rfl rfl rfl rfl ?_ ?_ ?_ ?_
  · rintro ⟨ha, hb⟩
    apply hneq
    rw [toBig_eq_iff, hu1.2, hu2.2, toBig_eq_iff, hs1.2, hs2.2]
    constructor
    · linear_combination -ha
    · linear_combination -hb
  · rw [hx3.2]; push_cast; ring
  · rw [hy3'.2, hx3.2]; push_cast; ring
  · rw [hz3'.2]; ring

/-- `sm2_stdPointAdd` on equal points returns infinity. -/
theorem pointAdd_self_tri {p q : Jac} {Q : Pt} (h1 : JFe p Q) (h2 : JFe q Q) :
    (pointAdd p q).Tri (JFe · 0) := by
  have hx1 : IsFe p.x (den p.x) := ⟨h1.x, rfl⟩
  have hy1 : IsFe p.y (den p.y) := ⟨h1.y, rfl⟩
  have hz1 : IsFe p.z (den p.z) := ⟨h1.z, rfl⟩
  have hx2 : IsFe q.x (den q.x) := ⟨h2.x, rfl⟩
  have hy2 : IsFe q.y (den q.y) := ⟨h2.y, rfl⟩
  have hz2 : IsFe q.z (den q.z) := ⟨h2.z, rfl⟩
  by_cases hQ : Q = 0
  · have := pointAdd_tri h1 h2 (fun _ => hQ)
    rwa [hQ, add_zero] at this
  have hZ1 : den p.z ≠ 0 := fun e => hQ (h1.z_iff.mp e)
  have hZ2 : den q.z ≠ 0 := fun e => hQ (h2.z_iff.mp e)
  have hp : ¬ toBig p.z = 0 := fun e => hZ1 ((toBig_zero_iff _).mp e)
  have hq : ¬ toBig q.z = 0 := fun e => hZ2 ((toBig_zero_iff _).mp e)
  have he := (JRep.same h1.rep h2.rep).resolve_right hQ
  unfold pointAdd
  rw [if_neg hp, if_neg hq]
  refine Tri.bind (square_tri hz1) fun z12 hz12 => ?_
  refine Tri.bind (square_tri hz2) fun z22 hz22 => ?_
  refine Tri.bind (mul_tri hz12 hz1) fun z13 hz13 => ?_
  refine Tri.bind (mul_tri hz22 hz2) fun z23 hz23 => ?_
  refine Tri.bind (mul_tri hx1 hz22) fun u1 hu1 => ?_
  refine Tri.bind (mul_tri hx2 hz12) fun u2 hu2 => ?_
  refine Tri.bind (mul_tri hy1 hz23) fun s1 hs1 => ?_
  refine Tri.bind (mul_tri hy2 hz13) fun s2 hs2 => ?_
  have hneq : toBig u1 = toBig u2 ∧ toBig s1 = toBig s2 := by
    rw [toBig_eq_iff, hu1.2, hu2.2, toBig_eq_iff, hs1.2, hs2.2]
    exact ⟨he.1, by linear_combination he.2⟩
  simp only [hneq, and_self, if_true]
  refine Tri.bind (pointDouble_tri h1) fun p' hp' => ?_
  have hz' : IsFe p'.z (den p'.z) := ⟨hp'.z, rfl⟩
  have hh := sub_isFe hu2 hu1
  have hr := sub_isFe hs2 hs1
  refine Tri.bind (square_tri hr) fun r2 hr2 => ?_
  refine Tri.bind (square_tri hh) fun h2' hh2 => ?_
  refine Tri.bind (mul_tri hh2 hh) fun t1 ht1 => ?_
  refine Tri.bind (mul_tri hu1 hh2) fun t2 ht2 => ?_
  refine Tri.bind (scalar_tri ht2 (by norm_num)) fun t3 ht3 => ?_
  have hx3 := sub_isFe (sub_isFe hr2 ht1) ht3
  refine Tri.bind (mul_tri hu1 hh2) fun t4 ht4 => ?_
  refine Tri.bind (mul_tri hr (sub_isFe ht4 hx3)) fun y3 hy3 => ?_
  refine Tri.bind (mul_tri hh2 hh) fun t5 ht5 => ?_
  refine Tri.bind (mul_tri ht5 hs1) fun t6 ht6 => ?_
  have hy3' := sub_isFe hy3 ht6
  refine Tri.bind (mul_tri hz' hz2) fun z3 hz3 => ?_
  refine Tri.bind (mul_tri hz3 hh) fun z3' hz3' => ?_
  refine Tri.pure ⟨hx3.1, hy3'.1, hz3'.1, ?_⟩
  show den z3' = 0
  rw [hz3'.2]
  linear_combination (-(den p'.z * den q.z)) * he.1

theorem toAffine_tri {p : Jac} {Q : Pt} (h : JFe p Q) : (toAffine p).Tri (· = enc c Q) := by
  have hx : IsFe p.x (den p.x) := ⟨h.x, rfl⟩
  have hy : IsFe p.y (den p.y) := ⟨h.y, rfl⟩
  have hw : (((modInverse (toBig p.z) P).getD (toBig p.z) : Int) : F) = (den p.z)⁻¹ := by
    by_cases hz : den p.z = 0
    · have h0 := (toBig_zero_iff _).mpr hz
      have : modInverse 0 P = none := by decide +kernel
      rw [h0, this, hz]; simp
    · have hz' : ((toBig p.z : Int) : F) ≠ 0 := by rwa [toBig_cast]
      obtain ⟨w, hw, -, -, hwc⟩ := modInverse_prime hz'
      rw [P_eq, hw, Option.getD_some, hwc, toBig_cast]
  unfold toAffine
  have hzi := fromBig_isFe ((modInverse (toBig p.z) P).getD (toBig p.z))
  rw [hw] at hzi
  refine Tri.bind (square_tri hzi) fun zi2 hzi2 => ?_
  refine Tri.bind (mul_tri hx hzi2) fun xx hxx => ?_
  refine Tri.bind (mul_tri hzi hzi2) fun zi3 hzi3 => ?_
  refine Tri.bind (mul_tri hy hzi3) fun yy hyy => ?_
  refine Tri.pure ?_
  rw [toBig_eq, toBig_eq, hxx.2, hyy.2]
  cases hQ : Q with
  | zero =>
    have : den p.z = 0 := h.z_iff.mpr hQ
    rw [this]; simp [enc]
  | some x y hn =>
    have hr := h.rep
    rw [hQ] at hr
    obtain ⟨hz, hx, hy⟩ := hr
    simp only [enc]
    rw [hx, hy]
    congr 3 <;> field_simp

end Verif.SM2
