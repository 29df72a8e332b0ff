import Verif.Bls.SuiteIdeal
import Verif.Props.Bls4

/-!
# BLS12-381: C102, C103 (pairings of point objects, the pairing engine)

Specification: `Verif/Bls/SuiteSpec.lean`, `Verif/Bls/KyberSpec.lean`, `Verif/Bls/PairingSpec.lean`, `Verif/Bls/GTSpec.lean`.
-/

namespace Verif.Props

open Verif.EC Verif.Bls Verif.Api Verif.Bls.Spec Verif.Bls.Suite

/-! ## C102: `ValidatePairing` and `Pair` on objects -/

theorem k1_eq : Suite.k1 = grp1 := grp1_eq
theorem k2_eq : Suite.k2 = grp2 := grp2_eq

/-- C102: every program that uses point objects of G1 and G2, elements of the target group, `ValidatePairing` and `Pair` shows its caller what
the machine of `Verif/Bls/SuiteSpec.lean` shows.  In that machine `ValidatePairing` negates its third argument. -/
theorem C102_programs (prog : List Suite.Op) : Suite.observe .amd64 prog = Suite.Spec.observe grp1 grp2 prog := by
  rw [← k1_eq, ← k2_eq]; exact Suite.observe_eq prog

/-- the objects some program can have produced. -/
def Reached (s : Suite.St) : Prop := ∃ prog obs, Suite.run .amd64 ⟨[], [], []⟩ prog = .ret (s, obs)

/-- object `k` of G1 is usable and holds the point `P`. -/
def Holds1 (s : Suite.St) (k : ℕ) (P : E1.Point) : Prop := ∃ p, s.h1[k]? = some (some p) ∧ Jac1 p P

/-- object `k` of G2 is usable and holds the point `T`. -/
def Holds2 (s : Suite.St) (k : ℕ) (T : E2.Point) : Prop := ∃ q, s.h2[k]? = some (some q) ∧ Jac2 q T

/-- object `k` of the target group is usable and holds `z`. -/
def HoldsT (s : Suite.St) (k : ℕ) (z : Fq12) : Prop := ∃ a, s.ht[k]? = some (some a) ∧ EncodesGT (Fe12.toBytes a) z

theorem reached_rel {s : Suite.St} (h : Reached s) : ∃ T, SRel s T := by
  obtain ⟨prog, obs, e⟩ := h
  have h := Suite.run_rel prog (s := ⟨[], [], []⟩) (T := ⟨[], [], []⟩) ⟨.nil, .nil, .nil, fun P hP => by cases hP⟩
  rw [e] at h
  rcases goRel_iff h with ⟨e1, e2⟩ | ⟨a, b, e1, e2, hab⟩
  · cases e1
  · rw [Go.ret.injEq] at e1
    subst e1
    exact ⟨b.1, hab.1⟩

theorem rep_unique {α : Type} {g : Ops α} {F : Type} [Field F] [DecidableEq F] {S : Sem g F} {p : P3 α} {P Q : S.W.Point}
    (h : S.Rep p P) (h' : S.Rep p Q) : P = Q := (Sem.eqPt_iff h h').mp ((Sem.eqPt_iff h h).mpr rfl)

theorem holds1_iff {s : Suite.St} {T : Suite.Spec.St} (h : SRel s T) (k : ℕ) (P : E1.Point) : Holds1 s k P ↔ Kyber.obj T.h1 k = .ret P := by
  constructor
  · rintro ⟨p, hk, hp⟩
    rcases obj1 h.h1 k with ⟨a, -⟩ | ⟨q, Q, a, b, hq⟩
    · rw [obj_of hk] at a; cases a
    · rw [obj_of hk, Go.ret.injEq] at a
      subst a
      rw [b]
      exact congrArg Go.ret (rep_unique hq ((jac1_iff _ _).mp hp))
  · intro hk
    rcases obj1 h.h1 k with ⟨-, b⟩ | ⟨q, Q, a, b, hq⟩
    · rw [hk] at b; cases b
    · rw [hk, Go.ret.injEq] at b
      subst b
      exact ⟨q, obj_lt a, (jac1_iff _ _).mpr hq⟩

theorem holds2_iff {s : Suite.St} {T : Suite.Spec.St} (h : SRel s T) (k : ℕ) (P : E2.Point) : Holds2 s k P ↔ Kyber.obj T.h2 k = .ret P := by
  constructor
  · rintro ⟨p, hk, hp⟩
    rcases obj2 h.h2 k with ⟨a, -⟩ | ⟨q, Q, a, b, hq⟩
    · rw [obj_of hk] at a; cases a
    · rw [obj_of hk, Go.ret.injEq] at a
      subst a
      rw [b]
      exact congrArg Go.ret (rep_unique hq ((jac2_iff _ _).mp hp))
  · intro hk
    rcases obj2 h.h2 k with ⟨-, b⟩ | ⟨q, Q, a, b, hq⟩
    · rw [hk] at b; cases b
    · rw [hk, Go.ret.injEq] at b
      subst b
      exact ⟨q, obj_lt a, (jac2_iff _ _).mpr hq⟩

theorem holdsT_iff {s : Suite.St} {T : Suite.Spec.St} (h : SRel s T) (k : ℕ) (z : Fq12) : HoldsT s k z ↔ Kyber.obj T.ht k = .ret z := by
  constructor
  · rintro ⟨a, hk, ha⟩
    rcases goRel_iff (t_obj h.ht k) with ⟨b, -⟩ | ⟨q, y, b, c, hq⟩
    · rw [obj_of hk] at b; cases b
    · rw [obj_of hk, Go.ret.injEq] at b
      subst b
      rw [c, hq.encodes.inj ha]
  · intro hk
    rcases goRel_iff (t_obj h.ht k) with ⟨-, c⟩ | ⟨q, y, b, c, hq⟩
    · rw [hk] at c; cases c
    · rw [hk, Go.ret.injEq] at c
      subst c
      exact ⟨q, obj_lt b, hq.encodes⟩

theorem step_ret {s : Suite.St} {T : Suite.Spec.St} (h : SRel s T) {o : Suite.Op} {T' : Suite.Spec.St} {ob : Kyber.Obs}
    (e : Suite.Spec.step k1 k2 T o = .ret (T', ob)) : ∃ s', Suite.step .amd64 s o = .ret (s', ob) ∧ SRel s' T' := by
  have hs := Suite.step_rel h o
  rw [e] at hs
  rcases goRel_iff hs with ⟨-, e2⟩ | ⟨a, b, e1, e2, hab⟩
  · cases e2
  · rw [Go.ret.injEq] at e2
    subst e2
    obtain ⟨a1, a2⟩ := a
    have : a2 = ob := hab.2
    subst this
    exact ⟨a1, e1, hab.1⟩

open Classical in
/-- C102, `ValidatePairing`, the part that holds.  Whatever was done before, if the first and the third argument are different objects the
answer is whether the two pairings are equal, and every object keeps its value, except the third argument.  Missing: the third
argument (it comes back negated, part of the statement here, see `C102_false_mutates`) and the case that the first and the third argument are the
same object (`C102_false_alias`). -/
theorem C102_validate_partial (s : Suite.St) (hs : Reached s) (p1 p2 p3 p4 : ℕ) (P1 P3 : E1.Point) (T2 T4 : E2.Point) (h1 : Holds1 s p1 P1)
    (h2 : Holds2 s p2 T2) (h3 : Holds1 s p3 P3) (h4 : Holds2 s p4 T4) (hne : p1 ≠ p3) :
    ∃ s', Suite.step .amd64 s (.validate p1 p2 p3 p4) = .ret (s', .bool (decide (pairing P1 T2 = pairing P3 T4))) ∧
      (∀ k P, k ≠ p3 → (Holds1 s' k P ↔ Holds1 s k P)) ∧ Holds1 s' p3 (-P3) ∧ (∀ k T, Holds2 s' k T ↔ Holds2 s k T) ∧
      ∀ k z, HoldsT s' k z ↔ HoldsT s k z := by
  obtain ⟨S, hS⟩ := reached_rel hs
  rw [holds1_iff hS] at h1 h3
  rw [holds2_iff hS] at h2 h4
  obtain ⟨E, a1, a2, a3, a4, a5⟩ := addPair_spec (E := ⟨S.h1, S.h2, []⟩) h1 (fun _ => h2)
  have h3' : Kyber.obj E.h1 p3 = .ret P3 := by rw [a2]; exact h3
  have h4' : Kyber.obj E.h2 p4 = .ret T4 := by rw [a3]; exact h4
  obtain ⟨F, b1, b2, b3, b4, b5⟩ := addPairInv_spec h3' (fun _ => h4') (fun p hp => by
    rcases a4 p hp with h | h
    · exact (List.not_mem_nil h).elim
    · rw [h]; exact hne)
  have e : Suite.Spec.step k1 k2 S (.validate p1 p2 p3 p4) = .ret (⟨F.h1, F.h2, S.ht⟩, .bool (decide (pairing P1 T2 = pairing P3 T4))) := by
    simp only [Suite.Spec.step]
    rw [a1, Go.ret_bind, b1, Go.ret_bind]
    have hiff : (Suite.Spec.product F = 1) = (pairing P1 T2 = pairing P3 T4) := by
      rw [b5, a5, product_nil, one_mul, mul_inv_eq_one₀ (pairing_ne _ _)]
    simp only [hiff]
  obtain ⟨s', c1, c2⟩ := step_ret hS e
  refine ⟨s', c1, ?_, ?_, ?_, ?_⟩
  · intro k P hk
    rw [holds1_iff c2, holds1_iff hS]
    dsimp only
    rw [b2, a2, obj_congr (List.getElem?_set_ne fun h => hk h.symm)]
  · rw [holds1_iff c2]
    dsimp only
    rw [b2, a2, obj_set h3, if_pos rfl]
  · intro k T
    rw [holds2_iff c2, holds2_iff hS]
    dsimp only
    rw [b3, a3]
  · intro k z
    rw [holdsT_iff c2, holdsT_iff hS]

/-- C102, `Pair`: a new element of the target group that holds the cube of the pairing; every other object keeps its value. -/
theorem C102_pair (s : Suite.St) (hs : Reached s) (p1 p2 : ℕ) (P : E1.Point) (T : E2.Point) (h1 : Holds1 s p1 P) (h2 : Holds2 s p2 T) :
    ∃ s', Suite.step .amd64 s (.pair p1 p2) = .ret (s', .unit) ∧ s'.ht.length = s.ht.length + 1 ∧ HoldsT s' s.ht.length (pairing P T ^ 3) ∧
      (∀ k Q, Holds1 s' k Q ↔ Holds1 s k Q) ∧ (∀ k Q, Holds2 s' k Q ↔ Holds2 s k Q) ∧
      ∀ k z, k < s.ht.length → (HoldsT s' k z ↔ HoldsT s k z) := by
  obtain ⟨S, hS⟩ := reached_rel hs
  rw [holds1_iff hS] at h1
  rw [holds2_iff hS] at h2
  obtain ⟨E, a1, a2, a3, a4, a5⟩ := addPair_spec (E := ⟨S.h1, S.h2, []⟩) h1 (fun _ => h2)
  have e : Suite.Spec.step k1 k2 S (.pair p1 p2) = .ret (⟨S.h1, S.h2, S.ht ++ [some (pairing P T ^ 3)]⟩, .unit) := by
    simp only [Suite.Spec.step]
    rw [a1, Go.ret_bind, a2, a3, a5, product_nil, one_mul]
  obtain ⟨s', c1, c2⟩ := step_ret hS e
  have hl : s.ht.length = S.ht.length := hS.ht.length_eq
  refine ⟨s', c1, ?_, ?_, ?_, ?_, ?_⟩
  · rw [hl, c2.ht.length_eq, List.length_append, List.length_singleton]
  · rw [holdsT_iff c2, hl]
    apply obj_of
    dsimp only
    rw [List.getElem?_append_right (le_refl _), Nat.sub_self]
    rfl
  · intro k Q; rw [holds1_iff c2, holds1_iff hS]
  · intro k Q; rw [holds2_iff c2, holds2_iff hS]
  · intro k z hk
    rw [holdsT_iff c2, holdsT_iff hS]
    dsimp only
    rw [hl] at hk
    rw [obj_congr (List.getElem?_append_left hk)]

theorem e_ne : (pairing gen1 gen2)⁻¹ ≠ 1 := fun h => pairing_gen (inv_eq_one.mp h)

theorem e_sq : (pairing gen1 gen2)⁻¹ * (pairing gen1 gen2)⁻¹ ≠ 1 := by
  rw [← mul_inv, ← pow_two]
  intro h
  have h2 := inv_eq_one.mp h
  have := (gens_zpow 2).mp (by exact_mod_cast h2)
  have hr : (2 : ℤ) < r := by decide +kernel
  have := Int.le_of_dvd (by norm_num) this
  omega

theorem neg1 : -gen1 ≠ 0 := fun h => gen1_ne (neg_eq_zero.mp h)

/-- C102 is false for the caller's points: `a` and `b` are equal before `ValidatePairing(a, q, b, q)` and different afterwards. -/
theorem C102_false_mutates :
    Suite.observe .amd64 [.g1 (.base 0), .g1 (.base 0), .g2 (.base 0), .g1 (.equal 0 1), .validate 0 0 1 0, .g1 (.equal 0 1)] =
      .ret [.unit, .unit, .unit, .bool true, .bool true, .bool false] := by
  rw [C102_programs]
  have e : (gen1 = -gen1) = False := eq_false fun h => by
    have h2 : (2 : ℕ) • gen1 = 0 := by rw [two_nsmul]; nth_rw 1 [h]; exact neg_add_cancel _
    have h4 : r • gen1 = gen1 := by
      have : r = 2 * (r / 2) + 1 := by decide +kernel
      rw [this, add_nsmul, one_nsmul, mul_comm, mul_nsmul', h2, nsmul_zero, zero_add]
    rw [gen1_order] at h4
    exact gen1_ne h4.symm
  simp [Suite.Spec.observe, Suite.Spec.run, Suite.Spec.step, Suite.Spec.addPair, Suite.Spec.addPairInv, Suite.Spec.product, Suite.Spec.val,
    Kyber.Spec.step, Kyber.obj, grp1, grp2, gen1_ne, gen2_ne, e, pairing_neg, pairing_ne]

/-- C102 is false for repeated calls: the second of two identical calls of `ValidatePairing` has another answer. -/
theorem C102_false_repeat :
    Suite.observe .amd64 [.g1 (.base 0), .g1 (.base 0), .g2 (.base 0), .validate 0 0 1 0, .validate 0 0 1 0] =
      .ret [.unit, .unit, .unit, .bool true, .bool false] := by
  rw [C102_programs]
  have e : pairing gen1 gen2 * pairing gen1 gen2 ≠ 1 := fun h => e_sq (by rw [← mul_inv, h, inv_one])
  simp [Suite.Spec.observe, Suite.Spec.run, Suite.Spec.step, Suite.Spec.addPair, Suite.Spec.addPairInv, Suite.Spec.product, Suite.Spec.val,
    Kyber.Spec.step, Kyber.obj, grp1, grp2, gen1_ne, gen2_ne, e, pairing_neg, pairing_ne]

/-- C102 is false when an object is passed twice: `ValidatePairing(a, q, a, q)` answers false. -/
theorem C102_false_alias :
    Suite.observe .amd64 [.g1 (.base 0), .g2 (.base 0), .validate 0 0 0 0] = .ret [.unit, .unit, .bool false] := by
  rw [C102_programs]
  have e := e_sq
  rw [← mul_inv] at e
  have e : pairing gen1 gen2 * pairing gen1 gen2 ≠ 1 := fun h => e (by rw [h, inv_one])
  simp [Suite.Spec.observe, Suite.Spec.run, Suite.Spec.step, Suite.Spec.addPair, Suite.Spec.addPairInv, Suite.Spec.product, Suite.Spec.val,
    Kyber.Spec.step, Kyber.obj, grp1, grp2, gen1_ne, gen2_ne, e, e_sq, pairing_neg]

/-! ## C103: the pairing engine -/

/-- the tables hold these points; an entry `none` is a nil pointer. -/
def Tables (h1 : List (Option (P3 Fe))) (h2 : List (Option (P3 Fe2))) (H1 : List (Option E1.Point)) (H2 : List (Option E2.Point)) : Prop :=
  List.Forall₂ (Option.Rel Jac1) h1 H1 ∧ List.Forall₂ (Option.Rel Jac2) h2 H2

theorem tables_rel {h1 : List (Option (P3 Fe))} {h2 : List (Option (P3 Fe2))} {H1 : List (Option E1.Point)} {H2 : List (Option E2.Point)}
    (h : Tables h1 h2 H1 H2) (hr : ∀ T, some T ∈ H2 → r • T = 0) : ERel ⟨h1, h2, []⟩ ⟨H1, H2, []⟩ := by
  refine ⟨h.1.imp ?_, h.2.imp ?_, rfl, hr, fun _ hp => (List.not_mem_nil hp).elim, fun _ hp => (List.not_mem_nil hp).elim⟩
  · rintro _ _ (⟨h⟩ | _)
    · exact .some ((jac1_iff _ _).mp h)
    · exact .none
  · rintro _ _ (⟨h⟩ | _)
    · exact .some ((jac2_iff _ _).mp h)
    · exact .none

/-- C103, all histories: an engine that starts with no pairs, on points in any representation that may be shared between pairs in any way, the
points of G2 in the subgroup of order `r`, shows its caller what the engine of `Verif/Bls/SuiteSpec.lean` shows.  That engine refers to
the objects, and adding an inverted pair negates the object. -/
theorem C103_histories (h1 : List (Option (P3 Fe))) (h2 : List (Option (P3 Fe2))) (H1 : List (Option E1.Point)) (H2 : List (Option E2.Point))
    (h : Tables h1 h2 H1 H2) (hr : ∀ T, some T ∈ H2 → r • T = 0) (prog : List EngOp) :
    (Suite.engRun .amd64 ⟨h1, h2, []⟩ prog >>= fun a => .ret a.2) = (Suite.Spec.engRun ⟨H1, H2, []⟩ prog >>= fun a => .ret a.2) := by
  rcases goRel_iff (engRun_rel prog (tables_rel h hr)) with ⟨e1, e2⟩ | ⟨a, b, e1, e2, hab⟩
  · rw [e1, e2]; rfl
  · rw [e1, e2, Go.ret_bind, Go.ret_bind, hab.2]

/-- C103, the part that holds of the engine one expects: if no point of G1 is handed to the engine twice, `Check` and `Result` are
about the product of the pairings added since the last `Reset` or `Result`, inverted for `AddPairInv`.  Missing: points that are
handed to the engine more than once, see `C103_false_shared`. -/
theorem C103_partial (h1 : List (Option (P3 Fe))) (h2 : List (Option (P3 Fe2))) (H1 : List (Option E1.Point)) (H2 : List (Option E2.Point))
    (h : Tables h1 h2 H1 H2) (hr : ∀ T, some T ∈ H2 → r • T = 0) (prog : List EngOp) (hn : (prog.filterMap Suite.Spec.first).Nodup) :
    (Suite.engRun .amd64 ⟨h1, h2, []⟩ prog >>= fun a => .ret a.2) = (Suite.Spec.idealRun H1 H2 1 prog >>= fun a => .ret a.2) := by
  rw [C103_histories h1 h2 H1 H2 h hr]
  exact goMap_eq (ideal_rel prog hn ⟨rfl, fun _ _ => rfl, fun _ hp => (List.not_mem_nil hp).elim, product_nil _ _⟩)

theorem tables_gen : Tables [some (g1 .amd64).gen] [some (g2 .amd64).gen] [some gen1] [some gen2] :=
  ⟨.cons (.some ((jac1_iff _ _).mpr rep_gen1)) .nil, .cons (.some ((jac2_iff _ _).mpr rep_gen2)) .nil⟩

theorem sub_gen : ∀ T, some T ∈ [some gen2] → r • T = 0 := by
  intro T hT
  rw [List.mem_singleton, Option.some.injEq] at hT
  subst hT
  exact gen2_order

/-- C103 is false for a point that is handed to the engine twice: the product of `e(P, T)` and `e(P, T)⁻¹` is one, and `Check` answers false,
because `AddPairInv` has negated the point of the first pair too. -/
theorem C103_false_shared :
    (Suite.engRun .amd64 ⟨[some (g1 .amd64).gen], [some (g2 .amd64).gen], []⟩ [.addPair 0 0, .addPairInv 0 0, .check] >>= fun a => .ret a.2) =
        .ret [.unit, .unit, .bool false] ∧
      (Suite.Spec.idealRun [some gen1] [some gen2] 1 [.addPair 0 0, .addPairInv 0 0, .check] >>= fun a => .ret a.2) =
        .ret [.unit, .unit, .bool true] := by
  rw [C103_histories _ _ _ _ tables_gen sub_gen]
  have e := e_sq
  rw [← mul_inv] at e
  have e : pairing gen1 gen2 * pairing gen1 gen2 ≠ 1 := fun h => e (by rw [h, inv_one])
  constructor
  · simp [Suite.Spec.engRun, Suite.Spec.engStep, Suite.Spec.addPair, Suite.Spec.addPairInv, Suite.Spec.product, Suite.Spec.val, Kyber.obj, gen1_ne,
      gen2_ne, e, e_sq, pairing_neg]
  · simp [Suite.Spec.idealRun, Suite.Spec.idealStep, Kyber.obj, gen1_ne, pairing_ne]

/-- the hypotheses of `C103_partial` are met, with two objects and an answer `true`: `e(G, T) · e(G', T)⁻¹ = 1` for two copies of `G`. -/
example : (Suite.engRun .amd64 ⟨[some (g1 .amd64).gen, some (g1 .amd64).gen], [some (g2 .amd64).gen], []⟩ [.addPair 0 0, .addPairInv 1 0, .check, .reset,
    .check] >>= fun a => .ret a.2) = .ret [.unit, .unit, .bool true, .unit, .bool true] := by
  rw [C103_partial _ _ [some gen1, some gen1] [some gen2] ⟨.cons (.some ((jac1_iff _ _).mpr rep_gen1)) tables_gen.1, tables_gen.2⟩ sub_gen _
    (by decide)]
  simp [Suite.Spec.idealRun, Suite.Spec.idealStep, Kyber.obj, gen1_ne, pairing_ne]

/-- a state that meets the hypotheses of `C102_validate_partial` and `C102_pair`. -/
example : ∃ s, Reached s ∧ Holds1 s 0 gen1 ∧ Holds1 s 1 gen1 ∧ Holds2 s 0 gen2 :=
  ⟨⟨[some (g1 .amd64).gen, some (g1 .amd64).gen], [some (g2 .amd64).gen], []⟩,
    ⟨[.g1 (.base 0), .g1 (.base 0), .g2 (.base 0)], [.unit, .unit, .unit], rfl⟩, ⟨_, rfl, (jac1_iff _ _).mpr rep_gen1⟩,
    ⟨_, rfl, (jac1_iff _ _).mpr rep_gen1⟩, ⟨_, rfl, (jac2_iff _ _).mpr rep_gen2⟩⟩

end Verif.Props
