import Verif.Bls.GTLemmas
import Verif.Bls.KyberLemmas
import Verif.Bls.SuiteSpec

/-!
# The engine on objects, and programs that use the suite
-/

namespace Verif.Bls.Suite

open Verif Verif.EC Verif.Bls.Kyber WeierstrassCurve

/-! ## tables -/

section Table

variable {β γ : Type} {R : β → γ → Prop}

/-- two tables correspond. -/
abbrev TRel (R : β → γ → Prop) (h : List (Option β)) (H : List (Option γ)) : Prop := List.Forall₂ (Option.Rel R) h H

theorem t_obj {h : List (Option β)} {H : List (Option γ)} (hh : TRel R h H) (k : ℕ) : GoRel R (obj h k) (obj H k) := by
  rw [TRel, List.forall₂_iff_get] at hh
  unfold obj
  by_cases hk : k < h.length
  · have hk' : k < H.length := hh.1 ▸ hk
    rw [List.getElem?_eq_getElem hk, List.getElem?_eq_getElem hk']
    have := hh.2 k hk hk'
    simp only [List.get_eq_getElem] at this
    revert this
    generalize h[k] = x
    generalize H[k] = y
    intro this
    cases this with
    | some hr => exact hr
    | none => exact trivial
  · have hk' : ¬ k < H.length := hh.1 ▸ hk
    rw [List.getElem?_eq_none (by omega), List.getElem?_eq_none (by omega)]
    exact trivial

theorem t_set {h : List (Option β)} {H : List (Option γ)} (hh : TRel R h H) (k : ℕ) {x : Option β} {y : Option γ}
    (hx : Option.Rel R x y) : TRel R (h.set k x) (H.set k y) := by
  rw [TRel, List.forall₂_iff_get] at *
  refine ⟨by simp [hh.1], fun j h1 h2 => ?_⟩
  simp only [List.get_eq_getElem, List.getElem_set]
  simp only [List.length_set] at h1 h2
  split
  · exact hx
  · exact hh.2 _ h1 h2

theorem t_append {h : List (Option β)} {H : List (Option γ)} (hh : TRel R h H) {p : β} {P : γ} (hp : R p P) :
    TRel R (h ++ [some p]) (H ++ [some P]) :=
  List.rel_append hh (.cons (.some hp) .nil)

theorem obj_lt {h : List (Option β)} {k : ℕ} {p : β} (e : obj h k = .ret p) : h[k]? = some (some p) := by
  unfold obj at e
  split at e
  · next q hq => rw [Go.ret.injEq] at e; subst e; exact hq
  · cases e

theorem obj_of {h : List (Option β)} {k : ℕ} {p : β} (e : h[k]? = some (some p)) : obj h k = .ret p := by unfold obj; rw [e]

theorem obj_set {h : List (Option β)} {k i : ℕ} {p q : β} (e : obj h k = .ret p) :
    obj (h.set i (some q)) k = .ret (if k = i then q else p) := by
  have e := obj_lt e
  obtain ⟨hl, -⟩ := List.getElem?_eq_some_iff.mp e
  apply obj_of
  rw [List.getElem?_set]
  by_cases hk : i = k
  · subst hk; rw [if_pos rfl, if_pos rfl, if_pos hl]
  · rw [if_neg hk, if_neg (fun h => hk h.symm), e]

theorem set_obj {h : List (Option β)} {k : ℕ} {p : β} (e : obj h k = .ret p) : h.set k (some p) = h := by
  obtain ⟨hl, hg⟩ := List.getElem?_eq_some_iff.mp (obj_lt e)
  rw [← hg]
  exact List.set_getElem_self hl

theorem val_of [Zero β] {h : List (Option β)} {k : ℕ} {p : β} (e : obj h k = .ret p) : Spec.val h k = p := by
  unfold Spec.val; rw [obj_lt e]

end Table

theorem goRel_iff {β γ : Type} {R : β → γ → Prop} {x : Go β} {y : Go γ} (h : GoRel R x y) :
    (x = .panic ∧ y = .panic) ∨ ∃ a b, x = .ret a ∧ y = .ret b ∧ R a b := by
  cases x <;> cases y <;> simp only [GoRel] at h
  · exact .inr ⟨_, _, rfl, rfl, h⟩
  · exact .inl ⟨rfl, rfl⟩

/-- the object is held in affine form and is not infinity. -/
def AffAt {α : Type} {g : Ops α} {F : Type} [Field F] [DecidableEq F] (S : Sem g F) (h : Heap α) (H : List (Option S.W.Point)) (k : ℕ) : Prop :=
  ∃ p P, obj h k = .ret p ∧ obj H k = .ret P ∧ S.Rep p P ∧ S.den p.z = 1

section Aff

variable {α : Type} {g : Ops α} {F : Type} [Field F] [DecidableEq F] {S : Sem g F} {h : Heap α} {H : List (Option S.W.Point)}

theorem AffAt.set {k : ℕ} (hk : AffAt S h H k) (i : ℕ) {p : P3 α} {P : S.W.Point} (hp : S.Rep p P) (hz : k = i → S.den p.z = 1) :
    AffAt S (h.set i (some p)) (H.set i (some P)) k := by
  obtain ⟨q, T, e1, e2, hr, hq⟩ := hk
  refine ⟨_, _, obj_set e1, obj_set e2, ?_, ?_⟩
  · split
    · exact hp
    · exact hr
  · split
    · next h => exact hz h
    · exact hq

theorem affine_z {p : P3 α} {P : S.W.Point} (hp : S.Rep p P) (h0 : P ≠ 0) : S.den (g.affine p).z = 1 := by
  cases P with
  | zero => exact absurd rfl h0
  | some x y hn => exact (Sem.affine_some hp).2.2.2.2.2

theorem AffAt.affine {k : ℕ} (hk : AffAt S h H k) {i : ℕ} {p : P3 α} {P : S.W.Point} (ep : obj H i = .ret P) (hp : S.Rep p P)
    (h0 : P ≠ 0) : AffAt S (h.set i (some (g.affine p))) H k := by
  have := hk.set i (Sem.rep_affine_of hp) fun _ => affine_z hp h0
  rwa [set_obj ep] at this

theorem AffAt.here {i : ℕ} {p : P3 α} {P : S.W.Point} (e1 : obj h i = .ret p) (ep : obj H i = .ret P) (hp : S.Rep p P)
    (h0 : P ≠ 0) : AffAt S (h.set i (some (g.affine p))) H i := by
  have e := obj_set (i := i) (q := g.affine p) e1
  rw [if_pos rfl] at e
  exact ⟨_, P, e, ep, Sem.rep_affine_of hp, affine_z hp h0⟩

theorem AffAt.neg {k : ℕ} (hk : AffAt S h H k) {i : ℕ} {p : P3 α} {P : S.W.Point} (e1 : obj h i = .ret p) (hp : S.Rep p P) :
    AffAt S (h.set i (some (g.negPt p))) (H.set i (some (-P))) k := by
  refine hk.set i (Sem.rep_neg hp) ?_
  rintro rfl
  obtain ⟨q, -, e, -, -, hq⟩ := hk
  rw [e1, Go.ret.injEq] at e
  subst e
  exact hq

theorem affAt_some {k : ℕ} (hk : AffAt S h H k) : ∃ p x y hn, obj h k = .ret p ∧ obj H k = .ret (.some x y hn) ∧
    S.Red p.x ∧ S.Red p.y ∧ S.Red p.z ∧ S.den p.x = x ∧ S.den p.y = y ∧ S.den p.z = 1 := by
  obtain ⟨p, P, e1, e2, hr, hz⟩ := hk
  cases P with
  | zero =>
    have := (Sem.isInf_iff hr).mpr rfl
    rw [Ops.isInf, S.isZero hr.2.2.1, hz] at this
    exact absurd this one_ne_zero
  | some x y hn =>
    obtain ⟨h1, h2, h3, hz0, ex, ey⟩ := hr
    rw [hz] at ex ey
    exact ⟨p, x, y, hn, e1, e2, h1, h2, h3, by simpa using ex, by simpa using ey, hz⟩

end Aff

/-! ## the engine -/

/-- the two engines correspond. -/
structure ERel (e : Eng) (E : Spec.Eng) : Prop where
  h1 : HRel sem1 e.h1 E.h1
  h2 : HRel sem2 e.h2 E.h2
  pairs : e.pairs = E.pairs
  sub : ∀ T, some T ∈ E.h2 → Spec.r • T = 0
  aff1 : ∀ p ∈ e.pairs, AffAt sem1 e.h1 E.h1 p.1
  aff2 : ∀ p ∈ e.pairs, AffAt sem2 e.h2 E.h2 p.2

theorem obj1 {h : Heap Fe} {H : List (Option Bls.Spec.E1.Point)} (hh : HRel sem1 h H) (k : ℕ) :
    (obj h k = .panic ∧ obj H k = .panic) ∨ ∃ p P, obj h k = .ret p ∧ obj H k = .ret P ∧ sem1.Rep p P := goRel_iff (obj_rel hh k)

theorem obj2 {h : Heap Fe2} {H : List (Option Bls.Spec.E2.Point)} (hh : HRel sem2 h H) (k : ℕ) :
    (obj h k = .panic ∧ obj H k = .panic) ∨ ∃ p P, obj h k = .ret p ∧ obj H k = .ret P ∧ sem2.Rep p P := goRel_iff (obj_rel hh k)

theorem addPair_rel {e : Eng} {E : Spec.Eng} (h : ERel e E) (i j : ℕ) : GoRel ERel (addPair .amd64 e i j) (Spec.addPair E i j) := by
  unfold addPair Spec.addPair
  rcases obj1 h.h1 i with ⟨a1, b1⟩ | ⟨p, P, a1, b1, hp⟩
  · rw [a1, b1]; exact trivial
  · rw [a1, b1]
    simp only [Go.ret_bind]
    by_cases hP : P = 0
    · rw [if_pos hP, if_pos ((Sem.isInf_iff hp).mpr hP)]
      exact h
    · rw [if_neg hP, if_neg (fun hc => hP ((Sem.isInf_iff hp).mp hc))]
      rcases obj2 h.h2 j with ⟨a2, b2⟩ | ⟨q, T, a2, b2, hq⟩
      · rw [a2, b2]; exact trivial
      · rw [a2, b2]
        simp only [Go.ret_bind]
        by_cases hT : T = 0
        · rw [if_pos hT, if_pos ((Sem.isInf_iff hq).mpr hT)]
          exact h
        · rw [if_neg hT, if_neg (fun hc => hT ((Sem.isInf_iff hq).mp hc))]
          have hp' : sem1.Rep ((g1 .amd64).affine p) P := Sem.rep_affine_of hp
          have hq' : sem2.Rep ((g2 .amd64).affine q) T := Sem.rep_affine_of hq
          refine ⟨set_self_rel h.h1 i hp' b1, set_self_rel h.h2 j hq' b2, congrArg (· ++ [(i, j)]) h.pairs, h.sub, ?_, ?_⟩
          · intro x hx
            rcases List.mem_append.mp hx with hx | hx
            · exact (h.aff1 x hx).affine b1 hp hP
            · rw [List.mem_singleton] at hx; subst hx
              exact AffAt.here a1 b1 hp hP
          · intro x hx
            rcases List.mem_append.mp hx with hx | hx
            · exact (h.aff2 x hx).affine b2 hq hT
            · rw [List.mem_singleton] at hx; subst hx
              exact AffAt.here a2 b2 hq hT

theorem addPairInv_rel {e : Eng} {E : Spec.Eng} (h : ERel e E) (i j : ℕ) : GoRel ERel (addPairInv .amd64 e i j) (Spec.addPairInv E i j) := by
  unfold addPairInv Spec.addPairInv
  rcases obj1 h.h1 i with ⟨a1, b1⟩ | ⟨p, P, a1, b1, hp⟩
  · rw [a1, b1]; exact trivial
  · rw [a1, b1]
    simp only [Go.ret_bind]
    have hn : sem1.Rep ((g1 .amd64).negPt p) (-P) := Sem.rep_neg hp
    have h' : ERel ⟨e.h1.set i (some ((g1 .amd64).negPt p)), e.h2, e.pairs⟩ ⟨E.h1.set i (some (-P)), E.h2, E.pairs⟩ :=
      ⟨set_rel h.h1 i (.some hn), h.h2, h.pairs, h.sub, fun x hx => (h.aff1 x hx).neg a1 hp, h.aff2⟩
    exact addPair_rel h' i j

/-- the product over a part of the list. -/
noncomputable def prodPairs (E : Spec.Eng) (ps : List Ref) : Fq12 := (ps.map fun p => Bls.Spec.pairing (Spec.val E.h1 p.1) (Spec.val E.h2 p.2)).prod

theorem prodPairs_cons (E : Spec.Eng) (p : Ref) (ps : List Ref) :
    prodPairs E (p :: ps) = Bls.Spec.pairing (Spec.val E.h1 p.1) (Spec.val E.h2 p.2) * prodPairs E ps := by
  rw [prodPairs, List.map_cons, List.prod_cons, prodPairs]

theorem prodOf_cons (s : Ent) (ss : List Ent) : prodOf (s :: ss) = (millerAt blsX s ^ NN)⁻¹ * prodOf ss := by
  rw [prodOf, List.map_cons, List.prod_cons, prodOf]

theorem deref_is {e : Eng} {E : Spec.Eng} (h : ERel e E) (ps : List Ref) (hs : ∀ p ∈ ps, p ∈ e.pairs) :
    ∃ l ss, deref e ps = .ret l ∧ List.Forall₂ Good l ss ∧ prodOf ss = prodPairs E ps := by
  induction ps with
  | nil => exact ⟨[], [], rfl, .nil, by rw [prodOf_nil, prodPairs, List.map_nil, List.prod_nil]⟩
  | cons x ps ih =>
    obtain ⟨l, ss, e1, e2, e3⟩ := ih fun p hp => hs p (List.mem_cons_of_mem _ hp)
    obtain ⟨p, X, Y, hn, a1, b1, c1, c2, c3, d1, d2, d3⟩ := affAt_some (h.aff1 x (hs x List.mem_cons_self))
    obtain ⟨q, X', Y', hn', a1', b1', c1', c2', c3', d1', d2', d3'⟩ := affAt_some (h.aff2 x (hs x List.mem_cons_self))
    have hT0 : (Affine.Point.some X' Y' hn' : Bls.Spec.E2.Point) ≠ 0 := Affine.Point.some_ne_zero hn'
    have hT : Bls.Spec.r • (Affine.Point.some X' Y' hn' : Bls.Spec.E2.Point) = 0 := h.sub _ (mem_of_obj b1')
    refine ⟨(p, q) :: l, ((X, Y), .some X' Y' hn') :: ss, ?_, .cons ⟨⟨⟨c1, d1⟩, c2, d2⟩, ⟨hT0, hT⟩, ⟨X', Y', hn', ⟨c1', d1'⟩, ⟨c2', d2'⟩, rfl⟩, c3', d3'⟩ e2, ?_⟩
    · obtain ⟨x1, x2⟩ := x
      unfold deref
      dsimp only at a1 a1'
      rw [a1, Go.ret_bind, a1', Go.ret_bind, e1, Go.ret_bind]
    · have v1 : Spec.val E.h1 x.1 = .some X Y hn := val_of b1
      have v2 : Spec.val E.h2 x.2 = .some X' Y' hn' := val_of b1'
      rw [prodPairs_cons, prodOf_cons, v1, v2, pairing_some hn hT0, e3]

theorem calculate_rel {e : Eng} {E : Spec.Eng} (h : ERel e E) : ∃ f, calculate .amd64 e = .ret f ∧ Fe12.Is f (Spec.product E ^ 3) := by
  obtain ⟨l, ss, e1, e2, e3⟩ := deref_is h e.pairs fun _ hp => hp
  refine ⟨Bls.calculate .amd64 l, by unfold calculate; rw [e1]; rfl, ?_⟩
  have : prodOf ss = Spec.product E := by rw [e3, h.pairs]; rfl
  rw [← this]
  exact calculate_is e2

theorem prodPairs_pow_r (E : Spec.Eng) (ps : List Ref) : prodPairs E ps ^ Bls.Spec.r = 1 := by
  induction ps with
  | nil => rw [prodPairs, List.map_nil, List.prod_nil, one_pow]
  | cons p ps ih =>
    rw [prodPairs] at ih ⊢
    rw [List.map_cons, List.prod_cons, mul_pow, ih, pairing_pow_r, mul_one]

theorem product_pow_r (E : Spec.Eng) : Spec.product E ^ Bls.Spec.r = 1 := prodPairs_pow_r E E.pairs

theorem check_rel {e : Eng} {E : Spec.Eng} (h : ERel e E) : ∃ b, check .amd64 e = .ret b ∧ (b = true ↔ Spec.product E = 1) := by
  obtain ⟨f, e1, e2⟩ := calculate_rel h
  refine ⟨_, by unfold check; rw [e1]; rfl, ?_⟩
  rw [Fe12.Is.equal_iff Fe12.is_one e2, eq_comm, cube_one r_mod (product_pow_r E)]

theorem encGT_eq {a : Fe12} {z : Fq12} (h : Fe12.Is a z) : Fe12.toBytes a = Spec.encGT z := by
  have hex : ∃ s, Bls.Spec.EncodesGT s z := ⟨_, h.encodes⟩
  unfold Spec.encGT
  rw [dif_pos hex]
  exact h.encodes.unique hex.choose_spec

theorem reset_rel {e : Eng} {E : Spec.Eng} (h : ERel e E) : ERel (reset e) { E with pairs := [] } :=
  ⟨h.h1, h.h2, rfl, h.sub, fun _ hp => (List.not_mem_nil hp).elim, fun _ hp => (List.not_mem_nil hp).elim⟩

theorem engStep_rel {e : Eng} {E : Spec.Eng} (h : ERel e E) (o : EngOp) :
    GoRel (fun a b => ERel a.1 b.1 ∧ a.2 = b.2) (engStep .amd64 e o) (Spec.engStep E o) := by
  cases o with
  | addPair i j => exact (addPair_rel h i j).bind fun _ _ hr => ⟨hr, rfl⟩
  | addPairInv i j => exact (addPairInv_rel h i j).bind fun _ _ hr => ⟨hr, rfl⟩
  | reset => exact ⟨reset_rel h, rfl⟩
  | check =>
    obtain ⟨b, e1, e2⟩ := check_rel h
    simp only [engStep, Spec.engStep]
    rw [e1]
    exact ⟨h, congrArg Obs.bool (bool_iff e2)⟩
  | result =>
    obtain ⟨f, e1, e2⟩ := calculate_rel h
    simp only [engStep, Spec.engStep, result]
    rw [e1]
    exact ⟨reset_rel h, congrArg Obs.bytes (encGT_eq e2)⟩

theorem engRun_rel (prog : List EngOp) : ∀ {e : Eng} {E : Spec.Eng}, ERel e E →
    GoRel (fun a b => ERel a.1 b.1 ∧ a.2 = b.2) (engRun .amd64 e prog) (Spec.engRun E prog) := by
  induction prog with
  | nil => intro e E h; exact ⟨h, rfl⟩
  | cons o os ih =>
    intro e E h
    refine (engStep_rel h o).bind fun a b hab => (ih hab.1).bind fun a' b' hab' => ⟨hab'.1, ?_⟩
    rw [hab.2, hab'.2]

/-! ## the target group -/

theorem gt_store_rel {h : List (Option Fe12)} {H : List (Option Fq12)} (hh : TRel Fe12.Is h H) (k : ℕ) {a : Fe12} {z : Fq12} (ha : Fe12.Is a z) :
    GoRel (fun x y => TRel Fe12.Is x.1 y.1 ∧ x.2 = y.2) (gtStore h k a) (Spec.gtAssign H k z) :=
  (t_obj hh k).bind fun _ _ _ => ⟨t_set hh k (.some ha), rfl⟩

theorem encodesGT_zero : Bls.Spec.EncodesGT (List.replicate 576 0) 0 := by
  refine ⟨0, 0, 0, 0, 0, 0, by rw [map_zero]; ring, ?_⟩
  have : Bls.Spec.bytes2 0 = List.replicate 96 0 := by decide +kernel
  rw [this]
  decide +kernel

theorem null_rel : Option.Rel Fe12.Is OwGT.null (some 0) := by
  obtain ⟨n, hn, e⟩ := gt_fromBytes encodesGT_zero
  rw [OwGT.null, OwGT.nullOf, e]
  exact .some hn

theorem unmarshal_rel (s : Bytes) : Option.Rel Fe12.Is (OwGT.unmarshal s).1 (Spec.decGT s) ∧ (OwGT.unmarshal s).2 = Spec.badGT s := by
  unfold Spec.decGT Spec.badGT OwGT.unmarshal
  by_cases hex : ∃ z, Bls.Spec.EncodesGT s z
  · rw [dif_pos hex]
    have hc := hex.choose_spec
    generalize hex.choose = z at hc ⊢
    obtain ⟨a, ha, e⟩ := gt_fromBytes hc
    rw [e]
    refine ⟨.some ha, bool_iff ?_⟩
    constructor
    · intro hb ⟨y, hy, hr⟩
      rw [hy.inj hc] at hr
      rw [if_pos hr] at hb
      cases hb
    · intro hn
      rw [if_neg fun hr => hn ⟨z, hc, hr⟩]
  · rw [dif_neg hex, gt_fromBytes_none fun z hz => hex ⟨z, hz⟩]
    exact ⟨.none, bool_iff ⟨fun _ ⟨z, hz, _⟩ => hex ⟨z, hz⟩, fun _ => rfl⟩⟩

theorem gtStep_rel {h : List (Option Fe12)} {H : List (Option Fq12)} (hh : TRel Fe12.Is h H) (o : GtOp) :
    GoRel (fun x y => TRel Fe12.Is x.1 y.1 ∧ x.2 = y.2) (gtStep h o) (Spec.gtStep H o) := by
  have hl : h.length = H.length := hh.length_eq
  cases o with
  | point => exact ⟨t_append hh Fe12.is_one, rfl⟩
  | null k =>
    simp only [gtStep, Spec.gtStep]
    rw [hl]
    split
    · exact ⟨t_set hh k null_rel, rfl⟩
    · exact trivial
  | clone k => exact (t_obj hh k).bind fun _ _ ha => ⟨t_append hh ha, rfl⟩
  | set k q => exact (t_obj hh q).bind fun _ _ ha => gt_store_rel hh k ha
  | add k a b => exact (t_obj hh a).bind fun _ _ hx => (t_obj hh b).bind fun _ _ hy => gt_store_rel hh k (hx.mul hy)
  | sub k a b => exact (t_obj hh a).bind fun _ _ hx => (t_obj hh b).bind fun _ _ hy => gt_store_rel hh k (hx.subF hy)
  | equal k q => exact (t_obj hh k).bind fun _ _ hx => (t_obj hh q).bind fun _ _ hy => ⟨hh, congrArg Obs.bool (bool_iff (hx.equal_iff hy))⟩
  | marshal k => exact (t_obj hh k).bind fun _ _ hx => ⟨hh, congrArg Obs.bytes (encGT_eq hx)⟩
  | unmarshal k s =>
    simp only [gtStep, Spec.gtStep]
    rw [hl]
    split
    · exact ⟨t_set hh k (unmarshal_rel s).1, congrArg Obs.err (unmarshal_rel s).2⟩
    · exact trivial
  | unmarshalFrom k s =>
    simp only [gtStep, Spec.gtStep]
    rw [hl]
    split
    · split
      · exact ⟨hh, rfl⟩
      · exact ⟨t_set hh k (unmarshal_rel _).1, congrArg (Obs.read _) (unmarshal_rel _).2⟩
    · exact trivial
  | unsupported k => exact trivial

/-! ## the suite -/

/-- the two machines correspond. -/
structure SRel (s : St) (T : Spec.St) : Prop where
  h1 : HRel sem1 s.h1 T.h1
  h2 : HRel sem2 s.h2 T.h2
  ht : TRel Fe12.Is s.ht T.ht
  sub : ∀ P, some P ∈ T.h2 → Bls.Spec.r • P = 0

/-- G1. -/
def k1 : Kyber.Spec.Grp Bls.Spec.E1.Point := Kyber.grp sem1 Bls.Spec.gen1

/-- G2. -/
def k2 : Kyber.Spec.Grp Bls.Spec.E2.Point := Kyber.grp sem2 Bls.Spec.gen2

theorem step1 {h : Heap Fe} {H : List (Option Bls.Spec.E1.Point)} (hh : HRel sem1 h H) (o : Kyber.Op) :
    (Kyber.step (Bls.g1 .amd64) h o = .panic ∧ Kyber.Spec.step k1 H o = .panic) ∨
      ∃ a b, Kyber.step (Bls.g1 .amd64) h o = .ret a ∧ Kyber.Spec.step k1 H o = .ret b ∧ HRel sem1 a.1 b.1 ∧ a.2 = b.2 :=
  goRel_iff (Kyber.step_rel rep_gen1 hh o)

theorem step2 {h : Heap Fe2} {H : List (Option Bls.Spec.E2.Point)} (hh : HRel sem2 h H) (o : Kyber.Op) :
    (Kyber.step (Bls.g2 .amd64) h o = .panic ∧ Kyber.Spec.step k2 H o = .panic) ∨
      ∃ a b, Kyber.step (Bls.g2 .amd64) h o = .ret a ∧ Kyber.Spec.step k2 H o = .ret b ∧ HRel sem2 a.1 b.1 ∧ a.2 = b.2 :=
  goRel_iff (Kyber.step_rel rep_gen2 hh o)

theorem k2_mem (P : Bls.Spec.E2.Point) : k2.mem P ↔ Bls.Spec.r • P = 0 := by
  rw [← order_eq]; exact Iff.rfl

theorem k2_zero : k2.zero = 0 := rfl
theorem k2_gen : k2.gen = Bls.Spec.gen2 := rfl
theorem k2_add (P Q : Bls.Spec.E2.Point) : k2.add P Q = P + Q := rfl
theorem k2_neg (P : Bls.Spec.E2.Point) : k2.neg P = -P := rfl
theorem k2_smul (n : ℕ) (P : Bls.Spec.E2.Point) : k2.smul n P = n • P := rfl

theorem k2_inv {H : List (Option Bls.Spec.E2.Point)} (hH : Kyber.Inv k2 H) (o : Kyber.Op) {b : List (Option Bls.Spec.E2.Point) × Obs}
    (e : Kyber.Spec.step k2 H o = .ret b) : Kyber.Inv k2 b.1 := by
  refine Kyber.inv_step ?_ ?_ ?_ ?_ ?_ hH o e
  · rw [k2_mem, k2_zero, nsmul_zero]
  · rw [k2_mem, k2_gen, gen2_order]
  · intro P Q hP hQ
    rw [k2_mem] at *
    rw [k2_add, nsmul_add, hP, hQ, add_zero]
  · intro P hP
    rw [k2_mem] at *
    rw [k2_neg, neg_nsmul, hP, neg_zero]
  · intro n P hP
    rw [k2_mem] at *
    rw [k2_smul, ← mul_nsmul', mul_comm, mul_nsmul', hP, nsmul_zero]

theorem step_rel {s : St} {T : Spec.St} (h : SRel s T) (o : Op) :
    GoRel (fun a b => SRel a.1 b.1 ∧ a.2 = b.2) (step .amd64 s o) (Spec.step k1 k2 T o) := by
  cases o with
  | g1 o =>
    simp only [step, Spec.step]
    rcases step1 h.h1 o with ⟨e1, e2⟩ | ⟨a, b, e1, e2, hab⟩
    · rw [e1, e2]; exact trivial
    · rw [e1, e2]; exact ⟨⟨hab.1, h.h2, h.ht, h.sub⟩, hab.2⟩
  | g2 o =>
    simp only [step, Spec.step]
    rcases step2 h.h2 o with ⟨e1, e2⟩ | ⟨a, b, e1, e2, hab⟩
    · rw [e1, e2]; exact trivial
    · rw [e1, e2]
      have hi := k2_inv (fun P hP => (k2_mem P).mpr (h.sub P hP)) o e2
      exact ⟨⟨h.h1, hab.1, h.ht, fun P hP => (k2_mem P).mp (hi P hP)⟩, hab.2⟩
  | gt o => exact (gtStep_rel h.ht o).bind fun a b hab => ⟨⟨h.h1, h.h2, hab.1, h.sub⟩, hab.2⟩
  | validate p1 p2 p3 p4 =>
    have h0 : ERel ⟨s.h1, s.h2, []⟩ ⟨T.h1, T.h2, []⟩ := ⟨h.h1, h.h2, rfl, h.sub, fun _ hp => (List.not_mem_nil hp).elim, fun _ hp => (List.not_mem_nil hp).elim⟩
    refine (addPair_rel h0 p1 p2).bind fun e E he => (addPairInv_rel he p3 p4).bind fun e E he => ?_
    obtain ⟨b, e1, e2⟩ := check_rel he
    rw [e1]
    exact ⟨⟨he.h1, he.h2, h.ht, he.sub⟩, congrArg Obs.bool (bool_iff e2)⟩
  | pair p1 p2 =>
    have h0 : ERel ⟨s.h1, s.h2, []⟩ ⟨T.h1, T.h2, []⟩ := ⟨h.h1, h.h2, rfl, h.sub, fun _ hp => (List.not_mem_nil hp).elim, fun _ hp => (List.not_mem_nil hp).elim⟩
    refine (addPair_rel h0 p1 p2).bind fun e E he => ?_
    obtain ⟨f, e1, e2⟩ := calculate_rel he
    unfold result
    rw [e1]
    exact ⟨⟨he.h1, he.h2, t_append h.ht e2, he.sub⟩, rfl⟩

theorem run_rel (prog : List Op) : ∀ {s : St} {T : Spec.St}, SRel s T →
    GoRel (fun a b => SRel a.1 b.1 ∧ a.2 = b.2) (run .amd64 s prog)
      (Spec.run k1 k2 T prog) := by
  induction prog with
  | nil => intro s T h; exact ⟨h, rfl⟩
  | cons o os ih =>
    intro s T h
    refine (step_rel h o).bind fun a b hab => (ih hab.1).bind fun a' b' hab' => ⟨hab'.1, ?_⟩
    rw [hab.2, hab'.2]

theorem observe_eq (prog : List Op) :
    observe .amd64 prog = Spec.observe k1 k2 prog := by
  have h := run_rel prog (s := ⟨[], [], []⟩) (T := ⟨[], [], []⟩) ⟨.nil, .nil, .nil, fun P hP => by cases hP⟩
  unfold observe Spec.observe
  rcases goRel_iff h with ⟨e1, e2⟩ | ⟨a, b, e1, e2, hab⟩
  · rw [e1, e2]; rfl
  · rw [e1, e2, Go.ret_bind, Go.ret_bind, hab.2]

end Verif.Bls.Suite
