import Verif.Bls.KyberSpec
import Verif.Bls.GroupBytes

/-!
# The point objects behave like group elements
-/

namespace Verif.Bls.Kyber

open Verif Verif.EC WeierstrassCurve

/-- both panic, or both return related values. -/
def GoRel {α β : Type} (R : α → β → Prop) : Go α → Go β → Prop
  | .ret a, .ret b => R a b
  | .panic, .panic => True
  | _, _ => False

theorem GoRel.bind {α β γ δ : Type} {R : α → β → Prop} {R' : γ → δ → Prop} {x : Go α} {y : Go β} {f : α → Go γ} {f' : β → Go δ}
    (h : GoRel R x y) (hf : ∀ a b, R a b → GoRel R' (f a) (f' b)) : GoRel R' (x >>= f) (y >>= f') := by
  cases x <;> cases y <;> simp only [GoRel] at h
  · exact hf _ _ h
  · exact trivial

variable {α : Type} {g : Ops α} {F : Type} [Field F] [DecidableEq F] (S : Sem g F)

/-- the group of the points of the curve. -/
def grp (G : S.W.Point) : Spec.Grp S.W.Point where
  zero := 0
  gen := G
  add := (· + ·)
  neg := (- ·)
  smul := fun n P => n • P
  mem := fun P => order • P = 0
  enc := S.comp
  size := g.size

theorem dec_rel (G : S.W.Point) (s : Bytes) : Option.Rel S.Rep (g.fromCompressed s) ((grp S G).dec s) := by
  unfold Spec.Grp.dec
  by_cases hex : ∃ P, (grp S G).mem P ∧ ∃ tail, s = (grp S G).enc P ++ tail
  · rw [dif_pos hex]
    have hc := hex.choose_spec
    generalize hex.choose = P at hc ⊢
    obtain ⟨ho, tail, rfl⟩ := hc
    obtain ⟨p, e, hr⟩ := Sem.fromCompressed_comp (S := S) ho tail
    have e' : g.fromCompressed ((grp S G).enc P ++ tail) = some p := e
    rw [e']
    exact .some hr
  · rw [dif_neg hex]
    cases hf : g.fromCompressed s with
    | none => exact .none
    | some p =>
      obtain ⟨-, P, -, ho, hc⟩ := Sem.fromCompressed_some (S := S) hf
      exact absurd ⟨P, ho, s.drop g.size, by
        have : s = S.comp P ++ s.drop g.size := by rw [hc, List.take_append_drop]
        exact this⟩ hex

theorem isNone_rel {β γ : Type} {R : β → γ → Prop} {x : Option β} {y : Option γ} (h : Option.Rel R x y) : x.isNone = y.isNone := by
  cases h <;> rfl

/-- the tables of the two machines correspond. -/
def HRel (h : Heap α) (H : List (Option S.W.Point)) : Prop := List.Forall₂ (Option.Rel S.Rep) h H

variable {S}

theorem obj_rel {h : Heap α} {H : List (Option S.W.Point)} (hh : HRel S h H) (k : ℕ) : GoRel S.Rep (obj h k) (obj H k) := by
  unfold HRel at hh
  rw [List.forall₂_iff_get] at hh
  unfold obj
  by_cases hk : k < h.length
  · have hk' : k < H.length := hh.1 ▸ hk
    rw [List.getElem?_eq_getElem hk, List.getElem?_eq_getElem hk']
    have := hh.2 k hk hk'
    simp only [List.get_eq_getElem] at this
    revert this
    generalize h[k] = x
    generalize H[k] = y
    intro this
    cases this with
    | some hr => exact hr
    | none => exact trivial
  · have hk' : ¬ k < H.length := hh.1 ▸ hk
    rw [List.getElem?_eq_none (by omega), List.getElem?_eq_none (by omega)]
    exact trivial

theorem set_rel {h : Heap α} {H : List (Option S.W.Point)} (hh : HRel S h H) (k : ℕ) {x : Option (P3 α)} {y : Option S.W.Point}
    (hx : Option.Rel S.Rep x y) : HRel S (h.set k x) (H.set k y) := by
  unfold HRel at *
  rw [List.forall₂_iff_get] at *
  refine ⟨by simp [hh.1], fun j h1 h2 => ?_⟩
  simp only [List.get_eq_getElem, List.getElem_set]
  simp only [List.length_set] at h1 h2
  split
  · exact hx
  · exact hh.2 _ h1 h2

theorem set_self_rel {h : Heap α} {H : List (Option S.W.Point)} (hh : HRel S h H) (k : ℕ) {p : P3 α} {P : S.W.Point}
    (hp : S.Rep p P) (hk : obj H k = .ret P) : HRel S (h.set k (some p)) H := by
  have e : H.set k (some P) = H := by
    unfold obj at hk
    split at hk
    · next P' hg =>
      obtain ⟨hl, hg⟩ := List.getElem?_eq_some_iff.mp hg
      rw [Go.ret.injEq] at hk
      subst hk
      rw [← hg]
      exact List.set_getElem_self hl
    · cases hk
  rw [← e]
  exact set_rel hh k (.some hp)

theorem append_rel {h : Heap α} {H : List (Option S.W.Point)} (hh : HRel S h H) {p : P3 α} {P : S.W.Point} (hp : S.Rep p P) :
    HRel S (h ++ [some p]) (H ++ [some P]) :=
  List.rel_append hh (.cons (.some hp) .nil)

/-- the results of one call correspond. -/
def StepRel (S : Sem g F) (a : Heap α × Obs) (b : List (Option S.W.Point) × Obs) : Prop := HRel S a.1 b.1 ∧ a.2 = b.2

theorem store_rel {h : Heap α} {H : List (Option S.W.Point)} (hh : HRel S h H) (k : ℕ) {p : P3 α} {P : S.W.Point} (hp : S.Rep p P) :
    GoRel (StepRel S) (store h k p) (Spec.assign H k P) :=
  (obj_rel hh k).bind fun _ _ _ => ⟨set_rel hh k (.some hp), rfl⟩

theorem bool_iff {b : Bool} {p : Prop} {d : Decidable p} (h : b = true ↔ p) : b = @decide p d := by
  rw [Bool.eq_iff_iff, h, decide_eq_true_iff]

theorem step_rel {G : S.W.Point} (hG : S.Rep g.gen G) {h : Heap α} {H : List (Option S.W.Point)} (hh : HRel S h H) (o : Op) :
    GoRel (StepRel S) (step g h o) (Spec.step (grp S G) H o) := by
  have hl : h.length = H.length := hh.length_eq
  cases o with
  | point => exact ⟨append_rel hh Sem.rep_blank, rfl⟩
  | null k => exact ⟨append_rel hh Sem.rep_infinity, rfl⟩
  | base k => exact ⟨append_rel hh hG, rfl⟩
  | clone k => exact (obj_rel hh k).bind fun _ _ hp => ⟨append_rel hh hp, rfl⟩
  | set k q => exact (obj_rel hh q).bind fun _ _ hp => store_rel hh k hp
  | add k a b => exact (obj_rel hh a).bind fun _ _ hp => (obj_rel hh b).bind fun _ _ hq => store_rel hh k (Sem.rep_add hp hq)
  | sub k a b =>
    refine (obj_rel hh a).bind fun _ _ hp => (obj_rel hh b).bind fun _ _ hq => store_rel hh k ?_
    have := Sem.rep_sub hp hq
    rw [sub_eq_add_neg] at this
    exact this
  | neg k a => exact (obj_rel hh a).bind fun _ _ hp => store_rel hh k (Sem.rep_neg hp)
  | mul k s q =>
    cases q with
    | none => exact store_rel hh k (Sem.rep_mul hG s)
    | some q => exact (obj_rel hh q).bind fun _ _ hp => store_rel hh k (Sem.rep_mul hp s)
  | equal k q =>
    exact (obj_rel hh k).bind fun _ _ hp => (obj_rel hh q).bind fun _ _ hq => ⟨hh, congrArg Obs.bool (bool_iff (Sem.eqPt_iff hp hq))⟩
  | marshal k =>
    have hk := obj_rel hh k
    simp only [step, Spec.step]
    cases e1 : obj h k with
    | panic =>
      rw [e1] at hk
      cases e2 : obj H k with
      | panic => exact trivial
      | ret P => rw [e2] at hk; exact hk.elim
    | ret p =>
      rw [e1] at hk
      cases e2 : obj H k with
      | panic => rw [e2] at hk; exact hk.elim
      | ret P =>
        rw [e2] at hk
        have hk : S.Rep p P := hk
        exact ⟨set_self_rel hh k (Sem.rep_affine_of hk) e2, congrArg Obs.bytes (Sem.toCompressed_eq hk)⟩
  | unmarshal k s =>
    simp only [step, Spec.step]
    rw [hl]
    split
    · exact ⟨set_rel hh k (dec_rel S G s), congrArg Obs.err (isNone_rel (dec_rel S G s))⟩
    · exact trivial
  | unmarshalFrom k s =>
    simp only [step, Spec.step]
    rw [hl]
    have e : (grp S G).size = g.size := rfl
    rw [e]
    split
    · split
      · exact ⟨hh, rfl⟩
      · exact ⟨set_rel hh k (dec_rel S G _), congrArg (Obs.read _) (isNone_rel (dec_rel S G _))⟩
    · exact trivial
  | inGroup k => exact (obj_rel hh k).bind fun _ _ hp => ⟨hh, congrArg Obs.bool (bool_iff (Sem.inSubgroup_iff hp))⟩

theorem run_rel {G : S.W.Point} (hG : S.Rep g.gen G) (prog : List Op) : ∀ {h : Heap α} {H : List (Option S.W.Point)}, HRel S h H →
    GoRel (fun a b => HRel S a.1 b.1 ∧ a.2 = b.2) (run g h prog) (Spec.run (grp S G) H prog) := by
  induction prog with
  | nil => intro h H hh; exact ⟨hh, rfl⟩
  | cons o os ih =>
    intro h H hh
    refine (step_rel hG hh o).bind fun a b hab => (ih hab.1).bind fun a' b' hab' => ⟨hab'.1, ?_⟩
    rw [hab.2, hab'.2]

theorem observe_eq {G : S.W.Point} (hG : S.Rep g.gen G) (prog : List Op) : observe g prog = Spec.observe (grp S G) prog := by
  have h := run_rel hG prog (h := []) (H := []) .nil
  unfold observe Spec.observe
  revert h
  generalize run g [] prog = x
  generalize Spec.run (grp S G) [] prog = y
  intro h
  cases x <;> cases y <;> simp only [GoRel] at h
  · simp only [Go.ret_bind, h.2]
  · rfl

/-- every usable object holds a member. -/
def Inv {G : Type} (K : Spec.Grp G) (H : List (Option G)) : Prop := ∀ P, some P ∈ H → K.mem P

theorem bind_ret {β γ : Type} {x : Go β} {f : β → Go γ} {r : γ} (h : x >>= f = .ret r) : ∃ a, x = .ret a ∧ f a = .ret r := by
  cases x with
  | ret a => exact ⟨a, rfl, h⟩
  | panic => cases h

theorem mem_of_obj {G : Type} {H : List (Option G)} {k : ℕ} {P : G} (h : obj H k = .ret P) : some P ∈ H := by
  unfold obj at h
  split at h
  · next P' hg =>
    rw [Go.ret.injEq] at h
    subst h
    exact List.mem_of_getElem? hg
  · cases h

section Closed

variable {G : Type} {K : Spec.Grp G} (h0 : K.mem K.zero) (hg : K.mem K.gen) (ha : ∀ P Q, K.mem P → K.mem Q → K.mem (K.add P Q))
  (hn : ∀ P, K.mem P → K.mem (K.neg P)) (hs : ∀ n P, K.mem P → K.mem (K.smul n P))

theorem inv_append {H : List (Option G)} (hH : Inv K H) {P : G} (hP : K.mem P) : Inv K (H ++ [some P]) := by
  intro Q hQ
  rcases List.mem_append.mp hQ with h | h
  · exact hH Q h
  · simp only [List.mem_singleton, Option.some.injEq] at h; subst h; exact hP

theorem inv_set {H : List (Option G)} (hH : Inv K H) (k : ℕ) {x : Option G} (hx : ∀ P, x = some P → K.mem P) : Inv K (H.set k x) := by
  intro Q hQ
  rcases List.mem_or_eq_of_mem_set hQ with h | h
  · exact hH Q h
  · exact hx Q h.symm

theorem inv_assign {H : List (Option G)} (hH : Inv K H) {k : ℕ} {P : G} (hP : K.mem P) {r : List (Option G) × Obs}
    (h : Spec.assign H k P = .ret r) : Inv K r.1 := by
  obtain ⟨a, -, h⟩ := bind_ret h
  rw [Go.ret.injEq] at h
  subst h
  exact inv_set hH k fun Q e => by rw [Option.some.injEq] at e; subst e; exact hP

theorem dec_mem {s : Bytes} {P : G} (h : K.dec s = some P) : K.mem P := by
  unfold Spec.Grp.dec at h
  split at h
  · next hex => rw [Option.some.injEq] at h; subst h; exact hex.choose_spec.1
  · cases h

include h0 hg ha hn hs

theorem inv_step {H : List (Option G)} (hH : Inv K H) (o : Op) {r : List (Option G) × Obs} (h : Spec.step K H o = .ret r) : Inv K r.1 := by
  have ob : ∀ {k P}, obj H k = .ret P → K.mem P := fun e => hH _ (mem_of_obj e)
  cases o with
  | point => simp only [Spec.step, Go.ret.injEq] at h; subst h; exact inv_append hH h0
  | null k => simp only [Spec.step, Go.ret.injEq] at h; subst h; exact inv_append hH h0
  | base k => simp only [Spec.step, Go.ret.injEq] at h; subst h; exact inv_append hH hg
  | clone k =>
    obtain ⟨P, e, h⟩ := bind_ret h
    rw [Go.ret.injEq] at h; subst h; exact inv_append hH (ob e)
  | set k q =>
    obtain ⟨P, e, h⟩ := bind_ret h
    exact inv_assign hH (ob e) h
  | add k a b =>
    obtain ⟨P, e, h⟩ := bind_ret h
    obtain ⟨P', e', h⟩ := bind_ret h
    exact inv_assign hH (ha _ _ (ob e) (ob e')) h
  | sub k a b =>
    obtain ⟨P, e, h⟩ := bind_ret h
    obtain ⟨P', e', h⟩ := bind_ret h
    exact inv_assign hH (ha _ _ (ob e) (hn _ (ob e'))) h
  | neg k a =>
    obtain ⟨P, e, h⟩ := bind_ret h
    exact inv_assign hH (hn _ (ob e)) h
  | mul k s q =>
    cases q with
    | none => exact inv_assign hH (hs _ _ hg) h
    | some q =>
      obtain ⟨P, e, h⟩ := bind_ret h
      exact inv_assign hH (hs _ _ (ob e)) h
  | equal k q =>
    obtain ⟨P, e, h⟩ := bind_ret h
    obtain ⟨P', e', h⟩ := bind_ret h
    rw [Go.ret.injEq] at h; subst h; exact hH
  | marshal k =>
    obtain ⟨P, e, h⟩ := bind_ret h
    rw [Go.ret.injEq] at h; subst h; exact hH
  | unmarshal k s =>
    simp only [Spec.step] at h
    split at h
    · rw [Go.ret.injEq] at h; subst h; exact inv_set hH k fun Q e => dec_mem e
    · cases h
  | unmarshalFrom k s =>
    simp only [Spec.step] at h
    split at h
    · split at h
      · rw [Go.ret.injEq] at h; subst h; exact hH
      · rw [Go.ret.injEq] at h; subst h; exact inv_set hH k fun Q e => dec_mem e
    · cases h
  | inGroup k =>
    obtain ⟨P, e, h⟩ := bind_ret h
    rw [Go.ret.injEq] at h; subst h; exact hH

theorem inv_run (prog : List Op) : ∀ {H : List (Option G)}, Inv K H → ∀ {r : List (Option G) × List Obs}, Spec.run K H prog = .ret r → Inv K r.1 := by
  induction prog with
  | nil => intro H hH r h; simp only [Spec.run, Go.ret.injEq] at h; subst h; exact hH
  | cons o os ih =>
    intro H hH r h
    obtain ⟨a, e, h⟩ := bind_ret h
    obtain ⟨b, e', h⟩ := bind_ret h
    rw [Go.ret.injEq] at h
    subst h
    exact (ih (inv_step h0 hg ha hn hs hH o e) e' : Inv K b.1)

end Closed

end Verif.Bls.Kyber
