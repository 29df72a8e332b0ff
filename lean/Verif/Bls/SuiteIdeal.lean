import Verif.Bls.SuiteLemmas

/-!
# When no point is shared the engine is the one a caller expects
-/

namespace Verif.Bls.Suite

open Verif Verif.EC Verif.Bls.Kyber WeierstrassCurve

theorem val_congr {G : Type} [Zero G] {h h' : List (Option G)} {k : ℕ} (e : h[k]? = h'[k]?) : Spec.val h k = Spec.val h' k := by
  unfold Spec.val; rw [e]

theorem obj_congr {G : Type} {h h' : List (Option G)} {k : ℕ} (e : h[k]? = h'[k]?) : obj h k = obj h' k := by
  unfold obj; rw [e]

theorem product_congr {E E' : Spec.Eng} (hp : E'.pairs = E.pairs) (h2 : E'.h2 = E.h2) (h1 : ∀ p ∈ E.pairs, E'.h1[p.1]? = E.h1[p.1]?) :
    Spec.product E' = Spec.product E := by
  unfold Spec.product
  rw [hp, h2]
  congr 1
  apply List.map_congr_left
  intro p hm
  rw [val_congr (h1 p hm)]

theorem product_append (E : Spec.Eng) (i j : ℕ) :
    Spec.product { E with pairs := E.pairs ++ [(i, j)] } = Spec.product E * Bls.Spec.pairing (Spec.val E.h1 i) (Spec.val E.h2 j) := by
  unfold Spec.product
  rw [List.map_append, List.prod_append, List.map_cons, List.map_nil, List.prod_singleton]

/-- what `AddPair` does to the product. -/
theorem addPair_spec {E : Spec.Eng} {i j : ℕ} {P : Bls.Spec.E1.Point} {T : Bls.Spec.E2.Point} (hP : obj E.h1 i = .ret P)
    (hT : P ≠ 0 → obj E.h2 j = .ret T) : ∃ E', Spec.addPair E i j = .ret E' ∧ E'.h1 = E.h1 ∧ E'.h2 = E.h2 ∧
      (∀ p ∈ E'.pairs, p ∈ E.pairs ∨ p.1 = i) ∧ Spec.product E' = Spec.product E * Bls.Spec.pairing P T := by
  unfold Spec.addPair
  rw [hP, Go.ret_bind]
  by_cases h0 : P = 0
  · rw [if_pos h0]
    exact ⟨E, rfl, rfl, rfl, fun p hp => .inl hp, by rw [h0, pairing_zero_left, mul_one]⟩
  · rw [if_neg h0, hT h0, Go.ret_bind]
    by_cases h1 : T = 0
    · rw [if_pos h1]
      exact ⟨E, rfl, rfl, rfl, fun p hp => .inl hp, by rw [h1, pairing_zero_right, mul_one]⟩
    · rw [if_neg h1]
      refine ⟨_, rfl, rfl, rfl, fun p hp => ?_, ?_⟩
      · rcases List.mem_append.mp hp with h | h
        · exact .inl h
        · rw [List.mem_singleton] at h; exact .inr (by rw [h])
      · rw [product_append, val_of hP, val_of (hT h0)]

/-- what `AddPairInv` does to the product when its point is in no other pair. -/
theorem addPairInv_spec {E : Spec.Eng} {i j : ℕ} {P : Bls.Spec.E1.Point} {T : Bls.Spec.E2.Point} (hP : obj E.h1 i = .ret P)
    (hT : P ≠ 0 → obj E.h2 j = .ret T) (hi : ∀ p ∈ E.pairs, p.1 ≠ i) : ∃ E', Spec.addPairInv E i j = .ret E' ∧
      E'.h1 = E.h1.set i (some (-P)) ∧ E'.h2 = E.h2 ∧ (∀ p ∈ E'.pairs, p ∈ E.pairs ∨ p.1 = i) ∧
      Spec.product E' = Spec.product E * (Bls.Spec.pairing P T)⁻¹ := by
  unfold Spec.addPairInv
  rw [hP, Go.ret_bind]
  have e : obj (E.h1.set i (some (-P))) i = .ret (-P) := by
    rw [obj_set hP, if_pos rfl]
  obtain ⟨E', h1, h2, h3, h4, h5⟩ := addPair_spec (E := { E with h1 := E.h1.set i (some (-P)) }) (i := i) (j := j) e
    (fun h => hT (fun h0 => h (by rw [h0, neg_zero])))
  refine ⟨E', h1, h2, h3, h4, ?_⟩
  rw [h5, pairing_neg]
  congr 1
  refine product_congr (E := E) (E' := ⟨E.h1.set i (some (-P)), E.h2, E.pairs⟩) rfl rfl ?_
  intro p hp
  dsimp only
  rw [List.getElem?_set_ne fun h => hi p hp h.symm]

theorem goMap_eq {β γ δ : Type} {x : Go β} {y : Go γ} {f : β → δ} {f' : γ → δ} (h : GoRel (fun a b => f a = f' b) x y) :
    (x >>= fun a => .ret (f a)) = (y >>= fun b => .ret (f' b)) := by
  rcases goRel_iff h with ⟨e1, e2⟩ | ⟨a, b, e1, e2, hab⟩
  · rw [e1, e2]; rfl
  · rw [e1, e2, Go.ret_bind, Go.ret_bind, hab]

/-- the engine's table, seen from the expected engine. -/
structure IRel (H1 : List (Option Bls.Spec.E1.Point)) (H2 : List (Option Bls.Spec.E2.Point)) (us : List ℕ) (E : Spec.Eng) (z : Fq12) : Prop where
  h2 : E.h2 = H2
  h1 : ∀ i ∈ us, E.h1[i]? = H1[i]?
  fresh : ∀ p ∈ E.pairs, p.1 ∉ us
  prod : Spec.product E = z

theorem add_rel {H1 : List (Option Bls.Spec.E1.Point)} {H2 : List (Option Bls.Spec.E2.Point)} {us : List ℕ} {i : ℕ} (hn : (i :: us).Nodup)
    {E : Spec.Eng} {z : Fq12} (h : IRel H1 H2 (i :: us) E z) (j : ℕ) :
    GoRel (fun a b => IRel H1 H2 us a.1 b.1 ∧ a.2 = b.2) (Spec.engStep E (.addPair i j)) (Spec.idealStep H1 H2 z (.addPair i j)) ∧
    GoRel (fun a b => IRel H1 H2 us a.1 b.1 ∧ a.2 = b.2) (Spec.engStep E (.addPairInv i j)) (Spec.idealStep H1 H2 z (.addPairInv i j)) := by
  have hi : i ∉ us := (List.nodup_cons.mp hn).1
  have ho : obj E.h1 i = obj H1 i := obj_congr (h.h1 i List.mem_cons_self)
  simp only [Spec.engStep, Spec.idealStep]
  cases e1 : obj H1 i with
  | panic =>
    rw [e1] at ho
    constructor
    · unfold Spec.addPair; rw [ho]; exact trivial
    · unfold Spec.addPairInv; rw [ho]; exact trivial
  | ret P =>
    rw [e1] at ho
    simp only [Go.ret_bind]
    have hfresh : ∀ p ∈ E.pairs, p.1 ≠ i := fun p hp he => h.fresh p hp (by rw [he]; exact List.mem_cons_self)
    have hkeep : ∀ {E' : Spec.Eng}, (∀ p ∈ E'.pairs, p ∈ E.pairs ∨ p.1 = i) → ∀ p ∈ E'.pairs, p.1 ∉ us := by
      intro E' hE p hp
      rcases hE p hp with h' | h'
      · exact fun hm => h.fresh p h' (List.mem_cons_of_mem _ hm)
      · rw [h']; exact hi
    have ret : ∀ {T : Bls.Spec.E2.Point} (_ : P ≠ 0 → obj H2 j = .ret T),
        (∃ E', Spec.addPair E i j = .ret E' ∧ IRel H1 H2 us E' (z * Bls.Spec.pairing P T)) ∧
        (∃ E', Spec.addPairInv E i j = .ret E' ∧ IRel H1 H2 us E' (z * (Bls.Spec.pairing P T)⁻¹)) := by
      intro T hT
      rw [← h.h2] at hT
      obtain ⟨E', a1, a2, a3, a4, a5⟩ := addPair_spec ho hT
      obtain ⟨F, b1, b2, b3, b4, b5⟩ := addPairInv_spec ho hT hfresh
      refine ⟨⟨E', a1, a3.trans h.h2, fun k hk => ?_, hkeep a4, by rw [a5, h.prod]⟩, ⟨F, b1, b3.trans h.h2, fun k hk => ?_, hkeep b4, by rw [b5, h.prod]⟩⟩
      · rw [a2]; exact h.h1 k (List.mem_cons_of_mem _ hk)
      · rw [b2, List.getElem?_set_ne (fun he => hi (by rw [he]; exact hk))]
        exact h.h1 k (List.mem_cons_of_mem _ hk)
    by_cases h0 : P = 0
    · obtain ⟨⟨E', a1, a2⟩, ⟨F, b1, b2⟩⟩ := ret (T := 0) (fun hc => absurd h0 hc)
      rw [pairing_zero_right, mul_one] at a2
      rw [pairing_zero_right, inv_one, mul_one] at b2
      rw [if_pos h0, if_pos h0, a1, b1]
      exact ⟨⟨a2, rfl⟩, ⟨b2, rfl⟩⟩
    · rw [if_neg h0, if_neg h0]
      cases e2 : obj H2 j with
      | panic =>
        have e2' : obj E.h2 j = .panic := by rw [h.h2]; exact e2
        constructor
        · unfold Spec.addPair
          rw [ho, Go.ret_bind, if_neg h0, e2']; exact trivial
        · unfold Spec.addPairInv Spec.addPair
          rw [ho, Go.ret_bind]
          have e : obj (E.h1.set i (some (-P))) i = .ret (-P) := by rw [obj_set ho, if_pos rfl]
          dsimp only
          rw [e, Go.ret_bind, if_neg (fun hc => h0 (neg_eq_zero.mp hc)), e2']
          exact trivial
      | ret T =>
        obtain ⟨⟨E', a1, a2⟩, ⟨F, b1, b2⟩⟩ := ret (T := T) (fun _ => e2)
        rw [a1, b1]
        exact ⟨⟨a2, rfl⟩, ⟨b2, rfl⟩⟩

theorem product_nil (H1 : List (Option Bls.Spec.E1.Point)) (H2 : List (Option Bls.Spec.E2.Point)) : Spec.product ⟨H1, H2, []⟩ = 1 := by
  unfold Spec.product; rw [List.map_nil, List.prod_nil]

theorem ideal_rel {H1 : List (Option Bls.Spec.E1.Point)} {H2 : List (Option Bls.Spec.E2.Point)} (prog : List EngOp) :
    ∀ {E : Spec.Eng} {z : Fq12}, (prog.filterMap Spec.first).Nodup → IRel H1 H2 (prog.filterMap Spec.first) E z →
      GoRel (fun a b => a.2 = b.2) (Spec.engRun E prog) (Spec.idealRun H1 H2 z prog) := by
  induction prog with
  | nil => intro E z _ _; exact rfl
  | cons o os ih =>
    intro E z hn h
    have step : ∀ {us : List ℕ}, us = os.filterMap Spec.first → us.Nodup →
        GoRel (fun a b => IRel H1 H2 us a.1 b.1 ∧ a.2 = b.2) (Spec.engStep E o) (Spec.idealStep H1 H2 z o) →
        GoRel (fun a b => a.2 = b.2) (Spec.engRun E (o :: os)) (Spec.idealRun H1 H2 z (o :: os)) := by
      rintro us rfl hu hs
      refine hs.bind fun a b hab => (ih hu hab.1).bind fun a' b' hab' => ?_
      change a.2 :: a'.2 = b.2 :: b'.2
      rw [hab.2, hab']
    have empty : ∀ E : Spec.Eng, E.h2 = H2 → (∀ i ∈ os.filterMap Spec.first, E.h1[i]? = H1[i]?) →
        IRel H1 H2 (os.filterMap Spec.first) { E with pairs := [] } 1 :=
      fun E e2 e1 => ⟨e2, e1, fun _ hp => (List.not_mem_nil hp).elim, product_nil _ _⟩
    cases o with
    | addPair i j => exact step rfl (List.nodup_cons.mp hn).2 (add_rel hn h j).1
    | addPairInv i j => exact step rfl (List.nodup_cons.mp hn).2 (add_rel hn h j).2
    | reset => exact step rfl hn ⟨empty E h.h2 h.h1, rfl⟩
    | check =>
      refine step rfl hn ⟨h, ?_⟩
      change Obs.bool _ = Obs.bool _
      rw [h.prod]
    | result =>
      refine step rfl hn ⟨empty E h.h2 h.h1, ?_⟩
      change Obs.bytes _ = Obs.bytes _
      rw [h.prod]

end Verif.Bls.Suite
