import Verif.Bls.Lower
import Verif.Props.Alias

/-!
# C113, C114 in G2, base field operation by base field operation

`C113_g2` and `C114_g2` take one call into fp2.go as one step.  Here the step is one base field operation, and the temporaries of the fp2
object inside the group object are in the memory.  `Low` (`Verif/Bls/Lower.lean`) says which base field operations a call into fp2.go is.
`v2 m` is the memory of the elements of the quadratic extension that the base field elements in `m` make up.
-/

namespace Verif.Props

open Verif.Bls Verif.Bls.Spec Verif.Bls.Mem

/-- C113, G2: as `C113_g2`, for the base field operations of the calls. -/
theorem C113_g2_fe (cs : List (Nat × Call)) :
    (∃ P, Low .amd64 (fun _ => True) (callsP (g2 .amd64) cs) P) ∧
    ∀ P, Low .amd64 (fun _ => True) (callsP (g2 .amd64) cs) P → ∀ (m : Loc2 → Fe) (σ : Nat → E2.Point), DecodedG2 (v2 m) σ → ∀ n,
      (g2 .amd64).toCompressed (read (v2 (P.run m)) (.arg n)) = compress2 (assigns σ (cs.map Prod.snd) n) := by
  refine ⟨calls_low cs fun _ _ => trivial, fun P hP m σ h n => ?_⟩
  rw [low_run hP]
  exact C113_g2 (v2 m) σ h cs n

/-- C114, G2: as `C114_g2`, for goroutines that are interleaved between base field operations. -/
theorem C114_g2_fe {ι : Type} [DecidableEq ι] (T : ι → Nat) (th : ι → List Call) (h : Apart T th) :
    (∀ i, ∃ P, Low .amd64 (· = T i) (thread (g2 .amd64) (T i) (th i)) P) ∧
    ∀ P : ι → Prog Loc2 Fe, (∀ i, Low .amd64 (· = T i) (thread (g2 .amd64) (T i) (th i)) (P i)) →
      (∀ i, ∃ N, ∀ (m : Loc2 → Fe) σ, DecodedG2 (v2 m) σ →
        ∀ (pre : List (Nat × Call)) (Q : Prog Loc2 Fe), Low .amd64 (fun _ => True) (callsP (g2 .amd64) pre) Q →
        ∀ s : List ι, N ≤ s.count i →
          let out := sched s P (Q.run m)
          out.1 i = .done ∧ ∀ n, (∃ c ∈ th i, n ∈ c.args) →
            (g2 .amd64).toCompressed (read (v2 out.2) (.arg n)) = compress2 (assigns (assigns σ (pre.map Prod.snd)) (th i) n)) ∧
      ∀ m (s : List ι) n, (∀ i, ∀ c ∈ th i, n ≠ c.dest) → read (v2 (sched s P m).2) (.arg n) = read (v2 m) (.arg n) := by
  refine ⟨fun i => calls_low _ fun c hc => ?_, fun P hP => ?_⟩
  · obtain ⟨d, _, rfl⟩ := List.mem_map.mp hc
    rfl
  have hW : ∀ i, (P i).Within (inside (T i) (wr (T i) (th i))) (inside (T i) (us (T i) (th i))) := fun i =>
    low_within (hP i) (thread_within (T i) (th i))
  have hA : ∀ i j, i ≠ j → ∀ l, inside (T i) (wr (T i) (th i)) l → ¬ inside (T j) (us (T j) (th j)) l := by
    intro i j hij l
    cases l with
    | part l k => exact h.locs i j hij l
    | t t k => exact fun h1 h2 => (h i j hij).1 ((show t = T i from h1).symm.trans (show t = T j from h2))
  refine ⟨fun i => ⟨(P i).size, fun m σ hm pre Q hQ s hs => ?_⟩, fun m s n hn => ?_⟩
  · obtain ⟨h1, h2⟩ := sched_done hA P (Q.run m) hW s i hs
    refine ⟨h1, fun n hn => ?_⟩
    have e : read (v2 (sched s P (Q.run m)).2) (.arg n) = read (v2 ((P i).run (Q.run m))) (.arg n) := by
      have : ∀ k j, (sched s P (Q.run m)).2 (.part (.pt (.arg n) k) j) = (P i).run (Q.run m) (.part (.pt (.arg n) k) j) :=
        fun k j => h2 _ hn
      simp [Mem.read, v2, this]
    have hr := rep_calls (S := sem2) (fun _ => True) ((th i).map (T i, ·)) (fun _ _ _ _ => trivial) _ _
      (fun n _ => rep_calls (S := sem2) (fun _ => True) pre (fun _ _ _ _ => trivial) (v2 m) σ (fun n _ => hm.rep n) n trivial) n trivial
    rw [List.map_map, show (Prod.snd ∘ fun c : Call => (T i, c)) = id from rfl, List.map_id] at hr
    rw [e, low_run (hP i), low_run hQ]
    exact (Sem.toCompressed_eq hr).trans (comp2_eq _)
  · have : ∀ k j, (sched s P m).2 (.part (.pt (.arg n) k) j) = m (.part (.pt (.arg n) k) j) := fun k j =>
      sched_other P m hW s _ fun i h => by
        obtain ⟨c, hc, e⟩ := h
        exact hn i c hc e
    simp [Mem.read, v2, this]

/-- the hypotheses are met: a memory of base field elements with the generator in every object. -/
example : ∃ m : Loc2 → Fe, DecodedG2 (v2 m) fun _ => gen2 := by
  obtain ⟨m, h⟩ := DecodedG2.exists (fun _ => gen2) fun _ => gen2_order
  exact ⟨fun
    | .part l 0 => (m l).c0
    | .part l _ => (m l).c1
    | .t _ _ => Fe.zero, h⟩

end Verif.Props
