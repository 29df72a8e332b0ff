import Verif.Bls.AliasCalls
import Verif.Bls.SchemeLemmas
import Verif.Bls.GroupOrder
import Verif.Bls.Miller

/-!
# C113, C114: point objects named twice, histories of calls, goroutines

`Verif/Bls/AliasSpec.lean` is the specification: a call assigns a value to an object.  The model of the calls on memory is
`Verif/Bls/Alias.lean`; `callsP` runs calls one after the other, `sched` interleaves goroutines statement by statement.  `read m (.arg n)` are
the coordinates in object `n`.
-/

namespace Verif.Props

open Verif.Bls Verif.Bls.Spec Verif.Bls.Mem

/-- every object holds a point that was decoded from its encoding. -/
def DecodedG1 (m : Memory Fe) (σ : Nat → E1.Point) : Prop :=
  ∀ n, r • σ n = 0 ∧ (g1 .amd64).fromCompressed (compress1 (σ n)) = some (read m (.arg n))

def DecodedG2 (m : Memory Fe2) (σ : Nat → E2.Point) : Prop :=
  ∀ n, r • σ n = 0 ∧ (g2 .amd64).fromCompressed (compress2 (σ n)) = some (read m (.arg n))

theorem DecodedG1.rep {m : Memory Fe} {σ : Nat → E1.Point} (h : DecodedG1 m σ) (n : Nat) : sem1.Rep (read m (.arg n)) (σ n) := by
  obtain ⟨p, e, hr⟩ := fromCompressed1_of (s := compress1 (σ n)) ⟨(h n).1, rfl⟩
  rw [(h n).2] at e
  exact Option.some.inj e ▸ hr

theorem DecodedG2.rep {m : Memory Fe2} {σ : Nat → E2.Point} (h : DecodedG2 m σ) (n : Nat) : sem2.Rep (read m (.arg n)) (σ n) := by
  obtain ⟨p, e, hr⟩ := fromCompressed2_of (s := compress2 (σ n)) ⟨(h n).1, [], (List.append_nil _).symm⟩
  rw [(h n).2] at e
  exact Option.some.inj e ▸ hr

/-- there is such a memory for every choice of subgroup points. -/
theorem DecodedG1.exists (σ : Nat → E1.Point) (h : ∀ n, r • σ n = 0) : ∃ m, DecodedG1 m σ := by
  choose p e _ using fun n => fromCompressed1_of (s := compress1 (σ n)) ⟨h n, rfl⟩
  refine ⟨fun
    | .pt (.arg n) 0 => (p n).x
    | .pt (.arg n) 1 => (p n).y
    | .pt (.arg n) _ => (p n).z
    | _ => (g1 .amd64).zero, fun n => ⟨h n, e n⟩⟩

theorem DecodedG2.exists (σ : Nat → E2.Point) (h : ∀ n, r • σ n = 0) : ∃ m, DecodedG2 m σ := by
  choose p e _ using fun n => fromCompressed2_of (s := compress2 (σ n)) ⟨h n, [], (List.append_nil _).symm⟩
  refine ⟨fun
    | .pt (.arg n) 0 => (p n).x
    | .pt (.arg n) 1 => (p n).y
    | .pt (.arg n) _ => (p n).z
    | _ => (g2 .amd64).zero, fun n => ⟨h n, e n⟩⟩

/-! ## C113 -/

/-- C113, G1: after any calls, whichever objects they name and however often, by whichever group objects, every object holds what the
assignments give. -/
theorem C113_g1 (m : Memory Fe) (σ : Nat → E1.Point) (h : DecodedG1 m σ) (cs : List (Nat × Call)) (n : Nat) :
    (g1 .amd64).toCompressed (read ((callsP (g1 .amd64) cs).run m) (.arg n)) = compress1 (assigns σ (cs.map Prod.snd) n) :=
  (Sem.toCompressed_eq (rep_calls (S := sem1) (fun _ => True) cs (fun _ _ _ _ => trivial) m σ (fun n _ => h.rep n) n trivial)).trans (comp1_eq _)

/-- C113, G2. -/
theorem C113_g2 (m : Memory Fe2) (σ : Nat → E2.Point) (h : DecodedG2 m σ) (cs : List (Nat × Call)) (n : Nat) :
    (g2 .amd64).toCompressed (read ((callsP (g2 .amd64) cs).run m) (.arg n)) = compress2 (assigns σ (cs.map Prod.snd) n) :=
  (Sem.toCompressed_eq (rep_calls (S := sem2) (fun _ => True) cs (fun _ _ _ _ => trivial) m σ (fun n _ => h.rep n) n trivial)).trans (comp2_eq _)

/-- C113 for any coordinates, decoded or not: a call writes to its destination the value the function has on the coordinates read before the
call, and changes nothing else but the temporaries and own objects of its group object. -/
theorem C113_values {α : Type} (g : Ops α) (T : Nat) (m : Memory α) (a b c e : Nat) :
    let after := fun p : Prog Loc α → Prog Loc α => (p .done).run m
    let only := fun m' : Memory α => ∀ n, n ≠ c → read m' (.arg n) = read m (.arg n)
    (read (after (callP g T (.add c a b))) (.arg c) = g.addPt (read m (.arg a)) (read m (.arg b)) ∧ only (after (callP g T (.add c a b)))) ∧
    (read (after (callP g T (.sub c a b))) (.arg c) = g.subPt (read m (.arg a)) (read m (.arg b)) ∧ only (after (callP g T (.sub c a b)))) ∧
    (read (after (callP g T (.dbl c a))) (.arg c) = g.dbl (read m (.arg a)) ∧ only (after (callP g T (.dbl c a)))) ∧
    (read (after (callP g T (.neg c a))) (.arg c) = g.negPt (read m (.arg a)) ∧ only (after (callP g T (.neg c a)))) ∧
    (read (after (callP g T (.mul c a e))) (.arg c) = g.mulScalar (read m (.arg a)) e ∧ only (after (callP g T (.mul c a e)))) ∧
    (read (after (callP g T (.affine c))) (.arg c) = g.affine (read m (.arg c)) ∧ only (after (callP g T (.affine c)))) := by
  have H : ∀ k : Call, k.dest = c → read ((callP g T k .done).run m) (.arg c) = callV g m k ∧
      ∀ n, n ≠ c → read ((callP g T k .done).run m) (.arg n) = read m (.arg n) := by
    rintro k rfl
    obtain ⟨m', h1, h2, h3⟩ := callP_does g T k m
    rw [h1]
    exact ⟨h2, fun n hn => h3.read hn⟩
  exact ⟨H (.add c a b) rfl, H (.sub c a b) rfl, H (.dbl c a) rfl, H (.neg c a) rfl, H (.mul c a e) rfl, H (.affine c) rfl⟩

/-- C113 applied: with the generator in every object, `Add(0,0,0); Sub(0,0,1); MulScalar(0,0,5)` by one group object leaves five times the
generator in object 0 and the generator in object 1. -/
example : ∃ m, DecodedG1 m (fun _ => gen1) ∧
    (g1 .amd64).toCompressed (read ((callsP (g1 .amd64) [(0, .add 0 0 0), (0, .sub 0 0 1), (0, .mul 0 0 5)]).run m) (.arg 0)) =
      compress1 (5 • gen1) ∧
    (g1 .amd64).toCompressed (read ((callsP (g1 .amd64) [(0, .add 0 0 0), (0, .sub 0 0 1), (0, .mul 0 0 5)]).run m) (.arg 1)) =
      compress1 gen1 := by
  obtain ⟨m, h⟩ := DecodedG1.exists (fun _ => gen1) fun _ => gen1_order
  refine ⟨m, h, (C113_g1 m _ h _ 0).trans ?_, (C113_g1 m _ h _ 1).trans ?_⟩
  · simp [assigns, Call.assign, Call.dest, Call.value]
  · simp [assigns, Call.assign, Call.dest, Call.value]

/-! ## C114 -/

/-- goroutines that do not interfere: each has its own group object, and no goroutine is given an object that another one writes. -/
def Apart {ι : Type} (T : ι → Nat) (th : ι → List Call) : Prop :=
  ∀ i j, i ≠ j → T i ≠ T j ∧ ∀ c ∈ th i, ∀ d ∈ th j, c.dest ∉ d.args

theorem Apart.locs {ι : Type} {T : ι → Nat} {th : ι → List Call} (h : Apart T th) (i j : ι) (hij : i ≠ j) (l : Loc)
    (hw : wr (T i) (th i) l) : ¬ us (T j) (th j) l := by
  obtain ⟨hT, hc⟩ := h i j hij
  match l, hw with
  | .pt (.arg n) _, ⟨c, hc1, e⟩ => rintro ⟨d, hd, hn⟩; exact hc c hc1 d hd (e ▸ hn)
  | .pt (.new t _) _, h1 => exact fun h2 => hT ((show t = T i from h1).symm.trans (show t = T j from h2))
  | .tmp t _, h1 => exact fun h2 => hT ((show t = T i from h1).symm.trans (show t = T j from h2))

section
variable {α : Type} {g : Ops α} {F : Type} [Field F] [DecidableEq F] {S : Sem g F} {ι : Type} [DecidableEq ι]

theorem sched_rep {T : ι → Nat} {th : ι → List Call} (h : Apart T th) (i : ι) :
    ∃ N, ∀ (m : Memory α) (σ : Nat → S.W.Point), (∀ n, S.Rep (read m (.arg n)) (σ n)) → ∀ s : List ι, N ≤ s.count i →
      (sched s (fun i => thread g (T i) (th i)) m).1 i = .done ∧ ∀ n, (∃ c ∈ th i, n ∈ c.args) →
        S.Rep (read (sched s (fun i => thread g (T i) (th i)) m).2 (.arg n)) (assigns σ (th i) n) := by
  refine ⟨(thread g (T i) (th i)).size, fun m σ hm s hs => ?_⟩
  obtain ⟨h1, h2⟩ := sched_done (W := fun i => wr (T i) (th i)) (A := fun i => us (T i) (th i)) h.locs
    (fun i => thread g (T i) (th i)) m (fun i => thread_within (T i) (th i)) s i hs
  refine ⟨h1, fun n hn => ?_⟩
  have e : read (sched s (fun i => thread g (T i) (th i)) m).2 (.arg n) = read ((thread g (T i) (th i)).run m) (.arg n) := by
    have : ∀ k, (sched s (fun i => thread g (T i) (th i)) m).2 (.pt (.arg n) k) = (thread g (T i) (th i)).run m (.pt (.arg n) k) :=
      fun k => h2 _ hn
    simp [Mem.read, this]
  have := rep_calls (S := S) (fun _ => True) ((th i).map (T i, ·)) (fun _ _ _ _ => trivial) m σ (fun n _ => hm n) n trivial
  rw [List.map_map, show (Prod.snd ∘ fun c : Call => (T i, c)) = id from rfl, List.map_id] at this
  rw [e]
  exact this

theorem sched_keep {T : ι → Nat} {th : ι → List Call} (m : Memory α) (s : List ι) (n : Nat) (hn : ∀ i, ∀ c ∈ th i, n ≠ c.dest) :
    read (sched s (fun i => thread g (T i) (th i)) m).2 (.arg n) = read m (.arg n) := by
  have : ∀ k, (sched s (fun i => thread g (T i) (th i)) m).2 (.pt (.arg n) k) = m (.pt (.arg n) k) := fun k =>
    sched_other (W := fun i => wr (T i) (th i)) (A := fun i => us (T i) (th i)) _ m (fun i => thread_within (T i) (th i)) s _ fun i h => by
      obtain ⟨c, hc, e⟩ := h
      exact hn i c hc e
  simp [Mem.read, this]

end

/-- C114, G1: after any history `pre` of calls, goroutines that do not interfere run under any schedule.  A goroutine that has had enough
turns has finished, whatever the others have done, and every object it was given holds what its own calls assign; an object nobody writes
keeps its value at all times. -/
theorem C114_g1 {ι : Type} [DecidableEq ι] (T : ι → Nat) (th : ι → List Call) (h : Apart T th) :
    (∀ i, ∃ N, ∀ m σ, DecodedG1 m σ → ∀ (pre : List (Nat × Call)) (s : List ι), N ≤ s.count i →
      let out := sched s (fun i => thread (g1 .amd64) (T i) (th i)) ((callsP (g1 .amd64) pre).run m)
      out.1 i = .done ∧ ∀ n, (∃ c ∈ th i, n ∈ c.args) →
        (g1 .amd64).toCompressed (read out.2 (.arg n)) = compress1 (assigns (assigns σ (pre.map Prod.snd)) (th i) n)) ∧
    ∀ m (s : List ι) n, (∀ i, ∀ c ∈ th i, n ≠ c.dest) →
      read (sched s (fun i => thread (g1 .amd64) (T i) (th i)) m).2 (.arg n) = read m (.arg n) := by
  refine ⟨fun i => ?_, fun m s n hn => sched_keep m s n hn⟩
  obtain ⟨N, hN⟩ := sched_rep (S := sem1) (g := g1 .amd64) h i
  refine ⟨N, fun m σ hm pre s hs => ?_⟩
  obtain ⟨h1, h2⟩ := hN ((callsP (g1 .amd64) pre).run m) (assigns σ (pre.map Prod.snd)) (fun n =>
    rep_calls (S := sem1) (fun _ => True) pre (fun _ _ _ _ => trivial) m σ (fun n _ => hm.rep n) n trivial) s hs
  exact ⟨h1, fun n hn => (Sem.toCompressed_eq (h2 n hn)).trans (comp1_eq _)⟩

/-- C114, G2. -/
theorem C114_g2 {ι : Type} [DecidableEq ι] (T : ι → Nat) (th : ι → List Call) (h : Apart T th) :
    (∀ i, ∃ N, ∀ m σ, DecodedG2 m σ → ∀ (pre : List (Nat × Call)) (s : List ι), N ≤ s.count i →
      let out := sched s (fun i => thread (g2 .amd64) (T i) (th i)) ((callsP (g2 .amd64) pre).run m)
      out.1 i = .done ∧ ∀ n, (∃ c ∈ th i, n ∈ c.args) →
        (g2 .amd64).toCompressed (read out.2 (.arg n)) = compress2 (assigns (assigns σ (pre.map Prod.snd)) (th i) n)) ∧
    ∀ m (s : List ι) n, (∀ i, ∀ c ∈ th i, n ≠ c.dest) →
      read (sched s (fun i => thread (g2 .amd64) (T i) (th i)) m).2 (.arg n) = read m (.arg n) := by
  refine ⟨fun i => ?_, fun m s n hn => sched_keep m s n hn⟩
  obtain ⟨N, hN⟩ := sched_rep (S := sem2) (g := g2 .amd64) h i
  refine ⟨N, fun m σ hm pre s hs => ?_⟩
  obtain ⟨h1, h2⟩ := hN ((callsP (g2 .amd64) pre).run m) (assigns σ (pre.map Prod.snd)) (fun n =>
    rep_calls (S := sem2) (fun _ => True) pre (fun _ _ _ _ => trivial) m σ (fun n _ => hm.rep n) n trivial) s hs
  exact ⟨h1, fun n hn => (Sem.toCompressed_eq (h2 n hn)).trans (comp2_eq _)⟩

/-- three goroutines that share the input objects 0 and 1 do not interfere. -/
example : Apart (ι := Fin 3) (fun i => i.1)
    ![[.add 2 0 1, .dbl 2 2], [.mul 3 0 7, .sub 3 3 3], [.sub 4 1 0, .neg 4 4, .affine 4]] := by
  intro i j hij
  refine ⟨fun e => hij (Fin.ext e), ?_⟩
  fin_cases i <;> fin_cases j <;> simp_all [Call.dest, Call.args]

/-- C114 is false for goroutines that share a group object: with `P` in object 1 and its negative in object 3, the doublings of the one into
object 0 and of the other into object 2 have a schedule under which both finish and object 0 holds `-2P`; this is not `2P`. -/
theorem C114_false_shared_g1 (m : Memory Fe) (σ : Nat → E1.Point) (h : DecodedG1 m σ) (h0 : σ 1 ≠ 0) (T : Nat) :
    ∃ s : List Bool,
      let th : Bool → List Call := fun b => if b then [.dbl 2 3] else [.dbl 0 1]
      let out := sched s (fun b => thread (g1 .amd64) T (th b)) ((callsP (g1 .amd64) [(T, .neg 3 1)]).run m)
      (∀ b, out.1 b = .done) ∧ (g1 .amd64).toCompressed (read out.2 (.arg 0)) = compress1 (-(σ 1 + σ 1)) ∧
        (g1 .amd64).toCompressed (read out.2 (.arg 0)) ≠ compress1 (σ 1 + σ 1) := by
  obtain ⟨m', h1, h2, h3⟩ := callP_does (g1 .amd64) T (.neg 3 1) m
  have e1 : read m' (.arg 1) = read m (.arg 1) := h3.read (by decide)
  have hr := h.rep 1
  have hi : ¬ (g1 .amd64).isInf (read m (.arg 1)) = true := fun e => h0 ((Sem.isInf_iff hr).mp e)
  obtain ⟨k1, k2⟩ := race (g1 .amd64) T m' (by rw [← e1] at hi; exact hi) (by
    have : ¬ (g1 .amd64).isInf (callV (g1 .amd64) m (.neg 3 1)) = true := hi
    rw [← h2] at this; exact this)
  have ep : (fun b => thread (g1 .amd64) T (if b then [.dbl 2 3] else [.dbl 0 1])) = raceP (g1 .amd64) T := by
    funext b; cases b <;> rfl
  have hc : (g1 .amd64).toCompressed (read (sched raceOrder (raceP (g1 .amd64) T) m').2 (.arg 0)) = compress1 (-(σ 1 + σ 1)) := by
    rw [k2, e1]
    have : read m' (.arg 3) = (g1 .amd64).negPt (read m (.arg 1)) := h2
    rw [this]
    exact (Sem.toCompressed_eq (rep_race hr h0)).trans (comp1_eq _)
  refine ⟨raceOrder, ?_⟩
  have em : (callsP (g1 .amd64) [(T, .neg 3 1)]).run m = m' := h1 .done
  simp only [em, ep]
  refine ⟨k1, hc, ?_⟩
  rw [hc]
  intro e
  have e := comp_inj_all (S := sem1) ((comp1_eq _).trans (e.trans (comp1_eq _).symm))
  refine smul_ne prime_r h0 (h 1).1 (j := 4) (by omega) (by rw [Spec.r]; omega) ?_
  have : (4 : ℕ) • σ 1 = (σ 1 + σ 1) + (σ 1 + σ 1) := by abel
  rw [this, ← neg_eq_iff_add_eq_zero]
  exact e

/-- the same in G2. -/
theorem C114_false_shared_g2 (m : Memory Fe2) (σ : Nat → E2.Point) (h : DecodedG2 m σ) (h0 : σ 1 ≠ 0) (T : Nat) :
    ∃ s : List Bool,
      let th : Bool → List Call := fun b => if b then [.dbl 2 3] else [.dbl 0 1]
      let out := sched s (fun b => thread (g2 .amd64) T (th b)) ((callsP (g2 .amd64) [(T, .neg 3 1)]).run m)
      (∀ b, out.1 b = .done) ∧ (g2 .amd64).toCompressed (read out.2 (.arg 0)) = compress2 (-(σ 1 + σ 1)) ∧
        (g2 .amd64).toCompressed (read out.2 (.arg 0)) ≠ compress2 (σ 1 + σ 1) := by
  obtain ⟨m', h1, h2, h3⟩ := callP_does (g2 .amd64) T (.neg 3 1) m
  have e1 : read m' (.arg 1) = read m (.arg 1) := h3.read (by decide)
  have hr := h.rep 1
  have hi : ¬ (g2 .amd64).isInf (read m (.arg 1)) = true := fun e => h0 ((Sem.isInf_iff hr).mp e)
  obtain ⟨k1, k2⟩ := race (g2 .amd64) T m' (by rw [← e1] at hi; exact hi) (by
    have : ¬ (g2 .amd64).isInf (callV (g2 .amd64) m (.neg 3 1)) = true := hi
    rw [← h2] at this; exact this)
  have ep : (fun b => thread (g2 .amd64) T (if b then [.dbl 2 3] else [.dbl 0 1])) = raceP (g2 .amd64) T := by
    funext b; cases b <;> rfl
  have hc : (g2 .amd64).toCompressed (read (sched raceOrder (raceP (g2 .amd64) T) m').2 (.arg 0)) = compress2 (-(σ 1 + σ 1)) := by
    rw [k2, e1]
    have : read m' (.arg 3) = (g2 .amd64).negPt (read m (.arg 1)) := h2
    rw [this]
    exact (Sem.toCompressed_eq (rep_race hr h0)).trans (comp2_eq _)
  refine ⟨raceOrder, ?_⟩
  have em : (callsP (g2 .amd64) [(T, .neg 3 1)]).run m = m' := h1 .done
  simp only [em, ep]
  refine ⟨k1, hc, ?_⟩
  rw [hc]
  intro e
  have e := comp_inj_all (S := sem2) ((comp2_eq _).trans (e.trans (comp2_eq _).symm))
  refine smul_ne prime_r h0 (h 1).1 (j := 4) (by omega) (by rw [Spec.r]; omega) ?_
  have : (4 : ℕ) • σ 1 = (σ 1 + σ 1) + (σ 1 + σ 1) := by abel
  rw [this, ← neg_eq_iff_add_eq_zero]
  exact e

/-- the refutation applies to the generator. -/
example : ∃ m, DecodedG1 m (fun _ => gen1) ∧ gen1 ≠ 0 := by
  obtain ⟨m, h⟩ := DecodedG1.exists (fun _ => gen1) fun _ => gen1_order
  exact ⟨m, h, gen1_ne⟩

end Verif.Props
