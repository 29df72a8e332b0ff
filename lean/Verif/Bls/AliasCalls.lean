import Verif.Bls.Alias
import Verif.Bls.Sched
import Verif.Bls.AliasSpec
import Verif.Bls.GroupLemmas

/-!
# Sequences and interleavings of the calls of g1.go and g2.go
-/

namespace Verif.Bls.Mem

open Verif.Bls Verif.Bls.Spec

variable {α : Type}

/-! ## Model -/

variable (g : Ops α)

/-- the call with the group object `T` (g1.go:252-254, 311-439; g2.go:260-262, 319-447). -/
def callP (T : Nat) : Call → Prog Loc α → Prog Loc α
  | .copy r p => copyP (.arg r) (.arg p)
  | .add r a b => addP g T (.arg r) (.arg a) (.arg b)
  | .sub r a b => subP g T (.arg r) (.arg a) (.arg b)
  | .dbl r p => dblP g T (.arg r) (.arg p)
  | .neg r p => negP g (.arg r) (.arg p)
  | .mul r p e => mulScalarP g T (.arg r) (.arg p) e
  | .affine p => affineP g T (.arg p)

/-- calls one after the other, each with its group object. -/
def callsP : List (Nat × Call) → Prog Loc α
  | [] => .done
  | c :: cs => callP g c.1 c.2 (callsP cs)

/-! ## Sequences -/

/-- the value of the functional model. -/
def callV (m : Memory α) : Call → P3 α
  | .copy _ p => read m (.arg p)
  | .add _ a b => g.addPt (read m (.arg a)) (read m (.arg b))
  | .sub _ a b => g.subPt (read m (.arg a)) (read m (.arg b))
  | .dbl _ p => g.dbl (read m (.arg p))
  | .neg _ p => g.negPt (read m (.arg p))
  | .mul _ p e => g.mulScalar (read m (.arg p)) e
  | .affine p => g.affine (read m (.arg p))

theorem callP_does (T : Nat) (c : Call) (m : Memory α) : DoesN (callP g T c) T (.arg c.dest) m (callV g m c) := by
  cases c with
  | copy r p => exact (copyP_does T _ _ m).toN
  | add r a b => exact (addP_does g T _ _ _ m).toN
  | sub r a b => exact subP_does g T _ _ _ (by simp) m
  | dbl r p => exact (dblP_does g T _ _ m).toN
  | neg r p => exact (negP_does g T _ _ m).toN
  | mul r p e => exact mulScalarP_does g T _ _ e (by simp) m
  | affine p => exact (affineP_does g T _ m).toN

theorem SameN.read {T : Nat} {r n : Nat} {m m' : Memory α} (h : SameN T (.arg r) m m') (hn : n ≠ r) :
    read m' (.arg n) = read m (.arg n) := by
  have : ∀ i, m' (.pt (.arg n) i) = m (.pt (.arg n) i) :=
    fun i => h _ (fun j e => hn (Obj.arg.inj (Loc.pt.inj e).1)) (fun j e => by cases e) (fun j i e => by cases e)
  simp [Mem.read, this]

variable {g} {F : Type} [Field F] [DecidableEq F] {S : Sem g F}

theorem rep_callV {m : Memory α} {σ : Nat → S.W.Point} {c : Call}
    (h : ∀ n ∈ c.args, S.Rep (read m (.arg n)) (σ n)) : S.Rep (callV g m c) (c.value σ) := by
  cases c with
  | copy r p => exact h _ (by simp [Call.args])
  | add r a b => exact Sem.rep_add (h _ (by simp [Call.args])) (h _ (by simp [Call.args]))
  | sub r a b => exact Sem.rep_sub (h _ (by simp [Call.args])) (h _ (by simp [Call.args]))
  | dbl r p => exact Sem.rep_dbl (h _ (by simp [Call.args]))
  | neg r p => exact Sem.rep_neg (h _ (by simp [Call.args]))
  | mul r p e => exact Sem.rep_mul (h _ (by simp [Call.args])) e
  | affine p => exact Sem.rep_affine_of (h _ (by simp [Call.args]))

/-- a sequence of calls does what the assignments say, on a set of objects that contains all arguments. -/
theorem rep_calls (D : Nat → Prop) (cs : List (Nat × Call)) (hD : ∀ c ∈ cs, ∀ n ∈ c.2.args, D n) (m : Memory α)
    (σ : Nat → S.W.Point) (h : ∀ n, D n → S.Rep (read m (.arg n)) (σ n)) (n : Nat) (hn : D n) :
    S.Rep (read ((callsP g cs).run m) (.arg n)) (assigns σ (cs.map Prod.snd) n) := by
  induction cs generalizing m σ with
  | nil => exact h n hn
  | cons c cs ih =>
    obtain ⟨m', h1, h2, h3⟩ := callP_does g c.1 c.2 m
    rw [callsP, h1, List.map_cons]
    refine ih (fun c hc => hD c (List.mem_cons_of_mem _ hc)) m' (c.2.assign σ) fun k hk => ?_
    by_cases e : k = c.2.dest
    · subst e
      rw [h2, Call.assign, Function.update_self]
      exact rep_callV fun j hj => h j (hD c List.mem_cons_self j hj)
    · rw [h3.read e, Call.assign, Function.update_of_ne e]
      exact h k hk

/-! ## What the calls touch -/

section
variable {W A : Loc → Prop} {T : Nat} {k : Prog Loc α} (hT : ∀ i, W (.tmp T i)) (hWA : ∀ l, W l → A l) (hk : k.Within W A)
include hk

theorem copyP_within {r p : Obj} (hr : ∀ i, W (.pt r i)) (hp : ∀ i, A (.pt p i)) : (copyP r p k).Within W A :=
  within_seq (by simp [Ins.Within, hr, hp]) hk

theorem negP_within {r p : Obj} (hr : ∀ i, W (.pt r i)) (hp : ∀ i, A (.pt p i)) : (negP g r p k).Within W A :=
  within_seq (by simp [Ins.Within, hr, hp]) hk

include hWA hT

theorem dblP_within {r p : Obj} (hr : ∀ i, W (.pt r i)) (hp : ∀ i, A (.pt p i)) : (dblP g T r p k).Within W A := by
  have hT' : ∀ i, A (.tmp T i) := fun i => hWA _ (hT i)
  have hr' : ∀ i, A (.pt r i) := fun i => hWA _ (hr i)
  exact ⟨hp 2, copyP_within hk hr hp, within_seq (by simp [dblIns, Ins.Within, hr, hp, hT, hT', hr']) hk⟩

theorem affineP_within {p : Obj} (hp : ∀ i, W (.pt p i)) : (affineP g T p k).Within W A := by
  have hT' : ∀ i, A (.tmp T i) := fun i => hWA _ (hT i)
  have hp' : ∀ i, A (.pt p i) := fun i => hWA _ (hp i)
  exact ⟨hp' 2, hk, hp' 2, within_seq (by simp [affineIns, Ins.Within, hp, hT, hT', hp']) hk, hk⟩

theorem addP_within {r p1 p2 : Obj} (hr : ∀ i, W (.pt r i)) (h1 : ∀ i, A (.pt p1 i)) (h2 : ∀ i, A (.pt p2 i)) :
    (addP g T r p1 p2 k).Within W A := by
  have hT' : ∀ i, A (.tmp T i) := fun i => hWA _ (hT i)
  have hr' : ∀ i, A (.pt r i) := fun i => hWA _ (hr i)
  refine ⟨h1 2, copyP_within hk hr h2, h2 2, copyP_within hk hr h1, within_seq ?_ ⟨hT' 1, hT' 3, ⟨hT' 0, hT' 2, ?_, ?_⟩, ?_⟩⟩
  · simp [addIns1, Ins.Within, h1, h2, hT, hT']
  · exact dblP_within hT hWA hk hr h1
  · exact within_seq (by simp [Ins.Within, hr]) hk
  · exact within_seq (by simp [addIns2, Ins.Within, h1, h2, hr, hr', hT, hT']) hk

theorem mulLoopP_within {q n : Obj} (hq : ∀ i, W (.pt q i)) (hn : ∀ i, W (.pt n i)) (e : Nat) :
    ∀ j i, (mulLoopP g T q n e j i k).Within W A
  | 0, _ => hk
  | j + 1, i => by
    have ih := mulLoopP_within hq hn e j (i + 1)
    have hq' : ∀ i, A (.pt q i) := fun i => hWA _ (hq i)
    have hn' : ∀ i, A (.pt n i) := fun i => hWA _ (hn i)
    rw [mulLoopP]
    split
    · exact addP_within hT hWA (dblP_within hT hWA ih hn hn') hq hq' hn'
    · exact dblP_within hT hWA ih hn hn'

theorem callP_within (hN : ∀ j i, W (.pt (.new T j) i)) (c : Call) (hd : ∀ i, W (.pt (.arg c.dest) i))
    (ha : ∀ n ∈ c.args, ∀ i, A (.pt (.arg n) i)) : (callP g T c k).Within W A := by
  have hN' : ∀ j i, A (.pt (.new T j) i) := fun j i => hWA _ (hN j i)
  cases c with
  | copy r p => exact copyP_within hk hd (ha p (by simp [Call.args]))
  | add r a b => exact addP_within hT hWA hk hd (ha a (by simp [Call.args])) (ha b (by simp [Call.args]))
  | sub r a b =>
    exact negP_within (addP_within hT hWA hk hd (ha a (by simp [Call.args])) (hN' 0)) (hN 0) (ha b (by simp [Call.args]))
  | dbl r p => exact dblP_within hT hWA hk hd (ha p (by simp [Call.args]))
  | neg r p => exact negP_within hk hd (ha p (by simp [Call.args]))
  | mul r p e =>
    refine within_seq (by simp [Ins.Within, hN]) (copyP_within ?_ (hN 1) (ha p (by simp [Call.args])))
    exact mulLoopP_within hT hWA (copyP_within hk hd (hN' 0)) (hN 0) (hN 1) e _ _
  | affine p => exact affineP_within hT hWA hk hd

end

/-- the locations a goroutine with group object `T` writes. -/
def wr (T : Nat) (cs : List Call) : Loc → Prop
  | .pt (.arg n) _ => ∃ c ∈ cs, n = c.dest
  | .pt (.new t _) _ => t = T
  | .tmp t _ => t = T

/-- the locations it uses. -/
def us (T : Nat) (cs : List Call) : Loc → Prop
  | .pt (.arg n) _ => ∃ c ∈ cs, n ∈ c.args
  | .pt (.new t _) _ => t = T
  | .tmp t _ => t = T

theorem dest_mem (c : Call) : c.dest ∈ c.args := by cases c <;> simp [Call.dest, Call.args]

/-- the program of a goroutine: calls with its own group object. -/
def thread (g : Ops α) (T : Nat) (cs : List Call) : Prog Loc α := callsP g (cs.map (T, ·))

theorem thread_within (T : Nat) (cs : List Call) : (thread g T cs).Within (wr T cs) (us T cs) := by
  have hWA : ∀ l, wr T cs l → us T cs l := by
    intro l h
    match l, h with
    | .pt (.arg n) _, ⟨c, hc, e⟩ => exact ⟨c, hc, e ▸ dest_mem c⟩
    | .pt (.new t _) _, h => exact h
    | .tmp t _, h => exact h
  suffices H : ∀ l : List Call, l ⊆ cs → (callsP g (l.map (T, ·))).Within (wr T cs) (us T cs) from H cs fun _ h => h
  intro l
  induction l with
  | nil => exact fun _ => trivial
  | cons c l ih =>
    intro hl
    exact callP_within (fun _ => rfl) hWA (ih fun d hd => hl (List.mem_cons_of_mem _ hd)) (fun _ _ => rfl) c
      (fun _ => ⟨c, hl List.mem_cons_self, rfl⟩) (fun n hn _ => ⟨c, hl List.mem_cons_self, hn⟩)

/-! ## Two doublings with one group object -/

/-- `Double(0, 1)` runs up to its last statement, then `Double(2, 3)` runs, then the first finishes. -/
def raceOrder : List Bool := List.replicate 22 false ++ List.replicate 23 true ++ [false]

/-- the goroutines `Double(0, 1)` and `Double(2, 3)`, both with the group object `T`. -/
def raceP (g : Ops α) (T : Nat) : Bool → Prog Loc α
  | false => thread g T [.dbl 0 1]
  | true => thread g T [.dbl 2 3]

theorem race (g : Ops α) (T : Nat) (m : Memory α) (h1 : ¬ g.isZero (m (.pt (.arg 1) 2)) = true) (h3 : ¬ g.isZero (m (.pt (.arg 3) 2)) = true) :
    (∀ b, (sched raceOrder (raceP g T) m).1 b = .done) ∧
      read (sched raceOrder (raceP g T) m).2 (.arg 0) =
        ⟨(g.dbl (read m (.arg 1))).x, (g.dbl (read m (.arg 1))).y, (g.dbl (read m (.arg 3))).z⟩ := by
  let A : List (Ins Loc α) := (dblIns g T (.arg 0) (.arg 1)).dropLast
  let z : Ins Loc α := .un (.pt (.arg 0) 2) g.double (.tmp T 0)
  let B : List (Ins Loc α) := dblIns g T (.arg 2) (.arg 3)
  have hA : dblIns g T (.arg 0) (.arg 1) = A ++ [z] := rfl
  obtain ⟨m1, hm1⟩ : ∃ m1, A.foldl Ins.exec m = m1 := ⟨_, rfl⟩
  obtain ⟨m2, hm2⟩ : ∃ m2, B.foldl Ins.exec m1 = m2 := ⟨_, rfl⟩
  have e3 : m1 (.pt (.arg 3) 2) = m (.pt (.arg 3) 2) := by rw [← hm1]; simp [A, dblIns, Ins.exec]
  have e31 : m1 (.pt (.arg 3) 1) = m (.pt (.arg 3) 1) := by rw [← hm1]; simp [A, dblIns, Ins.exec]
  have h3' : ¬ g.isZero (m1 (.pt (.arg 3) 2)) = true := by rw [e3]; exact h3
  have s1 : sched (List.replicate 22 false) (raceP g T) m = (Function.update (raceP g T) false (seq [z] .done), m1) := by
    rw [show List.replicate 22 false = false :: List.replicate A.length false from rfl, sched]
    have : (raceP g T false).step m = (seq A (seq [z] .done), m) := by
      show ((if g.isZero (m (.pt (.arg 1) 2)) = true then _ else _), m) = _
      rw [if_neg h1]; rfl
    rw [this, sched_seq, hm1]
  have s2 : sched (List.replicate 23 true) (Function.update (raceP g T) false (seq [z] .done)) m1 =
      (Function.update (Function.update (raceP g T) false (seq [z] .done)) true .done, m2) := by
    rw [show List.replicate 23 true = true :: List.replicate B.length true from rfl, sched]
    have : (Function.update (raceP g T) false (seq [z] .done) true).step m1 = (seq B .done, m1) := by
      show ((if g.isZero (m1 (.pt (.arg 3) 2)) = true then _ else _), m1) = _
      rw [if_neg h3']; rfl
    rw [this, sched_seq, hm2]
  have s3 : sched raceOrder (raceP g T) m =
      (Function.update (Function.update (Function.update (raceP g T) false (seq [z] .done)) true .done) false .done, z.exec m2) := by
    rw [raceOrder, sched_append, sched_append, s1]
    simp only [s2]
    rfl
  rw [s3]
  constructor
  · intro b; cases b <;> simp
  · have d1 : g.dbl (read m (.arg 1)) = ⟨m1 (.pt (.arg 0) 0), m1 (.pt (.arg 0) 1), g.double (g.mul (m (.pt (.arg 1) 1)) (m (.pt (.arg 1) 2)))⟩ := by
      refine (if_neg h1).trans ?_
      rw [← hm1]
      simp [A, read, dblIns, Ins.exec]
    have d3 : (g.dbl (read m (.arg 3))).z = g.double (g.mul (m (.pt (.arg 3) 1)) (m (.pt (.arg 3) 2))) := by
      rw [Ops.dbl, if_neg (show ¬ g.isInf (read m (.arg 3)) = true from h3)]; rfl
    rw [d1, d3]
    rw [← hm2, ← e3, ← e31]
    simp [B, z, read, dblIns, Ins.exec]

/-- with the negative of the first point as the second, the first doubling comes out negated. -/
theorem rep_race {p : P3 α} {P : S.W.Point} (hp : S.Rep p P) (h : P ≠ 0) :
    S.Rep ⟨(g.dbl p).x, (g.dbl p).y, (g.dbl (g.negPt p)).z⟩ (-(P + P)) := by
  have hi : ¬ g.isInf p = true := fun e => h ((Sem.isInf_iff hp).mp e)
  have hi' : ¬ g.isInf (g.negPt p) = true := hi
  have hd := Sem.rep_dbl hp
  have hz : (g.dbl p).z = g.double (g.mul p.y p.z) := by rw [Ops.dbl, if_neg hi]
  have hz' : (g.dbl (g.negPt p)).z = g.double (g.mul (g.neg p.y) p.z) := by rw [Ops.dbl, if_neg hi']; rfl
  obtain ⟨hx, hy, hz0, -⟩ := hp
  obtain ⟨rx, ry, rz, hj⟩ := hd
  obtain ⟨n1, n2⟩ := S.neg hy
  obtain ⟨a1, a2⟩ := S.mul hy hz0
  obtain ⟨b1, b2⟩ := S.double a1
  obtain ⟨c1, c2⟩ := S.mul n1 hz0
  obtain ⟨d1, d2⟩ := S.double c1
  have ez : S.den (g.double (g.mul (g.neg p.y) p.z)) = - S.den (g.dbl p).z := by
    rw [d2, c2, n2, hz, b2, a2]; ring
  rw [hz']
  refine Sem.Rep.mk' rx ry d1 rfl rfl ez ?_
  generalize P + P = Q at hj
  cases Q with
  | zero => exact neg_eq_zero.mpr hj
  | some x y hP =>
    obtain ⟨h1, h2, h3⟩ := hj
    refine ⟨neg_ne_zero.mpr h1, ?_, ?_⟩
    · rw [h2]; ring
    · rw [h3]
      simp [WeierstrassCurve.Affine.negY, Verif.EC.sw]
      ring

end Verif.Bls.Mem
