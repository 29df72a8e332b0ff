import Verif.Bls.AliasCalls
import Verif.Bls.TowerMem

/-!
# The calls of g2.go over base field elements

`Verif.Bls.Alias` writes the functions of g2.go with one call into fp2.go as one statement.  `Low` replaces every such statement by the base field
operations of that call, with the temporaries of the fp2 object that the group object owns (g2.go:36-43 `NewG2`), and every test by the tests
on the two components.  `calls_low` shows that every sequence of calls has such a version; `low_run` that it computes the same.
-/

namespace Verif.Bls.Mem

open Verif.Bls Verif.Bls.Spec Cell

/-- base field elements inside the coordinates of point objects and inside the temporaries of group objects, and temporaries of fp2 objects. -/
abbrev Loc2 := Cell Loc

/-- the base field operations of one call into fp2.go by the group object `T`. -/
inductive LowI (bd : Build) (T : Nat) : Ins Loc Fe2 → Code Loc2 → Prop
  | copy (d a) : LowI bd T (.un d id a) ((fp2I bd T).copy d a)
  | double (d a) : LowI bd T (.un d (g2 bd).double a) ((fp2I bd T).double d a)
  | neg (d a) : LowI bd T (.un d (g2 bd).neg a) ((fp2I bd T).neg d a)
  | square (d a) : LowI bd T (.un d (g2 bd).square a) ((fp2I bd T).square d a)
  | inverse (d a) : LowI bd T (.un d (g2 bd).inverse a) ((fp2I bd T).inverse d a)
  | add (d a b) : LowI bd T (.bin d (g2 bd).add a b) ((fp2I bd T).add d a b)
  | sub (d a b) : LowI bd T (.bin d (g2 bd).sub a b) ((fp2I bd T).sub d a b)
  | mul (d a b) : LowI bd T (.bin d (g2 bd).mul a b) ((fp2I bd T).mul d a b)
  -- a new object (fp2.go:52-62)
  | const (d c) : LowI bd T (.const d c) [.const (part d 0) c.c0, .const (part d 1) c.c1]

/-- g2.go:15-23 `Set`, in the order of the code. -/
def setP (r p : Obj) : Code Loc2 :=
  [.un (part (.pt r 0) 0) id (part (.pt p 0) 0), .un (part (.pt r 1) 1) id (part (.pt p 1) 1), .un (part (.pt r 2) 0) id (part (.pt p 2) 0),
    .un (part (.pt r 0) 1) id (part (.pt p 0) 1), .un (part (.pt r 1) 0) id (part (.pt p 1) 0), .un (part (.pt r 2) 1) id (part (.pt p 2) 1)]

/-- the program with every call replaced; `ok` says which group objects the calls may belong to. -/
inductive Low (bd : Build) (ok : Nat → Prop) : Prog Loc Fe2 → Prog Loc2 Fe → Prop
  | done : Low bd ok .done .done
  | ins {T i l k k'} : ok T → LowI bd T i l → Low bd ok k k' → Low bd ok (.ins i k) (seq l k')
  | set {r p k k'} : Low bd ok k k' → Low bd ok (copyP r p k) (seq (setP r p) k')
  -- fp2.go:81-83
  | isZero {a kt kf kt' kf'} : Low bd ok kt kt' → Low bd ok kf kf' →
    Low bd ok (.test1 (g2 bd).isZero a kt kf) (.test1 Fe.isZero (part a 0) (.test1 Fe.isZero (part a 1) kt' kf') kf')
  -- fp2.go:89-91 with the new object `one`
  | notOne {a kt kf kt' kf'} : Low bd ok kt kt' → Low bd ok kf kf' →
    Low bd ok (.test1 (fun z => !(g2 bd).equal z (g2 bd).one) a kt kf)
      (.test1 (fun z => Fe.equal z Fe.one) (part a 0) (.test1 (fun z => Fe.equal z Fe.zero) (part a 1) kf' kt') kt')
  | equal {a b kt kf kt' kf'} : Low bd ok kt kt' → Low bd ok kf kf' →
    Low bd ok (.test2 (g2 bd).equal a b kt kf)
      (.test2 Fe.equal (part a 0) (part b 0) (.test2 Fe.equal (part a 1) (part b 1) kt' kf') kf')

/-! ## It computes the same -/

variable {bd : Build} {ok : Nat → Prop}

theorem lowI_ex {T : Nat} {i : Ins Loc Fe2} {l : Code Loc2} (h : LowI bd T i l) (m : Loc2 → Fe) : v2 (ex l m) = i.exec (v2 m) := by
  cases h with
  | copy d a => exact (fp2_ok bd T).copy d a m
  | double d a => exact (fp2_ok bd T).double d a m
  | neg d a => exact (fp2_ok bd T).neg d a m
  | square d a => exact (fp2_ok bd T).square d a m
  | inverse d a => exact (fp2_ok bd T).inverse d a m
  | add d a b => exact (fp2_ok bd T).add d a b m
  | sub d a b => exact (fp2_ok bd T).sub d a b m
  | mul d a b => exact (fp2_ok bd T).mul d a b m
  | const d c =>
    refine eq_update ?_ fun l hl => ?_
    · simp [v2, ex, Ins.exec]
    · simp [v2, ex, Ins.exec, hl]

theorem set_ex (r p : Obj) (m : Loc2 → Fe) : v2 (ex (setP r p) m) =
    ([.un (.pt r 0) id (.pt p 0), .un (.pt r 1) id (.pt p 1), .un (.pt r 2) id (.pt p 2)] : List (Ins Loc Fe2)).foldl Ins.exec (v2 m) := by
  by_cases h : r = p
  · subst h; simp [setP, ex, Ins.exec]
  · funext l
    by_cases l0 : l = .pt r 0
    · subst l0; simp [setP, ex, Ins.exec, v2]
    by_cases l1 : l = .pt r 1
    · subst l1; simp [setP, ex, Ins.exec, v2]
    by_cases l2 : l = .pt r 2
    · subst l2; simp [setP, ex, Ins.exec, v2]
    simp [setP, ex, Ins.exec, v2, l0, l1, l2]

theorem low_run {P : Prog Loc Fe2} {P' : Prog Loc2 Fe} (h : Low bd ok P P') (m : Loc2 → Fe) : v2 (P'.run m) = P.run (v2 m) := by
  induction h generalizing m with
  | done => rfl
  | ins _ hi _ ih => rw [run_seq, ih]; exact congrArg _ (lowI_ex hi m)
  | @set r p k k' _ ih =>
    rw [run_seq, ih, copyP, run_seq]
    refine congrArg _ ?_
    exact set_ex r p m
  | @isZero a kt kf kt' kf' _ _ iht ihf =>
    have : (g2 bd).isZero (v2 m a) = (Fe.isZero (m (part a 0)) && Fe.isZero (m (part a 1))) := rfl
    simp only [Prog.run, this]
    cases Fe.isZero (m (part a 0)) <;> cases Fe.isZero (m (part a 1)) <;> simp [iht, ihf]
  | @notOne a kt kf kt' kf' _ _ iht ihf =>
    have : (g2 bd).equal (v2 m a) (g2 bd).one = (Fe.equal (m (part a 0)) Fe.one && Fe.equal (m (part a 1)) Fe.zero) := rfl
    by_cases e0 : Fe.equal (m (part a 0)) Fe.one = true <;> by_cases e1 : Fe.equal (m (part a 1)) Fe.zero = true <;>
      simp [Prog.run, this, e0, e1, iht, ihf]
  | @equal a b kt kf kt' kf' _ _ iht ihf =>
    have : (g2 bd).equal (v2 m a) (v2 m b) = (Fe.equal (m (part a 0)) (m (part b 0)) && Fe.equal (m (part a 1)) (m (part b 1))) := rfl
    simp only [Prog.run, this]
    cases Fe.equal (m (part a 0)) (m (part b 0)) <;> cases Fe.equal (m (part a 1)) (m (part b 1)) <;> simp [iht, ihf]

/-! ## What it touches -/

/-- the base field elements inside `W`, and the temporaries of the fp2 object of `T`. -/
def inside (T : Nat) (W : Loc → Prop) : Loc2 → Prop
  | .part l _ => W l
  | .t T' _ => T' = T

theorem lowI_within {T : Nat} {i : Ins Loc Fe2} {l : Code Loc2} (h : LowI bd T i l) {W A : Loc → Prop}
    (hi : i.Within W A) : ∀ j ∈ l, j.Within (inside T W) (inside T A) := by
  cases h with
  | const d c => simpa [Ins.Within, inside] using hi
  | add d a b | sub d a b | mul d a b =>
    obtain ⟨h1, h2, h3⟩ := hi
    simp [fp2I, Ins.Within, inside, h1, h2, h3]
  | _ =>
    obtain ⟨h1, h2⟩ := hi
    simp [fp2I, Ins.Within, inside, h1, h2]

theorem low_within {T : Nat} {P : Prog Loc Fe2} {P' : Prog Loc2 Fe} (h : Low bd (· = T) P P') {W A : Loc → Prop}
    (hP : P.Within W A) : P'.Within (inside T W) (inside T A) := by
  induction h with
  | done => trivial
  | ins hT hi _ ih => subst hT; exact within_seq (lowI_within hi hP.1) (ih hP.2)
  | set _ ih =>
    obtain ⟨⟨a0, b0⟩, ⟨a1, b1⟩, ⟨a2, b2⟩, hk⟩ := hP
    exact within_seq (by simp [setP, Ins.Within, inside, a0, b0, a1, b1, a2, b2]) (ih hk)
  | isZero _ _ iht ihf => exact ⟨hP.1, ⟨hP.1, iht hP.2.1, ihf hP.2.2⟩, ihf hP.2.2⟩
  | notOne _ _ iht ihf => exact ⟨hP.1, ⟨hP.1, ihf hP.2.2, iht hP.2.1⟩, iht hP.2.1⟩
  | equal _ _ iht ihf =>
    exact ⟨hP.1, hP.2.1, ⟨hP.1, hP.2.1, iht hP.2.2.1, ihf hP.2.2.2⟩, ihf hP.2.2.2⟩

/-! ## Every sequence of calls has such a version -/

/-- the statements of the calls, for any field. -/
inductive IsOp {α : Type} (g : Ops α) : Ins Loc α → Prop
  | copy (d a) : IsOp g (.un d id a)
  | double (d a) : IsOp g (.un d g.double a)
  | neg (d a) : IsOp g (.un d g.neg a)
  | square (d a) : IsOp g (.un d g.square a)
  | inverse (d a) : IsOp g (.un d g.inverse a)
  | add (d a b) : IsOp g (.bin d g.add a b)
  | sub (d a b) : IsOp g (.bin d g.sub a b)
  | mul (d a b) : IsOp g (.bin d g.mul a b)
  | const (d c) : IsOp g (.const d c)

theorem IsOp.low {i : Ins Loc Fe2} (h : IsOp (g2 bd) i) (T : Nat) : ∃ c, LowI bd T i c := by
  cases h with
  | copy d a => exact ⟨_, .copy d a⟩
  | double d a => exact ⟨_, .double d a⟩
  | neg d a => exact ⟨_, .neg d a⟩
  | square d a => exact ⟨_, .square d a⟩
  | inverse d a => exact ⟨_, .inverse d a⟩
  | add d a b => exact ⟨_, .add d a b⟩
  | sub d a b => exact ⟨_, .sub d a b⟩
  | mul d a b => exact ⟨_, .mul d a b⟩
  | const d c => exact ⟨_, .const d c⟩

section
variable {α : Type} (g : Ops α)

local macro "ops" : tactic => `(tactic|
  (simp only [dblIns, addIns1, addIns2, affineIns, List.forall_mem_cons, List.not_mem_nil, IsEmpty.forall_iff, implies_true, and_true]
   repeat' apply And.intro
   all_goals constructor))

theorem dbl_ops (T : Nat) (r p : Obj) : ∀ i ∈ dblIns g T r p, IsOp g i := by ops

theorem add1_ops (T : Nat) (p1 p2 : Obj) : ∀ i ∈ addIns1 g T p1 p2, IsOp g i := by ops

theorem add2_ops (T : Nat) (r p1 p2 : Obj) : ∀ i ∈ addIns2 g T r p1 p2, IsOp g i := by ops

theorem affine_ops (T : Nat) (p : Obj) : ∀ i ∈ affineIns g T p, IsOp g i := by ops

theorem neg_ops (r p : Obj) : ∀ i ∈ ([.un (.pt r 0) id (.pt p 0), .un (.pt r 2) id (.pt p 2), .un (.pt r 1) g.neg (.pt p 1)] : List (Ins Loc α)),
    IsOp g i := by ops

theorem const_ops (r : Obj) (x y z : α) : ∀ i ∈ ([.const (.pt r 0) x, .const (.pt r 1) y, .const (.pt r 2) z] : List (Ins Loc α)), IsOp g i := by ops

end

def HasLow (bd : Build) (ok : Nat → Prop) (P : Prog Loc Fe2) : Prop := ∃ P', Low bd ok P P'

theorem seq_low {T : Nat} (hT : ok T) {l : List (Ins Loc Fe2)} {k : Prog Loc Fe2} (h : ∀ i ∈ l, IsOp (g2 bd) i) (hk : HasLow bd ok k) :
    HasLow bd ok (seq l k) := by
  induction l with
  | nil => exact hk
  | cons i l ih =>
    obtain ⟨c, hc⟩ := (h i List.mem_cons_self).low T
    obtain ⟨k', hk'⟩ := ih fun j hj => h j (List.mem_cons_of_mem _ hj)
    exact ⟨_, .ins hT hc hk'⟩

theorem isZero_low {a : Loc} {kt kf : Prog Loc Fe2} : HasLow bd ok kt → HasLow bd ok kf → HasLow bd ok (.test1 (g2 bd).isZero a kt kf)
  | ⟨_, h1⟩, ⟨_, h2⟩ => ⟨_, .isZero h1 h2⟩

theorem notOne_low {a : Loc} {kt kf : Prog Loc Fe2} :
    HasLow bd ok kt → HasLow bd ok kf → HasLow bd ok (.test1 (fun z => !(g2 bd).equal z (g2 bd).one) a kt kf)
  | ⟨_, h1⟩, ⟨_, h2⟩ => ⟨_, .notOne h1 h2⟩

theorem equal_low {a b : Loc} {kt kf : Prog Loc Fe2} : HasLow bd ok kt → HasLow bd ok kf → HasLow bd ok (.test2 (g2 bd).equal a b kt kf)
  | ⟨_, h1⟩, ⟨_, h2⟩ => ⟨_, .equal h1 h2⟩

section
variable {T : Nat} (hT : ok T) {k : Prog Loc Fe2} (hk : HasLow bd ok k)

include hk

theorem copyP_low (r p : Obj) : HasLow bd ok (copyP r p k) := let ⟨_, h⟩ := hk; ⟨_, .set h⟩

include hT

theorem copyInf_low (r : Obj) : HasLow bd ok (copyInf (g2 bd) r k) := seq_low hT (const_ops _ _ _ _ _) hk

theorem negP_low (r p : Obj) : HasLow bd ok (negP (g2 bd) r p k) := seq_low hT (neg_ops _ _ _) hk

theorem dblP_low (r p : Obj) : HasLow bd ok (dblP (g2 bd) T r p k) := isZero_low (copyP_low hk r p) (seq_low hT (dbl_ops _ _ _ _) hk)

theorem affineP_low (p : Obj) : HasLow bd ok (affineP (g2 bd) T p k) := isZero_low hk (notOne_low (seq_low hT (affine_ops _ _ _) hk) hk)

theorem addP_low (r p1 p2 : Obj) : HasLow bd ok (addP (g2 bd) T r p1 p2 k) :=
  isZero_low (copyP_low hk _ _) (isZero_low (copyP_low hk _ _) (seq_low hT (add1_ops _ _ _ _)
    (equal_low (equal_low (dblP_low hT hk _ _) (copyInf_low hT hk _)) (seq_low hT (add2_ops _ _ _ _ _) hk))))

theorem mulLoopP_low (q n : Obj) (e : Nat) : ∀ j i, HasLow bd ok (mulLoopP (g2 bd) T q n e j i k)
  | 0, _ => hk
  | j + 1, i => by
    rw [mulLoopP]
    split
    · exact addP_low hT (dblP_low hT (mulLoopP_low q n e j (i + 1)) _ _) _ _ _
    · exact dblP_low hT (mulLoopP_low q n e j (i + 1)) _ _

theorem callP_low (c : Call) : HasLow bd ok (callP (g2 bd) T c k) := by
  cases c with
  | copy r p => exact copyP_low hk _ _
  | add r a b => exact addP_low hT hk _ _ _
  | sub r a b => exact negP_low hT (addP_low hT hk _ _ _) _ _
  | dbl r p => exact dblP_low hT hk _ _
  | neg r p => exact negP_low hT hk _ _
  | mul r p e => exact seq_low hT (const_ops _ _ _ _ _) (copyP_low (mulLoopP_low hT (copyP_low hk _ _) _ _ e _ _) _ _)
  | affine p => exact affineP_low hT hk _

end

theorem calls_low (cs : List (Nat × Call)) (h : ∀ c ∈ cs, ok c.1) : HasLow bd ok (callsP (g2 bd) cs) := by
  induction cs with
  | nil => exact ⟨_, .done⟩
  | cons c cs ih => exact callP_low (h c List.mem_cons_self) (ih fun d hd => h d (List.mem_cons_of_mem _ hd)) c.2

end Verif.Bls.Mem
