import Verif.Bls.GTMem
import Verif.Bls.Sched

/-!
# Goroutines with target group calls: what the code of the tower touches
-/

namespace Verif.Bls.Mem

open Verif.Bls Verif.Bls.Spec Cell

/-- the program of a goroutine: calls with its own GT object. -/
def threadT (bd : Build) (T : Nat) (cs : List CallT) : Prog LocT Fe := seq (callsT bd (cs.map (T, ·))) .done

theorem threadT_run (bd : Build) (T : Nat) (cs : List CallT) (m : LocT → Fe) :
    (threadT bd T cs).run m = ex (callsT bd (cs.map (T, ·))) m := run_seq _ _ _

/-- the elements inside `W`, and the temporaries of `T`. -/
def within {Λ : Type} (T : Nat) (W : Λ → Prop) : Cell Λ → Prop
  | .part l _ => W l
  | .t T' _ => T' = T

variable {Λ Λ₁ : Type}

/-- the code writes in `W` and reads in `A`. -/
def Fits (W A : Λ₁ → Prop) (c : Code Λ₁) : Prop := ∀ j ∈ c, j.Within W A

theorem Fits.append {W A : Λ₁ → Prop} {c d : Code Λ₁} (h1 : Fits W A c) (h2 : Fits W A d) : Fits W A (c ++ d) := fun j hj =>
  (List.mem_append.mp hj).elim (h1 j) (h2 j)

theorem Fits.nil {W A : Λ₁ → Prop} : Fits W A ([] : Code Λ₁) := fun _ h => absurd h List.not_mem_nil

/-- a call touches its arguments and its temporaries only; `F` gives the base field elements of a set of objects. -/
structure I2.In (B : I2 Λ Λ₁) (F : (Λ → Prop) → Λ₁ → Prop) : Prop where
  copy : ∀ {W A : Λ → Prop} {c a}, W c → A a → Fits (F W) (F A) (B.copy c a)
  add : ∀ {W A : Λ → Prop} {c a b}, W c → A a → A b → Fits (F W) (F A) (B.add c a b)
  sub : ∀ {W A : Λ → Prop} {c a b}, W c → A a → A b → Fits (F W) (F A) (B.sub c a b)
  mul : ∀ {W A : Λ → Prop} {c a b}, W c → A a → A b → Fits (F W) (F A) (B.mul c a b)
  double : ∀ {W A : Λ → Prop} {c a}, W c → A a → Fits (F W) (F A) (B.double c a)
  neg : ∀ {W A : Λ → Prop} {c a}, W c → A a → Fits (F W) (F A) (B.neg c a)
  square : ∀ {W A : Λ → Prop} {c a}, W c → A a → Fits (F W) (F A) (B.square c a)
  nonRes : ∀ {W A : Λ → Prop} {c a}, W c → A a → Fits (F W) (F A) (B.nonRes c a)
  inverse : ∀ {W A : Λ → Prop} {c a}, W c → A a → Fits (F W) (F A) (B.inverse c a)

structure I6.In (B : I6 Λ Λ₁) (F : (Λ → Prop) → Λ₁ → Prop) : Prop where
  copy : ∀ {W A : Λ → Prop} {c a}, W c → A a → Fits (F W) (F A) (B.copy c a)
  add : ∀ {W A : Λ → Prop} {c a b}, W c → A a → A b → Fits (F W) (F A) (B.add c a b)
  sub : ∀ {W A : Λ → Prop} {c a b}, W c → A a → A b → Fits (F W) (F A) (B.sub c a b)
  mul : ∀ {W A : Λ → Prop} {c a b}, W c → A a → A b → Fits (F W) (F A) (B.mul c a b)
  double : ∀ {W A : Λ → Prop} {c a}, W c → A a → Fits (F W) (F A) (B.double c a)
  neg : ∀ {W A : Λ → Prop} {c a}, W c → A a → Fits (F W) (F A) (B.neg c a)
  square : ∀ {W A : Λ → Prop} {c a}, W c → A a → Fits (F W) (F A) (B.square c a)
  nonRes : ∀ {W A : Λ → Prop} {c a}, W c → A a → Fits (F W) (F A) (B.nonRes c a)
  inverse : ∀ {W A : Λ → Prop} {c a}, W c → A a → Fits (F W) (F A) (B.inverse c a)

structure I12.In (B : I12 Λ Λ₁) (F : (Λ → Prop) → Λ₁ → Prop) : Prop where
  copy : ∀ {W A : Λ → Prop} {c a}, W c → A a → Fits (F W) (F A) (B.copy c a)
  add : ∀ {W A : Λ → Prop} {c a b}, W c → A a → A b → Fits (F W) (F A) (B.add c a b)
  sub : ∀ {W A : Λ → Prop} {c a b}, W c → A a → A b → Fits (F W) (F A) (B.sub c a b)
  mul : ∀ {W A : Λ → Prop} {c a b}, W c → A a → A b → Fits (F W) (F A) (B.mul c a b)
  cycSquare : ∀ {W A : Λ → Prop} {c a}, W c → A a → Fits (F W) (F A) (B.cycSquare c a)
  inverse : ∀ {W A : Λ → Prop} {c a}, W c → A a → Fits (F W) (F A) (B.inverse c a)

theorem fp2_in (bd : Build) (T : Nat) : (fp2I bd T : I2 Λ (Cell Λ)).In (within T) where
  copy h1 h2 := by simp [Fits, fp2I, Ins.Within, within, h1, h2]
  add h1 h2 h3 := by simp [Fits, fp2I, Ins.Within, within, h1, h2, h3]
  sub h1 h2 h3 := by simp [Fits, fp2I, Ins.Within, within, h1, h2, h3]
  mul h1 h2 h3 := by simp [Fits, fp2I, Ins.Within, within, h1, h2, h3]
  double h1 h2 := by simp [Fits, fp2I, Ins.Within, within, h1, h2]
  neg h1 h2 := by simp [Fits, fp2I, Ins.Within, within, h1, h2]
  square h1 h2 := by simp [Fits, fp2I, Ins.Within, within, h1, h2]
  nonRes h1 h2 := by simp [Fits, fp2I, Ins.Within, within, h1, h2]
  inverse h1 h2 := by simp [Fits, fp2I, Ins.Within, within, h1, h2]

/-- a list of calls of the level below, whose arguments are parts of the arguments, or temporaries. -/
local macro "fits" h:ident : tactic => `(tactic|
  (repeat' apply Fits.append
   all_goals first
    | apply ($h).copy <;> first | assumption | rfl
    | apply ($h).add <;> first | assumption | rfl
    | apply ($h).sub <;> first | assumption | rfl
    | apply ($h).mul <;> first | assumption | rfl
    | apply ($h).double <;> first | assumption | rfl
    | apply ($h).neg <;> first | assumption | rfl
    | apply ($h).square <;> first | assumption | rfl
    | apply ($h).nonRes <;> first | assumption | rfl
    | apply ($h).inverse <;> first | assumption | rfl))

theorem fp6_in {B : I2 (Cell Λ) Λ₁} {F : (Cell Λ → Prop) → Λ₁ → Prop} (h : B.In F) (T : Nat) : (fp6I B T : I6 Λ Λ₁).In fun W => F (within T W) where
  copy h1 h2 := by fits h
  add h1 h2 h3 := by fits h
  sub h1 h2 h3 := by fits h
  mul h1 h2 h3 := by fits h
  double h1 h2 := by fits h
  neg h1 h2 := by fits h
  square h1 h2 := by fits h
  nonRes h1 h2 := by fits h
  inverse h1 h2 := by fits h

theorem fp12_in {B : I2 (Cell (Cell Λ)) Λ₁} {F : (Cell (Cell Λ) → Prop) → Λ₁ → Prop} (h : B.In F) {D : I6 (Cell Λ) Λ₁} {T : Nat}
    (hD : D.In fun W => F (within T W)) : (fp12I B D T : I12 Λ Λ₁).In fun W => F (within T (within T W)) where
  copy h1 h2 := by fits hD
  add h1 h2 h3 := by fits hD
  sub h1 h2 h3 := by fits hD
  mul h1 h2 h3 := by fits hD
  inverse h1 h2 := by fits hD
  cycSquare {W A c a} h1 h2 := by
    repeat' apply Fits.append
    all_goals first
      | (apply h.square <;> first | exact h2 | rfl)
      | (apply h.sub <;> first | exact h1 | exact h2 | rfl)
      | (apply h.add <;> first | exact h1 | exact h2 | rfl)
      | (apply h.double <;> rfl)
      | (apply h.nonRes <;> rfl)

theorem gt_in (bd : Build) (T : Nat) : (gtI bd T).In fun W => within T (within T (within T W)) :=
  fp12_in (fp2_in bd T) (fp6_in (fp2_in bd T) T)

theorem oneT_in {W A : Obj → Prop} {T : Nat} {z : Obj} (h : W z) :
    Fits (within T (within T (within T W))) (within T (within T (within T A))) (oneT z) := by
  simp [Fits, oneT, Ins.Within, within, h]

theorem expLoopT_in (bd : Build) {W A : Obj → Prop} {T : Nat} {z a : Obj} (h1 : W z) (h2 : A z) (h3 : A a) (s : Nat) : ∀ k,
    Fits (within T (within T (within T W))) (within T (within T (within T A))) (expLoopT bd T z a s k)
  | 0 => Fits.nil
  | k + 1 => by
    refine Fits.append (Fits.append ((gt_in bd T).cycSquare h1 h2) ?_) (expLoopT_in bd h1 h2 h3 s k)
    split
    · exact (gt_in bd T).mul h1 h2 h3
    · exact Fits.nil

/-- the objects a goroutine writes and those it uses; `new T` are its own. -/
def wrT (T : Nat) (cs : List CallT) : Obj → Prop
  | .arg n => ∃ c ∈ cs, n = c.dest
  | .new u _ => u = T

def usT (T : Nat) (cs : List CallT) : Obj → Prop
  | .arg n => ∃ c ∈ cs, n ∈ c.args
  | .new u _ => u = T

theorem threadT_within (bd : Build) (T : Nat) (cs : List CallT) : (threadT bd T cs).Within
    (within T (within T (within T (wrT T cs)))) (within T (within T (within T (usT T cs)))) := by
  refine within_seq ?_ trivial
  suffices H : ∀ l : List CallT, l ⊆ cs → Fits (within T (within T (within T (wrT T cs)))) (within T (within T (within T (usT T cs))))
      (callsT bd (l.map (T, ·))) from H cs fun _ h => h
  intro l
  induction l with
  | nil => exact fun _ => Fits.nil
  | cons c l ih =>
    intro hl
    refine Fits.append ?_ (ih fun d hd => hl (List.mem_cons_of_mem _ hd))
    have hc : c ∈ cs := hl List.mem_cons_self
    have hw : wrT T cs (.arg c.dest) := ⟨c, hc, rfl⟩
    have hu : ∀ n ∈ c.args, usT T cs (.arg n) := fun n hn => ⟨c, hc, hn⟩
    cases c with
    | copy c a => exact (gt_in bd T).copy hw (hu a (by simp [CallT.args]))
    | add c a b => exact (gt_in bd T).add hw (hu a (by simp [CallT.args])) (hu b (by simp [CallT.args]))
    | sub c a b => exact (gt_in bd T).sub hw (hu a (by simp [CallT.args])) (hu b (by simp [CallT.args]))
    | mul c a b => exact (gt_in bd T).mul hw (hu a (by simp [CallT.args])) (hu b (by simp [CallT.args]))
    | square c a => exact (gt_in bd T).cycSquare hw (hu a (by simp [CallT.args]))
    | inverse c a => exact (gt_in bd T).inverse hw (hu a (by simp [CallT.args]))
    | exp c a s =>
      have hn : wrT T cs (.new T 0) := rfl
      have hn' : usT T cs (.new T 0) := rfl
      exact Fits.append (Fits.append (oneT_in hn) (expLoopT_in bd hn hn' (hu a (by simp [CallT.args])) s _)) ((gt_in bd T).copy hw hn')

/-- goroutines whose objects are apart touch different base field elements. -/
theorem within_apart {ι : Type} {T : ι → Nat} {th : ι → List CallT}
    (h : ∀ i j, i ≠ j → T i ≠ T j ∧ ∀ c ∈ th i, ∀ d ∈ th j, c.dest ∉ d.args) (i j : ι) (hij : i ≠ j) (l : LocT)
    (hw : within (T i) (within (T i) (within (T i) (wrT (T i) (th i)))) l) :
    ¬ within (T j) (within (T j) (within (T j) (usT (T j) (th j)))) l := by
  obtain ⟨hT, hc⟩ := h i j hij
  have ht : ∀ {t}, t = T i → t = T j → False := fun h1 h2 => hT (h1.symm.trans h2)
  match l, hw with
  | .t _ _, h1 => exact ht h1
  | .part (.t _ _) _, h1 => exact ht h1
  | .part (.part (.t _ _) _) _, h1 => exact ht h1
  | .part (.part (.part (.new _ _) _) _) _, h1 => exact ht h1
  | .part (.part (.part (.arg n) _) _) _, ⟨c, hc1, e⟩ => rintro ⟨d, hd, hn⟩; exact hc c hc1 d hd (e ▸ hn)

/-! ## Two multiplications with one GT object -/

/-- fp12.go:181-205: `mul` up to its last statement. -/
def mulInit (bd : Build) (T : Nat) (c a b : Obj) : Code LocT :=
  let D : I6 (Cell Obj) LocT := fp6I (fp2I bd T) T
  D.mul (t T 1) (part a 0) (part b 0) ++
  D.mul (t T 2) (part a 1) (part b 1) ++
  D.add (t T 0) (t T 1) (t T 2) ++
  D.nonRes (t T 2) (t T 2) ++
  D.add (t T 3) (t T 1) (t T 2) ++
  D.add (t T 1) (part a 0) (part a 1) ++
  D.add (t T 2) (part b 0) (part b 1) ++
  D.mul (t T 1) (t T 1) (t T 2) ++
  D.copy (part c 0) (t T 3)

/-- the last statement. -/
def mulLast (bd : Build) (T : Nat) (c : Obj) : Code LocT := (fp6I (fp2I bd T) T : I6 (Cell Obj) LocT).sub (part c 1) (t T 1) (t T 0)

theorem mul_split (bd : Build) (T : Nat) (c a b : Obj) : (gtI bd T).mul c a b = mulInit bd T c a b ++ mulLast bd T c := rfl

/-- `Mul(0, 1, 2)` runs up to its last statement, then `Mul(3, 4, 5)` runs, then the first finishes. -/
def raceOrderT (bd : Build) (T : Nat) : List Bool :=
  List.replicate (mulInit bd T (.arg 0) (.arg 1) (.arg 2)).length false ++
  List.replicate ((gtI bd T).mul (.arg 3) (.arg 4) (.arg 5)).length true ++
  List.replicate (mulLast bd T (.arg 0)).length false

/-- the goroutines `Mul(0, 1, 2)` and `Mul(3, 4, 5)`, both with the GT object `T`. -/
def racePT (bd : Build) (T : Nat) : Bool → Prog LocT Fe
  | false => threadT bd T [.mul 0 1 2]
  | true => threadT bd T [.mul 3 4 5]

theorem seq_append {α : Type} (l k : List (Ins Λ α)) (p : Prog Λ α) : seq (l ++ k) p = seq l (seq k p) := List.foldr_append

theorem raceT (bd : Build) (T : Nat) (m : LocT → Fe) :
    (∀ b, (sched (raceOrderT bd T) (racePT bd T) m).1 b = .done) ∧
      readT (sched (raceOrderT bd T) (racePT bd T) m).2 (.arg 0) =
        ⟨(GT.mul (readT m (.arg 1)) (readT m (.arg 2))).c0, (GT.mul (readT m (.arg 4)) (readT m (.arg 5))).c1⟩ := by
  have k : (fp6I (fp2I bd T) T : I6 (Cell Obj) LocT).Ok bd (v6 v2) := fp6_ok bd T (fp2_ok bd T)
  have e0 : racePT bd T = Function.update (racePT bd T) false
      (seq (mulInit bd T (.arg 0) (.arg 1) (.arg 2)) (seq (mulLast bd T (.arg 0)) .done)) := by
    rw [← seq_append, ← mul_split]
    refine (Function.update_eq_self_iff.mpr ?_).symm
    simp [racePT, threadT, callsT, callT]
  obtain ⟨m1, hm1⟩ : ∃ m1, ex (mulInit bd T (.arg 0) (.arg 1) (.arg 2)) m = m1 := ⟨_, rfl⟩
  obtain ⟨m2, hm2⟩ : ∃ m2, ex ((gtI bd T).mul (.arg 3) (.arg 4) (.arg 5)) m1 = m2 := ⟨_, rfl⟩
  have s1 : sched (List.replicate (mulInit bd T (.arg 0) (.arg 1) (.arg 2)).length false) (racePT bd T) m =
      (Function.update (racePT bd T) false (seq (mulLast bd T (.arg 0)) .done), m1) := by
    rw [e0, sched_seq, Function.update_idem, ← hm1]; rfl
  have e1 : Function.update (racePT bd T) false (seq (mulLast bd T (.arg 0)) .done) =
      Function.update (Function.update (racePT bd T) false (seq (mulLast bd T (.arg 0)) .done)) true
        (seq ((gtI bd T).mul (.arg 3) (.arg 4) (.arg 5)) .done) := by
    refine (Function.update_eq_self_iff.mpr ?_).symm
    simp [racePT, threadT, callsT, callT]
  have s2 : sched (List.replicate ((gtI bd T).mul (.arg 3) (.arg 4) (.arg 5)).length true)
      (Function.update (racePT bd T) false (seq (mulLast bd T (.arg 0)) .done)) m1 =
      (Function.update (Function.update (racePT bd T) false (seq (mulLast bd T (.arg 0)) .done)) true .done, m2) := by
    rw [e1, sched_seq, Function.update_idem, ← hm2]; rfl
  have s3 : sched (raceOrderT bd T) (racePT bd T) m =
      (Function.update (Function.update (racePT bd T) true .done) false .done, ex (mulLast bd T (.arg 0)) m2) := by
    rw [raceOrderT, sched_append, sched_append, s1]
    simp only [s2]
    rw [Function.update_comm (by decide), sched_seq]; rfl
  rw [s3]
  constructor
  · intro b; cases b <;> simp
  · have a0 : v6 v2 m1 (part (.arg 0) 0) = (GT.mul (readT m (.arg 1)) (readT m (.arg 2))).c0 := by
      rw [← hm1]
      simp [mulInit, ex_append, k.copy, k.add, k.mul, k.nonRes, GT.mul, Fe12.mul, readT, v12]
    have a4 : ∀ i, v6 v2 m1 (part (.arg 4) i) = v6 v2 m (part (.arg 4) i) := fun i => by
      rw [← hm1]
      simp [mulInit, ex_append, k.copy, k.add, k.mul, k.nonRes]
    have a5 : ∀ i, v6 v2 m1 (part (.arg 5) i) = v6 v2 m (part (.arg 5) i) := fun i => by
      rw [← hm1]
      simp [mulInit, ex_append, k.copy, k.add, k.mul, k.nonRes]
    have b0 : v6 v2 m2 (part (.arg 0) 0) = v6 v2 m1 (part (.arg 0) 0) := by
      rw [← hm2, mul_split]
      simp [mulInit, mulLast, ex_append, k.copy, k.add, k.mul, k.nonRes, k.sub]
    have b1 : Fe6.sub (v6 v2 m2 (t T 1)) (v6 v2 m2 (t T 0)) = (GT.mul (readT m (.arg 4)) (readT m (.arg 5))).c1 := by
      rw [← hm2, mul_split]
      simp [mulInit, mulLast, ex_append, k.copy, k.add, k.mul, k.nonRes, k.sub, GT.mul, Fe12.mul, readT, v12, a4, a5]
    rw [readT, v12, mulLast, k.sub]
    simp [a0, b0, b1]

end Verif.Bls.Mem
