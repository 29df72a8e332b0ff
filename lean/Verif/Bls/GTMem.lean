import Verif.Bls.TowerMem
import Verif.Bls.Alias
import Verif.Bls.AliasSpec

/-!
# The calls of gt.go on memory
-/

namespace Verif.Bls.Mem

open Verif.Bls Verif.Bls.Spec Cell

/-- base field elements inside the `fe12` objects, and the temporaries. -/
abbrev LocT := Cell (Cell (Cell Obj))

/-- fp12.go with its own fp6.go and fp2.go (fp12.go:35-41, gt.go:11-15 `NewGT`), with the receiver `T`. -/
def gtI (bd : Build) (T : Nat) : I12 Obj LocT := fp12I (fp2I bd T) (fp6I (fp2I bd T) T) T

/-- the element in an object. -/
def readT (m : LocT → Fe) (o : Obj) : Fe12 := v12 (v6 v2) m o

theorem gt_ok (bd : Build) (T : Nat) : (gtI bd T).Ok bd readT := fp12_ok bd T (fp2_ok bd T) (fp6_ok bd T (fp2_ok bd T))

/-- fp12.go:76-79 `one`: a new object (fp6.go:71-74, fp2.go:60-62). -/
def oneT (z : Obj) : Code LocT :=
  [.const (part (part (part z 0) 0) 0) Fe.one, .const (part (part (part z 0) 0) 1) Fe.zero,
    .const (part (part (part z 0) 1) 0) Fe.zero, .const (part (part (part z 0) 1) 1) Fe.zero,
    .const (part (part (part z 0) 2) 0) Fe.zero, .const (part (part (part z 0) 2) 1) Fe.zero,
    .const (part (part (part z 1) 0) 0) Fe.zero, .const (part (part (part z 1) 0) 1) Fe.zero,
    .const (part (part (part z 1) 1) 0) Fe.zero, .const (part (part (part z 1) 1) 1) Fe.zero,
    .const (part (part (part z 1) 2) 0) Fe.zero, .const (part (part (part z 1) 2) 1) Fe.zero]

/-- the loop of fp12.go:259-264: `k` bits of `s` are left. -/
def expLoopT (bd : Build) (T : Nat) (z a : Obj) (s : Nat) : Nat → Code LocT
  | 0 => []
  | k + 1 =>
    (gtI bd T).cycSquare z z ++ (if s.testBit k then (gtI bd T).mul z z a else []) ++ expLoopT bd T z a s k

/-- gt.go:88-126 with the GT object `T`; `Exp` is fp12.go:257-266. -/
def callT (bd : Build) (T : Nat) : CallT → Code LocT
  | .copy c a => (gtI bd T).copy (.arg c) (.arg a)
  | .add c a b => (gtI bd T).add (.arg c) (.arg a) (.arg b)
  | .sub c a b => (gtI bd T).sub (.arg c) (.arg a) (.arg b)
  | .mul c a b => (gtI bd T).mul (.arg c) (.arg a) (.arg b)
  | .square c a => (gtI bd T).cycSquare (.arg c) (.arg a)
  | .exp c a s => oneT (.new T 0) ++ expLoopT bd T (.new T 0) (.arg a) s (Fe.bitLen s) ++ (gtI bd T).copy (.arg c) (.new T 0)
  | .inverse c a => (gtI bd T).inverse (.arg c) (.arg a)

/-- calls one after the other, each with its GT object. -/
def callsT (bd : Build) : List (Nat × CallT) → Code LocT
  | [] => []
  | c :: cs => callT bd c.1 c.2 ++ callsT bd cs

/-! ## Lemmas -/

theorem oneT_eq (z : Obj) (m : LocT → Fe) : readT (ex (oneT z) m) = Function.update (readT m) z Fe12.one := by
  refine eq_update ?_ fun l hl => ?_
  · simp [readT, v12, v6, v2, ex, oneT, Ins.exec, Fe12.one, Fe6.one, Fe6.zero, Fe2.one, Fe2.zero]
  · simp [readT, v12, v6, v2, ex, oneT, Ins.exec, hl]

theorem expLoopT_eq (bd : Build) (T : Nat) (z a : Obj) (hza : a ≠ z) (s : Nat) : ∀ (k : Nat) (m : LocT → Fe),
    readT (ex (expLoopT bd T z a s k) m) = Function.update (readT m) z (Fe12.cyclotomicExpLoop (readT m a) s k (readT m z))
  | 0, m => by simp [expLoopT, ex_nil, Fe12.cyclotomicExpLoop]
  | k + 1, m => by
    rw [expLoopT, ex_append, ex_append, expLoopT_eq bd T z a hza s k]
    by_cases hb : s.testBit k = true
    · rw [if_pos hb, (gt_ok bd T).mul, (gt_ok bd T).cycSquare]
      simp [hza, Fe12.cyclotomicExpLoop, hb, GT.mul, GT.square]
    · rw [if_neg hb, ex_nil, (gt_ok bd T).cycSquare]
      simp [hza, Fe12.cyclotomicExpLoop, hb, GT.square]

/-- the value of the functional model. -/
def valueT (bd : Build) (m : LocT → Fe) : CallT → Fe12
  | .copy _ a => readT m (.arg a)
  | .add _ a b => GT.add (readT m (.arg a)) (readT m (.arg b))
  | .sub _ a b => GT.sub (readT m (.arg a)) (readT m (.arg b))
  | .mul _ a b => GT.mul (readT m (.arg a)) (readT m (.arg b))
  | .square _ a => GT.square (readT m (.arg a))
  | .exp _ a s => GT.exp (readT m (.arg a)) s
  | .inverse _ a => GT.inverse bd (readT m (.arg a))

theorem callT_eq (bd : Build) (T : Nat) (c : CallT) (m : LocT → Fe) :
    readT (ex (callT bd T c) m) (.arg c.dest) = valueT bd m c ∧
      ∀ n, n ≠ c.dest → readT (ex (callT bd T c) m) (.arg n) = readT m (.arg n) := by
  have H : ∀ {x : Nat} {y : Fe12} {f : Obj → Fe12}, f = Function.update (readT m) (.arg x) y →
      f (.arg x) = y ∧ ∀ n, n ≠ x → f (.arg n) = readT m (.arg n) := by
    rintro x y f rfl
    exact ⟨Function.update_self .., fun n hn => Function.update_of_ne (fun e => hn (Obj.arg.inj e)) _ _⟩
  cases c with
  | copy c a => exact H ((gt_ok bd T).copy ..)
  | add c a b => exact H ((gt_ok bd T).add ..)
  | sub c a b => exact H ((gt_ok bd T).sub ..)
  | mul c a b => exact H ((gt_ok bd T).mul ..)
  | square c a => exact H ((gt_ok bd T).cycSquare ..)
  | inverse c a => exact H ((gt_ok bd T).inverse ..)
  | exp c a s =>
    have e : readT (ex (callT bd T (.exp c a s)) m) =
        Function.update (Function.update (readT m) (.new T 0) (GT.exp (readT m (.arg a)) s)) (.arg c) (GT.exp (readT m (.arg a)) s) := by
      rw [callT, ex_append, ex_append, (gt_ok bd T).copy, expLoopT_eq _ _ _ _ (by simp), oneT_eq]
      simp [GT.exp, Fe12.cyclotomicExp]
    rw [e]
    refine ⟨Function.update_self .., fun n hn => ?_⟩
    have : n ≠ c := hn
    simp [this]

end Verif.Bls.Mem
