import Verif.Bls.Mem
import Mathlib.Data.List.Count

/-!
# Goroutines over one memory
-/

namespace Verif.Bls.Mem

variable {Λ α : Type} [DecidableEq Λ]

/-- one step of a program: one statement or one test. -/
def Prog.step : Prog Λ α → (Λ → α) → Prog Λ α × (Λ → α)
  | .done, m => (.done, m)
  | .ins i k, m => (k, i.exec m)
  | .test1 f a kt kf, m => (if f (m a) then kt else kf, m)
  | .test2 f a b kt kf, m => (if f (m a) (m b) then kt else kf, m)

/-- goroutines over one memory: the schedule says whose turn it is. -/
def sched {ι : Type} [DecidableEq ι] : List ι → (ι → Prog Λ α) → (Λ → α) → (ι → Prog Λ α) × (Λ → α)
  | [], P, m => (P, m)
  | i :: s, P, m => sched s (Function.update P i ((P i).step m).1) ((P i).step m).2

/-- a statement writes in `W` and reads in `A`. -/
def Ins.Within (W A : Λ → Prop) : Ins Λ α → Prop
  | .un d _ a => W d ∧ A a
  | .bin d _ a b => W d ∧ A a ∧ A b
  | .const d _ => W d

def Prog.Within (W A : Λ → Prop) : Prog Λ α → Prop
  | .done => True
  | .ins i k => i.Within W A ∧ k.Within W A
  | .test1 _ a kt kf => A a ∧ kt.Within W A ∧ kf.Within W A
  | .test2 _ a b kt kf => A a ∧ A b ∧ kt.Within W A ∧ kf.Within W A

def Prog.size : Prog Λ α → Nat
  | .done => 0
  | .ins _ k => k.size + 1
  | .test1 _ _ kt kf => max kt.size kf.size + 1
  | .test2 _ _ _ kt kf => max kt.size kf.size + 1

theorem run_step (p : Prog Λ α) (m : Λ → α) : (p.step m).1.run (p.step m).2 = p.run m := by
  cases p with
  | done => rfl
  | ins i k => rfl
  | test1 f a kt kf => simp only [Prog.step, Prog.run]; split <;> rfl
  | test2 f a b kt kf => simp only [Prog.step, Prog.run]; split <;> rfl

theorem size_step (p : Prog Λ α) (m : Λ → α) : (p.step m).1.size ≤ p.size - 1 := by
  cases p with
  | done => exact Nat.le_refl _
  | ins i k => exact Nat.le_refl _
  | test1 f a kt kf => simp only [Prog.step, Prog.size]; split <;> omega
  | test2 f a b kt kf => simp only [Prog.step, Prog.size]; split <;> omega

omit [DecidableEq Λ] in
theorem size_done {p : Prog Λ α} (h : p.size = 0) : p = .done := by
  cases p with
  | done => rfl
  | _ => simp [Prog.size] at h

theorem within_step {W A : Λ → Prop} {p : Prog Λ α} (h : p.Within W A) (m : Λ → α) : (p.step m).1.Within W A := by
  cases p with
  | done => trivial
  | ins i k => exact h.2
  | test1 f a kt kf => simp only [Prog.step]; split; exacts [h.2.1, h.2.2]
  | test2 f a b kt kf => simp only [Prog.step]; split; exacts [h.2.2.1, h.2.2.2]

theorem exec_other {W A : Λ → Prop} {i : Ins Λ α} (h : i.Within W A) (m : Λ → α) {l : Λ} (hl : ¬ W l) : i.exec m l = m l := by
  cases i with
  | un d f a => exact Function.update_of_ne (fun e : l = d => hl (e ▸ h.1)) _ _
  | bin d f a b => exact Function.update_of_ne (fun e : l = d => hl (e ▸ h.1)) _ _
  | const d c => exact Function.update_of_ne (fun e : l = d => hl (e ▸ h)) _ _

theorem step_other {W A : Λ → Prop} {p : Prog Λ α} (h : p.Within W A) (m : Λ → α) {l : Λ} (hl : ¬ W l) : (p.step m).2 l = m l := by
  cases p with
  | ins i k => exact exec_other h.1 m hl
  | _ => rfl

theorem exec_agree {W A : Λ → Prop} {i : Ins Λ α} (h : i.Within W A) {m m' : (Λ → α)} (e : ∀ l, A l → m' l = m l) :
    ∀ l, A l → i.exec m' l = i.exec m l := by
  intro l hl
  cases i with
  | un d f a =>
    simp only [Ins.exec, Function.update_apply, e a h.2]
    split
    · rfl
    · exact e l hl
  | bin d f a b =>
    simp only [Ins.exec, Function.update_apply, e a h.2.1, e b h.2.2]
    split
    · rfl
    · exact e l hl
  | const d c =>
    simp only [Ins.exec, Function.update_apply]
    split
    · rfl
    · exact e l hl

theorem step_agree {W A : Λ → Prop} {p : Prog Λ α} (h : p.Within W A) {m m' : (Λ → α)} (e : ∀ l, A l → m' l = m l) :
    (p.step m').1 = (p.step m).1 ∧ ∀ l, A l → (p.step m').2 l = (p.step m).2 l := by
  cases p with
  | done => exact ⟨rfl, e⟩
  | ins i k => exact ⟨rfl, exec_agree h.1 e⟩
  | test1 f a kt kf => exact ⟨by simp only [Prog.step, e a h.1], e⟩
  | test2 f a b kt kf => exact ⟨by simp only [Prog.step, e a h.1, e b h.2.1], e⟩

section
variable {ι : Type} [DecidableEq ι] {W A : ι → Λ → Prop}

/-- what goroutine `i` sees is what it would see alone. -/
theorem sched_alone (hWA : ∀ i j, i ≠ j → ∀ l, W i l → ¬ A j l) (s : List ι) : ∀ (P : ι → Prog Λ α) (m : Λ → α),
    (∀ i, (P i).Within (W i) (A i)) → ∀ (i : ι) (mi : (Λ → α)), (∀ l, A i l → m l = mi l) →
    ∃ mi', ((sched s P m).1 i).run mi' = (P i).run mi ∧ ∀ l, A i l → (sched s P m).2 l = mi' l := by
  induction s with
  | nil => intro P m _ i mi e; exact ⟨mi, rfl, e⟩
  | cons j s ih =>
    intro P m hP i mi e
    have hP' : ∀ k, (Function.update P j ((P j).step m).1 k).Within (W k) (A k) := by
      intro k
      by_cases hk : k = j
      · subst hk; rw [Function.update_self]; exact within_step (hP k) m
      · rw [Function.update_of_ne hk]; exact hP k
    by_cases hij : i = j
    · subst hij
      obtain ⟨e1, e2⟩ := step_agree (hP i) e
      obtain ⟨mi', h1, h2⟩ := ih _ ((P i).step m).2 hP' i ((P i).step mi).2 e2
      refine ⟨mi', ?_, h2⟩
      rw [sched, h1, Function.update_self, e1, run_step]
    · obtain ⟨mi', h1, h2⟩ := ih _ ((P j).step m).2 hP' i mi fun l hl =>
        (step_other (hP j) m fun hw => hWA j i (Ne.symm hij) l hw hl).trans (e l hl)
      refine ⟨mi', ?_, h2⟩
      rw [sched, h1, Function.update_of_ne hij]

theorem sched_size (s : List ι) : ∀ (P : ι → Prog Λ α) (m : Λ → α) (i : ι),
    ((sched s P m).1 i).size ≤ (P i).size - s.count i := by
  induction s with
  | nil => intro P m i; exact Nat.le_refl _
  | cons j s ih =>
    intro P m i
    have h := ih (Function.update P j ((P j).step m).1) ((P j).step m).2 i
    rw [sched]
    by_cases hij : i = j
    · subst hij
      rw [Function.update_self] at h
      have := size_step (P i) m
      rw [List.count_cons_self]
      omega
    · rw [Function.update_of_ne hij] at h
      rw [List.count_cons_of_ne (Ne.symm hij)]
      exact h

/-- a goroutine that has had enough turns has finished, and it has seen what it would have seen alone. -/
theorem sched_done (hWA : ∀ i j, i ≠ j → ∀ l, W i l → ¬ A j l) (P : ι → Prog Λ α) (m : Λ → α)
    (hP : ∀ i, (P i).Within (W i) (A i)) (s : List ι) (i : ι) (hs : (P i).size ≤ s.count i) :
    (sched s P m).1 i = .done ∧ ∀ l, A i l → (sched s P m).2 l = (P i).run m l := by
  have hd : (sched s P m).1 i = .done := size_done (by have := sched_size s P m i; omega)
  obtain ⟨mi', h1, h2⟩ := sched_alone hWA s P m hP i m fun _ _ => rfl
  rw [hd] at h1
  exact ⟨hd, fun l hl => (h2 l hl).trans (congrFun h1 l)⟩

theorem sched_other (P : ι → Prog Λ α) (m : Λ → α) (hP : ∀ i, (P i).Within (W i) (A i)) (s : List ι) (l : Λ) (hl : ∀ i, ¬ W i l) :
    (sched s P m).2 l = m l := by
  induction s generalizing P m with
  | nil => rfl
  | cons j s ih =>
    rw [sched, ih _ _ ?_, step_other (hP j) m (hl j)]
    intro k
    by_cases hk : k = j
    · subst hk; rw [Function.update_self]; exact within_step (hP k) m
    · rw [Function.update_of_ne hk]; exact hP k

end

omit [DecidableEq Λ] in
theorem within_seq {W A : Λ → Prop} {l : List (Ins Λ α)} {k : Prog Λ α} (h : ∀ i ∈ l, i.Within W A) (hk : k.Within W A) :
    (seq l k).Within W A := by
  induction l with
  | nil => exact hk
  | cons i l ih => exact ⟨h i List.mem_cons_self, ih fun j hj => h j (List.mem_cons_of_mem _ hj)⟩

section
variable {ι : Type} [DecidableEq ι]

theorem sched_append (s t : List ι) (P : ι → Prog Λ α) (m : Λ → α) :
    sched (s ++ t) P m = sched t (sched s P m).1 (sched s P m).2 := by
  induction s generalizing P m with
  | nil => rfl
  | cons i s ih => exact ih _ _

theorem sched_seq (i : ι) (l : List (Ins Λ α)) (k : Prog Λ α) (P : ι → Prog Λ α) (m : Λ → α) :
    sched (List.replicate l.length i) (Function.update P i (seq l k)) m = (Function.update P i k, l.foldl Ins.exec m) := by
  induction l generalizing P m with
  | nil => rfl
  | cons a l ih =>
    rw [List.length_cons, List.replicate_succ, sched]
    simp only [Function.update_self, Function.update_idem]
    exact ih P (a.exec m)

end

end Verif.Bls.Mem
