import Verif.Bls.Group
import Verif.Bls.Mem

/-!
# The point operations of g1.go and g2.go on memory

`Verif.Bls.Group` models the functions by the values they write.  Here the same functions are programs over a memory of field elements, with
the objects and the temporaries `g.t` as locations, so that an output may be the same object as an input, and calls can be interleaved.
One field operation is one step (for g2.go that is one call into fp2.go; `Verif.Bls.Lower` replaces it by its base field operations).
-/

namespace Verif.Bls.Mem

open Verif.Bls

/-- a point object: one of the caller's, or object number `i` that a call by the group object `t` allocates for itself (`d` in `Sub`, `q` and
`n` in `MulScalar`; each such call sets them before it reads them, so that the same names serve every call). -/
inductive Obj where
  | arg (n : Nat)
  | new (t i : Nat)
deriving DecidableEq

/-- a field element in memory: coordinate `i` of the point object `o`, or temporary `i` of the group object `t` (g1.go:23-43). -/
inductive Loc where
  | pt (o : Obj) (i : Nat)
  | tmp (t i : Nat)
deriving DecidableEq

abbrev Memory (α : Type) := Loc → α

variable {α : Type}

/-- the point in an object. -/
def read (m : Memory α) (o : Obj) : P3 α := ⟨m (.pt o 0), m (.pt o 1), m (.pt o 2)⟩

/-- g1.go:14-19, 252-254 (g2.go:15-20, 260-262) `Set`, `Copy`. -/
def copyP (r p : Obj) (k : Prog Loc α) : Prog Loc α :=
  seq [.un (.pt r 0) id (.pt p 0), .un (.pt r 1) id (.pt p 1), .un (.pt r 2) id (.pt p 2)] k

variable (g : Ops α)

/-- `Copy(r, infinity)`. -/
def copyInf (r : Obj) (k : Prog Loc α) : Prog Loc α :=
  seq [.const (.pt r 0) g.zero, .const (.pt r 1) g.one, .const (.pt r 2) g.zero] k

/-- g1.go:385-407, g2.go:393-415: `Double` after the test. -/
def dblIns (T : Nat) (r p : Obj) : List (Ins Loc α) :=
  let t := Loc.tmp T
  [.un (t 0) g.square (.pt p 0),
    .un (t 1) g.square (.pt p 1),
    .un (t 2) g.square (t 1),
    .bin (t 1) g.add (.pt p 0) (t 1),
    .un (t 1) g.square (t 1),
    .bin (t 1) g.sub (t 1) (t 0),
    .bin (t 1) g.sub (t 1) (t 2),
    .un (t 1) g.double (t 1),
    .un (t 3) g.double (t 0),
    .bin (t 0) g.add (t 3) (t 0),
    .un (t 4) g.square (t 0),
    .un (t 3) g.double (t 1),
    .bin (.pt r 0) g.sub (t 4) (t 3),
    .bin (t 1) g.sub (t 1) (.pt r 0),
    .un (t 2) g.double (t 2),
    .un (t 2) g.double (t 2),
    .un (t 2) g.double (t 2),
    .bin (t 0) g.mul (t 0) (t 1),
    .bin (t 1) g.sub (t 0) (t 2),
    .bin (t 0) g.mul (.pt p 1) (.pt p 2),
    .un (.pt r 1) id (t 1),
    .un (.pt r 2) g.double (t 0)]

/-- g1.go:379-409, g2.go:387-417 `Double(r, p)` by the group object `T`. -/
def dblP (T : Nat) (r p : Obj) (k : Prog Loc α) : Prog Loc α :=
  .test1 g.isZero (.pt p 2) (copyP r p k) (seq (dblIns g T r p) k)

/-- g1.go:337-345, g2.go:345-353: `Add` after the first two tests. -/
def addIns1 (T : Nat) (p1 p2 : Obj) : List (Ins Loc α) :=
  let t := Loc.tmp T
  [.un (t 7) g.square (.pt p1 2),
    .bin (t 1) g.mul (.pt p2 0) (t 7),
    .bin (t 2) g.mul (.pt p1 2) (t 7),
    .bin (t 0) g.mul (.pt p2 1) (t 2),
    .un (t 8) g.square (.pt p2 2),
    .bin (t 3) g.mul (.pt p1 0) (t 8),
    .bin (t 4) g.mul (.pt p2 2) (t 8),
    .bin (t 2) g.mul (.pt p1 1) (t 4)]

/-- g1.go:353-374, g2.go:361-382: the rest of `Add`. -/
def addIns2 (T : Nat) (r p1 p2 : Obj) : List (Ins Loc α) :=
  let t := Loc.tmp T
  [.bin (t 1) g.sub (t 1) (t 3),
    .un (t 4) g.double (t 1),
    .un (t 4) g.square (t 4),
    .bin (t 5) g.mul (t 1) (t 4),
    .bin (t 0) g.sub (t 0) (t 2),
    .un (t 0) g.double (t 0),
    .un (t 6) g.square (t 0),
    .bin (t 6) g.sub (t 6) (t 5),
    .bin (t 3) g.mul (t 3) (t 4),
    .un (t 4) g.double (t 3),
    .bin (.pt r 0) g.sub (t 6) (t 4),
    .bin (t 4) g.sub (t 3) (.pt r 0),
    .bin (t 6) g.mul (t 2) (t 5),
    .un (t 6) g.double (t 6),
    .bin (t 0) g.mul (t 0) (t 4),
    .bin (.pt r 1) g.sub (t 0) (t 6),
    .bin (t 0) g.add (.pt p1 2) (.pt p2 2),
    .un (t 0) g.square (t 0),
    .bin (t 0) g.sub (t 0) (t 7),
    .bin (t 0) g.sub (t 0) (t 8),
    .bin (.pt r 2) g.mul (t 0) (t 1)]

/-- g1.go:328-376, g2.go:336-384 `Add(r, p1, p2)` by the group object `T`. -/
def addP (T : Nat) (r p1 p2 : Obj) (k : Prog Loc α) : Prog Loc α :=
  .test1 g.isZero (.pt p1 2) (copyP r p2 k)
    (.test1 g.isZero (.pt p2 2) (copyP r p1 k)
      (seq (addIns1 g T p1 p2)
        (.test2 g.equal (.tmp T 1) (.tmp T 3)
          (.test2 g.equal (.tmp T 0) (.tmp T 2) (dblP g T r p1 k) (copyInf g r k))
          (seq (addIns2 g T r p1 p2) k))))

/-- g1.go:412-417, g2.go:420-425 `Neg(r, p)`. -/
def negP (r p : Obj) (k : Prog Loc α) : Prog Loc α :=
  seq [.un (.pt r 0) id (.pt p 0), .un (.pt r 2) id (.pt p 2), .un (.pt r 1) g.neg (.pt p 1)] k

/-- g1.go:420-425, g2.go:428-433 `Sub(c, a, b)`. -/
def subP (T : Nat) (c a b : Obj) (k : Prog Loc α) : Prog Loc α := negP g (.new T 0) b (addP g T c a (.new T 0) k)

/-- g1.go:316-322, g2.go:324-330: `Affine` after the tests. -/
def affineIns (T : Nat) (p : Obj) : List (Ins Loc α) :=
  let t := Loc.tmp T
  [.un (t 0) g.inverse (.pt p 2),
    .un (t 1) g.square (t 0),
    .bin (.pt p 0) g.mul (.pt p 0) (t 1),
    .bin (t 0) g.mul (t 0) (t 1),
    .bin (.pt p 1) g.mul (.pt p 1) (t 0),
    .const (.pt p 2) g.one]

/-- g1.go:311-325, g2.go:319-333 `Affine(p)`. -/
def affineP (T : Nat) (p : Obj) (k : Prog Loc α) : Prog Loc α :=
  .test1 g.isZero (.pt p 2) k
    (.test1 (fun z => !g.equal z g.one) (.pt p 2)
      (seq (affineIns g T p) k)
      k)

/-- the loop of g1.go:432-437, g2.go:440-445 with `j` iterations left. -/
def mulLoopP (T : Nat) (q n : Obj) (e : Nat) : Nat → Nat → Prog Loc α → Prog Loc α
  | 0, _, k => k
  | j + 1, i, k =>
    if e.testBit i then addP g T q q n (dblP g T n n (mulLoopP T q n e j (i + 1) k))
    else dblP g T n n (mulLoopP T q n e j (i + 1) k)

/-- g1.go:428-439, g2.go:436-447 `MulScalar(c, p, e)`; `q` is zeroed by Go, and so is `n`, which is overwritten at once. -/
def mulScalarP (T : Nat) (c p : Obj) (e : Nat) (k : Prog Loc α) : Prog Loc α :=
  seq [.const (.pt (.new T 0) 0) g.zero, .const (.pt (.new T 0) 1) g.zero, .const (.pt (.new T 0) 2) g.zero]
    (copyP (.new T 1) p (mulLoopP g T (.new T 0) (.new T 1) e (Fe.bitLen e) 0 (copyP c (.new T 0) k)))

/-- all memory but the coordinates of `r` and the temporaries of `T` is the same. -/
def Same (T : Nat) (r : Obj) (m m' : Memory α) : Prop := ∀ l, (∀ i, l ≠ .pt r i) → (∀ i, l ≠ .tmp T i) → m' l = m l

/-- a call: there is one memory after it from which the continuation goes on, the destination holds `v`, the rest is as before. -/
def Does (call : Prog Loc α → Prog Loc α) (T : Nat) (r : Obj) (m : Memory α) (v : P3 α) : Prop :=
  ∃ m', (∀ k, (call k).run m = k.run m') ∧ read m' r = v ∧ Same T r m m'

theorem copyP_does (T : Nat) (r p : Obj) (m : Memory α) : Does (copyP r p) T r m (read m p) := by
  refine ⟨_, fun k => run_seq _ k m, ?_, ?_⟩
  · by_cases h : r = p <;> simp [read, Ins.exec, h]
  · intro l h1 h2
    simp [Ins.exec, h1]

theorem copyInf_does (T : Nat) (r : Obj) (m : Memory α) : Does (copyInf g r) T r m g.infinity := by
  refine ⟨_, fun k => run_seq _ k m, ?_, ?_⟩
  · simp [read, Ins.exec, Ops.infinity]
  · intro l h1 h2
    simp [Ins.exec, h1]

theorem negP_does (T : Nat) (r p : Obj) (m : Memory α) : Does (negP g r p) T r m (g.negPt (read m p)) := by
  refine ⟨_, fun k => run_seq _ k m, ?_, ?_⟩
  · by_cases h : r = p <;> simp [read, Ins.exec, Ops.negPt, h]
  · intro l h1 h2
    simp [Ins.exec, h1]

theorem dblP_does (T : Nat) (r p : Obj) (m : Memory α) : Does (dblP g T r p) T r m (g.dbl (read m p)) := by
  by_cases hz : g.isZero (m (.pt p 2)) = true
  · obtain ⟨m', h1, h2, h3⟩ := copyP_does T r p m
    refine ⟨m', fun k => ?_, ?_, h3⟩
    · rw [← h1 k]
      simp only [dblP, Prog.run, if_pos hz]
    · rw [h2]
      exact (if_pos hz).symm
  · refine ⟨(dblIns g T r p).foldl Ins.exec m, fun k => ?_, ?_, ?_⟩
    · simp only [dblP, Prog.run, if_neg hz]
      exact run_seq _ k m
    · refine Eq.trans ?_ (if_neg hz).symm
      by_cases h : r = p <;> simp [read, dblIns, Ins.exec, h]
    · intro l h1 h2
      simp [dblIns, Ins.exec, h1, h2]

theorem addP_does (T : Nat) (r p1 p2 : Obj) (m : Memory α) : Does (addP g T r p1 p2) T r m (g.addPt (read m p1) (read m p2)) := by
  by_cases hz : g.isZero (m (.pt p1 2)) = true
  · obtain ⟨m', h1, h2, h3⟩ := copyP_does T r p2 m
    refine ⟨m', fun k => ?_, ?_, h3⟩
    · rw [← h1 k]
      simp only [addP, Prog.run, if_pos hz]
    · rw [h2]
      exact (if_pos hz).symm
  by_cases hz2 : g.isZero (m (.pt p2 2)) = true
  · obtain ⟨m', h1, h2, h3⟩ := copyP_does T r p1 m
    refine ⟨m', fun k => ?_, ?_, h3⟩
    · rw [← h1 k]
      simp only [addP, Prog.run, if_neg hz, if_pos hz2]
    · rw [h2]
      exact ((if_neg hz).trans (if_pos hz2)).symm
  obtain ⟨m1, hS⟩ : ∃ m1, (addIns1 g T p1 p2).foldl Ins.exec m = m1 := ⟨_, rfl⟩
  have ept : ∀ o i, m1 (.pt o i) = m (.pt o i) := by intro o i; rw [← hS]; simp [addIns1, Ins.exec]
  have e7 : m1 (.tmp T 7) = g.square (m (.pt p1 2)) := by rw [← hS]; simp [addIns1, Ins.exec]
  have e8 : m1 (.tmp T 8) = g.square (m (.pt p2 2)) := by rw [← hS]; simp [addIns1, Ins.exec]
  have e1 : m1 (.tmp T 1) = g.mul (m (.pt p2 0)) (g.square (m (.pt p1 2))) := by rw [← hS]; simp [addIns1, Ins.exec]
  have e3 : m1 (.tmp T 3) = g.mul (m (.pt p1 0)) (g.square (m (.pt p2 2))) := by rw [← hS]; simp [addIns1, Ins.exec]
  have e0 : m1 (.tmp T 0) = g.mul (m (.pt p2 1)) (g.mul (m (.pt p1 2)) (g.square (m (.pt p1 2)))) := by rw [← hS]; simp [addIns1, Ins.exec]
  have e2 : m1 (.tmp T 2) = g.mul (m (.pt p1 1)) (g.mul (m (.pt p2 2)) (g.square (m (.pt p2 2)))) := by rw [← hS]; simp [addIns1, Ins.exec]
  have eo : ∀ l, (∀ i, l ≠ .tmp T i) → m1 l = m l := by intro l h; rw [← hS]; simp [addIns1, Ins.exec, h]
  have eread : ∀ o, read m1 o = read m o := by intro o; simp [read, ept]
  by_cases hx : g.equal (m1 (.tmp T 1)) (m1 (.tmp T 3)) = true
  · by_cases hy : g.equal (m1 (.tmp T 0)) (m1 (.tmp T 2)) = true
    · obtain ⟨m', h1, h2, h3⟩ := dblP_does g T r p1 m1
      refine ⟨m', fun k => ?_, ?_, fun l a b => (h3 l a b).trans (eo l b)⟩
      · rw [← h1 k]
        simp only [addP, Prog.run, if_neg hz, if_neg hz2]
        rw [run_seq, hS]
        simp only [Prog.run, if_pos hx, if_pos hy]
      · rw [h2, eread]
        rw [e1, e3] at hx
        rw [e0, e2] at hy
        exact ((if_neg hz).trans ((if_neg hz2).trans ((if_pos hx).trans (if_pos hy)))).symm
    · obtain ⟨m', h1, h2, h3⟩ := copyInf_does g T r m1
      refine ⟨m', fun k => ?_, ?_, fun l a b => (h3 l a b).trans (eo l b)⟩
      · rw [← h1 k]
        simp only [addP, Prog.run, if_neg hz, if_neg hz2]
        rw [run_seq, hS]
        simp only [Prog.run, if_pos hx, if_neg hy]
      · rw [h2]
        rw [e1, e3] at hx
        rw [e0, e2] at hy
        exact ((if_neg hz).trans ((if_neg hz2).trans ((if_pos hx).trans (if_neg hy)))).symm
  · refine ⟨(addIns2 g T r p1 p2).foldl Ins.exec m1, fun k => ?_, ?_, ?_⟩
    · simp only [addP, Prog.run, if_neg hz, if_neg hz2]
      rw [run_seq, hS]
      simp only [Prog.run, if_neg hx]
      exact run_seq _ k m1
    · rw [e1, e3] at hx
      refine Eq.trans ?_ ((if_neg hz).trans ((if_neg hz2).trans (if_neg hx))).symm
      by_cases h1 : r = p1 <;> by_cases h2 : r = p2 <;>
        simp [read, addIns2, Ins.exec, h1, h2, e0, e1, e2, e3, e7, e8, ept]
    · intro l h1 h2
      rw [← eo l h2]
      simp [addIns2, Ins.exec, h1, h2]

theorem affineP_does (T : Nat) (p : Obj) (m : Memory α) : Does (affineP g T p) T p m (g.affine (read m p)) := by
  by_cases hz : g.isZero (m (.pt p 2)) = true
  · refine ⟨m, fun k => ?_, ?_, fun _ _ _ => rfl⟩
    · simp only [affineP, Prog.run, if_pos hz]
    · exact (if_pos hz).symm
  by_cases ho : (!g.equal (m (.pt p 2)) g.one) = true
  · refine ⟨(affineIns g T p).foldl Ins.exec m, fun k => ?_, ?_, ?_⟩
    · simp only [affineP, Prog.run, if_neg hz, if_pos ho]
      exact run_seq _ k m
    · refine Eq.trans ?_ ((if_neg hz).trans (if_pos ho)).symm
      simp [read, affineIns, Ins.exec]
    · intro l h1 h2
      simp [affineIns, Ins.exec, h1, h2]
  · refine ⟨m, fun k => ?_, ?_, fun _ _ _ => rfl⟩
    · simp only [affineP, Prog.run, if_neg hz, if_neg ho]
    · exact ((if_neg hz).trans (if_neg ho)).symm

/-- all memory but the coordinates of `r`, and the temporaries and own objects of `T`, is the same. -/
def SameN (T : Nat) (r : Obj) (m m' : Memory α) : Prop :=
  ∀ l, (∀ i, l ≠ .pt r i) → (∀ i, l ≠ .tmp T i) → (∀ j i, l ≠ .pt (.new T j) i) → m' l = m l

/-- as `Does`, for a call that allocates objects. -/
def DoesN (call : Prog Loc α → Prog Loc α) (T : Nat) (r : Obj) (m : Memory α) (v : P3 α) : Prop :=
  ∃ m', (∀ k, (call k).run m = k.run m') ∧ read m' r = v ∧ SameN T r m m'

variable {g}

theorem Does.toN {call : Prog Loc α → Prog Loc α} {T : Nat} {r : Obj} {m : Memory α} {v : P3 α} (h : Does call T r m v) :
    DoesN call T r m v := by
  obtain ⟨m', h1, h2, h3⟩ := h
  exact ⟨m', h1, h2, fun l a b _ => h3 l a b⟩

theorem Same.read {T : Nat} {r o : Obj} {m m' : Memory α} (h : Same T r m m') (ho : o ≠ r) : read m' o = read m o := by
  have : ∀ i, m' (.pt o i) = m (.pt o i) := fun i => h _ (fun j e => ho (Loc.pt.inj e).1) (fun j e => by cases e)
  simp [Mem.read, this]

variable (g)

theorem subP_does (T : Nat) (c a b : Obj) (ha : ∀ i, a ≠ .new T i) (m : Memory α) :
    DoesN (subP g T c a b) T c m (g.subPt (read m a) (read m b)) := by
  obtain ⟨m1, h1, h2, h3⟩ := negP_does g T (.new T 0) b m
  obtain ⟨m2, k1, k2, k3⟩ := addP_does g T c a (.new T 0) m1
  refine ⟨m2, fun k => ?_, ?_, ?_⟩
  · rw [subP, h1, k1]
  · rw [k2, h2, h3.read (ha 0)]; rfl
  · intro l e1 e2 e3
    rw [k3 l e1 e2, h3 l (e3 0) e2]

/-- the memory after the loop of `MulScalar`. -/
theorem mulLoopP_does (T : Nat) (e : Nat) : ∀ (j i : Nat) (m : Memory α),
    DoesN (mulLoopP g T (.new T 0) (.new T 1) e j i) T (.new T 0) m
      (g.mulLoop e j i (read m (.new T 0)) (read m (.new T 1)))
  | 0, i, m => ⟨m, fun _ => rfl, rfl, fun _ _ _ _ => rfl⟩
  | j + 1, i, m => by
    by_cases hb : e.testBit i = true
    · obtain ⟨m1, h1, h2, h3⟩ := addP_does g T (.new T 0) (.new T 0) (.new T 1) m
      obtain ⟨m2, k1, k2, k3⟩ := dblP_does g T (.new T 1) (.new T 1) m1
      obtain ⟨m3, l1, l2, l3⟩ := mulLoopP_does T e j (i + 1) m2
      refine ⟨m3, fun k => ?_, ?_, ?_⟩
      · rw [mulLoopP, if_pos hb, h1, k1, l1]
      · rw [l2, k2, k3.read (by simp), h2, h3.read (by simp), Ops.mulLoop, if_pos hb]
      · intro l e1 e2 e3
        rw [l3 l e1 e2 e3, k3 l (e3 1) e2, h3 l e1 e2]
    · obtain ⟨m2, k1, k2, k3⟩ := dblP_does g T (.new T 1) (.new T 1) m
      obtain ⟨m3, l1, l2, l3⟩ := mulLoopP_does T e j (i + 1) m2
      refine ⟨m3, fun k => ?_, ?_, ?_⟩
      · rw [mulLoopP, if_neg hb, k1, l1]
      · rw [l2, k2, k3.read (by simp), Ops.mulLoop, if_neg hb]
      · intro l e1 e2 e3
        rw [l3 l e1 e2 e3, k3 l (e3 1) e2]

theorem mulScalarP_does (T : Nat) (c p : Obj) (e : Nat) (hp : ∀ i, p ≠ .new T i) (m : Memory α) :
    DoesN (mulScalarP g T c p e) T c m (g.mulScalar (read m p) e) := by
  obtain ⟨m0, hm0⟩ : ∃ m0, ([.const (.pt (.new T 0) 0) g.zero, .const (.pt (.new T 0) 1) g.zero,
      .const (.pt (.new T 0) 2) g.zero] : List (Ins Loc α)).foldl Ins.exec m = m0 := ⟨_, rfl⟩
  have r0 : read m0 (.new T 0) = g.blank := by rw [← hm0]; simp [Mem.read, Ins.exec, Ops.blank]
  have s0 : Same T (.new T 0) m m0 := by
    intro l h1 h2
    rw [← hm0]; simp [Ins.exec, h1]
  obtain ⟨m1, h1, h2, h3⟩ := copyP_does T (.new T 1) p m0
  obtain ⟨m2, k1, k2, k3⟩ := mulLoopP_does g T e (Fe.bitLen e) 0 m1
  obtain ⟨m3, l1, l2, l3⟩ := copyP_does T c (.new T 0) m2
  refine ⟨m3, fun k => ?_, ?_, ?_⟩
  · rw [mulScalarP, run_seq, hm0, h1, k1, l1]
  · rw [l2, k2, h3.read (by simp), h2, r0, s0.read (hp 0)]; rfl
  · intro l e1 e2 e3
    rw [l3 l e1 e2, k3 l (e3 0) e2 e3, h3 l (e3 1) e2, s0 l (e3 0) e2]

end Verif.Bls.Mem
