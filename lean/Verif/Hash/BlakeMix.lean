import Verif.Hash.BlakeCore
import Verif.Hash.BlakeMixSpec
import Mathlib.Tactic.FinCases
import Mathlib.Data.Fintype.Basic

/-! # A round of the unrolled code is the round of the specification -/

namespace Verif.Blake

variable {w : ℕ}

/-- the rotation as the code writes it. -/
def rotr (t : BitVec w) (r : ℕ) : BitVec w := t <<< (w - r) ||| t >>> r

theorem rotr_eq (t : BitVec w) {r : ℕ} (hr : r < w) : rotr t r = t.rotateRight r := by
  rw [BitVec.rotateRight_def, Nat.mod_eq_of_lt hr, rotr, BitVec.or_comm]

/-- the values after one group, with the first sum in the order of the specification. -/
def half (r1 r2 : ℕ) (a b c d x : BitVec w) : BitVec w × BitVec w × BitVec w × BitVec w :=
  let a := a + b + x
  let d := rotr (d ^^^ a) r1
  let c := c + d
  let b := rotr (b ^^^ c) r2
  (a, b, c, d)

/-- the values after one group, as the code computes them. -/
def halfCode (r1 r2 : ℕ) (a b c d x : BitVec w) : BitVec w × BitVec w × BitVec w × BitVec w :=
  let a := a + x + b
  let d := rotr (d ^^^ a) r1
  let c := c + d
  let b := rotr (b ^^^ c) r2
  (a, b, c, d)

theorem halfCode_eq (r1 r2 : ℕ) (a b c d x : BitVec w) : halfCode r1 r2 a b c d x = half r1 r2 a b c d x := by
  unfold halfCode half
  rw [show a + x + b = a + b + x by rw [BitVec.add_assoc, BitVec.add_comm x b, ← BitVec.add_assoc]]

/-- the groups of one round, in the order of the code. -/
def schedule (R : Fin 4 → ℕ) (mx kx my ky : Fin 8 → ℕ) : List Instr :=
  [⟨0, 4, 8, 12, mx 0, kx 0, R 0, R 1⟩, ⟨1, 5, 9, 13, mx 1, kx 1, R 0, R 1⟩, ⟨2, 6, 10, 14, mx 2, kx 2, R 0, R 1⟩,
   ⟨3, 7, 11, 15, mx 3, kx 3, R 0, R 1⟩, ⟨2, 6, 10, 14, my 2, ky 2, R 2, R 3⟩, ⟨3, 7, 11, 15, my 3, ky 3, R 2, R 3⟩,
   ⟨1, 5, 9, 13, my 1, ky 1, R 2, R 3⟩, ⟨0, 4, 8, 12, my 0, ky 0, R 2, R 3⟩,
   ⟨0, 5, 10, 15, mx 4, kx 4, R 0, R 1⟩, ⟨1, 6, 11, 12, mx 5, kx 5, R 0, R 1⟩, ⟨2, 7, 8, 13, mx 6, kx 6, R 0, R 1⟩,
   ⟨3, 4, 9, 14, mx 7, kx 7, R 0, R 1⟩, ⟨2, 7, 8, 13, my 6, ky 6, R 2, R 3⟩, ⟨3, 4, 9, 14, my 7, ky 7, R 2, R 3⟩,
   ⟨1, 6, 11, 12, my 5, ky 5, R 2, R 3⟩, ⟨0, 5, 10, 15, my 4, ky 4, R 2, R 3⟩]

/-- the sixteen words as a function. -/
def toFn (v : Vars w) : Fin 16 → BitVec w := fun i => v.getD i.val 0

theorem spec_G_eq (R : Fin 4 → ℕ) (hR : ∀ i, R i < w) (a b c d : Fin 16) (x y : BitVec w) (v : Fin 16 → BitVec w) :
    Spec.G R a b c d x y v =
      let p := half (R 0) (R 1) (v a) (v b) (v c) (v d) x
      let q := half (R 2) (R 3) p.1 p.2.1 p.2.2.1 p.2.2.2 y
      fun i => if i = a then q.1 else if i = b then q.2.1 else if i = c then q.2.2.1 else if i = d then q.2.2.2 else v i := by
  unfold Spec.G half
  simp only [← rotr_eq _ (hR _)]

theorem exec_0 (x : ℕ → ℕ → BitVec w) (v0 v1 v2 v3 v4 v5 v6 v7 v8 v9 v10 v11 v12 v13 v14 v15 : BitVec w) (m k r1 r2 : ℕ) :
    exec x [v0, v1, v2, v3, v4, v5, v6, v7, v8, v9, v10, v11, v12, v13, v14, v15] ⟨0, 4, 8, 12, m, k, r1, r2⟩ =
      let h := half r1 r2 v0 v4 v8 v12 (x m k)
      [h.1, v1, v2, v3, h.2.1, v5, v6, v7, h.2.2.1, v9, v10, v11, h.2.2.2, v13, v14, v15] := by
  rw [← halfCode_eq]; rfl

theorem exec_1 (x : ℕ → ℕ → BitVec w) (v0 v1 v2 v3 v4 v5 v6 v7 v8 v9 v10 v11 v12 v13 v14 v15 : BitVec w) (m k r1 r2 : ℕ) :
    exec x [v0, v1, v2, v3, v4, v5, v6, v7, v8, v9, v10, v11, v12, v13, v14, v15] ⟨1, 5, 9, 13, m, k, r1, r2⟩ =
      let h := half r1 r2 v1 v5 v9 v13 (x m k)
      [v0, h.1, v2, v3, v4, h.2.1, v6, v7, v8, h.2.2.1, v10, v11, v12, h.2.2.2, v14, v15] := by
  rw [← halfCode_eq]; rfl

theorem exec_2 (x : ℕ → ℕ → BitVec w) (v0 v1 v2 v3 v4 v5 v6 v7 v8 v9 v10 v11 v12 v13 v14 v15 : BitVec w) (m k r1 r2 : ℕ) :
    exec x [v0, v1, v2, v3, v4, v5, v6, v7, v8, v9, v10, v11, v12, v13, v14, v15] ⟨2, 6, 10, 14, m, k, r1, r2⟩ =
      let h := half r1 r2 v2 v6 v10 v14 (x m k)
      [v0, v1, h.1, v3, v4, v5, h.2.1, v7, v8, v9, h.2.2.1, v11, v12, v13, h.2.2.2, v15] := by
  rw [← halfCode_eq]; rfl

theorem exec_3 (x : ℕ → ℕ → BitVec w) (v0 v1 v2 v3 v4 v5 v6 v7 v8 v9 v10 v11 v12 v13 v14 v15 : BitVec w) (m k r1 r2 : ℕ) :
    exec x [v0, v1, v2, v3, v4, v5, v6, v7, v8, v9, v10, v11, v12, v13, v14, v15] ⟨3, 7, 11, 15, m, k, r1, r2⟩ =
      let h := half r1 r2 v3 v7 v11 v15 (x m k)
      [v0, v1, v2, h.1, v4, v5, v6, h.2.1, v8, v9, v10, h.2.2.1, v12, v13, v14, h.2.2.2] := by
  rw [← halfCode_eq]; rfl

theorem exec_4 (x : ℕ → ℕ → BitVec w) (v0 v1 v2 v3 v4 v5 v6 v7 v8 v9 v10 v11 v12 v13 v14 v15 : BitVec w) (m k r1 r2 : ℕ) :
    exec x [v0, v1, v2, v3, v4, v5, v6, v7, v8, v9, v10, v11, v12, v13, v14, v15] ⟨0, 5, 10, 15, m, k, r1, r2⟩ =
      let h := half r1 r2 v0 v5 v10 v15 (x m k)
      [h.1, v1, v2, v3, v4, h.2.1, v6, v7, v8, v9, h.2.2.1, v11, v12, v13, v14, h.2.2.2] := by
  rw [← halfCode_eq]; rfl

theorem exec_5 (x : ℕ → ℕ → BitVec w) (v0 v1 v2 v3 v4 v5 v6 v7 v8 v9 v10 v11 v12 v13 v14 v15 : BitVec w) (m k r1 r2 : ℕ) :
    exec x [v0, v1, v2, v3, v4, v5, v6, v7, v8, v9, v10, v11, v12, v13, v14, v15] ⟨1, 6, 11, 12, m, k, r1, r2⟩ =
      let h := half r1 r2 v1 v6 v11 v12 (x m k)
      [v0, h.1, v2, v3, v4, v5, h.2.1, v7, v8, v9, v10, h.2.2.1, h.2.2.2, v13, v14, v15] := by
  rw [← halfCode_eq]; rfl

theorem exec_6 (x : ℕ → ℕ → BitVec w) (v0 v1 v2 v3 v4 v5 v6 v7 v8 v9 v10 v11 v12 v13 v14 v15 : BitVec w) (m k r1 r2 : ℕ) :
    exec x [v0, v1, v2, v3, v4, v5, v6, v7, v8, v9, v10, v11, v12, v13, v14, v15] ⟨2, 7, 8, 13, m, k, r1, r2⟩ =
      let h := half r1 r2 v2 v7 v8 v13 (x m k)
      [v0, v1, h.1, v3, v4, v5, v6, h.2.1, h.2.2.1, v9, v10, v11, v12, h.2.2.2, v14, v15] := by
  rw [← halfCode_eq]; rfl

theorem exec_7 (x : ℕ → ℕ → BitVec w) (v0 v1 v2 v3 v4 v5 v6 v7 v8 v9 v10 v11 v12 v13 v14 v15 : BitVec w) (m k r1 r2 : ℕ) :
    exec x [v0, v1, v2, v3, v4, v5, v6, v7, v8, v9, v10, v11, v12, v13, v14, v15] ⟨3, 4, 9, 14, m, k, r1, r2⟩ =
      let h := half r1 r2 v3 v4 v9 v14 (x m k)
      [v0, v1, v2, h.1, h.2.1, v5, v6, v7, v8, h.2.2.1, v10, v11, v12, v13, h.2.2.2, v15] := by
  rw [← halfCode_eq]; rfl

theorem exec_schedule (R : Fin 4 → ℕ) (hR : ∀ i, R i < w) (mx kx my ky : Fin 8 → ℕ) (x : ℕ → ℕ → BitVec w) (v : Vars w)
    (hv : v.length = 16) :
    toFn ((schedule R mx kx my ky).foldl (exec x) v) =
      Spec.round R (fun i => x (mx i) (kx i)) (fun i => x (my i) (ky i)) (toFn v) ∧
    ((schedule R mx kx my ky).foldl (exec x) v).length = 16 := by
  obtain ⟨v0, v1, v2, v3, v4, v5, v6, v7, v8, v9, v10, v11, v12, v13, v14, v15, rfl⟩ : ∃ v0 v1 v2 v3 v4 v5 v6 v7 v8 v9 v10 v11 v12 v13 v14 v15, v = [v0, v1, v2, v3, v4, v5, v6, v7, v8, v9, v10, v11, v12, v13, v14, v15] := by
    match v, hv with
    | [v0, v1, v2, v3, v4, v5, v6, v7, v8, v9, v10, v11, v12, v13, v14, v15], _ => exact ⟨_, _, _, _, _, _, _, _, _, _, _, _, _, _, _, _, rfl⟩
  unfold schedule Spec.round
  simp only [List.foldl_cons, List.foldl_nil, spec_G_eq R hR, exec_0, exec_1, exec_2, exec_3, exec_4, exec_5, exec_6, exec_7]
  refine ⟨?_, rfl⟩
  funext i
  fin_cases i <;> rfl

end Verif.Blake
