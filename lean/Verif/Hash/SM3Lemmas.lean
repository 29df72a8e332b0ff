import Verif.Hash.SM3
import Verif.Hash.SM3Spec
import Mathlib.Tactic.FinCases
import Mathlib.Data.Fintype.Basic

/-! # The SM3 model computes the function of the standard -/

namespace Verif.SM3

open Verif.Hash

theorem leftRotate_eq (x : BitVec 32) (i : Nat) : leftRotate x i = x.rotateLeft (i % 32) := by
  rw [BitVec.rotateLeft_def, leftRotate, Nat.mod_mod]

/-- the vector of the standard. -/
def V.vec (v : V) : Fin 8 → BitVec 32 := ![v.a, v.b, v.c, v.d, v.e, v.f, v.g, v.h]

theorem p0_eq (x : BitVec 32) : p0 x = Spec.P0 x := by simp only [p0, Spec.P0, leftRotate_eq]
theorem p1_eq (x : BitVec 32) : p1 x = Spec.P1 x := by simp only [p1, Spec.P1, leftRotate_eq]

/-- `w` holds the first entries of the expansion. -/
def IsW (B : Bytes) (w : List (BitVec 32)) : Prop := ∀ j, j < w.length → w.getD j 0 = Spec.W B j

theorem loadWords_isW (B : Bytes) : IsW B (loadWords B) := by
  intro j hj
  rw [show (loadWords B).length = 16 by simp [loadWords]] at hj
  rw [Spec.W, dif_pos hj]
  simp [loadWords, hj, word32, List.getD_eq_getElem?_getD]

theorem expandLoop_isW (B : Bytes) (n : Nat) (w : List (BitVec 32)) (h16 : 16 ≤ w.length) (h : IsW B w) :
    IsW B (expandLoop n w) ∧ (expandLoop n w).length = w.length + n := by
  induction n generalizing w with
  | zero => exact ⟨h, rfl⟩
  | succ n ih =>
    rw [expandLoop]
    have := ih (w ++ [p1 (w.getD (w.length - 16) 0 ^^^ w.getD (w.length - 9) 0 ^^^ leftRotate (w.getD (w.length - 3) 0) 15) ^^^
      leftRotate (w.getD (w.length - 13) 0) 7 ^^^ w.getD (w.length - 6) 0]) (by simp; omega) (by
        intro j hj
        rw [List.length_append, List.length_singleton] at hj
        by_cases hlt : j < w.length
        · rw [List.getD_eq_getElem?_getD, List.getElem?_append_left hlt, ← List.getD_eq_getElem?_getD]
          exact h j hlt
        · obtain rfl : j = w.length := by omega
          rw [List.getD_eq_getElem?_getD, List.getElem?_append_right (le_refl _), Nat.sub_self]
          rw [Spec.W, dif_neg (by omega), h _ (by omega), h _ (by omega), h _ (by omega), h _ (by omega), h _ (by omega),
            p1_eq, leftRotate_eq, leftRotate_eq]
          rfl)
    refine ⟨this.1, ?_⟩
    rw [this.2]; simp; omega

theorem w_getD (B : Bytes) (j : Nat) (hj : j < 68) : (expandLoop 52 (loadWords B)).getD j 0 = Spec.W B j := by
  have := expandLoop_isW B 52 (loadWords B) (by simp [loadWords]) (loadWords_isW B)
  exact this.1 j (by rw [this.2]; simp [loadWords]; omega)

theorem w1_getD (B : Bytes) (j : Nat) (hj : j < 64) :
    (w1Of (expandLoop 52 (loadWords B))).getD j 0 = Spec.W' B j := by
  rw [Spec.W', ← w_getD B j (by omega), ← w_getD B (j + 4) (by omega)]
  simp only [w1Of, List.getD_eq_getElem?_getD, List.getElem?_map, List.getElem?_range hj, Option.map_some, Option.getD_some]

theorem round_eq (B : Bytes) (v : Fin 8 → BitVec 32) (s : V) (j : Nat) (hj : j < 64) (hs : s.vec = Spec.regs B v j) :
    (round (if j < 16 then ff0 else ff1) (if j < 16 then gg0 else gg1) (if j < 16 then 0x79cc4519 else 0x7a879d8a)
      (expandLoop 52 (loadWords B)) (w1Of (expandLoop 52 (loadWords B))) s j).vec = Spec.regs B v (j + 1) := by
  rw [Spec.regs, ← hs, round, w_getD B j (by omega), w1_getD B j hj]
  by_cases h : j < 16
  · have h' : j ≤ 15 := by omega
    simp only [if_pos h, if_pos h', Spec.FF, Spec.GG, Spec.T, p0_eq, leftRotate_eq, V.vec]
    rfl
  · have h' : ¬ j ≤ 15 := by omega
    simp only [if_neg h, if_neg h', Spec.FF, Spec.GG, Spec.T, p0_eq, leftRotate_eq, V.vec]
    rfl

theorem rounds16 (B : Bytes) (v : Fin 8 → BitVec 32) (s : V) (hs : s.vec = v) (n : Nat) (hn : n ≤ 16) :
    ((List.range n).foldl (round ff0 gg0 0x79cc4519 (expandLoop 52 (loadWords B)) (w1Of (expandLoop 52 (loadWords B)))) s).vec
      = Spec.regs B v n := by
  induction n with
  | zero => exact hs
  | succ n ih =>
    rw [List.range_succ, List.foldl_append]
    have := round_eq B v _ n (by omega) (ih (by omega))
    rw [if_pos (by omega), if_pos (by omega), if_pos (by omega)] at this
    exact this

theorem rounds48 (B : Bytes) (v : Fin 8 → BitVec 32) (s : V) (hs : s.vec = Spec.regs B v 16) (n : Nat) (hn : n ≤ 48) :
    ((List.range' 16 n).foldl (round ff1 gg1 0x7a879d8a (expandLoop 52 (loadWords B)) (w1Of (expandLoop 52 (loadWords B)))) s).vec
      = Spec.regs B v (16 + n) := by
  induction n with
  | zero => exact hs
  | succ n ih =>
    rw [List.range'_concat, List.foldl_append]
    have := round_eq B v _ (16 + n) (by omega) (ih (by omega))
    rw [if_neg (by omega), if_neg (by omega), if_neg (by omega)] at this
    rw [Nat.one_mul]
    exact this

theorem block_eq (s : V) (B : Bytes) : (block s B).vec = Spec.CF s.vec B := by
  have h := rounds48 B s.vec _ (rounds16 B s.vec s rfl 16 (le_refl _)) 48 (le_refl _)
  unfold block Spec.CF
  dsimp only
  funext i
  rw [← h]
  generalize (List.range' 16 48).foldl _ _ = t
  fin_cases i <;> simp only [V.vec] <;> exact BitVec.xor_comm _ _

theorem runBlocks_eq (m : Bytes) (k : Nat) : (runBlocks 64 block k reset.digest m).vec = Spec.iter m k := by
  induction k with
  | zero => rfl
  | succ k ih => rw [runBlocks_add, Spec.iter, ← ih]; exact block_eq _ _

/-- the state after writing `m`. -/
structure Absorbed (s : St) (m : Bytes) : Prop where
  digest : s.digest = fullBlocks 64 block reset.digest m
  unhandled : s.unhandled = rest 64 m
  length : s.length = 8 * m.length % 2 ^ 64

theorem absorbed_reset : Absorbed reset [] := ⟨rfl, rfl, rfl⟩

theorem Absorbed.write {s : St} {m : Bytes} (h : Absorbed s m) (p : Bytes) : Absorbed (SM3.write s p) (m ++ p) := by
  have := fullBlocks_append 64 block (by decide) reset.digest m p
  refine ⟨?_, ?_, ?_⟩
  · rw [← this.1, ← h.digest, ← h.unhandled]; rfl
  · rw [← this.2, ← h.unhandled]
    show List.drop _ _ = List.drop _ _
    rw [Nat.mul_comm]
  · show (s.length + p.length * 8 % 2 ^ 64) % 2 ^ 64 = _
    rw [h.length, List.length_append]; omega

theorem padLoop_eq (n : Nat) (msg : Bytes) (h : (56 + 64 - msg.length % 64) % 64 ≤ n) :
    padLoop n msg = msg ++ List.replicate ((56 + 64 - msg.length % 64) % 64) 0x00 := by
  induction n generalizing msg with
  | zero =>
    rw [Nat.le_zero.mp h]; simp [padLoop]
  | succ n ih =>
    rw [padLoop]
    split
    · next hne =>
      rw [ih _ (by rw [List.length_append, List.length_singleton]; omega), List.append_assoc]
      congr 1
      rw [List.length_append, List.length_singleton,
        show (56 + 64 - msg.length % 64) % 64 = (56 + 64 - (msg.length + 1) % 64) % 64 + 1 by omega, List.replicate_succ]
      rfl
    · next heq =>
      rw [show (56 + 64 - msg.length % 64) % 64 = 0 by omega]; simp

theorem pad_eq {s : St} {m : Bytes} (h : Absorbed s m) (hm : m.length < 2 ^ 61) :
    m.take (64 * (m.length / 64)) ++ pad s = Spec.pad m := by
  have hl : (s.unhandled ++ [0x80]).length = m.length % 64 + 1 := by
    rw [h.unhandled, List.length_append, rest_length]; rfl
  unfold pad Spec.pad
  dsimp only
  rw [padLoop_eq 64 _ (by rw [hl]; omega), hl, h.unhandled, h.length,
    Nat.mod_eq_of_lt (show 8 * m.length < 2 ^ 64 by omega), bytes64_eq _ (by omega),
    show (56 + 64 - (m.length % 64 + 1) % 64) % 64 = (119 - m.length % 64) % 64 by omega]
  simp only [← List.append_assoc]
  congr 3
  rw [rest, List.take_append_drop]

/-- the panic of `pad` (sm3.go:59-61) is unreachable. -/
theorem pad_length {s : St} : (pad s).length % 64 = 0 := by
  unfold pad
  dsimp only
  rw [padLoop_eq 64 _ (by omega)]
  simp only [List.length_append, List.length_replicate, bytes64_length, List.length_singleton]
  omega

theorem output_eq (v : V) : output v = (List.ofFn fun i : Fin 8 => padLeft 4 (natBytes (v.vec i).toNat)).flatten := by
  unfold output
  simp only [bytes32_eq, V.vec, List.ofFn_succ, List.ofFn_zero, List.flatten_cons, List.flatten_nil, List.append_assoc,
    List.append_nil]
  rfl

/-- `Sum(nil)` after writing `m` in any way is the standard's digest. -/
theorem sum_absorbed {s : St} {m : Bytes} (h : Absorbed s m) (inp : Bytes) (hm : (m ++ inp).length < 2 ^ 61) :
    (sum s inp).2 = Spec.hash (m ++ inp) := by
  have hw := h.write inp
  generalize m ++ inp = m' at hw hm ⊢
  have hp := pad_eq hw hm
  show output (update (write s inp).digest (pad (write s inp))) = _
  generalize hs : write s inp = s' at hw hp ⊢
  unfold update
  have ht : (m'.take (64 * (m'.length / 64))).length = 64 * (m'.length / 64) := by
    rw [List.length_take]; omega
  have hr : rest 64 (m'.take (64 * (m'.length / 64))) = [] := by
    apply List.eq_nil_of_length_eq_zero
    rw [rest_length, ht]; omega
  have hf : fullBlocks 64 block reset.digest (m'.take (64 * (m'.length / 64))) = s'.digest := by
    rw [hw.digest]
    unfold fullBlocks
    rw [ht, Nat.mul_div_cancel_left _ (by decide), runBlocks_take _ _ _ _ _ (by omega)]
  have := (fullBlocks_append 64 block (by decide) reset.digest (m'.take (64 * (m'.length / 64))) (pad s')).1
  rw [hr, List.nil_append, hf, hp] at this
  rw [this, output_eq]
  unfold Spec.hash fullBlocks
  rw [← runBlocks_eq]

theorem sm3Sum_eq (m : Bytes) (hm : m.length < 2 ^ 61) : sm3Sum m = Spec.hash m := by
  have := sum_absorbed (absorbed_reset.write m) [] (by simpa using hm)
  simpa [sm3Sum] using this

theorem output_length (v : V) : (output v).length = 32 := rfl

theorem sm3Sum_length (m : Bytes) : (sm3Sum m).length = 32 := rfl

end Verif.SM3
