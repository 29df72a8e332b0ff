import Verif.Bls.TowerLemmas
import Mathlib.Algebra.CharP.Frobenius
import Mathlib.FieldTheory.Finite.Basic

/-!
# Frobenius maps and cyclotomic squaring
-/

namespace Verif.Bls

open Spec (xi w emb2)

/-! ## powers in `Fq2` computed on naturals -/

/-- `(a + b u)(c + d u)` modulo `m`. -/
def mulPair (m : ℕ) (x y : ℕ × ℕ) : ℕ × ℕ :=
  ((x.1 * y.1 + (m - 1) * (x.2 * y.2)) % m, (x.1 * y.2 + x.2 * y.1) % m)

def powPairAux (m : ℕ) : ℕ → ℕ × ℕ → ℕ → ℕ × ℕ → ℕ × ℕ
  | 0, _, _, acc => acc
  | f + 1, b, e, acc =>
    if e = 0 then acc
    else powPairAux m f (mulPair m b b) (e / 2) (if e % 2 = 1 then mulPair m acc b else acc)

/-- `b ^ e` in `Z/m[u]/(u² + 1)` by repeated squaring. -/
def powPair (m : ℕ) (b : ℕ × ℕ) (e : ℕ) : ℕ × ℕ := powPairAux m (e.log2 + 1) b e (1, 0)

/-- the pair as an element. -/
def ofPair (m : ℕ) (x : ℕ × ℕ) : QuadraticAlgebra (ZMod m) (-1) 0 := ⟨(x.1 : ZMod m), (x.2 : ZMod m)⟩

theorem ofPair_mul (m : ℕ) (hm : 0 < m) (x y : ℕ × ℕ) : ofPair m (mulPair m x y) = ofPair m x * ofPair m y := by
  have h1 : ((m - 1 : ℕ) : ZMod m) = -1 := by rw [Nat.cast_sub hm]; simp
  apply QuadraticAlgebra.ext
  · rw [QuadraticAlgebra.re_mul]
    simp only [ofPair, mulPair, ZMod.natCast_mod, Nat.cast_add, Nat.cast_mul, h1]
    ring
  · rw [QuadraticAlgebra.im_mul]
    simp only [ofPair, mulPair, ZMod.natCast_mod, Nat.cast_add, Nat.cast_mul]
    ring

theorem powPairAux_spec (m : ℕ) (hm : 0 < m) (f : ℕ) (b : ℕ × ℕ) (e : ℕ) (acc : ℕ × ℕ) (h : e < 2 ^ f) :
    ofPair m (powPairAux m f b e acc) = ofPair m acc * ofPair m b ^ e := by
  induction f generalizing b e acc with
  | zero => have : e = 0 := by simpa using h
            subst this; simp [powPairAux]
  | succ f ih =>
    unfold powPairAux
    split
    · rename_i h0; subst h0; simp
    · rw [ih _ _ _ (by rw [pow_succ] at h; omega), ofPair_mul m hm]
      have hd := Nat.div_add_mod e 2
      split
      · rename_i h1
        rw [ofPair_mul m hm]
        conv_rhs => rw [← hd, h1, pow_add, pow_mul]
        ring
      · have h1 : e % 2 = 0 := by omega
        conv_rhs => rw [← hd, h1, pow_add, pow_mul]
        ring

theorem powPair_spec (m : ℕ) (hm : 0 < m) (b : ℕ × ℕ) (e : ℕ) : ofPair m (powPair m b e) = ofPair m b ^ e := by
  have h1 : ofPair m (1, 0) = 1 := by
    apply QuadraticAlgebra.ext <;> simp [ofPair, QuadraticAlgebra.re_one, QuadraticAlgebra.im_one]
  rw [powPair, powPairAux_spec m hm _ _ _ _ Nat.lt_log2_self, h1, one_mul]

/-- is the constant `c` reduced, with the value `(1 + u)^e`? -/
def chkPow (c : Fe2) (e : ℕ) : Bool :=
  let p := powPair Q (1, 1) e
  decide (c.c0.val < Q) && decide (c.c1.val < Q) && decide (c.c0.val % Q = p.1 * 2 ^ 384 % Q) && decide (c.c1.val % Q = p.2 * 2 ^ 384 % Q)

theorem chkPow_spec {c : Fe2} {e : ℕ} (h : chkPow c e = true) : Fe2.Is c (xi ^ e) := by
  simp only [chkPow, Bool.and_eq_true, decide_eq_true_eq] at h
  obtain ⟨⟨⟨h0, h1⟩, h2⟩, h3⟩ := h
  have hp := powPair_spec Q prime_Q.pos (1, 1) e
  have hx : ofPair Q (1, 1) = xi := by
    rw [xi]
    apply QuadraticAlgebra.ext <;> simp [ofPair, QuadraticAlgebra.re_one, QuadraticAlgebra.im_one]
  have key : xi ^ e = ofPair Q (powPair Q (1, 1) e) := by rw [hp, hx]
  generalize powPair Q (1, 1) e = p at *
  rw [key]
  refine Fe2.mk_spec h0 h1 ?_ ?_
  · rw [ofPair]; dsimp only
    apply Fe.den_of_val
    rw [← Nat.cast_mul, ZMod.natCast_eq_natCast_iff', h2]
  · rw [ofPair]; dsimp only
    apply Fe.den_of_val
    rw [← Nat.cast_mul, ZMod.natCast_eq_natCast_iff', h3]

theorem frob12_spec : ∀ k < 12, chkPow (frob12 k) ((Q ^ k - 1) / 6) = true := by decide +kernel
theorem frob61_spec : ∀ k < 12, chkPow (frob61 (k % 6)) (2 * ((Q ^ k - 1) / 6)) = true := by decide +kernel
theorem frob62_spec : ∀ k < 12, chkPow (frob62 (k % 6)) (4 * ((Q ^ k - 1) / 6)) = true := by decide +kernel

end Verif.Bls
