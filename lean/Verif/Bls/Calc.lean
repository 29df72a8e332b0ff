import Verif.Bls.Frobenius
import Verif.Bls.SchemeLemmas

/-!
# Computing with points on natural numbers

Lemmas only (no code of the repo is modelled): lets the kernel evaluate multiples of points of both curves.
-/

namespace Verif.Bls

open Verif.EC WeierstrassCurve

/-- computable arithmetic for the field `F`. -/
structure Calc (α F : Type) [Field F] where
  zero : α
  one : α
  add : α → α → α
  sub : α → α → α
  mul : α → α → α
  isZ : α → Bool
  val : α → F
  Ok : α → Prop
  zero_ok : Ok zero ∧ val zero = 0
  one_ok : Ok one ∧ val one = 1
  add_ok : ∀ a b, Ok (add a b) ∧ val (add a b) = val a + val b
  sub_ok : ∀ a b, Ok (sub a b) ∧ val (sub a b) = val a - val b
  mul_ok : ∀ a b, Ok (mul a b) ∧ val (mul a b) = val a * val b
  isZ_iff : ∀ {a}, Ok a → (isZ a = true ↔ val a = 0)
  two_ne : (2 : F) ≠ 0

namespace Calc

variable {α F : Type} [Field F] [DecidableEq F] (c : Calc α F)

def dbl (t : α × α × α) : α × α × α :=
  let X := t.1
  let Y := t.2.1
  let Z := t.2.2
  let XX := c.mul X X
  let M := c.add (c.add XX XX) XX
  let YY := c.mul Y Y
  let Y2 := c.add YY YY
  let S := c.mul X Y2
  let S := c.add S S
  let X3 := c.sub (c.mul M M) (c.add S S)
  let Y4 := c.mul Y2 Y2
  let YZ := c.mul Y Z
  (X3, c.sub (c.mul M (c.sub S X3)) (c.add Y4 Y4), c.add YZ YZ)

def jadd (t u : α × α × α) : α × α × α :=
  if c.isZ t.2.2 then u else if c.isZ u.2.2 then t else
  let Z1 := c.mul t.2.2 t.2.2
  let Z2 := c.mul u.2.2 u.2.2
  let U1 := c.mul t.1 Z2
  let H := c.sub (c.mul u.1 Z1) U1
  let S1 := c.mul t.2.1 (c.mul u.2.2 Z2)
  let R := c.sub (c.mul u.2.1 (c.mul t.2.2 Z1)) S1
  if c.isZ H && c.isZ R then c.dbl t else
  let HH := c.mul H H
  let HHH := c.mul H HH
  let V := c.mul U1 HH
  let X3 := c.sub (c.sub (c.mul R R) HHH) (c.add V V)
  (X3, c.sub (c.mul R (c.sub V X3)) (c.mul S1 HHH), c.mul (c.mul H t.2.2) u.2.2)

/-- double-and-add, least significant bit first. -/
def mulAux : ℕ → ℕ → α × α × α → α × α × α → α × α × α
  | 0, _, _, acc => acc
  | f + 1, k, t, acc =>
    if k = 0 then acc else mulAux f (k / 2) (c.dbl t) (if k % 2 = 1 then c.jadd acc t else acc)

def smul (k : ℕ) (t : α × α × α) : α × α × α := c.mulAux (k.log2 + 1) k t (c.zero, c.zero, c.zero)

/-- `t` and `u` are coordinates of the same point. -/
def same (t u : α × α × α) : Bool :=
  let Z1 := c.mul t.2.2 t.2.2
  let Z2 := c.mul u.2.2 u.2.2
  !c.isZ t.2.2 && !c.isZ u.2.2 && c.isZ (c.sub (c.mul t.1 Z2) (c.mul u.1 Z1)) &&
    c.isZ (c.sub (c.mul t.2.1 (c.mul u.2.2 Z2)) (c.mul u.2.1 (c.mul t.2.2 Z1)))

variable {c} {b : F}

/-- the triple stands for the point. -/
def JI (c : Calc α F) (t : α × α × α) (P : (sw 0 b).Point) : Prop := c.Ok t.2.2 ∧ JRep (sw 0 b) (c.val t.1) (c.val t.2.1) (c.val t.2.2) P

theorem JI.z_iff {t : α × α × α} {P : (sw 0 b).Point} (h : c.JI t P) : c.isZ t.2.2 = true ↔ P = 0 := by
  rw [c.isZ_iff h.1]; exact h.2.zero_iff

theorem dbl_ok {t : α × α × α} {P : (sw 0 b).Point} (h : c.JI t P) : c.JI (c.dbl t) (P + P) := by
  refine ⟨(c.add_ok _ _).1, ?_⟩
  refine EC.jdbl c.two_ne h.2 rfl rfl ?_ ?_ ?_ <;>
    simp only [dbl, (c.add_ok _ _).2, (c.sub_ok _ _).2, (c.mul_ok _ _).2] <;> ring

theorem jadd_ok {t u : α × α × α} {P R : (sw 0 b).Point} (h1 : c.JI t P) (h2 : c.JI u R) : c.JI (c.jadd t u) (P + R) := by
  unfold jadd
  by_cases hz1 : c.isZ t.2.2 = true
  · rw [if_pos hz1, h1.z_iff.mp hz1, zero_add]; exact h2
  rw [if_neg hz1]
  by_cases hz2 : c.isZ u.2.2 = true
  · rw [if_pos hz2, h2.z_iff.mp hz2, add_zero]; exact h1
  rw [if_neg hz2]
  have hz1' : c.val t.2.2 ≠ 0 := fun h => hz1 ((c.isZ_iff h1.1).mpr h)
  have hz2' : c.val u.2.2 ≠ 0 := fun h => hz2 ((c.isZ_iff h2.1).mpr h)
  dsimp only
  split
  · rename_i he
    rw [Bool.and_eq_true, c.isZ_iff (c.sub_ok _ _).1, c.isZ_iff (c.sub_ok _ _).1] at he
    simp only [(c.sub_ok _ _).2, (c.mul_ok _ _).2] at he
    have := jrep_eq h1.2 h2.2 hz1' hz2' (by linear_combination -he.1) (by linear_combination -he.2)
    rw [← this]; exact dbl_ok h1
  · rename_i he
    rw [Bool.and_eq_true, c.isZ_iff (c.sub_ok _ _).1, c.isZ_iff (c.sub_ok _ _).1] at he
    simp only [(c.sub_ok _ _).2, (c.mul_ok _ _).2] at he
    refine ⟨(c.mul_ok _ _).1, ?_⟩
    refine EC.jadd h1.2 h2.2 hz1' hz2' rfl rfl rfl rfl rfl rfl ?_ ?_ ?_ ?_
    · rintro ⟨ha, hb⟩; exact he ⟨by linear_combination ha, by linear_combination hb⟩
    all_goals simp only [(c.add_ok _ _).2, (c.sub_ok _ _).2, (c.mul_ok _ _).2]
    all_goals ring

theorem mulAux_ok (f k : ℕ) (hk : k < 2 ^ f) {t acc : α × α × α} {P A : (sw 0 b).Point} (ht : c.JI t P) (ha : c.JI acc A) :
    c.JI (c.mulAux f k t acc) (A + k • P) := by
  induction f generalizing k t acc P A with
  | zero => have : k = 0 := by simpa using hk
            subst this; simpa [mulAux] using ha
  | succ f ih =>
    unfold mulAux
    split
    · rename_i h0; subst h0; simpa using ha
    · have hd := dbl_ok ht
      have hdiv := Nat.div_add_mod k 2
      by_cases h1 : k % 2 = 1
      · simp only [h1, if_true]
        have := ih (k / 2) (by rw [pow_succ] at hk; omega) hd (jadd_ok ha ht)
        convert this using 1
        conv_lhs => rw [← hdiv, h1]
        rw [add_nsmul, mul_comm, mul_nsmul', two_nsmul, one_nsmul]; abel
      · have h0 : k % 2 = 0 := by omega
        simp only [h1, if_false]
        have := ih (k / 2) (by rw [pow_succ] at hk; omega) hd ha
        convert this using 1
        conv_lhs => rw [← hdiv, h0]
        rw [add_zero, mul_comm, mul_nsmul', two_nsmul]

theorem smul_ok (k : ℕ) {t : α × α × α} {P : (sw 0 b).Point} (ht : c.JI t P) : c.JI (c.smul k t) (k • P) := by
  have h0 : c.JI (c.zero, c.zero, c.zero) (0 : (sw 0 b).Point) := ⟨c.zero_ok.1, c.zero_ok.2⟩
  have := mulAux_ok (k.log2 + 1) k Nat.lt_log2_self ht h0
  rwa [zero_add] at this

theorem same_ok {t u : α × α × α} {P R : (sw 0 b).Point} (h1 : c.JI t P) (h2 : c.JI u R) (h : c.same t u = true) : P = R := by
  simp only [same, Bool.and_eq_true, Bool.not_eq_true', ← Bool.not_eq_true] at h
  obtain ⟨⟨⟨hz1, hz2⟩, h3⟩, h4⟩ := h
  rw [c.isZ_iff (c.sub_ok _ _).1] at h3 h4
  rw [c.isZ_iff h1.1] at hz1
  rw [c.isZ_iff h2.1] at hz2
  simp only [(c.sub_ok _ _).2, (c.mul_ok _ _).2] at h3 h4
  exact jrep_eq h1.2 h2.2 hz1 hz2 (by linear_combination h3) (by linear_combination h4)

theorem affine_ok {x y : α} {h : (sw 0 b).Nonsingular (c.val x) (c.val y)} : c.JI (x, y, c.one) (.some _ _ h : (sw 0 b).Point) :=
  ⟨c.one_ok.1, by rw [c.one_ok.2]; exact ⟨one_ne_zero, by ring, by ring⟩⟩

end Calc

/-! ## the two fields -/

theorem cast_sub_mod {m : ℕ} (hm : 0 < m) (a b : ℕ) : (((a + (m - b % m)) % m : ℕ) : ZMod m) = (a : ZMod m) - (b : ZMod m) := by
  rw [ZMod.natCast_mod, Nat.cast_add, Nat.cast_sub (Nat.mod_lt _ hm).le, ZMod.natCast_mod, ZMod.natCast_self]
  ring

theorem cast_zero_iff {m : ℕ} {a : ℕ} (h : a < m) : ((a : ℕ) : ZMod m) = 0 ↔ a = 0 := by
  rw [ZMod.natCast_eq_zero_iff]
  exact ⟨fun hd => Nat.eq_zero_of_dvd_of_lt hd h, fun h0 => by rw [h0]; exact dvd_zero _⟩

/-- arithmetic modulo `q`. -/
def calc1 : Calc ℕ Fq where
  zero := 0
  one := 1
  add a b := (a + b) % Q
  sub a b := (a + (Q - b % Q)) % Q
  mul a b := (a * b) % Q
  isZ a := a == 0
  val a := (a : Fq)
  Ok a := a < Q
  zero_ok := ⟨prime_Q.pos, Nat.cast_zero⟩
  one_ok := ⟨prime_Q.one_lt, Nat.cast_one⟩
  add_ok a b := ⟨Nat.mod_lt _ prime_Q.pos, by rw [ZMod.natCast_mod, Nat.cast_add]⟩
  sub_ok a b := ⟨Nat.mod_lt _ prime_Q.pos, cast_sub_mod prime_Q.pos a b⟩
  mul_ok a b := ⟨Nat.mod_lt _ prime_Q.pos, by rw [ZMod.natCast_mod, Nat.cast_mul]⟩
  isZ_iff h := by rw [beq_iff_eq, cast_zero_iff h]
  two_ne := two_ne1

theorem ofPair_zero_iff {m : ℕ} {x : ℕ × ℕ} (h : x.1 < m ∧ x.2 < m) : ofPair m x = 0 ↔ x.1 = 0 ∧ x.2 = 0 := by
  rw [QuadraticAlgebra.ext_iff, QuadraticAlgebra.re_zero, QuadraticAlgebra.im_zero]
  simp only [ofPair]
  rw [cast_zero_iff h.1, cast_zero_iff h.2]

/-- arithmetic in `Fq2`. -/
def calc2 : Calc (ℕ × ℕ) Fq2 where
  zero := (0, 0)
  one := (1, 0)
  add a b := ((a.1 + b.1) % Q, (a.2 + b.2) % Q)
  sub a b := ((a.1 + (Q - b.1 % Q)) % Q, (a.2 + (Q - b.2 % Q)) % Q)
  mul a b := mulPair Q a b
  isZ a := a.1 == 0 && a.2 == 0
  val a := ofPair Q a
  Ok a := a.1 < Q ∧ a.2 < Q
  zero_ok := ⟨⟨prime_Q.pos, prime_Q.pos⟩, by rw [ofPair_zero_iff ⟨prime_Q.pos, prime_Q.pos⟩]; exact ⟨rfl, rfl⟩⟩
  one_ok := ⟨⟨prime_Q.one_lt, prime_Q.pos⟩, by
    rw [QuadraticAlgebra.ext_iff, QuadraticAlgebra.re_one, QuadraticAlgebra.im_one]
    simp only [ofPair, Nat.cast_one, Nat.cast_zero, and_self]⟩
  add_ok a b := ⟨⟨Nat.mod_lt _ prime_Q.pos, Nat.mod_lt _ prime_Q.pos⟩, by
    rw [QuadraticAlgebra.ext_iff, QuadraticAlgebra.re_add, QuadraticAlgebra.im_add]
    simp only [ofPair, ZMod.natCast_mod, Nat.cast_add, and_self]⟩
  sub_ok a b := ⟨⟨Nat.mod_lt _ prime_Q.pos, Nat.mod_lt _ prime_Q.pos⟩, by
    rw [QuadraticAlgebra.ext_iff, QuadraticAlgebra.re_sub, QuadraticAlgebra.im_sub]
    simp only [ofPair, cast_sub_mod prime_Q.pos, and_self]⟩
  mul_ok a b := ⟨⟨Nat.mod_lt _ prime_Q.pos, Nat.mod_lt _ prime_Q.pos⟩, ofPair_mul Q prime_Q.pos a b⟩
  isZ_iff h := by rw [Bool.and_eq_true, beq_iff_eq, beq_iff_eq, ofPair_zero_iff h]
  two_ne := Sem.two_ne sem2

end Verif.Bls
