import Verif.Bls.MillerLemmas
import Verif.Primes.Certs
import Mathlib.GroupTheory.OrderOfElement

/-!
# The Miller loop computes Miller's function
-/

namespace Verif.Bls

open Verif.EC WeierstrassCurve
open Spec (xi w emb2 emb1)

/-! ## points of order `r` -/

theorem prime_r : Nat.Prime Spec.r := by rw [Spec.r]; exact prime_blsR

/-- a point of the subgroup of order `r` other than infinity. -/
def Ok (T : Spec.E2.Point) : Prop := T ≠ 0 ∧ Spec.r • T = 0

theorem smul_ne {G : Type*} [AddGroup G] {T : G} {r j : ℕ} (hr : r.Prime) (h0 : T ≠ 0) (h : r • T = 0) (hj : 0 < j) (hjr : j < r) :
    j • T ≠ 0 := by
  haveI := Fact.mk hr
  intro hz
  have := addOrderOf_dvd_of_nsmul_eq_zero hz
  rw [addOrderOf_eq_prime h h0] at this
  exact absurd (Nat.le_of_dvd hj this) (by omega)

theorem Ok.smul {T : Spec.E2.Point} (h : Ok T) {j : ℕ} (hj : 0 < j) (hjr : j < Spec.r) : j • T ≠ 0 :=
  smul_ne prime_r h.1 h.2 hj hjr

/-! ## factors that vanish in the final exponentiation -/

/-- equal up to a factor from `Fq2` and a power of `w³`. -/
def Sim (x g : Fq12) : Prop := ∃ c : Fq2, c ≠ 0 ∧ ∃ m : ℕ, x = emb2 c * w ^ (3 * m) * g

theorem Sim.refl (x : Fq12) : Sim x x := ⟨1, one_ne_zero, 0, by simp⟩

theorem Sim.trans {x y z : Fq12} (h : Sim x y) (k : Sim y z) : Sim x z := by
  obtain ⟨c, hc, m, rfl⟩ := h
  obtain ⟨d, hd, n, rfl⟩ := k
  exact ⟨c * d, mul_ne_zero hc hd, m + n, by rw [map_mul]; ring⟩

theorem Sim.mul {x y z t : Fq12} (h : Sim x y) (k : Sim z t) : Sim (x * z) (y * t) := by
  obtain ⟨c, hc, m, rfl⟩ := h
  obtain ⟨d, hd, n, rfl⟩ := k
  exact ⟨c * d, mul_ne_zero hc hd, m + n, by rw [map_mul]; ring⟩

theorem exp_div : (Q ^ 12 - 1) / Spec.r = 2 * ((Q ^ 2 - 1) * ((Q ^ 12 - 1) / Spec.r / (2 * (Q ^ 2 - 1)))) := by decide +kernel

theorem pow_sub_one {K : Type*} [Field K] {c : K} {n : ℕ} (hn : n ≠ 0) (h : c ^ n = c) (h0 : c ≠ 0) : c ^ (n - 1) = 1 := by
  have : n = (n - 1) + 1 := by omega
  rw [this, pow_succ] at h
  exact mul_right_cancel₀ h0 (by rw [h, one_mul])

theorem Fq2_pow_one {c : Fq2} (h : c ≠ 0) : c ^ (Q ^ 2 - 1) = 1 := by
  apply pow_sub_one (pow_ne_zero _ prime_Q.ne_zero) _ h
  rw [Fq2_pow, if_neg (by norm_num)]

theorem pow_kill {F K : Type*} [Field F] [Field K] (e : F →+* K) {w : K} {ξ c : F} (hw : w ^ 6 = e ξ) {N q M : ℕ} (hN : N = 2 * (q * M))
    (hc : c ^ q = 1) (hξ : ξ ^ q = 1) (m : ℕ) : (e c * w ^ (3 * m)) ^ N = 1 := by
  have h1 : (w ^ (3 * m)) ^ N = (w ^ 6) ^ (q * (m * M)) := by
    rw [hN, ← pow_mul, ← pow_mul]; congr 1; ring
  rw [mul_pow, h1, hw, ← map_pow, ← map_pow, pow_mul ξ, hξ, one_pow, hN, mul_left_comm, pow_mul c, hc, one_pow, map_one, mul_one]

theorem Sim.pow {x y : Fq12} (h : Sim x y) : x ^ ((Q ^ 12 - 1) / Spec.r) = y ^ ((Q ^ 12 - 1) / Spec.r) := by
  obtain ⟨c, hc, m, rfl⟩ := h
  rw [mul_pow, pow_kill emb2 w_six exp_div (Fq2_pow_one hc) (Fq2_pow_one xi_ne) m, one_mul]

/-! ## the inner loop -/

/-- the specified input of one pair: the affine coordinates of `P` and the point `T`. -/
abbrev Ent := (Fq × Fq) × Spec.E2.Point

/-- the affine coordinates of `p`. -/
def PRep (p : P3 Fe) (s : Fq × Fq) : Prop := (Fe.Red p.x ∧ Fe.den p.x = s.1) ∧ (Fe.Red p.y ∧ Fe.den p.y = s.2)

/-- the line through `A T` and `B T` at `P`. -/
noncomputable def lineAt (A B : Spec.E2.Point → Spec.E2.Point) (s : Ent) : Fq12 :=
  Spec.line (Spec.untwist (A s.2)) (Spec.untwist (B s.2)) (emb1 s.1.1, emb1 s.1.2)

theorem ell_nil (f : Fe12) : ell f [] = f := by rw [ell.eq_def]

theorem ell_cons (f : Fe12) (p : P3 Fe) (c : Coeff) (cs : List Coeff) (ps : List Lines) : ell f ((p, c :: cs) :: ps) =
    ell (Fe12.mulBy014Assign f c.c0 (Fe2.mulByFq c.c1 p.x) (Fe2.mulByFq c.c2 p.y)) ps := by
  rw [ell.eq_def]

theorem ell_is (A B : Spec.E2.Point → Spec.E2.Point) {ps : List Lines} {ss : List Ent}
    (h : List.Forall₂ (fun l s => PRep l.1 s.1 ∧ ∃ c cs, l.2 = c :: cs ∧ LineOf c (A s.2) (B s.2)) ps ss) {f : Fe12} {x : Fq12}
    (hf : Fe12.Is f x) : ∃ y, Fe12.Is (ell f ps) y ∧ Sim y (x * (ss.map (lineAt A B)).prod) := by
  induction h generalizing f x with
  | nil =>
    refine ⟨x, ?_, ?_⟩
    · rw [ell_nil]; exact hf
    · rw [List.map_nil, List.prod_nil, mul_one]; exact Sim.refl x
  | @cons l s ps ss h1 _ ih =>
    obtain ⟨p, cs'⟩ := l
    obtain ⟨⟨⟨hx, ex⟩, hy, ey⟩, c, cs, rfl, k0, k1, k2, h0, h1, h2, d, hd, hl⟩ := h1
    dsimp only at hx ex hy ey
    rw [ell_cons]
    have hstep := hf.mulBy014Assign h0 (h1.mulByFq hx) (h2.mulByFq hy)
    obtain ⟨y, hy1, hy2⟩ := ih hstep
    refine ⟨y, hy1, hy2.trans ?_⟩
    rw [ex, ey, hl s.1.1 s.1.2, List.map_cons, List.prod_cons]
    refine ⟨d, hd, 1, ?_⟩
    rw [lineAt]
    ring

/-! ## the loop -/

/-- the state of a pair with `k` bits left: the point is `n T`. -/
def Stage (k n : ℕ) (l : Lines) (s : Ent) : Prop :=
  PRep l.1 s.1 ∧ Ok s.2 ∧ ∃ q r, l.2 = preLoop q k r ∧ RepA q s.2 ∧ RepH r (n • s.2)

/-- the state between doubling and addition. -/
def Stage' (k n : ℕ) (l : Lines) (s : Ent) : Prop :=
  PRep l.1 s.1 ∧ Ok s.2 ∧ ∃ q r, l.2 = (additionStep r q).1 :: preLoop q k (additionStep r q).2 ∧ RepA q s.2 ∧ RepH r (n • s.2)

theorem next_forall {R S : Lines → Ent → Prop} (hRS : ∀ l s, R l s → S (l.1, l.2.tail) s) {ps : List Lines} {ss : List Ent}
    (h : List.Forall₂ R ps ss) : List.Forall₂ S (next ps) ss := by
  rw [next, List.forall₂_map_left_iff]
  exact h.imp (fun _ _ h => hRS _ _ h)

theorem double_ok {k n : ℕ} {l : Lines} {s : Ent} (h : Stage (k + 1) n l s) (hn : 0 < n) (hr : 2 * n < Spec.r) :
    ∃ c cs, l.2 = c :: cs ∧ LineOf c (n • s.2) (n • s.2) ∧
      (if blsX.testBit k then Stage' k (2 * n) (l.1, cs) s else Stage k (2 * n) (l.1, cs) s) := by
  obtain ⟨hp, hok, q, r, hl, hq, hrr⟩ := h
  have hsum : n • s.2 + n • s.2 = (2 * n) • s.2 := by rw [two_mul, add_smul]
  obtain ⟨h1, h2⟩ := doubling_is hrr (by rw [hsum]; exact hok.smul (by omega) hr)
  rw [hsum] at h1
  rw [preLoop] at hl
  by_cases hb : blsX.testBit k
  · rw [if_pos hb] at hl
    refine ⟨_, _, hl, h2, ?_⟩
    rw [if_pos hb]
    exact ⟨hp, hok, q, _, rfl, hq, h1⟩
  · rw [if_neg hb] at hl
    refine ⟨_, _, hl, h2, ?_⟩
    rw [if_neg hb]
    exact ⟨hp, hok, q, _, rfl, hq, h1⟩

theorem add_ok {k n : ℕ} {l : Lines} {s : Ent} (h : Stage' k n l s) (hn : 1 < n) (hr : n + 1 < Spec.r) :
    ∃ c cs, l.2 = c :: cs ∧ LineOf c (n • s.2) s.2 ∧ Stage k (n + 1) (l.1, cs) s := by
  obtain ⟨hp, hok, q, r, hl, hq, hrr⟩ := h
  have hsum : n • s.2 + s.2 = (n + 1) • s.2 := by rw [add_smul, one_smul]
  obtain ⟨h1, h2⟩ := addition_is hrr hq
    (by
      intro he
      apply hok.smul (j := n - 1) (by omega) (by omega)
      have hn1 : n = (n - 1) + 1 := by omega
      rw [hn1, add_smul, one_smul] at he
      exact add_eq_right.mp he)
    (by
      intro he
      apply hok.smul (j := n + 1) (by omega) hr
      rw [← hsum, he, neg_add_cancel])
  rw [hsum] at h1
  exact ⟨_, _, hl, h2, hp, hok, q, _, rfl, hq, h1⟩

/-- Miller's function of one pair. -/
noncomputable def millerAt (n : ℕ) (s : Ent) : Fq12 := Spec.miller s.2 (emb1 s.1.1, emb1 s.1.2) n

theorem millerAt_even {n : ℕ} (hn : 0 < n) (s : Ent) :
    millerAt (2 * n) s = millerAt n s ^ 2 * lineAt (fun T => n • T) (fun T => n • T) s := by
  rw [millerAt, Spec.miller, dif_neg (by omega)]
  have h1 : 2 * n / 2 = n := by omega
  have h2 : ¬ (2 * n % 2 = 1) := by omega
  simp only [h1, if_neg h2, millerAt, lineAt]

theorem millerAt_odd {n : ℕ} (hn : 0 < n) (s : Ent) :
    millerAt (2 * n + 1) s = millerAt n s ^ 2 * lineAt (fun T => n • T) (fun T => n • T) s * lineAt (fun T => (2 * n) • T) (fun T => T) s := by
  rw [millerAt, Spec.miller, dif_neg (by omega)]
  have h1 : (2 * n + 1) / 2 = n := by omega
  have h2 : (2 * n + 1) % 2 = 1 := by omega
  simp only [h1, if_pos h2, millerAt, lineAt]

theorem millerAt_one (s : Ent) : millerAt 1 s = 1 := by rw [millerAt, Spec.miller, dif_pos (le_refl 1)]

theorem X_lt : blsX + 1 < Spec.r := by decide +kernel

theorem X_bits {k : ℕ} (hk : k < 64) : 0 < blsX / 2 ^ k := by
  apply Nat.div_pos _ (Nat.pow_pos (by norm_num))
  calc 2 ^ k ≤ 2 ^ 63 := Nat.pow_le_pow_right (by norm_num) (by omega)
    _ ≤ blsX := by decide

theorem X_step (k : ℕ) : blsX / 2 ^ k = 2 * (blsX / 2 ^ (k + 1)) + (if blsX.testBit k then 1 else 0) := by
  rw [pow_succ, ← Nat.div_div_eq_div_mul, Nat.testBit_eq_decide_div_mod_eq]
  generalize blsX / 2 ^ k = m
  rcases Nat.mod_two_eq_zero_or_one m with h | h
  · simp [h]; omega
  · simp [h]; omega

theorem steps_is (k : ℕ) (hk : k ≤ 63) {ps : List Lines} {ss : List Ent} (h : List.Forall₂ (Stage k (blsX / 2 ^ k)) ps ss)
    {f : Fe12} {x : Fq12} (hf : Fe12.Is f x) (hx : Sim x (ss.map (millerAt (blsX / 2 ^ k))).prod) (h63 : k = 63 → x = 1) :
    ∃ y, Fe12.Is (millerSteps k f ps) y ∧ Sim y (ss.map (millerAt blsX)).prod := by
  induction k generalizing ps f x with
  | zero =>
    rw [millerSteps]
    rw [pow_zero, Nat.div_one] at hx
    exact ⟨x, hf, hx⟩
  | succ k ih =>
    have hn := X_bits (k := k + 1) (by omega)
    have hstep := X_step k
    have hle : blsX / 2 ^ k ≤ blsX := Nat.div_le_self _ _
    have hXr := X_lt
    generalize hn' : blsX / 2 ^ (k + 1) = n at *
    -- squaring
    obtain ⟨x2, hf2, hx2⟩ : ∃ x2, Fe12.Is (if k ≠ 62 then Fe12.square f else f) x2 ∧ Sim x2 ((ss.map (millerAt n)).prod ^ 2) := by
      by_cases h62 : k = 62
      · rw [if_neg (by simpa using h62)]
        have h1 := h63 (by omega)
        refine ⟨x, hf, ?_⟩
        have e : n = 1 := by rw [← hn', h62]; decide
        have hone : (ss.map (millerAt n)).prod = 1 := by
          rw [e]
          apply List.prod_eq_one
          intro z hz
          obtain ⟨s, _, rfl⟩ := List.mem_map.mp hz
          exact millerAt_one s
        rw [hone, h1, one_pow]; exact Sim.refl _
      · rw [if_pos h62]
        refine ⟨x * x, hf.square, ?_⟩
        rw [pow_two]; exact hx.mul hx
    -- doubling
    have hdb : List.Forall₂ (fun l s => (PRep l.1 s.1 ∧ ∃ c cs, l.2 = c :: cs ∧ LineOf c (n • s.2) (n • s.2)) ∧
        (if blsX.testBit k then Stage' k (2 * n) (l.1, l.2.tail) s else Stage k (2 * n) (l.1, l.2.tail) s)) ps ss := by
      refine h.imp (fun l s hs => ?_)
      obtain ⟨c, cs, h1, h2, h3⟩ := double_ok hs hn (by split at hstep <;> omega)
      refine ⟨⟨hs.1, c, cs, h1, h2⟩, ?_⟩
      rw [h1, List.tail_cons]; exact h3
    obtain ⟨x3, hf3, hx3⟩ := ell_is (fun T => n • T) (fun T => n • T) (hdb.imp fun _ _ h => h.1) hf2
    have hnext : List.Forall₂ (fun l s => if blsX.testBit k then Stage' k (2 * n) l s else Stage k (2 * n) l s) (next ps) ss :=
      next_forall (fun _ _ h => h.2) hdb
    have hx3' : Sim x3 (ss.map fun s => millerAt n s ^ 2 * lineAt (fun T => n • T) (fun T => n • T) s).prod := by
      simp only [pow_two, List.prod_map_mul] at hx2 ⊢
      exact hx3.trans (hx2.mul (Sim.refl _))
    rw [millerSteps]
    by_cases hb : blsX.testBit k
    · simp only [hb, if_true] at hnext hstep ⊢
      -- addition
      have hadd : List.Forall₂ (fun l s => (PRep l.1 s.1 ∧ ∃ c cs, l.2 = c :: cs ∧ LineOf c ((2 * n) • s.2) s.2) ∧
          Stage k (2 * n + 1) (l.1, l.2.tail) s) (next ps) ss := by
        refine hnext.imp (fun l s hs => ?_)
        obtain ⟨c, cs, h1, h2, h3⟩ := add_ok hs (by omega) (by omega)
        refine ⟨⟨hs.1, c, cs, h1, h2⟩, ?_⟩
        rw [h1, List.tail_cons]; exact h3
      obtain ⟨x4, hf4, hx4⟩ := ell_is (fun T => (2 * n) • T) (fun T => T) (hadd.imp fun _ _ h => h.1) hf3
      refine ih (by omega) ?_ hf4 ?_ (by omega)
      · rw [hstep]; exact next_forall (fun _ _ h => h.2) hadd
      · rw [hstep]
        have he : (ss.map (millerAt (2 * n + 1))) = ss.map fun s =>
            (millerAt n s ^ 2 * lineAt (fun T => n • T) (fun T => n • T) s) * lineAt (fun T => (2 * n) • T) (fun T => T) s :=
          List.map_congr_left fun s _ => millerAt_odd hn s
        rw [he, List.prod_map_mul]
        exact hx4.trans (hx3'.mul (Sim.refl _))
    · simp only [hb] at hnext hstep ⊢
      refine ih (by omega) ?_ hf3 ?_ (by omega)
      · rw [hstep]; simpa using hnext
      · rw [hstep]
        have he : (ss.map (millerAt (2 * n))) = ss.map fun s =>
            (millerAt n s ^ 2 * lineAt (fun T => n • T) (fun T => n • T) s) :=
          List.map_congr_left fun s _ => millerAt_even hn s
        simp only [Bool.false_eq_true, if_false, add_zero]
        rw [he]
        exact hx3'

end Verif.Bls
