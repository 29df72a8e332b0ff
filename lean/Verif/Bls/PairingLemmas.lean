import Verif.Bls.Miller
import Verif.Bls.SchemeLemmas

/-!
# The pairing engine computes the cube of the ate pairing
-/

namespace Verif.Bls

open Verif.EC WeierstrassCurve Sem
open Spec (xi w emb2 emb1)

/-- the exponent of the final exponentiation. -/
abbrev NN : ℕ := (Q ^ 12 - 1) / Spec.r

/-! ## the exponent -/

theorem NN_r : NN * Spec.r = Q ^ 12 - 1 := by decide +kernel
theorem NN_conj : NN * (Q ^ 6 + 1) = (Q ^ 12 - 1) * ((Q ^ 6 + 1) / Spec.r) := by decide +kernel
theorem NN_even : NN = 2 * (NN / 2) := by decide +kernel

theorem Fq12_pow_one {y : Fq12} (h : y ≠ 0) : y ^ (Q ^ 12 - 1) = 1 := by
  apply pow_sub_one (pow_ne_zero _ prime_Q.ne_zero) _ h
  rw [← phi_def, phi_twelve]

theorem phi_six_pow (y : Fq12) : phi 6 (y ^ NN) = (y ^ NN)⁻¹ := by
  by_cases h : y = 0
  · rw [h, zero_pow Fe12.final_pos, map_zero, inv_zero]
  · refine eq_inv_of_mul_eq_one_left ?_
    rw [phi_def, ← pow_mul, ← pow_add, ← mul_add_one, NN_conj, pow_mul, Fq12_pow_one h, one_pow]

/-! ## lines and the conjugation -/

/-- `A` is mapped to `-A` by the conjugation. -/
def Odd (A : Fq12 × Fq12) : Prop := phi 6 A.1 = A.1 ∧ phi 6 A.2 = -A.2

theorem untwist_odd (T : Spec.E2.Point) : Odd (Spec.untwist T) := by
  cases T with
  | zero => rw [Spec.untwist]; exact ⟨map_zero _, by rw [map_zero, neg_zero]⟩
  | some x y h =>
    rw [untwist_some]
    constructor
    · rw [map_div₀, map_pow, phi_six_w, phi_emb2_even (by norm_num)]; ring
    · rw [map_div₀, map_pow, phi_six_w, phi_emb2_even (by norm_num), neg_pow, div_mul_eq_div_div]
      ring

theorem slope_odd {A B : Fq12 × Fq12} (hA : Odd A) (hB : Odd B) : phi 6 (Spec.slope A B) = -Spec.slope A B := by
  rw [Spec.slope]
  split_ifs
  · rw [map_div₀, map_mul, map_mul, map_pow, hA.1, hA.2, map_ofNat, map_ofNat, mul_neg, div_neg]
  · rw [map_div₀, map_sub, map_sub, hA.1, hB.1, hA.2, hB.2]
    rw [← neg_div]; congr 1; ring

theorem phi_emb1 (x : Fq) : phi 6 (emb1 x) = emb1 x := by rw [emb1_eq, phi_emb2_even (by norm_num)]

theorem line_conj {A B : Fq12 × Fq12} (hA : Odd A) (hB : Odd B) (x y : Fq) :
    phi 6 (Spec.line A B (emb1 x, emb1 y)) = -Spec.line A B (emb1 x, emb1 (-y)) := by
  simp only [Spec.line]
  rw [map_sub, map_sub, map_mul, map_sub, slope_odd hA hB, hA.1, hA.2, phi_emb1, phi_emb1, map_neg]
  ring

theorem Fq12_two_ne : (2 : Fq12) ≠ 0 := by
  have : emb2 2 ≠ 0 := by rw [Ne, map_eq_zero]; exact Fq2_two_ne
  rwa [map_ofNat] at this

theorem line_ne {A B : Fq12 × Fq12} (hA : Odd A) (hB : Odd B) {x y : Fq} (hy : y ≠ 0) :
    Spec.line A B (emb1 x, emb1 y) ≠ 0 := by
  intro h
  have h1 := line_conj hA hB x y
  have h2 : Spec.line A B (emb1 x, emb1 y) - Spec.line A B (emb1 x, emb1 (-y)) = 2 * emb1 y := by
    simp only [Spec.line]; rw [map_neg]; ring
  rw [h, map_zero] at h1
  rw [h, zero_sub, ← h1] at h2
  rcases mul_eq_zero.mp h2.symm with h3 | h3
  · exact Fq12_two_ne h3
  · exact hy ((map_eq_zero _).mp h3)

/-! ## Miller's function -/

theorem millerAt_ne (T : Spec.E2.Point) {x y : Fq} (hy : y ≠ 0) (n : ℕ) : millerAt n ((x, y), T) ≠ 0 := by
  induction n using Nat.strong_induction_on with
  | _ n ih =>
    rcases Nat.lt_or_ge 1 n with hn | hn
    · have hl : ∀ A B, lineAt A B ((x, y), T) ≠ 0 := fun A B => line_ne (untwist_odd _) (untwist_odd _) hy
      have h1 := ih (n / 2) (by omega)
      rcases Nat.mod_two_eq_zero_or_one n with h | h
      · rw [show n = 2 * (n / 2) by omega, millerAt_even (by omega)]
        exact mul_ne_zero (pow_ne_zero _ h1) (hl _ _)
      · rw [show n = 2 * (n / 2) + 1 by omega, millerAt_odd (by omega)]
        exact mul_ne_zero (mul_ne_zero (pow_ne_zero _ h1) (hl _ _)) (hl _ _)
    · rw [millerAt, Spec.miller, dif_pos hn]; exact one_ne_zero

theorem millerAt_neg (T : Spec.E2.Point) (x y : Fq) (n : ℕ) :
    phi 6 (millerAt n ((x, y), T)) = millerAt n ((x, -y), T) ∨ phi 6 (millerAt n ((x, y), T)) = -millerAt n ((x, -y), T) := by
  induction n using Nat.strong_induction_on with
  | _ n ih =>
    rcases Nat.lt_or_ge 1 n with hn | hn
    · have hl : ∀ A B, phi 6 (lineAt A B ((x, y), T)) = -lineAt A B ((x, -y), T) :=
        fun A B => line_conj (untwist_odd _) (untwist_odd _) x y
      have h1 : phi 6 (millerAt (n / 2) ((x, y), T)) ^ 2 = millerAt (n / 2) ((x, -y), T) ^ 2 := by
        rcases ih (n / 2) (by omega) with h | h <;> rw [h]
        rw [neg_sq]
      rcases Nat.mod_two_eq_zero_or_one n with h | h
      · right
        rw [show n = 2 * (n / 2) by omega, millerAt_even (by omega), millerAt_even (by omega), map_mul, map_pow, h1, hl]
        ring
      · left
        rw [show n = 2 * (n / 2) + 1 by omega, millerAt_odd (by omega), millerAt_odd (by omega), map_mul, map_mul, map_pow, h1, hl, hl]
        ring
    · left
      rw [millerAt, Spec.miller, dif_pos hn, millerAt, Spec.miller, dif_pos hn, map_one]

/-! ## the pairing -/

theorem X_eq : blsX = Spec.X := rfl

theorem pairing_some {x y : Fq} (h : Spec.E1.Nonsingular x y) {T : Spec.E2.Point} (hT : T ≠ 0) :
    Spec.pairing (.some x y h) T = ((millerAt blsX ((x, y), T)) ^ NN)⁻¹ := by
  cases T with
  | zero => exact absurd rfl hT
  | some x' y' h' =>
    rw [Spec.pairing, inv_pow, millerAt, X_eq]
    exact fun h => hT h

theorem pairing_zero_left (T : Spec.E2.Point) : Spec.pairing 0 T = 1 := by
  rw [show (0 : Spec.E1.Point) = .zero from rfl, Spec.pairing]

theorem pairing_zero_right (P : Spec.E1.Point) : Spec.pairing P 0 = 1 := by
  rw [show (0 : Spec.E2.Point) = .zero from rfl]
  cases P with
  | zero => rw [Spec.pairing]
  | some x y h =>
    rw [Spec.pairing]
    exact fun h' => Affine.Point.some_ne_zero h h'

theorem neg_four_pow : powMod (Q - 4) ((Q - 1) / 3) Q ≠ 1 := by decide +kernel
theorem Q_gt : 4 < Q := by decide +kernel

theorem not_cube {p : ℕ} [Fact p.Prime] {m a : ℕ} (hm : 3 * m = p - 1) (h : powMod a m p ≠ 1) (ha : (a : ZMod p) ≠ 0) (x : ZMod p) :
    x ^ 3 ≠ a := by
  intro hx
  have hp : p.Prime := Fact.out
  have h0 : x ≠ 0 := by
    rintro rfl
    rw [zero_pow (by norm_num)] at hx
    exact ha hx.symm
  have h1 : (a : ZMod p) ^ m = 1 := by
    rw [← hx, ← pow_mul, hm]; exact ZMod.pow_card_sub_one_eq_one h0
  have hc := powMod_cast a m p
  rw [h1] at hc
  have hlt : powMod a m p < p := powModAux_lt _ _ _ _ _ hp.pos (Nat.mod_lt _ hp.pos)
  have h1' : ((powMod a m p : ℕ) : ZMod p) = ((1 : ℕ) : ZMod p) := by rw [hc, Nat.cast_one]
  rw [ZMod.natCast_eq_natCast_iff', Nat.mod_eq_of_lt hlt, Nat.mod_eq_of_lt hp.one_lt] at h1'
  exact h h1'

theorem cast_sub_four : ((Q - 4 : ℕ) : Fq) = -4 := by
  rw [Nat.cast_sub Q_gt.le, ZMod.natCast_self, zero_sub]; norm_num

/-- there is no point of order two. -/
theorem y_ne {x y : Fq} (h : Spec.E1.Nonsingular x y) : y ≠ 0 := by
  rintro rfl
  have e := (sw_equation _ _ _ _).mp h.1
  apply not_cube Q_third neg_four_pow _ x
  · rw [cast_sub_four]; linear_combination -e
  · rw [cast_sub_four, Ne, neg_eq_zero]; exact four_ne1

theorem pairing_ne (P : Spec.E1.Point) (T : Spec.E2.Point) : Spec.pairing P T ≠ 0 := by
  by_cases hT : T = 0
  · rw [hT, pairing_zero_right]; exact one_ne_zero
  cases P with
  | zero => rw [show (Affine.Point.zero : Spec.E1.Point) = 0 from rfl, pairing_zero_left]; exact one_ne_zero
  | some x y h => rw [pairing_some h hT]; exact inv_ne_zero (pow_ne_zero _ (millerAt_ne T (y_ne h) _))

theorem pairing_pow_r (P : Spec.E1.Point) (T : Spec.E2.Point) : Spec.pairing P T ^ Spec.r = 1 := by
  by_cases hT : T = 0
  · rw [hT, pairing_zero_right, one_pow]
  cases P with
  | zero => rw [show (Affine.Point.zero : Spec.E1.Point) = 0 from rfl, pairing_zero_left, one_pow]
  | some x y h => rw [pairing_some h hT, inv_pow, ← pow_mul, NN_r, Fq12_pow_one (millerAt_ne T (y_ne h) _), inv_one]

theorem neg_some1 {x y : Fq} (h : Spec.E1.Nonsingular x y) : ∃ h', (-(Affine.Point.some x y h) : Spec.E1.Point) = .some x (-y) h' := by
  rw [Affine.Point.neg_some]
  have : Spec.E1.negY x y = -y := by simp [Affine.negY, sw]
  exact ⟨by rw [← this]; exact (Affine.nonsingular_neg ..).mpr h, by simp only [this]⟩

theorem even_pow {a b : Fq12} (h : a = b ∨ a = -b) : a ^ NN = b ^ NN := by
  rcases h with rfl | rfl
  · rfl
  · rw [NN_even, pow_mul, pow_mul, neg_sq]

theorem pairing_neg (P : Spec.E1.Point) (T : Spec.E2.Point) : Spec.pairing (-P) T = (Spec.pairing P T)⁻¹ := by
  by_cases hT : T = 0
  · rw [hT, pairing_zero_right, pairing_zero_right, inv_one]
  cases P with
  | zero =>
    rw [show (Affine.Point.zero : Spec.E1.Point) = 0 from rfl, neg_zero, pairing_zero_left, inv_one]
  | some x y h =>
    obtain ⟨h', e⟩ := neg_some1 h
    rw [e, pairing_some h' hT, pairing_some h hT, ← even_pow (millerAt_neg T x y blsX), ← map_pow, phi_six_pow]

/-! ## the engine -/

/-- an entry of the engine: affine coordinates of a point of G1 and of a point of the subgroup of order `r` of G2. -/
def Good (l : P3 Fe × P3 Fe2) (s : Ent) : Prop := PRep l.1 s.1 ∧ Ok s.2 ∧ RepA l.2 s.2 ∧ Fe2.Is l.2.z 1

/-- what the entries contribute. -/
noncomputable def prodOf (ss : List Ent) : Fq12 := (ss.map fun s => (millerAt blsX s ^ NN)⁻¹).prod

theorem prodOf_eq (ss : List Ent) : prodOf ss = ((ss.map (millerAt blsX)).prod ^ NN)⁻¹ := by
  rw [prodOf]
  induction ss with
  | nil => rw [List.map_nil, List.map_nil, List.prod_nil, one_pow, inv_one]
  | cons s ss ih => rw [List.map_cons, List.prod_cons, ih, List.map_cons, List.prod_cons, mul_pow, mul_inv]

theorem bitLen_X : Fe.bitLen blsX - 1 = 63 := by decide +kernel
theorem X_top : blsX / 2 ^ 63 = 1 := by decide +kernel

theorem preCompute_eq {q : P3 Fe2} (hz : Fe2.Is q.z 1) : preCompute .amd64 q = preLoop q 63 q := by
  have : ¬ (g2 .amd64).isInf q = true := by
    rw [Ops.isInf, sem2.isZero hz.1]
    intro h
    exact one_ne_zero (hz.2.symm.trans h)
  rw [preCompute, if_neg this, bitLen_X]

theorem Good.stage {l : P3 Fe × P3 Fe2} {s : Ent} (h : Good l s) : Stage 63 (blsX / 2 ^ 63) (l.1, preCompute .amd64 l.2) s := by
  obtain ⟨hp, hok, hq, hz⟩ := h
  refine ⟨hp, hok, l.2, l.2, preCompute_eq hz, hq, ?_⟩
  obtain ⟨x, y, h, hx, hy, e⟩ := hq
  rw [X_top, one_smul]
  exact ⟨x, y, 1, hx, hy, hz, one_ne_zero, x, y, h, e, (mul_one x).symm, (mul_one y).symm⟩

theorem calculate_is {ps : List (P3 Fe × P3 Fe2)} {ss : List Ent} (h : List.Forall₂ Good ps ss) :
    Fe12.Is (calculate .amd64 ps) (prodOf ss ^ 3) := by
  rw [calculate]
  split_ifs with h0
  · cases h with
    | nil => rw [prodOf, List.map_nil, List.prod_nil, one_pow]; exact Fe12.is_one
    | cons _ _ => simp at h0
  · have hs : List.Forall₂ (Stage 63 (blsX / 2 ^ 63)) (ps.map fun p => (p.1, preCompute .amd64 p.2)) ss := by
      rw [List.forall₂_map_left_iff]
      exact h.imp fun _ _ h => h.stage
    have hone : (ss.map (millerAt (blsX / 2 ^ 63))).prod = 1 := by
      rw [X_top]
      apply List.prod_eq_one
      intro z hz
      obtain ⟨s, _, rfl⟩ := List.mem_map.mp hz
      exact millerAt_one s
    obtain ⟨y, hy, hsim⟩ := steps_is 63 (le_refl _) hs Fe12.is_one (by rw [hone]; exact Sim.refl 1) (fun _ => rfl)
    rw [millerLoop]
    refine hy.conj.finalExp.cast ?_
    rw [prodOf_eq, ← hsim.pow, ← phi_six_pow, map_pow]

theorem prodOf_append (ss : List Ent) (s : Ent) : prodOf (ss ++ [s]) = prodOf ss * (millerAt blsX s ^ NN)⁻¹ := by
  rw [prodOf, List.map_append, List.prod_append, List.map_cons, List.map_nil, List.prod_singleton, prodOf]

theorem addPair_is {ps : List (P3 Fe × P3 Fe2)} {ss : List Ent} (h : List.Forall₂ Good ps ss) {p : P3 Fe} {q : P3 Fe2}
    {P : Spec.E1.Point} {T : Spec.E2.Point} (hp : sem1.Rep p P) (hq : sem2.Rep q T) (hT : Spec.r • T = 0) :
    ∃ ss', List.Forall₂ Good (addPair .amd64 ps p q) ss' ∧ prodOf ss' = prodOf ss * Spec.pairing P T := by
  rw [addPair]
  cases P with
  | zero =>
    refine ⟨ss, ?_, ?_⟩
    · rw [if_neg]
      · exact h
      · rw [(isInf_iff hp).mpr rfl]; simp
    · rw [show (Affine.Point.zero : Spec.E1.Point) = 0 from rfl, pairing_zero_left, mul_one]
  | some x y hn =>
    cases T with
    | zero =>
      refine ⟨ss, ?_, ?_⟩
      · rw [if_neg]
        · exact h
        · rw [(isInf_iff hq).mpr rfl]; simp
      · rw [show (Affine.Point.zero : Spec.E2.Point) = 0 from rfl, pairing_zero_right, mul_one]
    | some x' y' hn' =>
      have hT0 : (Affine.Point.some x' y' hn' : Spec.E2.Point) ≠ 0 := Affine.Point.some_ne_zero hn'
      refine ⟨ss ++ [((x, y), .some x' y' hn')], ?_, ?_⟩
      · have h1 : (g1 .amd64).isInf p = false := by
          rw [← Bool.not_eq_true, isInf_iff hp]; exact Affine.Point.some_ne_zero hn
        have h2 : (g2 .amd64).isInf q = false := by
          rw [← Bool.not_eq_true, isInf_iff hq]; exact hT0
        rw [h1, h2, if_pos (by rfl)]
        refine List.rel_append h (.cons ?_ .nil)
        obtain ⟨a1, a2, a3, a4, -, -⟩ := affine_some hp
        obtain ⟨b1, b2, b3, b4, b5, b6⟩ := affine_some hq
        exact ⟨⟨⟨a1, a2⟩, a3, a4⟩, ⟨hT0, hT⟩, ⟨x', y', hn', ⟨b1, b2⟩, ⟨b3, b4⟩, rfl⟩, b5, b6⟩
      · rw [prodOf_append, pairing_some hn hT0]

theorem addPairInv_is {ps : List (P3 Fe × P3 Fe2)} {ss : List Ent} (h : List.Forall₂ Good ps ss) {p : P3 Fe} {q : P3 Fe2}
    {P : Spec.E1.Point} {T : Spec.E2.Point} (hp : sem1.Rep p P) (hq : sem2.Rep q T) (hT : Spec.r • T = 0) :
    ∃ ss', List.Forall₂ Good (addPairInv .amd64 ps p q) ss' ∧ prodOf ss' = prodOf ss * (Spec.pairing P T)⁻¹ := by
  rw [addPairInv, ← pairing_neg]
  exact addPair_is h (rep_neg hp) hq hT

theorem prodOf_nil : prodOf [] = 1 := by rw [prodOf, List.map_nil, List.prod_nil]

/-- `Pair` returns the cube of the ate pairing. -/
theorem pair_is {p : P3 Fe} {q : P3 Fe2} {P : Spec.E1.Point} {T : Spec.E2.Point} (hp : sem1.Rep p P) (hq : sem2.Rep q T)
    (hT : Spec.r • T = 0) : Fe12.Is (pair .amd64 p q) (Spec.pairing P T ^ 3) := by
  obtain ⟨ss, h, e⟩ := addPair_is (ps := []) .nil hp hq hT
  rw [prodOf_nil, one_mul] at e
  rw [pair, ← e]
  exact calculate_is h

theorem r_mod : Spec.r = 3 * (Spec.r / 3) + 1 := by decide +kernel

theorem cube_one {K : Type*} [Field K] {z : K} {r k : ℕ} (hr : r = 3 * k + 1) (hz : z ^ r = 1) : z ^ 3 = 1 ↔ z = 1 := by
  constructor
  · intro h; rw [hr, pow_succ, pow_mul, h, one_pow, one_mul] at hz; exact hz
  · rintro rfl; exact one_pow 3

/-- `ValidatePairing` compares two pairings. -/
theorem validatePairing_iff {p1 p3 : P3 Fe} {p2 p4 : P3 Fe2} {P1 P3 : Spec.E1.Point} {T2 T4 : Spec.E2.Point} (h1 : sem1.Rep p1 P1)
    (h2 : sem2.Rep p2 T2) (h3 : sem1.Rep p3 P3) (h4 : sem2.Rep p4 T4) (r2 : Spec.r • T2 = 0) (r4 : Spec.r • T4 = 0) :
    validatePairing .amd64 p1 p2 p3 p4 = true ↔ Spec.pairing P1 T2 = Spec.pairing P3 T4 := by
  obtain ⟨ss, h, e⟩ := addPair_is (ps := []) .nil h1 h2 r2
  obtain ⟨ss', h', e'⟩ := addPairInv_is h h3 h4 r4
  rw [e, prodOf_nil, one_mul] at e'
  have hr : (Spec.pairing P1 T2 * (Spec.pairing P3 T4)⁻¹) ^ Spec.r = 1 := by
    rw [mul_pow, inv_pow, pairing_pow_r, pairing_pow_r, inv_one, one_mul]
  rw [validatePairing, check, Fe12.Is.equal_iff Fe12.is_one (calculate_is h'), e', eq_comm, cube_one r_mod hr,
    mul_inv_eq_one₀ (pairing_ne _ _)]

end Verif.Bls
