import Verif.Bls.NonDeg
import Verif.Bls.SchemeLemmas

/-!
# The subgroup of `E1`, the hash in the subgroup, and `Verify` in terms of points
-/

namespace Verif.Bls

open Verif.EC WeierstrassCurve Sem

/-! ## the number of points of `E1` -/

/-- the candidates for `t` in `t² + 3 s² = 4 p`. -/
def cands1 (u v : ℤ) : List ℤ :=
  [((2 : ℤ), (0 : ℤ)), (-2, 0), (1, 1), (1, -1), (-1, 1), (-1, -1)].flatMap fun z => [v, -v].map fun v1 => (z.1 * u + 3 * z.2 * v1) / 2

theorem rep_prime {p : ℤ} (hp : Prime p) (hp3 : 2 < p) {u v t s : ℤ} (hu : u ^ 2 + 3 * v ^ 2 = 4 * p) (h : t ^ 2 + 3 * s ^ 2 = 4 * p) :
    t ∈ cands1 u v := by
  obtain ⟨t2, s2, h2, e2⟩ := rep_step hp hp3 hu (h.trans (by ring : 4 * p = 4 * (p * 1)))
  have h3 := rep_one (h2.trans (by ring))
  have key : ∃ v1 ∈ [v, -v], 2 * t = t2 * u + 3 * s2 * v1 := by
    rcases e2 with ⟨e, -⟩ | ⟨e, -⟩
    · exact ⟨v, by simp, e⟩
    · exact ⟨-v, by simp, by linear_combination e⟩
  obtain ⟨v1, hv1, e⟩ := key
  rw [cands1, List.mem_flatMap]
  refine ⟨(t2, s2), h3, List.mem_map.mpr ⟨v1, hv1, ?_⟩⟩
  dsimp only
  rw [← e]
  omega

/-- the cofactor of G1. -/
def h1 : ℕ := 0x396c8c005555e1568c00aaab0000aaab

def tt1 : ℤ := (h1 : ℤ) * Spec.r - Q - 1

theorem cands1_check : ∀ t ∈ cands1 uu vv, ((Q : ℤ) + 1 + t) % Spec.r = 0 → t = tt1 := by decide +kernel
theorem tt1_eq : (Q : ℤ) + 1 + tt1 = ((h1 * Spec.r : ℕ) : ℤ) := by decide +kernel
theorem h1_mod : h1 % Spec.r ≠ 0 := by decide +kernel
theorem three_dvd1 : (Q - 1) % 3 = 0 := by decide +kernel

theorem card_E1_aux : Finite Spec.E1.Point ∧ ∃ t s : ℤ, (Nat.card Spec.E1.Point : ℤ) = Fintype.card Fq + 1 + t ∧
    t ^ 2 + 3 * s ^ 2 = 4 * Fintype.card Fq := by
  refine natCard_point sem1.two_ne sem1.three_ne ?_ sem1.b_ne
  rw [ZMod.card]
  exact Nat.dvd_of_mod_eq_zero three_dvd1

instance : Finite Spec.E1.Point := card_E1_aux.1

/-- the number of points of `E1` over `Fq`. -/
theorem card_E1 : Nat.card Spec.E1.Point = h1 * Spec.r := by
  obtain ⟨-, t, s, e1, h4⟩ := card_E1_aux
  rw [ZMod.card] at e1 h4
  have hp : Prime (Q : ℤ) := Nat.prime_iff_prime_int.mp prime_Q
  have hc := rep_prime hp Q_big uu_vv h4
  have hr : Spec.r ∣ Nat.card Spec.E1.Point := dvd_card prime_r gen1_ne gen1_order
  have ht : t = tt1 := by
    apply cands1_check t hc
    rw [← e1]; exact Int.emod_eq_zero_of_dvd (by exact_mod_cast hr)
  rw [ht, tt1_eq] at e1
  exact_mod_cast e1

/-- the points of order `r` of `E1` are the multiples of the generator. -/
theorem mem_gen1 {T : Spec.E1.Point} (hT : Spec.r • T = 0) : ∃ k : ℕ, T = k • Spec.gen1 :=
  cyclic_of prime_r card_E1 (fun h => h1_mod (Nat.mod_eq_zero_of_dvd h)) gen1_ne gen1_order hT

/-! ## the generators of the program -/

theorem den_of {a : Fe} {n : ℕ} (h : a.val < Q ∧ a.val = n * 2 ^ 384 % Q) : Fe.Red a ∧ Fe.den a = (n : Fq) := by
  refine ⟨h.1, Fe.den_of_val ?_⟩
  rw [← Nat.cast_mul, ZMod.natCast_eq_natCast_iff', h.2, Nat.mod_mod]

theorem g1gen_val : (Fe.val (g1 .amd64).genX < Q ∧ Fe.val (g1 .amd64).genX = Spec.g1x * 2 ^ 384 % Q) ∧
    (Fe.val (g1 .amd64).genY < Q ∧ Fe.val (g1 .amd64).genY = Spec.g1y * 2 ^ 384 % Q) := by decide +kernel

theorem g2gen_val : ((Fe.val (g2 .amd64).genX.c0 < Q ∧ Fe.val (g2 .amd64).genX.c0 = Spec.g2x.1 * 2 ^ 384 % Q) ∧
    (Fe.val (g2 .amd64).genX.c1 < Q ∧ Fe.val (g2 .amd64).genX.c1 = Spec.g2x.2 * 2 ^ 384 % Q)) ∧
    ((Fe.val (g2 .amd64).genY.c0 < Q ∧ Fe.val (g2 .amd64).genY.c0 = Spec.g2y.1 * 2 ^ 384 % Q) ∧
    (Fe.val (g2 .amd64).genY.c1 < Q ∧ Fe.val (g2 .amd64).genY.c1 = Spec.g2y.2 * 2 ^ 384 % Q)) := by decide +kernel

theorem jrep_one {F : Type*} [Field F] {W : Affine F} {x y : F} {h : W.Nonsingular x y} : JRep W x y 1 (.some x y h) :=
  ⟨one_ne_zero, by rw [one_pow, mul_one], by rw [one_pow, mul_one]⟩

theorem rep_gen1 : sem1.Rep (g1 .amd64).gen Spec.gen1 := by
  have hx := den_of g1gen_val.1
  have hy := den_of g1gen_val.2
  have h1 := sem1.one
  rw [Spec.gen1]
  exact Rep.mk' hx.1 hy.1 h1.1 hx.2 hy.2 h1.2 jrep_one

theorem rep_gen2 : sem2.Rep (g2 .amd64).gen Spec.gen2 := by
  have hx0 := den_of g2gen_val.1.1
  have hx1 := den_of g2gen_val.1.2
  have hy0 := den_of g2gen_val.2.1
  have hy1 := den_of g2gen_val.2.2
  have h1 := sem2.one
  have ex : sem2.den (g2 .amd64).genX = ofPair Q Spec.g2x := QuadraticAlgebra.ext hx0.2 hx1.2
  have ey : sem2.den (g2 .amd64).genY = ofPair Q Spec.g2y := QuadraticAlgebra.ext hy0.2 hy1.2
  rw [Spec.gen2]
  exact Rep.mk' ⟨hx0.1, hx1.1⟩ ⟨hy0.1, hy1.1⟩ h1.1 ex ey h1.2 jrep_one

/-! ## the hash -/

theorem hEff_dvd : h2 ∣ Spec.hEff := by decide +kernel

theorem hash_order {u0 u1 : Fq2} {P : Spec.E2.Point} (h : Spec.HashesTo u0 u1 P) : Spec.r • P = 0 := by
  obtain ⟨_, _, _, _, _, _, _, _, _, _, hP⟩ := h
  rw [hP]
  exact clear hEff_dvd _

/-! ## the pairing equation -/

theorem smul_order1 (k : ℕ) : Spec.r • (k • Spec.gen1) = 0 := by
  rw [← mul_nsmul', mul_nsmul, gen1_order, nsmul_zero]

theorem smul_order2 {T : Spec.E2.Point} (hT : Spec.r • T = 0) (k : ℕ) : Spec.r • (k • T) = 0 := by
  rw [← mul_nsmul', mul_nsmul, hT, nsmul_zero]

theorem pairing_inj {S T : Spec.E2.Point} (hS : Spec.r • S = 0) (hT : Spec.r • T = 0) (h : Spec.pairing Spec.gen1 S = Spec.pairing Spec.gen1 T) : S = T := by
  have hr1 : (Spec.r - 1) + 1 = Spec.r := Nat.succ_pred_eq_of_pos prime_r.pos
  have hneg : (Spec.r - 1) • T = -T := by
    have : (Spec.r - 1) • T + T = 0 := by rw [← succ_nsmul, hr1, hT]
    exact eq_neg_of_add_eq_zero_left this
  have hn : Spec.r • (-T) = 0 := by rw [← hneg]; exact smul_order2 hT _
  have e0 : Spec.pairing Spec.gen1 (T + -T) = 1 := by rw [add_neg_cancel, pairing_zero_right]
  rw [pairing_add_right _ hT hn] at e0
  have e1 : Spec.pairing Spec.gen1 (S + -T) = 1 := by rw [pairing_add_right _ hS hn, h, e0]
  have := nondegenerate (by rw [nsmul_add, hS, hn, add_zero]) e1
  exact eq_of_sub_eq_zero (by rw [sub_eq_add_neg]; exact this)

theorem pairing_eq_iff {S M : Spec.E2.Point} (hS : Spec.r • S = 0) (hM : Spec.r • M = 0) (k : ℕ) :
    Spec.pairing (k • Spec.gen1) M = Spec.pairing Spec.gen1 S ↔ S = k • M := by
  rw [pairing_smul_left k _ hM, ← pairing_smul_right k _ hM]
  constructor
  · intro h; exact (pairing_inj (smul_order2 hM k) hS h).symm
  · rintro rfl; rfl

theorem pairing_eq_one_iff {P : Spec.E1.Point} {T : Spec.E2.Point} (hP : Spec.r • P = 0) (hT : Spec.r • T = 0) :
    Spec.pairing P T = 1 ↔ P = 0 ∨ T = 0 := by
  constructor
  · intro h
    obtain ⟨k, rfl⟩ := mem_gen1 hP
    rw [← pairing_zero_right Spec.gen1, pairing_eq_iff (nsmul_zero _) hT] at h
    by_cases hk : Spec.r ∣ k
    · obtain ⟨m, rfl⟩ := hk
      left; rw [mul_comm, mul_nsmul', gen1_order, nsmul_zero]
    · right
      have hc : Nat.Coprime k Spec.r := (Nat.Coprime.symm ((Nat.Prime.coprime_iff_not_dvd prime_r).mpr hk))
      have ho : addOrderOf T ∣ k := addOrderOf_dvd_of_nsmul_eq_zero h.symm
      have ho' : addOrderOf T ∣ Spec.r := addOrderOf_dvd_of_nsmul_eq_zero hT
      have := Nat.dvd_gcd ho ho'
      rw [hc] at this
      exact AddMonoid.addOrderOf_eq_one_iff.mp (Nat.dvd_one.mp this)
  · rintro (rfl | rfl)
    · exact pairing_zero_left _
    · exact pairing_zero_right _

/-- `Verify` on well-formed input. -/
theorem verify_iff {H : Bytes → Bytes} {pk m s : Bytes} {q : P3 Fe2} {M : Spec.E2.Point} (hh : hashPoint .amd64 H m = .ret (some q))
    (hq : sem2.Rep q M) (hM : Spec.r • M = 0) (hm : m ≠ []) {A : Spec.E1.Point} (hA : Encodes1 pk A) {S : Spec.E2.Point}
    (hs : s = Spec.compress2 S) (hS : Spec.r • S = 0) :
    ∃ b, verify .amd64 H pk m s = .ret b ∧ (b = true ↔ Spec.pairing A M = Spec.pairing Spec.gen1 S) := by
  have hp : pk.length = 48 := by rw [hA.2, compress1_length]
  have hl : s.length = 96 := by rw [hs, compress2_length]
  obtain ⟨a, p, ha, hpS, e⟩ := verify_good hh hp hm hl hA (S := S) ⟨hS, [], by rw [hs, List.append_nil]⟩
  exact ⟨_, e, validatePairing_iff ha hq rep_gen1 hpS hM hS⟩

end Verif.Bls
