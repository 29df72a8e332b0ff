import Mathlib.GroupTheory.OrderOfElement
import Verif.C25519.Signs
import Verif.C25519.SignLemmas
import Verif.Primes.Certs

/-!
# curve25519_sha256.go: the ladder in the group, and the order of the base point
-/

set_option maxHeartbeats 1000000

namespace Verif.C25519

open Verif.Ed25519 (Fe i64 i64_eq fval ival F P P_eq intCast_P)
open WeierstrassCurve

/-- the two pairs of the ladder stand for `n·G` and `(n + 1)·G`. -/
structure LadRep (n : ℕ) (l : Lad) : Prop where
  p0 : FRep l.x0 l.z0 (n • G)
  p1 : FRep l.x1 l.z1 ((n + 1) • G)

theorem set9 : Red (set 9) ∧ fval (set 9) = 9 := by
  have s9 := set_red (n := 9) (by norm_num) (by norm_num)
  exact ⟨s9.1, by rw [s9.2]; norm_num⟩

theorem nine_ne : (9 : F) ≠ 0 := by
  have := small_ne (n := 9) (by norm_num) (by norm_num); exact_mod_cast this

theorem ladRep_step {n b : ℕ} {l : Lad} (h : LadRep n l) (hb : b < 2) : LadRep (2 * n + b) (step (set 9) b l) := by
  obtain ⟨h0, h1⟩ := h
  rcases (by omega : b = 0 ∨ b = 1) with rfl | rfl
  · have d := fRep_dbl h0
    have a := fRep_add (u := 9) h1 h0 set9.1 set9.2 g_ns (Or.inl (by rw [add_nsmul, one_nsmul, add_sub_cancel_left]; rfl)) nine_ne
    refine ⟨?_, ?_⟩
    · rw [show (2 * n + 0) • G = n • G + n • G by rw [add_zero, two_mul, add_nsmul]]
      exact d
    · rw [show (2 * n + 0 + 1) • G = (n + 1) • G + n • G by rw [← add_nsmul]; congr 1; omega]
      exact a
  · have d := fRep_dbl h1
    have a := fRep_add (u := 9) h0 h1 set9.1 set9.2 g_ns (Or.inr (by rw [add_nsmul, one_nsmul, add_sub_cancel_left]; rfl)) nine_ne
    refine ⟨?_, ?_⟩
    · rw [show (2 * n + 1) • G = n • G + (n + 1) • G by rw [← add_nsmul]; congr 1; omega]
      exact a
    · rw [show (2 * n + 1 + 1) • G = (n + 1) • G + (n + 1) • G by rw [← add_nsmul]; congr 1; omega]
      exact d

theorem ladRep_fold (k n : ℕ) {l : Lad} (h : LadRep (k / 2 ^ n) l) :
    LadRep k (((List.range n).reverse.map fun t => k / 2 ^ t % 2).foldl (fun s b => step (set 9) b s) l) := by
  induction n generalizing l with
  | zero => simpa using h
  | succ n ih =>
    rw [List.range_succ, List.reverse_append, List.reverse_singleton, List.singleton_append, List.map_cons, List.foldl_cons]
    apply ih
    have := ladRep_step h (Nat.mod_lt (k / 2 ^ n) (by norm_num : 0 < 2))
    rwa [← div_split] at this

theorem ladder_rep {k : Bytes} (h : leNat k < 2 ^ 256) : LadRep (leNat k) (ladder (set 9) k) := by
  unfold ladder
  rw [bits_eq]
  apply ladRep_fold
  rw [Nat.div_eq_of_lt h]
  have s1 := set_red (n := 1) (by norm_num) (by norm_num)
  have s0 := set_red (n := 0) (by norm_num) (by norm_num)
  have f1 : fval (set 1) = 1 := by rw [s1.2]; norm_num
  have f0 : fval (set 0) = 0 := by rw [s0.2]; norm_num
  refine ⟨⟨s1.1, s0.1, ?_⟩, ⟨set9.1, s1.1, ?_⟩⟩
  · dsimp only
    rw [f1, f0, zero_nsmul]
    exact xRep_zero.2 ⟨one_ne_zero, rfl⟩
  · dsimp only
    rw [set9.2, f1, zero_add, one_nsmul]
    exact ⟨one_ne_zero, by rw [mul_one]⟩

theorem L_lt : L < 2 ^ 253 := by unfold L; norm_num

theorem spec_L_z : (if ((List.range 255).reverse.foldl (Spec.step 9 L) ⟨1, 0, 9, 1, 0⟩).swap = 1 then ((List.range 255).reverse.foldl (Spec.step 9 L) ⟨1, 0, 9, 1, 0⟩).z3
    else ((List.range 255).reverse.foldl (Spec.step 9 L) ⟨1, 0, 9, 1, 0⟩).z2) = 0 := by decide +kernel

theorem L_smul_of {order : Bytes} (order_leNat : leNat order = L) : L • G = 0 := by
  have hk : leNat order < 2 ^ 255 := by rw [order_leNat]; exact lt_trans L_lt (Nat.pow_lt_pow_right (by norm_num) (by norm_num))
  have hl := (ladder_rep (k := order) (lt_trans hk (Nat.pow_lt_pow_right (by norm_num) (by norm_num)))).p0.rep
  have e : bits order = 0 :: (List.range 255).reverse.map fun t => leNat order / 2 ^ t % 2 := by
    rw [bits_eq, show (256 : ℕ) = 255 + 1 from rfl, List.range_succ, List.reverse_append, List.reverse_singleton, List.singleton_append, List.map_cons]
    congr 1
    rw [Nat.div_eq_of_lt hk]
  have hr : Rel (ladder (set 9) order) ((List.range 255).reverse.foldl (Spec.step 9 (leNat order)) ⟨1, 0, 9, 1, 0⟩) := by
    unfold ladder
    rw [e, List.foldl_cons]
    exact rel_fold set9.1 (by rw [set9.2]; norm_num) _ rel_init
  rw [order_leNat] at hr hl
  obtain ⟨-, -, a, b, ha, hb, -, e2, -, -⟩ := hr
  have hz : fval (ladder (set 9) order).z0 = 0 := by
    rw [e2]
    have := spec_L_z
    generalize (List.range 255).reverse.foldl (Spec.step 9 L) ⟨1, 0, 9, 1, 0⟩ = s at *
    unfold un
    by_cases hs : s.swap = 1
    · simp only [hs, if_true] at this ⊢; rw [this]; simp
    · simp only [hs, if_false] at this ⊢; rw [this]; simp
  rw [hz] at hl
  generalize L • G = Q at *
  cases Q with
  | zero => rfl
  | some x y hn => exact absurd rfl hl.1

theorem L_smul : L • G = 0 := L_smul_of order_leNat

theorem G_ne : G ≠ 0 := by
  intro h
  unfold G at h
  cases h

theorem L_prime : L.Prime := by
  have := prime_ed25519L
  rwa [show (0x1000000000000000000000000000000014def9dea2f79cd65812631a5cf5d3ed : ℕ) = L by unfold L; norm_num] at this

theorem G_order : addOrderOf G = L := by
  haveI : Fact L.Prime := ⟨L_prime⟩
  exact addOrderOf_eq_prime L_smul G_ne

theorem smul_zero_iff (n : ℕ) : n • G = 0 ↔ L ∣ n := by
  rw [← G_order, addOrderOf_dvd_iff_nsmul_eq_zero]

theorem smul_eq_iff (m n : ℕ) : m • G = n • G ↔ m % L = n % L := by
  rw [← G_order]
  exact nsmul_inj_mod
end Verif.C25519
