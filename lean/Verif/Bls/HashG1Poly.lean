import Verif.Bls.HashG1
import Verif.Bls.HashG1Spec
import Verif.Bls.VerifyLemmas

/-!
# Hashing to G1: polynomials as coefficient lists, the 11-isogeny

Lemmas only.  The identities between the polynomials of appendix E.2 are checked by the kernel on the lists of their coefficients.
-/

namespace Verif.Bls

open Verif.EC WeierstrassCurve

namespace PolyNat

def add : List ℕ → List ℕ → List ℕ
  | [], b => b
  | a, [] => a
  | x :: a, y :: b => (x + y) % Q :: add a b

def scale (c : ℕ) : List ℕ → List ℕ
  | [] => []
  | x :: a => c * x % Q :: scale c a

def mul : List ℕ → List ℕ → List ℕ
  | [], _ => []
  | x :: a, b => add (scale x b) (0 :: mul a b)

theorem cast_mod (n : ℕ) : ((n % Q : ℕ) : Fq) = n := ZMod.natCast_mod n Q

theorem poly_add (x : Fq) : ∀ a b, Spec.poly x (add a b) = Spec.poly x a + Spec.poly x b
  | [], b => by rw [add, Spec.poly, zero_add]
  | a :: as, [] => by rw [add, Spec.poly.eq_1, add_zero]; exact List.cons_ne_nil _ _
  | a :: as, b :: bs => by
    rw [add, Spec.poly, Spec.poly, Spec.poly, poly_add x as bs, cast_mod, Nat.cast_add]; ring

theorem poly_scale (x : Fq) (c : ℕ) : ∀ a, Spec.poly x (scale c a) = c * Spec.poly x a
  | [] => by rw [scale, Spec.poly, mul_zero]
  | a :: as => by rw [scale, Spec.poly, Spec.poly, poly_scale x c as, cast_mod, Nat.cast_mul]; ring

theorem poly_mul (x : Fq) : ∀ a b, Spec.poly x (mul a b) = Spec.poly x a * Spec.poly x b
  | [], b => by rw [mul, Spec.poly, zero_mul]
  | a :: as, b => by
    rw [mul, poly_add, poly_scale, Spec.poly, Spec.poly, poly_mul x as b, Nat.cast_zero]; ring

/-- equal modulo `Q`. -/
def same (a b : List ℕ) : Bool := a.map (· % Q) == b.map (· % Q)

theorem poly_map_mod (x : Fq) : ∀ a : List ℕ, Spec.poly x (a.map (· % Q)) = Spec.poly x a
  | [] => rfl
  | a :: as => by rw [List.map_cons, Spec.poly, Spec.poly, poly_map_mod x as, cast_mod]

theorem poly_same (x : Fq) {a b : List ℕ} (h : same a b = true) : Spec.poly x a = Spec.poly x b := by
  rw [← poly_map_mod x a, ← poly_map_mod x b, beq_iff_eq.mp h]

theorem poly_append_zeros (x : Fq) (n : ℕ) : ∀ a, Spec.poly x (a ++ List.replicate n 0) = Spec.poly x a
  | [] => by
    rw [List.nil_append, Spec.poly.eq_1]
    induction n with
    | zero => rfl
    | succ n ih => rw [List.replicate_succ, Spec.poly, ih, Nat.cast_zero, mul_zero, add_zero]
  | a :: as => by rw [List.cons_append, Spec.poly, Spec.poly, poly_append_zeros x n as]

end PolyNat

open PolyNat

/-! ## the polynomials -/

/-- the polynomial of the x-coordinates of the kernel. -/
def kk : List ℕ := [
  2955185177626169647543871026716143749798776473583611826109464091094397474242531465369792566109106337274460167892487,
  368290328279919699380600918531504139062319804596715301915067438724165980997443279928362378653594520746075110864816,
  2956695361339193066682181833380513374227982887255347166494009902960246484641139874171795235175561134113346246778169,
  1426262776564302641609273031767820829543220110075666692709214249985201803031422328413319637086750536774929261013316,
  721398571713745716315313195033211010796752582794315199168745550044278639029030032465331939076562082409261408087685,
  1]

/-- `x³ + A' x + B'`. -/
def ff : List ℕ := [Spec.iso1B, Spec.iso1A, 0, 1]

theorem poly_ff (x : Fq) : Spec.poly x ff = Spec.g1' x := by
  simp only [ff, Spec.poly, Spec.g1', Nat.cast_zero, Nat.cast_one]; ring

theorem k2_eq (x : Fq) : Spec.poly x Spec.k2 = Spec.poly x kk ^ 2 := by
  rw [pow_two, ← poly_mul]; exact poly_same x (by decide +kernel)

theorem k4_eq (x : Fq) : Spec.poly x Spec.k4 = Spec.poly x kk ^ 3 := by
  rw [pow_succ, pow_two, ← poly_mul, ← poly_mul]; exact poly_same x (by decide +kernel)

theorem iso1_identity (x : Fq) :
    Spec.g1' x * Spec.poly x Spec.k3 ^ 2 = Spec.poly x Spec.k1 ^ 3 + 4 * Spec.poly x kk ^ 6 := by
  have h : Spec.poly x (mul ff (mul Spec.k3 Spec.k3)) =
      Spec.poly x (add (mul Spec.k1 (mul Spec.k1 Spec.k1)) (scale 4 (mul (mul (mul kk kk) kk) (mul (mul kk kk) kk)))) :=
    poly_same x (by decide +kernel)
  simp only [poly_mul, poly_add, poly_scale, poly_ff] at h
  push_cast at h
  linear_combination h

end Verif.Bls
