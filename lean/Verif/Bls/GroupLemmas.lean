import Verif.Bls.Group
import Verif.Bls.GroupSpec

/-!
# The group functions compute the group law

Lemmas over any field operations `g` that compute in a field `F` (`Sem g F`).
-/

namespace Verif.Bls

open Verif.EC WeierstrassCurve

/-- the operations `g` compute in the field `F`. -/
structure Sem {α : Type} (g : Ops α) (F : Type) [Field F] where
  den : α → F
  Red : α → Prop
  bF : F
  zero : Red g.zero ∧ den g.zero = 0
  one : Red g.one ∧ den g.one = 1
  b : Red g.b ∧ den g.b = bF
  isZero : ∀ {a}, Red a → (g.isZero a = true ↔ den a = 0)
  equal : ∀ {a b}, Red a → Red b → (g.equal a b = true ↔ den a = den b)
  add : ∀ {a b}, Red a → Red b → Red (g.add a b) ∧ den (g.add a b) = den a + den b
  sub : ∀ {a b}, Red a → Red b → Red (g.sub a b) ∧ den (g.sub a b) = den a - den b
  mul : ∀ {a b}, Red a → Red b → Red (g.mul a b) ∧ den (g.mul a b) = den a * den b
  double : ∀ {a}, Red a → Red (g.double a) ∧ den (g.double a) = den a + den a
  neg : ∀ {a}, Red a → Red (g.neg a) ∧ den (g.neg a) = -den a
  square : ∀ {a}, Red a → Red (g.square a) ∧ den (g.square a) = den a * den a
  inverse : ∀ {a}, Red a → Red (g.inverse a) ∧ den (g.inverse a) = (den a)⁻¹
  sqrt : ∀ {a}, Red a → Red (g.sqrt a).1 ∧ ((g.sqrt a).2 = true ↔ ∃ y, y * y = den a) ∧
    ((g.sqrt a).2 = true → den (g.sqrt a).1 * den (g.sqrt a).1 = den a)
  larger : F → Prop
  decL : DecidablePred larger
  signBE : ∀ {a}, Red a → (g.signBE a = true ↔ ¬ larger (den a))
  larger_neg : ∀ {z}, z ≠ 0 → (larger (-z) ↔ ¬ larger z)
  bytes : F → Bytes
  bytes_length : ∀ z, (bytes z).length = g.size
  bytes_head : ∀ z, ∃ h t, bytes z = h :: t ∧ h.toNat < 32
  toBytes : ∀ {a}, Red a → g.toBytes a = bytes (den a)
  fromBytes_bytes : ∀ z, ∃ a, g.fromBytes (bytes z) = some a ∧ Red a ∧ den a = z
  fromBytes_some : ∀ {b a}, g.fromBytes b = some a → Red a ∧ bytes (den a) = b
  two_ne : (2 : F) ≠ 0
  three_ne : (3 : F) ≠ 0
  b_ne : bF ≠ 0
  size_pos : 0 < g.size

attribute [instance] Sem.decL

namespace Sem

variable {α : Type} {g : Ops α} {F : Type} [Field F] [DecidableEq F] (S : Sem g F)

/-- the curve. -/
abbrev W : WeierstrassCurve.Affine F := sw 0 S.bF

/-- the triple is reduced and stands for the point `P`. -/
def Rep (p : P3 α) (P : S.W.Point) : Prop :=
  S.Red p.x ∧ S.Red p.y ∧ S.Red p.z ∧ JRep S.W (S.den p.x) (S.den p.y) (S.den p.z) P

variable {S}

theorem Rep.mk' {x y z : α} {P : S.W.Point} {X Y Z : F} (hx : S.Red x) (hy : S.Red y) (hz : S.Red z)
    (ex : S.den x = X) (ey : S.den y = Y) (ez : S.den z = Z) (h : JRep S.W X Y Z P) :
    S.Rep ⟨x, y, z⟩ P := by
  subst ex ey ez; exact ⟨hx, hy, hz, h⟩

theorem isInf_iff {p : P3 α} {P : S.W.Point} (h : S.Rep p P) : g.isInf p = true ↔ P = 0 := by
  rw [Ops.isInf, S.isZero h.2.2.1, h.2.2.2.zero_iff]

theorem isInf_false {p : P3 α} {P : S.W.Point} (h : S.Rep p P) : ¬ g.isInf p = true ↔ S.den p.z ≠ 0 := by
  rw [Ops.isInf, S.isZero h.2.2.1]

theorem rep_blank : S.Rep g.blank 0 :=
  Rep.mk' S.zero.1 S.zero.1 S.zero.1 rfl rfl S.zero.2 rfl

theorem rep_infinity : S.Rep g.infinity 0 :=
  Rep.mk' S.zero.1 S.one.1 S.zero.1 rfl rfl S.zero.2 rfl

theorem rep_neg {p : P3 α} {P : S.W.Point} (h : S.Rep p P) : S.Rep (g.negPt p) (-P) := by
  obtain ⟨hx, hy, hz, hj⟩ := h
  obtain ⟨hn, en⟩ := S.neg hy
  refine Rep.mk' hx hn hz rfl en rfl ?_
  cases P with
  | zero => exact hj
  | some x y hP =>
    obtain ⟨h1, h2, h3⟩ := hj
    refine ⟨h1, h2, ?_⟩
    rw [h3]
    simp [Affine.negY, sw]

theorem rep_dbl {p : P3 α} {P : S.W.Point} (h : S.Rep p P) : S.Rep (g.dbl p) (P + P) := by
  rw [Ops.dbl]
  by_cases hi : g.isInf p = true
  · rw [if_pos hi, (isInf_iff h).mp hi]
    rw [add_zero, ← (isInf_iff h).mp hi]; exact h
  · rw [if_neg hi]
    obtain ⟨hx, hy, hz, hj⟩ := h
    obtain ⟨h1, e1⟩ := S.square hx
    obtain ⟨h2, e2⟩ := S.square hy
    obtain ⟨h3, e3⟩ := S.square h2
    obtain ⟨h4, e4⟩ := S.add hx h2
    obtain ⟨h5, e5⟩ := S.square h4
    obtain ⟨h6, e6⟩ := S.sub h5 h1
    obtain ⟨h7, e7⟩ := S.sub h6 h3
    obtain ⟨h8, e8⟩ := S.double h7
    obtain ⟨h9, e9⟩ := S.double h1
    obtain ⟨h10, e10⟩ := S.add h9 h1
    obtain ⟨h11, e11⟩ := S.square h10
    obtain ⟨h12, e12⟩ := S.double h8
    obtain ⟨h13, e13⟩ := S.sub h11 h12
    obtain ⟨h14, e14⟩ := S.sub h8 h13
    obtain ⟨h15, e15⟩ := S.double h3
    obtain ⟨h16, e16⟩ := S.double h15
    obtain ⟨h17, e17⟩ := S.double h16
    obtain ⟨h18, e18⟩ := S.mul h10 h14
    obtain ⟨h19, e19⟩ := S.sub h18 h17
    obtain ⟨h20, e20⟩ := S.mul hy hz
    obtain ⟨h21, e21⟩ := S.double h20
    refine Rep.mk' h13 h19 h21 rfl rfl rfl
      (jdbl S.two_ne hj (M := S.den (g.add (g.double (g.square p.x)) (g.square p.x)))
        (S := 4 * S.den p.x * S.den p.y ^ 2) ?_ rfl ?_ ?_ ?_)
    · rw [e10, e9, e1]; ring
    · rw [e13, e12, e11, e8, e7, e6, e5, e4, e3, e2, e1]; ring
    · rw [e19, e18, e17, e16, e15, e14, e8, e7, e6, e5, e4, e3, e2, e1]; ring
    · rw [e21, e20]; ring

theorem rep_add {p q : P3 α} {P Q : S.W.Point} (hp : S.Rep p P) (hq : S.Rep q Q) :
    S.Rep (g.addPt p q) (P + Q) := by
  rw [Ops.addPt]
  by_cases hi : g.isInf p = true
  · rw [if_pos hi, (isInf_iff hp).mp hi, zero_add]; exact hq
  rw [if_neg hi]
  by_cases hk : g.isInf q = true
  · rw [if_pos hk, (isInf_iff hq).mp hk, add_zero]; exact hp
  rw [if_neg hk]
  have hz1 := (isInf_false hp).mp hi
  have hz2 := (isInf_false hq).mp hk
  have hp' := hp
  obtain ⟨px, py, pz, pj⟩ := hp
  obtain ⟨qx, qy, qz, qj⟩ := hq
  obtain ⟨h7, e7⟩ := S.square pz
  obtain ⟨h1, e1⟩ := S.mul qx h7
  obtain ⟨h2, e2⟩ := S.mul pz h7
  obtain ⟨h0, e0⟩ := S.mul qy h2
  obtain ⟨h8, e8⟩ := S.square qz
  obtain ⟨h3, e3⟩ := S.mul px h8
  obtain ⟨h4, e4⟩ := S.mul qz h8
  obtain ⟨h2', e2'⟩ := S.mul py h4
  simp only
  have eU1 : S.den (g.mul p.x (g.square q.z)) = S.den p.x * S.den q.z ^ 2 := by rw [e3, e8]; ring
  have eU2 : S.den (g.mul q.x (g.square p.z)) = S.den q.x * S.den p.z ^ 2 := by rw [e1, e7]; ring
  have eS1 : S.den (g.mul p.y (g.mul q.z (g.square q.z))) = S.den p.y * S.den q.z ^ 3 := by rw [e2', e4, e8]; ring
  have eS2 : S.den (g.mul q.y (g.mul p.z (g.square p.z))) = S.den q.y * S.den p.z ^ 3 := by rw [e0, e2, e7]; ring
  by_cases hx : g.equal (g.mul q.x (g.square p.z)) (g.mul p.x (g.square q.z)) = true
  · rw [if_pos hx]
    rw [S.equal h1 h3, eU1, eU2] at hx
    by_cases hy : g.equal (g.mul q.y (g.mul p.z (g.square p.z))) (g.mul p.y (g.mul q.z (g.square q.z))) = true
    · rw [if_pos hy]
      rw [S.equal h0 h2', eS1, eS2] at hy
      have : P = Q := jrep_eq pj qj hz1 hz2 hx.symm hy.symm
      rw [← this]
      exact rep_dbl hp'
    · rw [if_neg hy]
      rw [S.equal h0 h2', eS1, eS2] at hy
      have hj := jadd pj qj hz1 hz2 rfl rfl rfl rfl rfl rfl
        (by rintro ⟨-, h⟩; exact hy (sub_eq_zero.mp h)) rfl rfl rfl
      have hz0 : (S.den q.x * S.den p.z ^ 2 - S.den p.x * S.den q.z ^ 2) * S.den p.z * S.den q.z = 0 := by
        rw [hx]; ring
      have hPQ := hj.zero_iff.mp hz0
      rw [hPQ]
      exact rep_infinity
  · rw [if_neg hx]
    rw [S.equal h1 h3, eU1, eU2] at hx
    obtain ⟨k1, f1⟩ := S.sub h1 h3
    obtain ⟨k2, f2⟩ := S.double k1
    obtain ⟨k3, f3⟩ := S.square k2
    obtain ⟨k4, f4⟩ := S.mul k1 k3
    obtain ⟨k5, f5⟩ := S.sub h0 h2'
    obtain ⟨k6, f6⟩ := S.double k5
    obtain ⟨k7, f7⟩ := S.square k6
    obtain ⟨k8, f8⟩ := S.sub k7 k4
    obtain ⟨k9, f9⟩ := S.mul h3 k3
    obtain ⟨k10, f10⟩ := S.double k9
    obtain ⟨k11, f11⟩ := S.sub k8 k10
    obtain ⟨k12, f12⟩ := S.sub k9 k11
    obtain ⟨k13, f13⟩ := S.mul h2' k4
    obtain ⟨k14, f14⟩ := S.double k13
    obtain ⟨k15, f15⟩ := S.mul k6 k12
    obtain ⟨k16, f16⟩ := S.sub k15 k14
    obtain ⟨k17, f17⟩ := S.add pz qz
    obtain ⟨k18, f18⟩ := S.square k17
    obtain ⟨k19, f19⟩ := S.sub k18 h7
    obtain ⟨k20, f20⟩ := S.sub k19 h8
    obtain ⟨k21, f21⟩ := S.mul k20 k1
    have hj := (jadd pj qj hz1 hz2 rfl rfl rfl rfl rfl rfl
        (by rintro ⟨h, -⟩; exact hx (sub_eq_zero.mp h)) rfl rfl rfl).scale S.two_ne
    refine Rep.mk' k11 k16 k21 ?_ ?_ ?_ hj
    · rw [f11, f10, f9, f8, f7, f6, f5, f4, f3, f2, f1, eU1, eU2, eS1, eS2]; ring
    · rw [f16, f15, f14, f13, f12, f11, f10, f9, f8, f7, f6, f5, f4, f3, f2, f1, eU1, eU2, eS1, eS2]; ring
    · rw [f21, f20, f19, f18, f17, f1, eU1, eU2, e7, e8]; ring

theorem rep_sub {p q : P3 α} {P Q : S.W.Point} (hp : S.Rep p P) (hq : S.Rep q Q) :
    S.Rep (g.subPt p q) (P - Q) := by
  rw [Ops.subPt, sub_eq_add_neg]; exact rep_add hp (rep_neg hq)

theorem rep_mulLoop (e k : ℕ) : ∀ (i : ℕ) (q n : P3 α) (A B : S.W.Point), S.Rep q A → S.Rep n B →
    S.Rep (g.mulLoop e k i q n) (A + (e / 2 ^ i % 2 ^ k) • B) := by
  induction k with
  | zero =>
    intro i q n A B hq _
    rw [Ops.mulLoop, pow_zero, Nat.mod_one, zero_smul, add_zero]; exact hq
  | succ k ih =>
    intro i q n A B hq hn
    rw [Ops.mulLoop]
    have hb : e / 2 ^ i % 2 ^ (k + 1) = (if e.testBit i then 1 else 0) + 2 * (e / 2 ^ (i + 1) % 2 ^ k) := by
      rw [pow_succ 2 i, ← Nat.div_div_eq_div_mul, pow_succ 2 k, mul_comm (2 ^ k) 2, Nat.mod_mul,
        Nat.testBit_eq_decide_div_mod_eq]
      congr 1
      rcases Nat.mod_two_eq_zero_or_one (e / 2 ^ i) with h | h <;> simp [h]
    have hd := rep_dbl hn
    by_cases ht : e.testBit i
    · have := ih (i + 1) _ _ _ _ (rep_add hq hn) hd
      rw [if_pos ht]
      rw [hb, if_pos ht, add_smul, one_smul, mul_smul, two_nsmul, ← add_assoc, ← smul_add]
      exact this
    · have := ih (i + 1) _ _ _ _ hq hd
      rw [if_neg ht]
      rw [hb, if_neg ht, zero_add, mul_smul, two_nsmul, ← smul_add]
      exact this

theorem rep_mul {p : P3 α} {P : S.W.Point} (hp : S.Rep p P) (e : ℕ) : S.Rep (g.mulScalar p e) (e • P) := by
  have := rep_mulLoop e (Fe.bitLen e) 0 _ _ _ _ rep_blank hp
  rw [zero_add, pow_zero, Nat.div_one, Nat.mod_eq_of_lt] at this
  · exact this
  · unfold Fe.bitLen
    split
    · rename_i h; subst h; simp
    · exact Nat.lt_log2_self (n := e)

theorem inSubgroup_iff {p : P3 α} {P : S.W.Point} (hp : S.Rep p P) :
    g.inSubgroup p = true ↔ order • P = 0 := isInf_iff (rep_mul hp order)

theorem eqPt_iff {p q : P3 α} {P Q : S.W.Point} (hp : S.Rep p P) (hq : S.Rep q Q) :
    g.eqPt p q = true ↔ P = Q := by
  rw [Ops.eqPt]
  by_cases hi : g.isInf p = true
  · rw [if_pos hi, isInf_iff hq, (isInf_iff hp).mp hi, eq_comm]
  rw [if_neg hi]
  by_cases hk : g.isInf q = true
  · rw [if_pos hk, isInf_iff hp, (isInf_iff hq).mp hk]
  rw [if_neg hk]
  have hz1 := (isInf_false hp).mp hi
  have hz2 := (isInf_false hq).mp hk
  have hP0 : P ≠ 0 := fun h => hi ((isInf_iff hp).mpr h)
  obtain ⟨px, py, pz, pj⟩ := hp
  obtain ⟨qx, qy, qz, qj⟩ := hq
  obtain ⟨h0, e0⟩ := S.square pz
  obtain ⟨h1, e1⟩ := S.square qz
  obtain ⟨h2, e2⟩ := S.mul h0 qx
  obtain ⟨h3, e3⟩ := S.mul h1 px
  obtain ⟨h4, e4⟩ := S.mul h0 pz
  obtain ⟨h5, e5⟩ := S.mul h1 qz
  obtain ⟨h6, e6⟩ := S.mul h5 py
  obtain ⟨h7, e7⟩ := S.mul h4 qy
  simp only
  rw [Bool.and_eq_true, S.equal h7 h6, S.equal h2 h3, e2, e3, e6, e7, e5, e4, e0, e1]
  constructor
  · rintro ⟨hy, hx⟩
    exact jrep_eq pj qj hz1 hz2 (by linear_combination -hx) (by linear_combination -hy)
  · rintro rfl
    rcases pj.same qj with ⟨hx, hy⟩ | h
    · exact ⟨by linear_combination -hy, by linear_combination -hx⟩
    · exact absurd h hP0

theorem nonsing (S : Sem g F) {x y : F} (h : y ^ 2 = x ^ 3 + S.bF) : S.W.Nonsingular x y := by
  rw [Affine.nonsingular_iff]
  refine ⟨(sw_equation _ _ _ _).mpr (by rw [h]; ring), ?_⟩
  by_contra hc
  push Not at hc
  obtain ⟨h1, h2⟩ := hc
  simp only [sw] at h1 h2
  have hy : y = 0 := by
    have : (2 : F) * y = 0 := by linear_combination h2
    rcases mul_eq_zero.mp this with h | h
    · exact absurd h S.two_ne
    · exact h
  have hx : x = 0 := by
    have : (3 : F) * x ^ 2 = 0 := by linear_combination -h1
    rcases mul_eq_zero.mp this with h | h
    · exact absurd h S.three_ne
    · exact pow_eq_zero_iff (two_ne_zero) |>.mp h
  apply S.b_ne
  rw [hy, hx] at h
  linear_combination -h

/-- an affine point as a point of the curve. -/
def pt (S : Sem g F) {x y : F} (h : y ^ 2 = x ^ 3 + S.bF) : S.W.Point := .some x y (S.nonsing h)

theorem rep_affine {x y : α} (hx : S.Red x) (hy : S.Red y) (h : S.den y ^ 2 = S.den x ^ 3 + S.bF) :
    S.Rep ⟨x, y, g.one⟩ (S.pt h) := by
  refine Rep.mk' hx hy S.one.1 rfl rfl S.one.2 ⟨one_ne_zero, ?_, ?_⟩ <;> simp

theorem isOnCurve_iff {p : P3 α} (hx : S.Red p.x) (hy : S.Red p.y) (hz : S.Red p.z) :
    g.isOnCurve p = true ↔ ∃ P, S.Rep p P := by
  rw [Ops.isOnCurve, Ops.isInf]
  by_cases h0 : S.den p.z = 0
  · rw [(S.isZero hz).mpr h0]
    refine ⟨fun _ => ⟨0, hx, hy, hz, h0⟩, fun _ => rfl⟩
  · rw [if_neg (fun h => h0 ((S.isZero hz).mp h))]
    obtain ⟨h1, e1⟩ := S.square hy
    obtain ⟨h2, e2⟩ := S.square hx
    obtain ⟨h3, e3⟩ := S.mul h2 hx
    obtain ⟨h4, e4⟩ := S.square hz
    obtain ⟨h5, e5⟩ := S.square h4
    obtain ⟨h6, e6⟩ := S.mul h4 h5
    obtain ⟨h7, e7⟩ := S.mul S.b.1 h6
    obtain ⟨h8, e8⟩ := S.add h3 h7
    simp only
    rw [S.equal h1 h8, e1, e8, e3, e2, e7, e6, e5, e4, S.b.2]
    constructor
    · intro h
      have hc : (S.den p.y / S.den p.z ^ 3) ^ 2 = (S.den p.x / S.den p.z ^ 2) ^ 3 + S.bF := by
        field_simp
        linear_combination h
      refine ⟨S.pt hc, hx, hy, hz, h0, ?_, ?_⟩
      · field_simp
      · field_simp
    · rintro ⟨P, -, -, -, hj⟩
      cases P with
      | zero => exact absurd hj h0
      | some x y hP =>
        obtain ⟨-, ex, ey⟩ := hj
        have he := (sw_equation _ _ _ _).mp hP.1
        rw [ex, ey]
        linear_combination S.den p.z ^ 6 * he

/-- what `Affine` returns for a point that is not infinity. -/
theorem affine_some {p : P3 α} {x y : F} {h : S.W.Nonsingular x y} (hp : S.Rep p (.some x y h)) :
    S.Red (g.affine p).x ∧ S.den (g.affine p).x = x ∧ S.Red (g.affine p).y ∧ S.den (g.affine p).y = y ∧
      S.Red (g.affine p).z ∧ S.den (g.affine p).z = 1 := by
  have hni : ¬ g.isInf p = true := by
    rw [isInf_iff hp]; exact Affine.Point.some_ne_zero h
  rw [Ops.affine, if_neg hni]
  obtain ⟨hx, hy, hz, hz0, ex, ey⟩ := hp
  by_cases ha : g.isAffine p = true
  · rw [ha, Bool.not_true, if_neg Bool.false_ne_true]
    rw [Ops.isAffine, S.equal hz S.one.1, S.one.2] at ha
    rw [ha] at ex ey
    exact ⟨hx, by simpa using ex, hy, by simpa using ey, hz, ha⟩
  · rw [Bool.eq_false_iff.mpr ha, Bool.not_false, if_pos rfl]
    obtain ⟨h1, e1⟩ := S.inverse hz
    obtain ⟨h2, e2⟩ := S.square h1
    obtain ⟨h3, e3⟩ := S.mul hx h2
    obtain ⟨h4, e4⟩ := S.mul h1 h2
    obtain ⟨h5, e5⟩ := S.mul hy h4
    refine ⟨h3, ?_, h5, ?_, S.one.1, S.one.2⟩
    · rw [e3, e2, e1, ex]; field_simp
    · rw [e5, e4, e2, e1, ey]; field_simp

theorem affine_inf {p : P3 α} (hp : S.Rep p 0) : g.affine p = p := by
  rw [Ops.affine, if_pos ((isInf_iff hp).mpr rfl)]

theorem rep_affine_of {p : P3 α} {P : S.W.Point} (hp : S.Rep p P) : S.Rep (g.affine p) P := by
  cases P with
  | zero => rw [affine_inf hp]; exact hp
  | some x y h =>
    obtain ⟨h1, e1, h2, e2, h3, e3⟩ := affine_some hp
    refine ⟨h1, h2, h3, ?_⟩
    rw [e1, e2, e3]
    exact ⟨one_ne_zero, by simp, by simp⟩

end Sem

end Verif.Bls
