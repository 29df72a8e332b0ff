import Mathlib.Data.ZMod.Basic
import Mathlib.Algebra.Field.ZMod
import Verif.Bytes
import Verif.EC.Jacobian

/-!
# Specification: elliptic curves over prime fields, and what a curve implementation must compute

The group is Mathlib's `WeierstrassCurve.Affine.Point`.  Nothing here depends on the model of the
Go code.
-/

namespace Verif.EC

open WeierstrassCurve

/-- published domain parameters of a curve `y² = x³ + a x + b` over `ZMod p`. -/
structure Params where
  p : ℕ
  n : ℕ
  a : ℕ
  b : ℕ
  gx : ℕ
  gy : ℕ

/-- the curve of the parameters. -/
def Params.W (c : Params) [Fact c.p.Prime] : WeierstrassCurve.Affine (ZMod c.p) :=
  sw (c.a : ZMod c.p) (c.b : ZMod c.p)

/-- the group of points, infinity included. -/
abbrev Params.Pt (c : Params) [Fact c.p.Prime] := c.W.Point

/-- `(x, y)` (any integers) stand for the point: their residues are its affine coordinates, and
`(0, 0)` stands for infinity.  -/
def Rep (c : Params) [Fact c.p.Prime] (x y : Int) : c.Pt → Prop
  | .zero => x = 0 ∧ y = 0
  | .some x' y' _ => (x : ZMod c.p) = x' ∧ (y : ZMod c.p) = y'

/-- the canonical affine coordinates of a point, `(0, 0)` for infinity. -/
def enc (c : Params) [Fact c.p.Prime] : c.Pt → Int × Int
  | .zero => (0, 0)
  | .some x y _ => ((x.val : Int), (y.val : Int))

/-- facts about the parameters that the theorems use. -/
structure Good (c : Params) [Fact c.p.Prime] : Prop where
  p3 : 3 < c.p
  np : c.n.Prime
  disc : 4 * (c.a : ZMod c.p) ^ 3 + 27 * (c.b : ZMod c.p) ^ 2 ≠ 0
  b0 : (c.b : ZMod c.p) ≠ 0
  gxlt : c.gx < c.p
  gylt : c.gy < c.p
  g : (c.gy : ZMod c.p) ^ 2 = (c.gx : ZMod c.p) ^ 3 + c.a * c.gx + c.b

section
variable {c : Params} [hp : Fact c.p.Prime]

theorem W_equation (x y : ZMod c.p) : c.W.Equation x y ↔ y ^ 2 = x ^ 3 + c.a * x + c.b :=
  sw_equation _ _ _ _

theorem Good.two (h : Good c) : (2 : ZMod c.p) ≠ 0 := by
  have h3 := h.p3
  intro h
  have h' : ((2 : ℕ) : ZMod c.p) = 0 := by exact_mod_cast h
  rw [ZMod.natCast_eq_zero_iff] at h'
  have := Nat.le_of_dvd (by norm_num) h'
  omega

theorem Good.nonsing (h : Good c) {x y : ZMod c.p} (he : y ^ 2 = x ^ 3 + c.a * x + c.b) :
    c.W.Nonsingular x y := by
  have hd : c.W.Δ ≠ 0 := by
    have : c.W.Δ = - 2 ^ 4 * (4 * (c.a : ZMod c.p) ^ 3 + 27 * (c.b : ZMod c.p) ^ 2) := by
      simp only [Params.W, sw, WeierstrassCurve.Δ, WeierstrassCurve.b₂, WeierstrassCurve.b₄,
        WeierstrassCurve.b₆, WeierstrassCurve.b₈]
      ring
    rw [this]
    exact mul_ne_zero (neg_ne_zero.mpr (pow_ne_zero _ h.two)) h.disc
  exact (Affine.equation_iff_nonsingular_of_Δ_ne_zero hd).mp ((W_equation x y).mpr he)

/-- the base point. -/
def Good.G (h : Good c) : c.Pt := .some (c.gx : ZMod c.p) (c.gy : ZMod c.p) (h.nonsing h.g)

/-- the point with given coordinates. -/
def Good.point (h : Good c) {x y : ZMod c.p} (he : y ^ 2 = x ^ 3 + c.a * x + c.b) : c.Pt :=
  .some x y (h.nonsing he)

theorem rep_enc (P : c.Pt) : Rep c (enc c P).1 (enc c P).2 P := by
  cases P with
  | zero => exact ⟨rfl, rfl⟩
  | some x y h => simp [Rep, enc]

theorem Good.origin_off (h : Good c) {x y : ZMod c.p} (hn : c.W.Nonsingular x y) :
    ¬ (x = 0 ∧ y = 0) := by
  rintro ⟨rfl, rfl⟩
  have := (W_equation _ _).mp hn.1
  apply h.b0
  linear_combination -this

theorem Good.enc_zero_iff (h : Good c) (P : c.Pt) : enc c P = (0, 0) ↔ P = 0 := by
  cases P with
  | zero => exact ⟨fun _ => rfl, fun _ => rfl⟩
  | some x y hn =>
    constructor
    · intro he
      simp only [enc, Prod.mk.injEq] at he
      exfalso
      apply h.origin_off hn
      constructor
      · exact (ZMod.val_eq_zero _).mp (by exact_mod_cast he.1)
      · exact (ZMod.val_eq_zero _).mp (by exact_mod_cast he.2)
    · intro h0; exact absurd h0 (Affine.Point.some_ne_zero hn)

theorem Good.rep_inj (h : Good c) {x y : Int} {P Q : c.Pt} (h1 : Rep c x y P) (h2 : Rep c x y Q) :
    P = Q := by
  cases P with
  | zero => cases Q with
    | zero => rfl
    | some x' y' hn =>
      obtain ⟨rfl, rfl⟩ := h1
      exact absurd ⟨by simpa using h2.1.symm, by simpa using h2.2.symm⟩ (h.origin_off hn)
  | some x' y' hn => cases Q with
    | zero =>
      obtain ⟨rfl, rfl⟩ := h2
      exact absurd ⟨by simpa using h1.1.symm, by simpa using h1.2.symm⟩ (h.origin_off hn)
    | some x'' y'' hn2 =>
      obtain ⟨a1, a2⟩ := h1
      obtain ⟨b1, b2⟩ := h2
      have e1 := a1.symm.trans b1
      have e2 := a2.symm.trans b2
      subst e1 e2; rfl

theorem Good.enc_inj (h : Good c) {P Q : c.Pt} (he : enc c P = enc c Q) : P = Q := by
  have h1 := rep_enc P
  rw [he] at h1
  exact h.rep_inj h1 (rep_enc Q)

theorem enc_range (P : c.Pt) : 0 ≤ (enc c P).1 ∧ (enc c P).1 < c.p ∧ 0 ≤ (enc c P).2 ∧
    (enc c P).2 < c.p := by
  have : 0 < c.p := hp.out.pos
  have : NeZero c.p := ⟨hp.out.ne_zero⟩
  cases P with
  | zero => simp [enc]; exact hp.out.pos
  | some x y h =>
    have h1 := ZMod.val_lt x
    have h2 := ZMod.val_lt y
    simp only [enc]
    omega

end

/-- a Go `elliptic.Curve` value: the operations the callers in `ecdsa.go`/`utils.go` use. -/
structure CurveImpl where
  add : Int → Int → Int → Int → Int × Int
  scalarMult : Int → Int → Bytes → Int × Int
  scalarBaseMult : Bytes → Int × Int

/-- What it means for an implementation to compute the group `E(ZMod p)`.  `In` says which integer
pairs it accepts as a representation of a point (at least the canonical ones). -/
structure CurveOk (c : Params) [Fact c.p.Prime] (hg : Good c) (C : CurveImpl)
    (In : Int → Int → c.Pt → Prop) : Prop where
  in_enc : ∀ P, In (enc c P).1 (enc c P).2 P
  in_rep : ∀ {x y P}, In x y P → Rep c x y P
  add : ∀ {x1 y1 x2 y2 P Q}, In x1 y1 P → In x2 y2 Q → C.add x1 y1 x2 y2 = enc c (P + Q)
  mul : ∀ {x y P} (k : Bytes), P ≠ 0 → In x y P → C.scalarMult x y k = enc c (beNat k • P)
  baseMul : ∀ k : Bytes, C.scalarBaseMult k = enc c (beNat k • hg.G)

end Verif.EC
