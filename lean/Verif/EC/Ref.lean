import Mathlib.Tactic.NormNum
import Verif.BigInt
import Verif.EC.Curve

/-!
# A reference implementation of the group law

Textbook Jacobian arithmetic for any `Params`.  It models no code of the repo: it stands in for the
external `crypto/elliptic` (P-256), shows that the assumptions made about that package can be met,
and lets the kernel evaluate `n • G`.
-/

namespace Verif.EC.Ref

open WeierstrassCurve

variable (c : Params)

def dbl (t : Int × Int × Int) : Int × Int × Int :=
  let X := t.1
  let Y := t.2.1
  let Z := t.2.2
  let M := (3 * X ^ 2 + (c.a : Int) * Z ^ 4) % (c.p : Int)
  let S := (4 * X * Y ^ 2) % (c.p : Int)
  let X3 := (M ^ 2 - 2 * S) % (c.p : Int)
  (X3, (M * (S - X3) - 8 * Y ^ 4) % (c.p : Int), (2 * Y * Z) % (c.p : Int))

def jadd (t u : Int × Int × Int) : Int × Int × Int :=
  if t.2.2 = 0 then u else if u.2.2 = 0 then t else
  let U1 := (t.1 * u.2.2 ^ 2) % (c.p : Int)
  let U2 := (u.1 * t.2.2 ^ 2) % (c.p : Int)
  let S1 := (t.2.1 * u.2.2 ^ 3) % (c.p : Int)
  let S2 := (u.2.1 * t.2.2 ^ 3) % (c.p : Int)
  if U1 = U2 ∧ S1 = S2 then dbl c t else
  let H := (U2 - U1) % (c.p : Int)
  let R := (S2 - S1) % (c.p : Int)
  let X3 := (R ^ 2 - H ^ 3 - 2 * U1 * H ^ 2) % (c.p : Int)
  (X3, (R * (U1 * H ^ 2 - X3) - S1 * H ^ 3) % (c.p : Int), (H * t.2.2 * u.2.2) % (c.p : Int))

def toAffine (t : Int × Int × Int) : Int × Int :=
  if t.2.2 = 0 then (0, 0) else
  let w := (modInverse t.2.2 c.p).getD 0
  ((t.1 * w ^ 2) % (c.p : Int), (t.2.1 * w ^ 3) % (c.p : Int))

def toJac (x y : Int) : Int × Int × Int := (x, y, if x = 0 ∧ y = 0 then 0 else 1)

/-- double-and-add, least significant bit first. -/
def mulAux : Nat → Nat → Int × Int × Int → Int × Int × Int → Int × Int × Int
  | 0, _, _, acc => acc
  | f + 1, k, t, acc =>
    if k = 0 then acc else mulAux f (k / 2) (dbl c t) (if k % 2 = 1 then jadd c acc t else acc)

def add (x1 y1 x2 y2 : Int) : Int × Int := toAffine c (jadd c (toJac x1 y1) (toJac x2 y2))
def mul (x y : Int) (k : Nat) : Int × Int := toAffine c (mulAux c (k.log2 + 1) k (toJac x y) (0, 0, 0))

def impl : CurveImpl where
  add := add c
  scalarMult x y k := mul c x y (beNat k)
  scalarBaseMult k := mul c c.gx c.gy (beNat k)

variable {c} [hp : Fact c.p.Prime] (hg : Good c)

/-- Jacobian representation by integers with reduced `z`. -/
def JI (t : Int × Int × Int) (Q : c.Pt) : Prop :=
  0 ≤ t.2.2 ∧ t.2.2 < c.p ∧ JRep c.W (t.1 : ZMod c.p) (t.2.1 : ZMod c.p) (t.2.2 : ZMod c.p) Q

theorem cast_zero_iff {x : Int} (h0 : 0 ≤ x) (h1 : x < c.p) : (x : ZMod c.p) = 0 ↔ x = 0 := by
  rw [ZMod.intCast_zmod_eq_zero_iff_dvd]
  constructor
  · intro h; exact Int.eq_zero_of_dvd_of_nonneg_of_lt h0 h1 h
  · rintro rfl; exact dvd_zero _

theorem JI.z_iff {t : Int × Int × Int} {Q : c.Pt} (h : JI t Q) : t.2.2 = 0 ↔ Q = 0 := by
  rw [← cast_zero_iff h.1 h.2.1]; exact h.2.2.zero_iff

theorem mod_range (x : Int) : 0 ≤ x % (c.p : Int) ∧ x % (c.p : Int) < c.p := by
  have : (0 : Int) < c.p := by exact_mod_cast hp.out.pos
  exact ⟨Int.emod_nonneg _ this.ne', Int.emod_lt_of_pos _ this⟩

theorem mod_eq_iff (x y : Int) : x % (c.p : Int) = y % (c.p : Int) ↔ (x : ZMod c.p) = (y : ZMod c.p) :=
  (ZMod.intCast_eq_intCast_iff _ _ _).symm

include hg

theorem dbl_ok {t : Int × Int × Int} {Q : c.Pt} (h : JI t Q) : JI (dbl c t) (Q + Q) := by
  refine ⟨(mod_range _).1, (mod_range _).2, ?_⟩
  refine EC.jdbl hg.two h.2.2 rfl rfl ?_ ?_ ?_ <;>
    simp only [dbl, ZMod.intCast_mod, Int.cast_sub, Int.cast_mul, Int.cast_pow, Int.cast_add, Int.cast_natCast, Int.cast_ofNat] <;> ring

theorem jadd_ok {t u : Int × Int × Int} {Q R : c.Pt} (h1 : JI t Q) (h2 : JI u R) : JI (jadd c t u) (Q + R) := by
  unfold jadd
  by_cases hz1 : t.2.2 = 0
  · rw [if_pos hz1, h1.z_iff.mp hz1, zero_add]; exact h2
  rw [if_neg hz1]
  by_cases hz2 : u.2.2 = 0
  · rw [if_pos hz2, h2.z_iff.mp hz2, add_zero]; exact h1
  rw [if_neg hz2]
  have hz1' : (t.2.2 : ZMod c.p) ≠ 0 := fun h => hz1 ((cast_zero_iff h1.1 h1.2.1).mp h)
  have hz2' : (u.2.2 : ZMod c.p) ≠ 0 := fun h => hz2 ((cast_zero_iff h2.1 h2.2.1).mp h)
  dsimp only
  simp only [mod_eq_iff]
  push_cast
  split
  · rename_i he
    have := jrep_eq h1.2.2 h2.2.2 hz1' hz2' he.1 he.2
    rw [← this]; exact dbl_ok hg h1
  · rename_i he
    refine ⟨(mod_range _).1, (mod_range _).2, ?_⟩
    refine EC.jadd h1.2.2 h2.2.2 hz1' hz2' rfl rfl rfl rfl rfl rfl ?_ ?_ ?_ ?_
    · rintro ⟨ha, hb⟩; exact he ⟨(sub_eq_zero.mp ha).symm, (sub_eq_zero.mp hb).symm⟩
    all_goals simp only [ZMod.intCast_mod, Int.cast_sub, Int.cast_mul, Int.cast_pow, Int.cast_add, Int.cast_natCast, Int.cast_ofNat]
    all_goals ring

omit hg in
theorem affine_ok {t : Int × Int × Int} {Q : c.Pt} (h : JI t Q) : toAffine c t = enc c Q := by
  unfold toAffine
  by_cases hz : t.2.2 = 0
  · rw [if_pos hz, h.z_iff.mp hz]; rfl
  rw [if_neg hz]
  have hz' : (t.2.2 : ZMod c.p) ≠ 0 := fun h' => hz ((cast_zero_iff h.1 h.2.1).mp h')
  obtain ⟨w, hw, -, -, hwc⟩ := modInverse_prime hz'
  cases Q with
  | zero => exact absurd (h.z_iff.mpr rfl) hz
  | some x y hn =>
    obtain ⟨-, hx, hy⟩ := h.2.2
    simp only [hw, Option.getD_some, enc]
    refine Prod.ext ?_ ?_
    · show _ % (c.p : Int) = ((x.val : ℕ) : Int)
      have : x = ((t.1 * w ^ 2 : Int) : ZMod c.p) := by push_cast; rw [hx, hwc]; field_simp
      rw [this, ZMod.val_intCast]
    · show _ % (c.p : Int) = ((y.val : ℕ) : Int)
      have : y = ((t.2.1 * w ^ 3 : Int) : ZMod c.p) := by push_cast; rw [hy, hwc]; field_simp
      rw [this, ZMod.val_intCast]

theorem rep_JI {x y : Int} {Q : c.Pt} (h : Rep c x y Q) : JI (toJac x y) Q := by
  have hp1 : (1 : Int) < c.p := by exact_mod_cast hp.out.one_lt
  cases Q with
  | zero =>
    obtain ⟨rfl, rfl⟩ := h
    refine ⟨by simp [toJac], by simp [toJac]; omega, ?_⟩
    show (((toJac 0 0).2.2 : Int) : ZMod c.p) = 0
    simp [toJac]
  | some x' y' hn =>
    have hne : ¬ (x = 0 ∧ y = 0) := by
      rintro ⟨rfl, rfl⟩
      exact hg.origin_off hn ⟨by simpa using h.1.symm, by simpa using h.2.symm⟩
    unfold toJac
    rw [if_neg hne]
    refine ⟨zero_le_one, hp1, ?_⟩
    refine ⟨by simp, ?_, ?_⟩
    · simp [h.1]
    · simp [h.2]

theorem mulAux_ok (f k : Nat) (hk : k < 2 ^ f) {t acc : Int × Int × Int} {Q A : c.Pt} (ht : JI t Q) (ha : JI acc A) :
    JI (mulAux c f k t acc) (A + k • Q) := by
  induction f generalizing k t acc Q A with
  | zero => have : k = 0 := by simpa using hk
            subst this; simpa [mulAux] using ha
  | succ f ih =>
    unfold mulAux
    split
    · rename_i h0; subst h0; simpa using ha
    · have hd := dbl_ok hg ht
      have hdiv := Nat.div_add_mod k 2
      by_cases h1 : k % 2 = 1
      · simp only [h1, if_true]
        have := ih (k / 2) (by rw [pow_succ] at hk; omega) hd (jadd_ok hg ha ht)
        convert this using 1
        conv_lhs => rw [← hdiv, h1]
        rw [add_nsmul, mul_comm, mul_nsmul', two_nsmul, one_nsmul]; abel
      · have h0 : k % 2 = 0 := by omega
        simp only [h1, if_false]
        have := ih (k / 2) (by rw [pow_succ] at hk; omega) hd ha
        convert this using 1
        conv_lhs => rw [← hdiv, h0]
        rw [add_zero, mul_comm, mul_nsmul', two_nsmul]

theorem add_spec {x1 y1 x2 y2 : Int} {Q R : c.Pt} (h1 : Rep c x1 y1 Q) (h2 : Rep c x2 y2 R) :
    add c x1 y1 x2 y2 = enc c (Q + R) := affine_ok (jadd_ok hg (rep_JI hg h1) (rep_JI hg h2))

theorem mul_spec {x y : Int} {Q : c.Pt} (h : Rep c x y Q) (k : Nat) : mul c x y k = enc c (k • Q) := by
  have h0 : JI (0, 0, 0) (0 : c.Pt) := by
    refine ⟨le_rfl, Int.natCast_pos.mpr hp.out.pos, ?_⟩
    show ((0 : Int) : ZMod c.p) = 0
    simp
  have := mulAux_ok hg (k.log2 + 1) k Nat.lt_log2_self (rep_JI hg h) h0
  rw [zero_add] at this
  exact affine_ok this

omit hg in
theorem repG (hg : Good c) : Rep c c.gx c.gy hg.G := by
  constructor <;> simp

theorem curveOk : CurveOk c hg (impl c) (Rep c) where
  in_enc := rep_enc
  in_rep := id
  add := add_spec hg
  mul := fun _ _ h => mul_spec hg h _
  baseMul := fun _ => mul_spec hg (repG hg) _

/-- the order of the base point, by kernel evaluation of the reference implementation. -/
theorem n_smul_G (h : mul c c.gx c.gy c.n = (0, 0)) : c.n • hg.G = 0 := by
  rw [mul_spec hg (repG hg)] at h
  exact (hg.enc_zero_iff _).mp h

end Verif.EC.Ref
