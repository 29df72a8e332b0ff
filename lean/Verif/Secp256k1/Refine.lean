import Mathlib.Tactic.NormNum
import Verif.Secp256k1.Model
import Verif.Primes.Certs

/-!
# secp256k1.go computes the group law (lemmas)
-/

namespace Verif.Secp256k1

open Verif.EC WeierstrassCurve

/-- SEC 2 domain parameters of secp256k1. -/
def c : Params where
  p := 0xfffffffffffffffffffffffffffffffffffffffffffffffffffffffefffffc2f
  n := 0xfffffffffffffffffffffffffffffffebaaedce6af48a03bbfd25e8cd0364141
  a := 0
  b := 7
  gx := 0x79be667ef9dcbbac55a06295ce870b07029bfcdb2dce28d959f2815b16f81798
  gy := 0x483ada7726a3c4655da4fbfc0e1108a8fd17b448a68554199c47d08ffb10d4b8

instance : Fact c.p.Prime := ⟨prime_secp256k1P⟩

theorem natCast_ne_zero_of {p : ℕ} (k : ℕ) (h : k % p ≠ 0) : (k : ZMod p) ≠ 0 := by
  rw [Ne, ZMod.natCast_eq_zero_iff]
  intro hd; exact h (Nat.mod_eq_zero_of_dvd hd)

theorem good : Good c where
  p3 := by decide +kernel
  np := prime_secp256k1N
  disc := by
    have := natCast_ne_zero_of (p := c.p) (4 * c.a ^ 3 + 27 * c.b ^ 2) (by decide +kernel)
    exact_mod_cast this
  b0 := natCast_ne_zero_of _ (by decide +kernel)
  gxlt := by decide +kernel
  gylt := by decide +kernel
  g := by
    have : ((c.gy ^ 2 : ℕ) : ZMod c.p) = ((c.gx ^ 3 + c.a * c.gx + c.b : ℕ) : ZMod c.p) := by
      rw [ZMod.natCast_eq_natCast_iff]
      show _ % _ = _ % _
      decide +kernel
    exact_mod_cast this

abbrev F := ZMod c.p
abbrev Pt := c.Pt

theorem P_cast : ((P : Int) : F) = 0 := by
  have : P = ((c.p : ℕ) : Int) := by decide +kernel
  rw [this, Int.cast_natCast, ZMod.natCast_self]

theorem P_pos : 0 < P := by decide +kernel
theorem P_eq : P = ((c.p : ℕ) : Int) := by decide +kernel

@[simp] theorem modP_cast (x : Int) : ((x % P : Int) : F) = (x : F) := by
  rw [P_eq, ZMod.intCast_mod]

theorem cond_cast (x : Int) : ((if x < 0 then x + P else x % P : Int) : F) = (x : F) := by
  split
  · rw [Int.cast_add, P_cast, add_zero]
  · exact modP_cast x

theorem cond_cast' (x : Int) : ((if x < 0 then x + P else x : Int) : F) = (x : F) := by
  split
  · rw [Int.cast_add, P_cast, add_zero]
  · rfl

theorem cast_eq_zero_iff {x : Int} (h0 : 0 ≤ x) (h1 : x < P) : (x : F) = 0 ↔ x = 0 := by
  rw [ZMod.intCast_zmod_eq_zero_iff_dvd, ← P_eq]
  constructor
  · intro h
    exact Int.eq_zero_of_dvd_of_nonneg_of_lt h0 h1 h
  · rintro rfl; exact dvd_zero _

/-- Jacobian representation by integers: `z` is reduced, `x` and `y` need not be. -/
def JI (t : Int × Int × Int) (Q : Pt) : Prop :=
  0 ≤ t.2.2 ∧ t.2.2 < P ∧ JRep c.W (t.1 : F) (t.2.1 : F) (t.2.2 : F) Q

theorem JI.z_iff {t : Int × Int × Int} {Q : Pt} (h : JI t Q) : t.2.2 = 0 ↔ Q = 0 := by
  rw [← cast_eq_zero_iff h.1 h.2.1]; exact h.2.2.zero_iff

theorem mod_range (x : Int) : 0 ≤ x % P ∧ x % P < P :=
  ⟨Int.emod_nonneg _ P_pos.ne', Int.emod_lt_of_pos _ P_pos⟩

theorem double_ok {x y z : Int} {Q : Pt} (h : JI (x, y, z) Q) : JI (doubleJacobian x y z) (Q + Q) := by
  refine ⟨(mod_range _).1, (mod_range _).2, ?_⟩
  obtain ⟨-, -, hr⟩ := h
  have h0 : ((c.a : ℕ) : F) = 0 := by simp [c]
  refine jdbl good.two hr (M := 3 * (x : F) ^ 2) (S := 4 * (x : F) * (y : F) ^ 2) ?_ rfl ?_ ?_ ?_
  · rw [h0]; ring
  · simp only [doubleJacobian, cond_cast, modP_cast, Int.cast_sub, Int.cast_mul, Int.cast_add]
    push_cast; ring
  · simp only [doubleJacobian, cond_cast, modP_cast, Int.cast_sub, Int.cast_mul, Int.cast_add]
    push_cast; ring
  · simp only [doubleJacobian, cond_cast, modP_cast, Int.cast_sub, Int.cast_mul, Int.cast_add]
    push_cast; ring

theorem sub_range_zero {u v : Int} (hu : 0 ≤ u ∧ u < P) (hv : 0 ≤ v ∧ v < P) :
    u - v = 0 ↔ (u : F) = (v : F) := by
  constructor
  · intro h; have : u = v := by omega
    rw [this]
  · intro h
    rw [← sub_eq_zero, ← Int.cast_sub, ZMod.intCast_zmod_eq_zero_iff_dvd, ← P_eq] at h
    obtain ⟨k, hk⟩ := h
    have : k = 0 := by
      rcases lt_trichotomy k 0 with h | h | h
      · have : P * k ≤ P * (-1) := Int.mul_le_mul_of_nonneg_left (by omega) P_pos.le
        omega
      · exact h
      · have : P * 1 ≤ P * k := Int.mul_le_mul_of_nonneg_left (by omega) P_pos.le
        omega
    rw [this] at hk; omega

theorem add_ok {x1 y1 z1 x2 y2 z2 : Int} {Q R : Pt} (h1 : JI (x1, y1, z1) Q) (h2 : JI (x2, y2, z2) R) :
    JI (addJacobian x1 y1 z1 x2 y2 z2) (Q + R) := by
  unfold addJacobian
  by_cases hz1 : z1 = 0
  · rw [if_pos hz1]
    have : Q = 0 := h1.z_iff.mp hz1
    rw [this, zero_add]; exact h2
  rw [if_neg hz1]
  by_cases hz2 : z2 = 0
  · rw [if_pos hz2]
    have : R = 0 := h2.z_iff.mp hz2
    rw [this, add_zero]; exact h1
  rw [if_neg hz2]
  have hz1' : (z1 : F) ≠ 0 := fun h => hz1 ((cast_eq_zero_iff h1.1 h1.2.1).mp h)
  have hz2' : (z2 : F) ≠ 0 := fun h => hz2 ((cast_eq_zero_iff h2.1 h2.2.1).mp h)
  have r1 := h1.2.2
  have r2 := h2.2.2
  dsimp only
  -- the two equality tests
  set u1 := x1 * (z2 * z2 % P) % P with hu1
  set u2 := x2 * (z1 * z1 % P) % P with hu2
  set s1 := y1 * z2 * (z2 * z2 % P) % P with hs1
  set s2 := y2 * z1 * (z1 * z1 % P) % P with hs2
  have eu1 : (u1 : F) = x1 * z2 ^ 2 := by rw [hu1]; simp only [modP_cast, Int.cast_mul]; ring
  have eu2 : (u2 : F) = x2 * z1 ^ 2 := by rw [hu2]; simp only [modP_cast, Int.cast_mul]; ring
  have es1 : (s1 : F) = y1 * z2 ^ 3 := by rw [hs1]; simp only [modP_cast, Int.cast_mul]; ring
  have es2 : (s2 : F) = y2 * z1 ^ 3 := by rw [hs2]; simp only [modP_cast, Int.cast_mul]; ring
  have hx : u2 - u1 = 0 ↔ (x1 * z2 ^ 2 : F) = x2 * z1 ^ 2 := by
    rw [sub_range_zero (mod_range _) (mod_range _), eu1, eu2, eq_comm]
  have hy : (if s2 - s1 < 0 then s2 - s1 + P else s2 - s1) = 0 ↔ (y1 * z2 ^ 3 : F) = y2 * z1 ^ 3 := by
    have : (if s2 - s1 < 0 then s2 - s1 + P else s2 - s1) = 0 ↔ s2 - s1 = 0 := by
      have h3 := mod_range (y1 * z2 * (z2 * z2 % P))
      have h4 := mod_range (y2 * z1 * (z1 * z1 % P))
      rw [← hs1] at h3; rw [← hs2] at h4
      split <;> omega
    rw [this, sub_range_zero (mod_range _) (mod_range _), es1, es2, eq_comm]
  by_cases hxy : (x1 * z2 ^ 2 : F) = x2 * z1 ^ 2 ∧ (y1 * z2 ^ 3 : F) = y2 * z1 ^ 3
  · have e := jrep_eq r1 r2 hz1' hz2' hxy.1 hxy.2
    have : ((u2 - u1 == 0) && ((if s2 - s1 < 0 then s2 - s1 + P else s2 - s1) == 0)) = true := by
      rw [Bool.and_eq_true, beq_iff_eq, beq_iff_eq]; exact ⟨hx.mpr hxy.1, hy.mpr hxy.2⟩
    simp only [this, if_true]
    rw [← e]; exact double_ok h1
  · have : ¬ ((u2 - u1 == 0) && ((if s2 - s1 < 0 then s2 - s1 + P else s2 - s1) == 0)) = true := by
      rw [Bool.and_eq_true, beq_iff_eq, beq_iff_eq, hx, hy]; exact hxy
    simp only [this, Bool.false_eq_true, if_false]
    refine ⟨(mod_range _).1, (mod_range _).2, ?_⟩
    have hj := jadd r1 r2 hz1' hz2' (U1 := (u1 : F)) (U2 := (u2 : F)) (S1 := (s1 : F)) (S2 := (s2 : F))
      eu1 eu2 es1 es2 (H := (u2 - u1 : F)) (R := (s2 - s1 : F)) rfl rfl
      (by
        rintro ⟨ha, hb⟩
        apply hxy
        rw [eu1, eu2] at ha; rw [es1, es2] at hb
        exact ⟨(sub_eq_zero.mp ha).symm, (sub_eq_zero.mp hb).symm⟩) rfl rfl rfl
    have hs := hj.scale good.two
    refine JRep.congr ?_ ?_ ?_ hs
    · simp only [modP_cast, cond_cast', Int.cast_sub, Int.cast_mul, Int.cast_ofNat]
      ring
    · simp only [modP_cast, cond_cast', Int.cast_sub, Int.cast_mul, Int.cast_ofNat]
      ring
    · simp only [modP_cast, cond_cast', Int.cast_sub, Int.cast_mul, Int.cast_add]
      ring

theorem add_ok' {t u : Int × Int × Int} {Q R : Pt} (h1 : JI t Q) (h2 : JI u R) :
    JI (addJacobian t.1 t.2.1 t.2.2 u.1 u.2.1 u.2.2) (Q + R) := add_ok h1 h2

/-- `ModInverse` never returns nil in `affineFromJacobian` for a reduced non-zero `z`. -/
theorem affineFromJacobian_no_panic {z : Int} (h0 : 0 ≤ z) (h1 : z < P) (hz : z ≠ 0) :
    ∃ w, modInverse z P = some w ∧ (w : F) = (z : F)⁻¹ := by
  have hz' : (z : F) ≠ 0 := fun h => hz ((cast_eq_zero_iff h0 h1).mp h)
  obtain ⟨w, hw, -, -, hc⟩ := modInverse_prime hz'
  exact ⟨w, by rw [P_eq]; exact hw, hc⟩

theorem val_eq {x : Int} {y : F} (h : (x : F) = y) (h0 : 0 ≤ x) (h1 : x < P) : x = (y.val : Int) := by
  subst h
  rw [ZMod.val_intCast, ← P_eq, Int.emod_eq_of_lt h0 h1]

theorem affine_ok {t : Int × Int × Int} {Q : Pt} (h : JI t Q) :
    affineFromJacobian t.1 t.2.1 t.2.2 = enc c Q := by
  unfold affineFromJacobian
  by_cases hz : t.2.2 = 0
  · rw [if_pos hz, h.z_iff.mp hz]; rfl
  rw [if_neg hz]
  obtain ⟨w, hw, hc⟩ := affineFromJacobian_no_panic h.1 h.2.1 hz
  cases Q with
  | zero => exact absurd (h.z_iff.mpr rfl) hz
  | some x y hn =>
    obtain ⟨hz', hx, hy⟩ := h.2.2
    simp only [hw, Option.getD_some, enc]
    refine Prod.ext ?_ ?_
    · refine val_eq ?_ (mod_range _).1 (mod_range _).2
      simp only [modP_cast, Int.cast_mul, hc, hx]; field_simp
    · refine val_eq ?_ (mod_range _).1 (mod_range _).2
      simp only [modP_cast, Int.cast_mul, hc, hy]; field_simp

theorem rep_JI {x y : Int} {Q : Pt} (h : Rep c x y Q) : JI (x, y, zForAffine x y) Q := by
  have hP : (1 : Int) < P := by decide +kernel
  cases Q with
  | zero =>
    obtain ⟨rfl, rfl⟩ := h
    refine ⟨by decide, by decide +kernel, ?_⟩
    show ((zForAffine 0 0 : Int) : F) = 0
    simp [zForAffine]
  | some x' y' hn =>
    have hne : x ≠ 0 ∨ y ≠ 0 := by
      by_contra hc
      push Not at hc
      obtain ⟨rfl, rfl⟩ := hc
      exact good.origin_off hn ⟨by simpa using h.1.symm, by simpa using h.2.symm⟩
    have hz : zForAffine x y = 1 := if_pos hne
    rw [hz]
    refine ⟨zero_le_one, hP, ?_⟩
    refine ⟨by simp, ?_, ?_⟩
    · simp [h.1]
    · simp [h.2]

theorem add_spec {x1 y1 x2 y2 : Int} {Q R : Pt} (h1 : Rep c x1 y1 Q) (h2 : Rep c x2 y2 R) :
    add x1 y1 x2 y2 = enc c (Q + R) := affine_ok (add_ok (rep_JI h1) (rep_JI h2))

theorem double_spec {x y : Int} {Q : Pt} (h : Rep c x y Q) : double x y = enc c (2 • Q) := by
  rw [two_nsmul]; exact affine_ok (double_ok (rep_JI h))

theorem bit_step : ∀ (b : Fin 256) (n : Fin 8),
    (if (UInt8.ofNat b.val) &&& 0x80 == 0x80 then 1 else 0) * 2 ^ n.val
      + ((UInt8.ofNat b.val) <<< 1).toNat / 2 ^ (8 - n.val) = (UInt8.ofNat b.val).toNat / 2 ^ (7 - n.val) := by
  decide +kernel

theorem bit_step' (b : UInt8) (n : Nat) (hn : n < 8) :
    (if b &&& 0x80 == 0x80 then 1 else 0) * 2 ^ n + (b <<< 1).toNat / 2 ^ (8 - n) = b.toNat / 2 ^ (7 - n) := by
  have := bit_step ⟨b.toNat, b.toNat_lt⟩ ⟨n, hn⟩
  simpa only [UInt8.ofNat_toNat] using this

/-- base point with `z = 1`. -/
theorem bitLoop_ok {Bx By : Int} {Q : Pt} (hB : JI (Bx, By, 1) Q) (n : Nat) (hn : n ≤ 8) (b : UInt8)
    (t : Int × Int × Int) (m : Nat) (ht : JI t (m • Q)) :
    JI (bitLoop Bx By n b t) ((m * 2 ^ n + b.toNat / 2 ^ (8 - n)) • Q) := by
  induction n generalizing b t m with
  | zero =>
    have : b.toNat / 2 ^ (8 - 0) = 0 := Nat.div_eq_of_lt b.toNat_lt
    rw [this]; simpa [bitLoop] using ht
  | succ n ih =>
    have hs := bit_step' b n (by omega)
    have h7 : 8 - (n + 1) = 7 - n := by omega
    rw [h7, ← hs]
    unfold bitLoop
    have hd : JI (doubleJacobian t.1 t.2.1 t.2.2) ((2 * m) • Q) := by
      have := double_ok (x := t.1) (y := t.2.1) (z := t.2.2) ht
      rwa [← add_nsmul, ← two_mul] at this
    by_cases hb : b &&& 0x80 == 0x80
    · have := ih (by omega) (b <<< 1) _ (2 * m + 1) (by
        have ha := add_ok' hB hd
        rw [add_comm, ← succ_nsmul] at ha
        exact ha)
      simp only [hb, if_true]
      convert this using 2
      ring
    · have := ih (by omega) (b <<< 1) _ (2 * m) hd
      rw [if_neg hb]
      simp only [hb, Bool.false_eq_true, if_false]
      convert this using 2
      ring

theorem fold_ok {Bx By : Int} {Q : Pt} (hB : JI (Bx, By, 1) Q) (k : Bytes) (t : Int × Int × Int) (m : Nat)
    (ht : JI t (m • Q)) :
    JI (k.foldl (fun acc byte => bitLoop Bx By 8 byte acc) t) ((m * 256 ^ k.length + beNat k) • Q) := by
  induction k generalizing t m with
  | nil => simpa using ht
  | cons b k ih =>
    have h1 := bitLoop_ok hB 8 le_rfl b t m ht
    have h2 := ih _ _ h1
    simp only [List.foldl_cons]
    convert h2 using 2
    rw [beNat_cons, List.length_cons]
    simp; ring

theorem scalarMult_spec {x y : Int} {Q : Pt} (hQ : Q ≠ 0) (h : Rep c x y Q) (k : Bytes) :
    scalarMult x y k = enc c (beNat k • Q) := by
  have hB : JI (x, y, 1) Q := by
    have := rep_JI h
    have hz : zForAffine x y = 1 := by
      unfold zForAffine
      split
      · rfl
      · rename_i hz
        exfalso; apply hQ
        rw [← this.z_iff]
        exact if_neg hz
    rwa [hz] at this
  have h0 : JI (0, 0, 0) ((0 : ℕ) • Q) := by
    rw [zero_nsmul]
    refine ⟨le_rfl, P_pos, ?_⟩
    show ((0 : Int) : F) = 0
    simp
  have := fold_ok hB k (0, 0, 0) 0 h0
  rw [zero_mul, zero_add] at this
  exact affine_ok this

theorem repG : Rep c Gx Gy good.G := by
  constructor
  · show ((Gx : Int) : F) = ((c.gx : ℕ) : F)
    have : Gx = ((c.gx : ℕ) : Int) := by decide +kernel
    rw [this, Int.cast_natCast]
  · show ((Gy : Int) : F) = ((c.gy : ℕ) : F)
    have : Gy = ((c.gy : ℕ) : Int) := by decide +kernel
    rw [this, Int.cast_natCast]

theorem G_ne_zero : good.G ≠ 0 := Affine.Point.some_ne_zero _

theorem scalarBaseMult_spec (k : Bytes) : scalarBaseMult k = enc c (beNat k • good.G) :=
  scalarMult_spec G_ne_zero repG k

theorem curveOk : CurveOk c good impl (Rep c) where
  in_enc := rep_enc
  in_rep := id
  add := add_spec
  mul := fun k hP h => scalarMult_spec hP h k
  baseMul := scalarBaseMult_spec

/-- `N·G = 0`, by running the model's `ScalarBaseMult` in the kernel. -/
theorem N_smul_G : c.n • good.G = 0 := by
  have h := scalarBaseMult_spec (natBytes c.n)
  have h2 : scalarBaseMult (natBytes c.n) = (0, 0) := by decide +kernel
  rw [h2, beNat_natBytes] at h
  exact (good.enc_zero_iff _).mp h.symm

theorem isOnCurve_iff (x y : Int) : isOnCurve x y = true ↔ (y : F) ^ 2 = (x : F) ^ 3 + c.a * x + c.b := by
  unfold isOnCurve
  have h0 : ((c.a : ℕ) : F) = 0 := by simp [c]
  have h7 : ((c.b : ℕ) : F) = ((B : Int) : F) := by simp [c, B]
  rw [beq_iff_eq, ← sub_eq_zero, sub_range_zero (mod_range _) (mod_range _), h0, h7]
  simp only [modP_cast, Int.cast_add, Int.cast_mul]
  constructor
  · intro h; linear_combination -h
  · intro h; linear_combination -h

end Verif.Secp256k1
