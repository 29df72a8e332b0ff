import Verif.Ed25519.Curve
import Verif.Ed25519.Group

/-!
# The formulas of edwards25519.go compute the group law
-/

namespace Verif.Ed25519

open Edwards

/-- canonical limbs or their negation. -/
abbrev Wide := Bd 67108863 33554431

theorem Bd.wide {f : Fe} (h : Tight f) : Wide f := h.mono (by norm_num) (by norm_num)

structure RepP (p : Proj) (A : Pt) : Prop where
  tX : Wide p.X
  tY : Tight p.Y
  tZ : Tight p.Z
  z0 : fval p.Z ≠ 0
  x : fval p.X = A.x * fval p.Z
  y : fval p.Y = A.y * fval p.Z

structure RepE (p : Ext) (A : Pt) : Prop where
  tX : Wide p.X
  tY : Tight p.Y
  tZ : Tight p.Z
  tT : Tight p.T
  z0 : fval p.Z ≠ 0
  x : fval p.X = A.x * fval p.Z
  y : fval p.Y = A.y * fval p.Z
  t : fval p.T = A.x * A.y * fval p.Z

structure RepC (p : Compl) (A : Pt) : Prop where
  tX : Loose p.X
  tY : Loose p.Y
  tZ : Loose p.Z
  tT : Loose p.T
  z0 : fval p.Z ≠ 0
  t0 : fval p.T ≠ 0
  x : fval p.X = A.x * fval p.Z
  y : fval p.Y = A.y * fval p.T

structure RepCa (c : Cached) (A : Pt) : Prop where
  tP : Loose c.yPlusX
  tM : Loose c.yMinusX
  tZ : Loose c.Z
  tT : Loose c.T2d
  z0 : fval c.Z ≠ 0
  p : fval c.yPlusX = (A.y + A.x) * fval c.Z
  m : fval c.yMinusX = (A.y - A.x) * fval c.Z
  t : fval c.T2d = 2 * D * A.x * A.y * fval c.Z

structure RepPre (c : PreC) (A : Pt) : Prop where
  tP : Tight c.yPlusX
  tM : Tight c.yMinusX
  tT : Tight c.xy2d
  p : fval c.yPlusX = A.y + A.x
  m : fval c.yMinusX = A.y - A.x
  t : fval c.xy2d = 2 * D * A.x * A.y

theorem two_ne_zero' : (2 : F) ≠ 0 := Complete.two (d := D)

theorem dC_val : fval dC = D := by
  rw [← dNat_eq, fval, ← Int.cast_natCast (R := F), fcast_iff]
  decide +kernel

theorem dC_tight : Tight dC := by constructor <;> decide

theorem d2C_val : fval d2C = 2 * D := by
  have : fval d2C = ((2 * dNat : ℕ) : F) := by
    rw [fval, ← Int.cast_natCast (R := F), fcast_iff]
    decide +kernel
  rw [this, Nat.cast_mul, dNat_eq]; rfl

theorem d2C_tight : Tight d2C := by constructor <;> decide

theorem sqrtM1C_val : fval sqrtM1C = sqrtM1 := by
  rw [fval, ← Int.cast_natCast (R := F), fcast_iff]
  decide +kernel

theorem sqrtM1C_tight : Tight sqrtM1C := by constructor <;> decide

theorem projZero_rep : RepP projZero 0 := by
  refine ⟨feZero_tight.wide, feOne_tight, feOne_tight, ?_, ?_, ?_⟩
  · simp [projZero, feOne_val]
  · simp [projZero, feZero_val, zero_x]
  · simp [projZero, feOne_val, zero_y]

theorem extZero_rep : RepE extZero 0 := by
  refine ⟨feZero_tight.wide, feOne_tight, feOne_tight, feZero_tight, ?_, ?_, ?_, ?_⟩
  · simp [extZero, feOne_val]
  · simp [extZero, feZero_val, zero_x]
  · simp [extZero, feOne_val, zero_y]
  · simp [extZero, feZero_val, zero_x]

theorem preZero_rep : RepPre preZero 0 := by
  refine ⟨feOne_tight, feOne_tight, feZero_tight, ?_, ?_, ?_⟩
  · simp [preZero, feOne_val, zero_x, zero_y]
  · simp [preZero, feOne_val, zero_x, zero_y]
  · simp [preZero, feZero_val, zero_x]

theorem extToProj_rep {p : Ext} {A : Pt} (h : RepE p A) : RepP (extToProj p) A := ⟨h.tX, h.tY, h.tZ, h.z0, h.x, h.y⟩

theorem complToProj_rep {p : Compl} {A : Pt} (h : RepC p A) : RepP (complToProj p) A := by
  refine ⟨(feMul_tight h.tX h.tT).wide, feMul_tight h.tY h.tZ, feMul_tight h.tZ h.tT, ?_, ?_, ?_⟩ <;> simp only [complToProj]
  · rw [feMul_val h.tZ h.tT]; exact mul_ne_zero h.z0 h.t0
  · rw [feMul_val h.tZ h.tT, feMul_val h.tX h.tT, h.x]; ring
  · rw [feMul_val h.tZ h.tT, feMul_val h.tY h.tZ, h.y]; ring

theorem complToExt_rep {p : Compl} {A : Pt} (h : RepC p A) : RepE (complToExt p) A := by
  refine ⟨(feMul_tight h.tX h.tT).wide, feMul_tight h.tY h.tZ, feMul_tight h.tZ h.tT, feMul_tight h.tX h.tY, ?_, ?_, ?_, ?_⟩ <;>
    simp only [complToExt]
  · rw [feMul_val h.tZ h.tT]; exact mul_ne_zero h.z0 h.t0
  · rw [feMul_val h.tZ h.tT, feMul_val h.tX h.tT, h.x]; ring
  · rw [feMul_val h.tZ h.tT, feMul_val h.tY h.tZ, h.y]; ring
  · rw [feMul_val h.tZ h.tT, feMul_val h.tX h.tY, h.x, h.y]; ring

theorem extToCached_rep {p : Ext} {A : Pt} (h : RepE p A) : RepCa (extToCached p) A := by
  refine ⟨(feAdd_bd h.tY h.tX).loose, (feSub_bd h.tY h.tX).loose, h.tZ.loose, (feMul_tight h.tT.loose d2C_tight.loose).loose, h.z0,
    ?_, ?_, ?_⟩ <;> simp only [extToCached]
  · rw [feAdd_val h.tY h.tX, h.x, h.y]; ring
  · rw [feSub_val h.tY h.tX, h.x, h.y]; ring
  · rw [feMul_val h.tT.loose d2C_tight.loose, d2C_val, h.t]; ring

theorem projDouble_rep {p : Proj} {A : Pt} (h : RepP p A) : RepC (projDouble p) (A + A) := by
  have sX := feSquare_tight h.tX.loose
  have sY := feSquare_tight h.tY.loose
  have sZ := feSquare2_tight h.tZ.loose
  have aXY := (feAdd_bd h.tX h.tY).loose
  have t0 := feSquare_tight aXY
  have a := feAdd_bd sY sX
  have s := feSub_bd sY sX
  have e := A.on
  have dp := den_plus A A
  have dm := den_minus A A
  have vX := feSquare_val h.tX.loose
  have vY := feSquare_val h.tY.loose
  have vZ := feSquare2_val h.tZ.loose
  have v0 := feSquare_val aXY
  rw [feAdd_val h.tX h.tY] at v0
  have va := feAdd_val sY sX
  have vs := feSub_val sY sX
  have vx := feSub_val t0 a
  have vt := feSub_val sZ s
  have hZ : fval (feSub (feSquare p.Y) (feSquare p.X)) = (1 + D * A.x * A.x * A.y * A.y) * fval p.Z ^ 2 := by
    rw [vs, vX, vY, h.x, h.y]
    linear_combination fval p.Z ^ 2 * e
  have hT : fval (feSub (feSquare2 p.Z) (feSub (feSquare p.Y) (feSquare p.X))) = (1 - D * A.x * A.x * A.y * A.y) * fval p.Z ^ 2 := by
    rw [vt, hZ, vZ]; ring
  have z2 := pow_ne_zero 2 h.z0
  refine ⟨(feSub_bd t0 a).loose, a.loose, s.loose, (feSub_bd sZ s).loose, ?_, ?_, ?_, ?_⟩ <;> simp only [projDouble]
  · rw [hZ]; exact mul_ne_zero dp z2
  · rw [hT]; exact mul_ne_zero dm z2
  · rw [hZ, vx, v0, va, vX, vY, h.x, h.y, add_x, ← mul_assoc, div_mul_cancel₀ _ dp]
    ring
  · rw [hT, va, vX, vY, h.x, h.y, add_y, ← mul_assoc, div_mul_cancel₀ _ dm]
    ring

theorem extDouble_rep {p : Ext} {A : Pt} (h : RepE p A) : RepC (extDouble p) (A + A) := projDouble_rep (extToProj_rep h)

/-- the common end of the four addition functions. -/
theorem add_core {a b t0 t : Fe} {A B : Pt} {w : F} (ta : Tight a) (tb : Tight b) (t2 : Mid t0) (tt : Tight t) (w0 : w ≠ 0)
    (ha : fval a = (A.y + A.x) * (B.y + B.x) * w) (hb : fval b = (A.y - A.x) * (B.y - B.x) * w)
    (h2 : fval t0 = 2 * w) (ht : fval t = 2 * D * A.x * A.y * B.x * B.y * w) :
    RepC ⟨feSub a b, feAdd a b, feAdd t0 t, feSub t0 t⟩ (A + B) := by
  have dp := den_plus A B
  have dm := den_minus A B
  have hZ : fval (feAdd t0 t) = (1 + D * A.x * B.x * A.y * B.y) * (2 * w) := by rw [feAdd_val t2 tt, h2, ht]; ring
  have hT : fval (feSub t0 t) = (1 - D * A.x * B.x * A.y * B.y) * (2 * w) := by rw [feSub_val t2 tt, h2, ht]; ring
  have w2 := mul_ne_zero two_ne_zero' w0
  refine ⟨(feSub_bd ta tb).loose, (feAdd_bd ta tb).loose, (feAdd_bd t2 tt).loose, (feSub_bd t2 tt).loose, ?_, ?_, ?_, ?_⟩ <;> dsimp only
  · rw [hZ]; exact mul_ne_zero dp w2
  · rw [hT]; exact mul_ne_zero dm w2
  · rw [hZ, feSub_val ta tb, ha, hb, add_x, ← mul_assoc, div_mul_cancel₀ _ dp]
    ring
  · rw [hT, feAdd_val ta tb, ha, hb, add_y, ← mul_assoc, div_mul_cancel₀ _ dm]
    ring

theorem geAdd_rep {p : Ext} {q : Cached} {A B : Pt} (h : RepE p A) (k : RepCa q B) : RepC (geAdd p q) (A + B) := by
  have a := (feAdd_bd h.tY h.tX).loose
  have s := (feSub_bd h.tY h.tX).loose
  have z := feMul_tight h.tZ.loose k.tZ
  refine add_core (w := fval p.Z * fval q.Z) (feMul_tight a k.tP) (feMul_tight s k.tM) (feAdd_bd z z) (feMul_tight k.tT h.tT.loose)
    (mul_ne_zero h.z0 k.z0) ?_ ?_ ?_ ?_
  · rw [feMul_val a k.tP, feAdd_val h.tY h.tX, h.x, h.y, k.p]; ring
  · rw [feMul_val s k.tM, feSub_val h.tY h.tX, h.x, h.y, k.m]; ring
  · rw [feAdd_val z z, feMul_val h.tZ.loose k.tZ]; ring
  · rw [feMul_val k.tT h.tT.loose, k.t, h.t]; ring

theorem geMixedAdd_rep {p : Ext} {q : PreC} {A B : Pt} (h : RepE p A) (k : RepPre q B) : RepC (geMixedAdd p q) (A + B) := by
  have a := (feAdd_bd h.tY h.tX).loose
  have s := (feSub_bd h.tY h.tX).loose
  refine add_core (w := fval p.Z) (feMul_tight a k.tP.loose) (feMul_tight s k.tM.loose) (feAdd_bd h.tZ h.tZ)
    (feMul_tight k.tT.loose h.tT.loose) h.z0 ?_ ?_ ?_ ?_
  · rw [feMul_val a k.tP.loose, feAdd_val h.tY h.tX, h.x, h.y, k.p]; ring
  · rw [feMul_val s k.tM.loose, feSub_val h.tY h.tX, h.x, h.y, k.m]; ring
  · rw [feAdd_val h.tZ h.tZ]; ring
  · rw [feMul_val k.tT.loose h.tT.loose, k.t, h.t]; ring

/-- the same with the sign of `t` changed. -/
theorem sub_core {a b t0 t : Fe} {A B : Pt} {w : F} (ta : Tight a) (tb : Tight b) (t2 : Mid t0) (tt : Tight t) (w0 : w ≠ 0)
    (ha : fval a = (A.y + A.x) * (B.y - B.x) * w) (hb : fval b = (A.y - A.x) * (B.y + B.x) * w)
    (h2 : fval t0 = 2 * w) (ht : fval t = 2 * D * A.x * A.y * B.x * B.y * w) :
    RepC ⟨feSub a b, feAdd a b, feSub t0 t, feAdd t0 t⟩ (A - B) := by
  have dp := den_plus A (-B)
  have dm := den_minus A (-B)
  rw [neg_x, neg_y] at dp dm
  have hZ : fval (feSub t0 t) = (1 + D * A.x * -B.x * A.y * B.y) * (2 * w) := by rw [feSub_val t2 tt, h2, ht]; ring
  have hT : fval (feAdd t0 t) = (1 - D * A.x * -B.x * A.y * B.y) * (2 * w) := by rw [feAdd_val t2 tt, h2, ht]; ring
  have w2 := mul_ne_zero two_ne_zero' w0
  rw [sub_eq_add_neg]
  refine ⟨(feSub_bd ta tb).loose, (feAdd_bd ta tb).loose, (feSub_bd t2 tt).loose, (feAdd_bd t2 tt).loose, ?_, ?_, ?_, ?_⟩ <;> dsimp only
  · rw [hZ]; exact mul_ne_zero dp w2
  · rw [hT]; exact mul_ne_zero dm w2
  · rw [hZ, feSub_val ta tb, ha, hb, add_x, neg_x, neg_y, ← mul_assoc, div_mul_cancel₀ _ dp]
    ring
  · rw [hT, feAdd_val ta tb, ha, hb, add_y, neg_x, neg_y, ← mul_assoc, div_mul_cancel₀ _ dm]
    ring

theorem geSub_rep {p : Ext} {q : Cached} {A B : Pt} (h : RepE p A) (k : RepCa q B) : RepC (geSub p q) (A - B) := by
  have a := (feAdd_bd h.tY h.tX).loose
  have s := (feSub_bd h.tY h.tX).loose
  have z := feMul_tight h.tZ.loose k.tZ
  refine sub_core (w := fval p.Z * fval q.Z) (feMul_tight a k.tM) (feMul_tight s k.tP) (feAdd_bd z z) (feMul_tight k.tT h.tT.loose)
    (mul_ne_zero h.z0 k.z0) ?_ ?_ ?_ ?_
  · rw [feMul_val a k.tM, feAdd_val h.tY h.tX, h.x, h.y, k.m]; ring
  · rw [feMul_val s k.tP, feSub_val h.tY h.tX, h.x, h.y, k.p]; ring
  · rw [feAdd_val z z, feMul_val h.tZ.loose k.tZ]; ring
  · rw [feMul_val k.tT h.tT.loose, k.t, h.t]; ring

theorem geMixedSub_rep {p : Ext} {q : PreC} {A B : Pt} (h : RepE p A) (k : RepPre q B) : RepC (geMixedSub p q) (A - B) := by
  have a := (feAdd_bd h.tY h.tX).loose
  have s := (feSub_bd h.tY h.tX).loose
  refine sub_core (w := fval p.Z) (feMul_tight a k.tM.loose) (feMul_tight s k.tP.loose) (feAdd_bd h.tZ h.tZ)
    (feMul_tight k.tT.loose h.tT.loose) h.z0 ?_ ?_ ?_ ?_
  · rw [feMul_val a k.tM.loose, feAdd_val h.tY h.tX, h.x, h.y, k.m]; ring
  · rw [feMul_val s k.tP.loose, feSub_val h.tY h.tX, h.x, h.y, k.p]; ring
  · rw [feAdd_val h.tZ h.tZ]; ring
  · rw [feMul_val k.tT.loose h.tT.loose, k.t, h.t]; ring

/-! ## Encoding -/

theorem xor_top {b x : UInt8} (hb : b < 128) (hx : x.toNat < 2) : (b ^^^ (x <<< 7)).toNat = b.toNat + 128 * x.toNat := by
  have hx' : x = 0 ∨ x = 1 := by
    rcases Nat.lt_or_ge x.toNat 1 with h | h
    · left; apply UInt8.toNat_inj.mp; simp; omega
    · right; apply UInt8.toNat_inj.mp; simp; omega
  have key : ∀ n : Fin 128, (UInt8.ofNat n.val ^^^ ((0 : UInt8) <<< 7)).toNat = n.val + 128 * (0 : UInt8).toNat ∧
      (UInt8.ofNat n.val ^^^ ((1 : UInt8) <<< 7)).toNat = n.val + 128 * (1 : UInt8).toNat := by decide
  have hk := key ⟨b.toNat, by simpa [UInt8.lt_iff_toNat_lt] using hb⟩
  simp only [UInt8.ofNat_toNat] at hk
  rcases hx' with rfl | rfl
  · exact hk.1
  · exact hk.2

theorem set_last (s : Bytes) (h : s.length = 32) (v : UInt8) : leNat (s.set 31 v) = leNat (s.take 31) + 256 ^ 31 * v.toNat := by
  rw [List.set_eq_take_append_cons_drop, if_pos (by omega), List.drop_eq_nil_of_le (by omega), leNat_append, List.length_take, h]
  simp [leNat]

theorem last_split (s : Bytes) (h : s.length = 32) : leNat s = leNat (s.take 31) + 256 ^ 31 * (s.getD 31 0).toNat := by
  have := leNat_take_drop s 31 (by omega)
  rw [this, List.drop_eq_getElem_cons (by omega), List.drop_eq_nil_of_le (by omega)]
  simp [leNat, List.getD, h]

theorem affBytes_length (X Y Z : Fe) : (affBytes X Y Z).length = 32 := by
  simp [affBytes, xorLast, feToBytes_length]

theorem val_lt_P (x : F) : x.val < P := ZMod.val_lt x

theorem affBytes_spec {X Y Z : Fe} {A : Pt} (tX : Loose X) (tY : Loose Y) (tZ : Loose Z) (z0 : fval Z ≠ 0) (hx : fval X = A.x * fval Z)
    (hy : fval Y = A.y * fval Z) : leNat (affBytes X Y Z) = enc A := by
  obtain ⟨tI, vI⟩ := feInvert_spec tZ
  have tx := feMul_tight tX tI.loose
  have ty := feMul_tight tY tI.loose
  have vx : fval (feMul X (feInvert Z)) = A.x := by rw [feMul_val tX tI.loose, vI, hx]; field_simp
  have vy : fval (feMul Y (feInvert Z)) = A.y := by rw [feMul_val tY tI.loose, vI, hy]; field_simp
  have e := feToBytes_spec ty.loose
  have n := feIsNegative_spec tx.loose
  rw [vx] at n
  rw [vy] at e
  have l := feToBytes_length (feMul Y (feInvert Z))
  have sp := last_split _ l
  have lt := leNat_lt ((feToBytes (feMul Y (feInvert Z))).take 31)
  have hv := val_lt_P A.y
  have hP : P < 2 ^ 255 := by unfold P; norm_num
  simp only [affBytes, xorLast]
  rw [set_last _ l, xor_top, n, enc, ← e, sp]
  · ring
  · rw [UInt8.lt_iff_toNat_lt]
    rw [← e, sp] at hv
    have : (128 : UInt8).toNat = 128 := rfl
    rw [this]
    by_contra hc
    have : 256 ^ 31 * 128 ≤ 256 ^ 31 * ((feToBytes (feMul Y (feInvert Z))).getD 31 0).toNat := Nat.mul_le_mul_left _ (by omega)
    have h5 : (256 : ℕ) ^ 31 * 128 = 2 ^ 255 := by norm_num
    omega
  · rw [n]; omega

theorem projToBytes_spec {p : Proj} {A : Pt} (h : RepP p A) : leNat (projToBytes p) = enc A :=
  affBytes_spec h.tX.loose h.tY.loose h.tZ.loose h.z0 h.x h.y

theorem extToBytes_spec {p : Ext} {A : Pt} (h : RepE p A) : leNat (extToBytes p) = enc A :=
  affBytes_spec h.tX.loose h.tY.loose h.tZ.loose h.z0 h.x h.y

theorem enc_lt (A : Pt) : enc A < 2 ^ 256 := by
  have hv := val_lt_P A.y
  have hP : P < 2 ^ 255 := by unfold P; norm_num
  unfold enc
  have : A.x.val % 2 < 2 := Nat.mod_lt _ (by norm_num)
  have : 2 ^ 255 * (A.x.val % 2) ≤ 2 ^ 255 * 1 := Nat.mul_le_mul_left _ (by omega)
  omega

theorem enc_low (A : Pt) : enc A % 2 ^ 255 = A.y.val := by
  have hv := val_lt_P A.y
  have hP : P < 2 ^ 255 := by unfold P; norm_num
  rw [enc, Nat.add_mul_mod_self_left, Nat.mod_eq_of_lt (by omega)]

theorem enc_high (A : Pt) : enc A / 2 ^ 255 = A.x.val % 2 := by
  have hv := val_lt_P A.y
  have hP : P < 2 ^ 255 := by unfold P; norm_num
  rw [enc, Nat.add_mul_div_left _ _ (by positivity), Nat.div_eq_of_lt (by omega), Nat.zero_add]

theorem decodes_of_enc {s : Bytes} {A : Pt} (h : leNat s = enc A) : Decodes s A := by
  refine ⟨?_, Or.inr ?_⟩
  · rw [h, enc_low, ZMod.natCast_val, ZMod.cast_id]
  · rw [h, enc_high]

theorem v_ne_zero (y : F) : D * y ^ 2 + 1 ≠ 0 := by
  intro h
  have y0 : y ≠ 0 := by rintro rfl; simp at h
  refine Complete.nonsquare (d := D) (sqrtM1 / y) ?_
  rw [div_mul_div_comm, sqrtM1_sq]
  field_simp
  linear_combination -h

theorem on_iff (x y : F) : y ^ 2 - x ^ 2 = 1 + D * x ^ 2 * y ^ 2 ↔ (D * y ^ 2 + 1) * x ^ 2 = y ^ 2 - 1 :=
  ⟨fun h => by linear_combination -h, fun h => by linear_combination -h⟩

theorem neg_parity {x : F} (h : x ≠ 0) : (-x).val % 2 ≠ x.val % 2 := by
  have hx := val_lt_P x
  haveI : NeZero x := ⟨h⟩
  rw [ZMod.val_neg_of_ne_zero]
  have : x.val ≠ 0 := by rw [Ne, ZMod.val_eq_zero]; exact h
  have hP : P % 2 = 1 := by decide
  omega

/-- a string decodes to at most one point. -/
theorem Decodes.unique {s : Bytes} {A B : Pt} (ha : Decodes s A) (hb : Decodes s B) : A = B := by
  have hy : A.y = B.y := ha.1.trans hb.1.symm
  have hx : A.x ^ 2 = B.x ^ 2 := by
    have h1 := (on_iff _ _).mp A.on
    have h2 := (on_iff _ _).mp B.on
    rw [hy] at h1
    exact mul_left_cancel₀ (v_ne_zero B.y) (h1.trans h2.symm)
  have : A.x = B.x := by
    rcases sq_eq_sq_iff_eq_or_eq_neg.mp hx with h | h
    · exact h
    · by_cases hz : B.x = 0
      · rw [h, hz, neg_zero]
      · have hz' : A.x ≠ 0 := by rw [h]; exact neg_ne_zero.mpr hz
        exfalso
        have e1 := ha.2.resolve_left hz'
        have e2 := hb.2.resolve_left hz
        refine neg_parity hz ?_
        rw [← h, e1, e2]
  exact Point.ext this hy

theorem enc_injective {A B : Pt} (h : enc A = enc B) : A = B := by
  have hy : A.y = B.y := by
    apply ZMod.val_injective
    rw [← enc_low, ← enc_low, h]
  have hp : A.x.val % 2 = B.x.val % 2 := by rw [← enc_high, ← enc_high, h]
  have hx : A.x ^ 2 = B.x ^ 2 := by
    have h1 := (on_iff _ _).mp A.on
    have h2 := (on_iff _ _).mp B.on
    rw [hy] at h1
    exact mul_left_cancel₀ (v_ne_zero B.y) (h1.trans h2.symm)
  refine Point.ext ?_ hy
  rcases sq_eq_sq_iff_eq_or_eq_neg.mp hx with h | h
  · exact h
  · by_cases hz : B.x = 0
    · rw [h, hz, neg_zero]
    · exact absurd (by rw [← h, hp]) (neg_parity hz)

/-! ## Decoding -/

theorem sqrtCand_spec {Y : Fe} (h : Tight Y) : let c := sqrtCand Y; let y := fval Y; let u := y ^ 2 - 1; let v := D * y ^ 2 + 1
    Bd 67779952 33889976 c.1 ∧ Tight c.2.1 ∧ Tight c.2.2 ∧ fval c.1 = u ∧ fval c.2.2 = v * fval c.2.1 ^ 2 ∧
      v * fval c.2.1 ^ 2 = u * (u * v ^ 7) ^ ((P - 1) / 4) := by
  have t1 := feSquare_tight h.loose
  have e1 := feSquare_val h.loose
  have t2 := feMul_tight t1.loose dC_tight.loose
  have e2 := feMul_val t1.loose dC_tight.loose
  have t3 := feSub_bd t1 feOne_tight
  have e3 := feSub_val t1 feOne_tight
  have t4 := feAdd_bd t2 feOne_tight
  have e4 := feAdd_val t2 feOne_tight
  rw [e1, feOne_val] at e3
  rw [e2, e1, feOne_val, dC_val] at e4
  simp only [sqrtCand]
  generalize feSub (feSquare Y) feOne = u at *
  generalize feAdd (feMul (feSquare Y) dC) feOne = v at *
  have lu := t3.loose
  have lv := t4.loose
  have t5 := feSquare_tight lv
  have e5 := feSquare_val lv
  have t6 := feMul_tight t5.loose lv
  have e6 := feMul_val t5.loose lv
  rw [e5] at e6
  generalize feMul (feSquare v) v = v3 at *
  have t7 := feSquare_tight t6.loose
  have e7 := feSquare_val t6.loose
  have t8 := feMul_tight t7.loose lv
  have e8 := feMul_val t7.loose lv
  have t9 := feMul_tight t8.loose lu
  have e9 := feMul_val t8.loose lu
  rw [e8, e7, e6] at e9
  generalize feMul (feMul (feSquare v3) v) u = w at *
  obtain ⟨t10, e10⟩ := fePow22523_spec t9.loose
  rw [e9] at e10
  generalize fePow22523 w = q at *
  have t11 := feMul_tight t10.loose t6.loose
  have e11 := feMul_val t10.loose t6.loose
  have t12 := feMul_tight t11.loose lu
  have e12 := feMul_val t11.loose lu
  rw [e11, e10, e6] at e12
  generalize feMul (feMul q v3) u = X at *
  have t13 := feSquare_tight t12.loose
  have e13 := feSquare_val t12.loose
  have t14 := feMul_tight t13.loose lv
  have e14 := feMul_val t13.loose lv
  rw [e13] at e14
  have hu : fval u = fval Y ^ 2 - 1 := e3
  have hv : fval v = D * fval Y ^ 2 + 1 := by rw [e4]; ring
  rw [← hu, ← hv]
  refine ⟨t3, t12, t14, rfl, by rw [e14]; ring, ?_⟩
  have h7 : ((fval v ^ 2 * fval v) ^ 2 * fval v * fval u) = fval u * fval v ^ 7 := by ring
  have h8 : (fval u * fval v ^ 7) ^ ((P - 1) / 4) = ((fval u * fval v ^ 7) ^ ((P - 5) / 8)) ^ 2 * (fval u * fval v ^ 7) := by
    rw [show (P - 1) / 4 = (P - 5) / 8 * 2 + 1 from by decide, pow_succ, pow_mul]
  rw [e12, h7, h8]
  generalize (fval u * fval v ^ 7) ^ ((P - 5) / 8) = r
  ring

theorem sign_bit {s : Bytes} (h : s.length = 32) : (s.getD 31 0 >>> 7).toNat = leNat s / 2 ^ 255 := by
  have lt := leNat_lt (s.take 31)
  rw [List.length_take, h] at lt
  have lt : leNat (s.take 31) < 256 ^ 31 := lt
  rw [last_split s h, UInt8.toNat_shiftRight, show (7 : UInt8).toNat % 8 = 7 from rfl, Nat.shiftRight_eq_div_pow,
    show 2 ^ 255 = 256 ^ 31 * 128 from by norm_num, ← Nat.div_div_eq_div_mul, Nat.add_mul_div_left _ _ (by positivity),
    Nat.div_eq_of_lt lt, Nat.zero_add]

/-- edwards25519.go:635-640: the end of `FromBytes`. -/
theorem sign_spec {s : Bytes} (h : s.length = 32) {X Y : Fe} (tX : Loose X) (tY : Tight Y)
    (hy : fval Y = ((leNat s % 2 ^ 255 : ℕ) : F))
    (on : fval Y ^ 2 - fval X ^ 2 = 1 + D * fval X ^ 2 * fval Y ^ 2) :
    let X' := if feIsNegative X ≠ s.getD 31 0 >>> 7 then feNeg (feReduce X) else feReduce X
    ∃ A : Pt, Decodes s A ∧ RepE ⟨X', Y, feOne, feMul X' Y⟩ A := by
  intro X'
  have n := feIsNegative_spec tX
  have r := feReduce_canon tX
  have rv := feReduce_val tX
  have hs := sign_bit h
  have key : Wide X' ∧ fval X' ^ 2 = fval X ^ 2 ∧ (fval X' = 0 ∨ (fval X').val % 2 = leNat s / 2 ^ 255) := by
    simp only [X']
    split
    · rename_i hne
      refine ⟨feNeg_bd r.bd, by rw [feNeg_val r.bd, rv]; ring, ?_⟩
      rw [feNeg_val r.bd, rv]
      by_cases hz : fval X = 0
      · left; rw [hz, neg_zero]
      · right
        have a := neg_parity hz
        have hb : leNat s / 2 ^ 255 < 2 := by
          have := leNat_lt s
          rw [h] at this
          have : leNat s < 2 ^ 256 := lt_of_lt_of_le this (by norm_num)
          omega
        have : (fval X).val % 2 ≠ leNat s / 2 ^ 255 := by
          rw [← n, ← hs]
          exact fun e => hne (UInt8.toNat_inj.mp e)
        omega
    · rename_i he
      push Not at he
      refine ⟨r.bd, by rw [rv], Or.inr ?_⟩
      rw [rv, ← n, he, hs]
  obtain ⟨w, sq, par⟩ := key
  refine ⟨⟨fval X', fval Y, by rw [sq]; exact on⟩, ⟨hy, par⟩, w, tY, feOne_tight, feMul_tight w.loose tY.loose, ?_, ?_, ?_, ?_⟩ <;>
    dsimp only <;> rw [feOne_val]
  · exact one_ne_zero
  · ring
  · ring
  · rw [feMul_val w.loose tY.loose]; ring

/-- `FromBytes` succeeds exactly on the strings that decode to a point, and then holds that point. -/
theorem extFromBytes_spec {s : Bytes} (h : s.length = 32) :
    ((extFromBytes s).1 = true ∧ ∃ A : Pt, Decodes s A ∧ RepE (extFromBytes s).2 A) ∨
      ((extFromBytes s).1 = false ∧ ∀ A : Pt, A.y ≠ ((leNat s % 2 ^ 255 : ℕ) : F)) := by
  obtain ⟨tY, hy⟩ := feFromBytes_spec h
  have sp := sqrtCand_spec tY
  simp only [extFromBytes]
  simp only at sp
  generalize feFromBytes s = Y at *
  generalize sqrtCand Y = c at *
  obtain ⟨u, X, vxx⟩ := c
  simp only at sp ⊢
  obtain ⟨tu, tX, tv, hu, hv, hw⟩ := sp
  have tu' : Bd 67779952 33889976 u := tu
  have cs := feIsNonZero_spec (feSub_bd tv tu').loose
  have ca := feIsNonZero_spec (feAdd_bd tv tu').loose
  rw [feSub_val tv tu', hu, hv] at cs
  rw [feAdd_val tv tu', hu, hv] at ca
  by_cases h1 : (D * fval Y ^ 2 + 1) * fval X ^ 2 - (fval Y ^ 2 - 1) = 0
  · rw [if_pos h1] at cs
    rw [cs, if_neg (by decide)]
    left
    exact ⟨rfl, sign_spec h tX.loose tY hy ((on_iff _ _).mpr (by linear_combination h1))⟩
  · rw [if_neg h1] at cs
    rw [cs, if_pos rfl]
    by_cases h2 : (D * fval Y ^ 2 + 1) * fval X ^ 2 + (fval Y ^ 2 - 1) = 0
    · rw [if_pos h2] at ca
      rw [ca, if_neg (by decide)]
      left
      have tm := feMul_tight tX.loose sqrtM1C_tight.loose
      have rc := (feReduce_canon tm.loose).loose
      refine ⟨rfl, sign_spec h rc tY hy ((on_iff _ _).mpr ?_)⟩
      rw [feReduce_val tm.loose, feMul_val tX.loose sqrtM1C_tight.loose, sqrtM1C_val]
      linear_combination -h2 + (D * fval Y ^ 2 + 1) * fval X ^ 2 * sqrtM1_sq
    · rw [if_neg h2] at ca
      rw [ca, if_pos rfl]
      right
      refine ⟨rfl, fun A hA => ?_⟩
      have hA' : A.y = fval Y := hA.trans hy.symm
      have on := (on_iff _ _).mp A.on
      rw [hA'] at on
      rw [← on] at hw h1 h2
      generalize D * fval Y ^ 2 + 1 = v at *
      by_cases hx : A.x = 0
      · rw [hx] at hw h1
        apply h1
        rw [hw]; ring
      · by_cases hv0 : v = 0
        · apply h1; rw [hv0]; ring
        have sq : ((v * A.x ^ 2 * v ^ 7) ^ ((P - 1) / 4)) * ((v * A.x ^ 2 * v ^ 7) ^ ((P - 1) / 4)) = 1 := by
          rw [← mul_pow, ← pow_half (z := v ^ 4 * A.x) (mul_ne_zero (pow_ne_zero 4 hv0) hx)]
          rw [show (P - 1) / 2 = 2 * ((P - 1) / 4) from by decide, pow_mul]
          congr 1
          ring
        rcases mul_self_eq_one_iff.mp sq with e | e
        · rw [e] at hw; apply h1; rw [hw]; ring
        · rw [e] at hw; apply h2; rw [hw]; ring

theorem extFromBytes_true {s : Bytes} (h : s.length = 32) {A : Pt} (hA : Decodes s A) :
    (extFromBytes s).1 = true ∧ RepE (extFromBytes s).2 A := by
  rcases extFromBytes_spec h with ⟨h1, B, hB, r⟩ | ⟨_, h2⟩
  · rw [hA.unique hB]; exact ⟨h1, r⟩
  · exact absurd hA.1 (h2 A)

end Verif.Ed25519
