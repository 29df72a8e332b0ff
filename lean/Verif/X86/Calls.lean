import Verif.X86.Small
import Verif.X86.AdxBody
import Verif.X86.NoAdxBody
import Verif.X86.Exact

/-!
# What each function of arithmetic_x86.s leaves in memory
-/

set_option exponentiation.threshold 1000
set_option linter.unusedVariables false

namespace Verif.X86

open Verif.Bls

theorem load_store6 (m : UInt64 → UInt64) (p x0 x1 x2 x3 x4 x5 : UInt64) :
    load (store6 m p x0 x1 x2 x3 x4 x5) p = ⟨x0, x1, x2, x3, x4, x5⟩ := by
  have e : ∀ i j : UInt64, (p + i = p + j) = (i = j) := fun i j => propext (UInt64.add_right_inj p)
  unfold load store6
  simp only [e]
  rfl

theorem writes_store6 {m : UInt64 → UInt64} {p x0 x1 x2 x3 x4 x5 : UInt64} {s s' : St} {r : Fe} (h : s.mem = m)
    (h' : s'.mem = store6 m p x0 x1 x2 x3 x4 x5) (hr : (⟨x0, x1, x2, x3, x4, x5⟩ : Fe) = r) : Writes s s' p r := by
  refine ⟨by rw [h', load_store6, hr], ?_⟩
  intro q h0 h1 h2 h3 h4 h5
  rw [h', h]
  unfold store6
  simp only [h0, h1, h2, h3, h4, h5, if_false]

theorem val_mk (x0 x1 x2 x3 x4 x5 : UInt64) : ((⟨x0, x1, x2, x3, x4, x5⟩ : Fe).val : ℤ) =
    z x0 + 2 ^ 64 * z x1 + 2 ^ 128 * z x2 + 2 ^ 192 * z x3 + 2 ^ 256 * z x4 + 2 ^ 320 * z x5 := by
  unfold Fe.val z
  push_cast
  rfl

theorem val_load (m : UInt64 → UInt64) (p : UInt64) : ((load m p).val : ℤ) =
    z (m (p + 0)) + 2 ^ 64 * z (m (p + 8)) + 2 ^ 128 * z (m (p + 16)) + 2 ^ 192 * z (m (p + 24)) +
      2 ^ 256 * z (m (p + 32)) + 2 ^ 320 * z (m (p + 40)) := val_mk _ _ _ _ _ _

theorem Q_cast : (Q : ℤ) = 0x1a0111ea397fe69a4b1ba7b6434bacd764774b84f38512bf6730d2a0f6b0f6241eabfffeb153ffffb9feffffffffaaab := by rw [Q_eq]; rfl

theorem eq_ladd {r a b : Fe} {c : Bool} (h : (r.val : ℤ) + 2 ^ 384 * zb c = a.val + b.val) : r = Fe.ladd a b := by
  apply Fe.val_inj
  rw [Fe.ladd_val]
  have := Fe.val_lt r
  have := zb_bnd c
  omega

theorem eq_lsub {r a b : Fe} {c : Bool} (h : (r.val : ℤ) + b.val = a.val + 2 ^ 384 * zb c) : r = Fe.lsub a b := by
  apply Fe.val_inj
  unfold Fe.lsub
  have := Fe.val_lt r
  have := Fe.val_lt a
  have := Fe.val_lt b
  have := Fe.val_lt (Fe.subB a b).1
  have := zb_bnd c
  obtain ⟨h1, h2⟩ := Fe.subB_val a b
  omega

theorem reduce_all (x : Fe) : (Fe.reduce x).val = if x.val < Q then x.val else x.val - Q := by
  unfold Fe.reduce
  by_cases hb : x.val < Q
  · rw [(Fe.below_iff x).mpr hb, if_pos hb]; rfl
  · have : Fe.below x = false := by rw [Bool.eq_false_iff, ne_eq, Fe.below_iff]; exact hb
    rw [this, if_neg hb]
    simp only [Bool.not_false, if_true]
    rw [Fe.lsub_val (by rw [Fe.modulus_val]; omega), Fe.modulus_val]

theorem eq_add {r a b : Fe} (h : ∃ v k : ℤ, v + 2 ^ 384 * k = a.val + b.val ∧ 0 ≤ v ∧ v < 2 ^ 384 ∧
    ((v < (Q : ℤ) ∧ (r.val : ℤ) = v) ∨ (r.val : ℤ) + Q = v)) : r = Fe.reduce (Fe.ladd a b) := by
  obtain ⟨v, k, h1, h2, h3, h4⟩ := h
  apply Fe.val_inj
  rw [reduce_all, Fe.ladd_val]
  have hv : ((a.val + b.val) % 2 ^ 384 : ℕ) = v := by omega
  generalize ((a.val + b.val) % 2 ^ 384 : ℕ) = n at *
  clear h1
  generalize Q = q at *
  by_cases hn : n < q
  · rw [if_pos hn]; omega
  · rw [if_neg hn]; omega

theorem eq_sub {r a b : Fe} (h : ∃ v c k : ℤ, v + b.val = a.val + 2 ^ 384 * c ∧ 0 ≤ v ∧ v < 2 ^ 384 ∧
    ((c = 0 ∧ (r.val : ℤ) = v) ∨ (c = 1 ∧ (r.val : ℤ) + 2 ^ 384 * k = v + Q))) : r = Fe.sub a b := by
  obtain ⟨v, c, k, h1, h2, h3, h4⟩ := h
  apply Fe.val_inj
  unfold Fe.sub
  simp only
  obtain ⟨g1, g2⟩ := Fe.subB_val a b
  have l1 := Fe.val_lt (Fe.subB a b).1
  have l2 := Fe.val_lt a
  have l3 := Fe.val_lt b
  have l4 := Fe.val_lt r
  have hz : ((Fe.subB a b).2 ≠ 0) ↔ (Fe.subB a b).2.toNat ≠ 0 := by
    rw [ne_eq, ne_eq, ← UInt64.toNat_inj]; rfl
  rcases h4 with ⟨c0, hr⟩ | ⟨c1, hr⟩
  · have : (Fe.subB a b).2.toNat = 0 := by clear hr; omega
    rw [if_neg (by rw [hz]; omega)]
    omega
  · have : (Fe.subB a b).2.toNat ≠ 0 := by clear hr; omega
    rw [if_pos (hz.mpr this), Fe.ladd_val, Fe.modulus_val]
    have hv : ((Fe.subB a b).1.val : ℤ) = v := by clear hr; omega
    clear h1 g1
    generalize Q = q at *
    omega

theorem add_writes (s : St) : Writes s (run add s) s.f0 (Fe.add (load s.mem s.f1) (load s.mem s.f2)) := by
  obtain ⟨ax, bx, cx, dx, si, di, r8, r9, r10, r11, r12, r13, r14, r15, s0, s1, s2, f0, f1, f2, cf, of, mem⟩ := s
  obtain ⟨bx1, cx1, dx1, si1, r81, r91, r101, r111, r121, r131, r141, r151, cf1, of1, h, k⟩ := add_spec (ax := ax) (bx := bx) (cx := cx) (dx := dx) (si := si) (di := di) (r8 := r8) (r9 := r9) (r10 := r10) (r11 := r11) (r12 := r12) (r13 := r13) (r14 := r14) (r15 := r15) (s0 := s0) (s1 := s1) (s2 := s2) (f0 := f0) (f1 := f1) (f2 := f2) (cf := cf) (of := of) (mem := mem) rfl rfl rfl rfl rfl rfl rfl rfl rfl rfl rfl rfl
  refine writes_store6 rfl (by rw [h]) ?_
  refine eq_add ?_
  simp only [val_mk, val_load, Q_cast]
  exact k

theorem addAssign_writes (s : St) : Writes s (run addAssign s) s.f0 (Fe.add (load s.mem s.f0) (load s.mem s.f1)) := by
  obtain ⟨ax, bx, cx, dx, si, di, r8, r9, r10, r11, r12, r13, r14, r15, s0, s1, s2, f0, f1, f2, cf, of, mem⟩ := s
  obtain ⟨bx1, cx1, dx1, si1, r81, r91, r101, r111, r121, r131, r141, r151, cf1, of1, h, k⟩ := addAssign_spec (ax := ax) (bx := bx) (cx := cx) (dx := dx) (si := si) (di := di) (r8 := r8) (r9 := r9) (r10 := r10) (r11 := r11) (r12 := r12) (r13 := r13) (r14 := r14) (r15 := r15) (s0 := s0) (s1 := s1) (s2 := s2) (f0 := f0) (f1 := f1) (f2 := f2) (cf := cf) (of := of) (mem := mem) rfl rfl rfl rfl rfl rfl rfl rfl rfl rfl rfl rfl
  refine writes_store6 rfl (by rw [h]) ?_
  refine eq_add ?_
  simp only [val_mk, val_load, Q_cast]
  exact k

theorem ladd_writes (s : St) : Writes s (run ladd s) s.f0 (Fe.ladd (load s.mem s.f1) (load s.mem s.f2)) := by
  obtain ⟨ax, bx, cx, dx, si, di, r8, r9, r10, r11, r12, r13, r14, r15, s0, s1, s2, f0, f1, f2, cf, of, mem⟩ := s
  obtain ⟨r81, r91, r101, r111, r121, r131, cf1, of1, h, k⟩ := ladd_spec (ax := ax) (bx := bx) (cx := cx) (dx := dx) (si := si) (di := di) (r8 := r8) (r9 := r9) (r10 := r10) (r11 := r11) (r12 := r12) (r13 := r13) (r14 := r14) (r15 := r15) (s0 := s0) (s1 := s1) (s2 := s2) (f0 := f0) (f1 := f1) (f2 := f2) (cf := cf) (of := of) (mem := mem) rfl rfl rfl rfl rfl rfl rfl rfl rfl rfl rfl rfl
  refine writes_store6 rfl (by rw [h]) ?_
  refine eq_ladd (c := cf1) ?_
  simp only [val_mk, val_load]
  exact k

theorem laddAssign_writes (s : St) : Writes s (run laddAssign s) s.f0 (Fe.ladd (load s.mem s.f0) (load s.mem s.f1)) := by
  obtain ⟨ax, bx, cx, dx, si, di, r8, r9, r10, r11, r12, r13, r14, r15, s0, s1, s2, f0, f1, f2, cf, of, mem⟩ := s
  obtain ⟨r81, r91, r101, r111, r121, r131, cf1, of1, h, k⟩ := laddAssign_spec (ax := ax) (bx := bx) (cx := cx) (dx := dx) (si := si) (di := di) (r8 := r8) (r9 := r9) (r10 := r10) (r11 := r11) (r12 := r12) (r13 := r13) (r14 := r14) (r15 := r15) (s0 := s0) (s1 := s1) (s2 := s2) (f0 := f0) (f1 := f1) (f2 := f2) (cf := cf) (of := of) (mem := mem) rfl rfl rfl rfl rfl rfl rfl rfl rfl rfl rfl rfl
  refine writes_store6 rfl (by rw [h]) ?_
  refine eq_ladd (c := cf1) ?_
  simp only [val_mk, val_load]
  exact k

theorem sub_writes (s : St) : Writes s (run sub s) s.f0 (Fe.sub (load s.mem s.f1) (load s.mem s.f2)) := by
  obtain ⟨ax, bx, cx, dx, si, di, r8, r9, r10, r11, r12, r13, r14, r15, s0, s1, s2, f0, f1, f2, cf, of, mem⟩ := s
  obtain ⟨bx1, cx1, dx1, si1, r81, r91, r101, r111, r121, r131, r141, r151, cf1, of1, h, k⟩ := sub_spec (ax := ax) (bx := bx) (cx := cx) (dx := dx) (si := si) (di := di) (r8 := r8) (r9 := r9) (r10 := r10) (r11 := r11) (r12 := r12) (r13 := r13) (r14 := r14) (r15 := r15) (s0 := s0) (s1 := s1) (s2 := s2) (f0 := f0) (f1 := f1) (f2 := f2) (cf := cf) (of := of) (mem := mem) rfl rfl rfl rfl rfl rfl rfl rfl rfl rfl rfl rfl
  refine writes_store6 rfl (by rw [h]) ?_
  refine eq_sub ?_
  simp only [val_mk, val_load, Q_cast]
  exact k

theorem subAssign_writes (s : St) : Writes s (run subAssign s) s.f0 (Fe.sub (load s.mem s.f0) (load s.mem s.f1)) := by
  obtain ⟨ax, bx, cx, dx, si, di, r8, r9, r10, r11, r12, r13, r14, r15, s0, s1, s2, f0, f1, f2, cf, of, mem⟩ := s
  obtain ⟨bx1, cx1, dx1, si1, r81, r91, r101, r111, r121, r131, r141, r151, cf1, of1, h, k⟩ := subAssign_spec (ax := ax) (bx := bx) (cx := cx) (dx := dx) (si := si) (di := di) (r8 := r8) (r9 := r9) (r10 := r10) (r11 := r11) (r12 := r12) (r13 := r13) (r14 := r14) (r15 := r15) (s0 := s0) (s1 := s1) (s2 := s2) (f0 := f0) (f1 := f1) (f2 := f2) (cf := cf) (of := of) (mem := mem) rfl rfl rfl rfl rfl rfl rfl rfl rfl rfl rfl rfl
  refine writes_store6 rfl (by rw [h]) ?_
  refine eq_sub ?_
  simp only [val_mk, val_load, Q_cast]
  exact k

theorem lsubAssign_writes (s : St) : Writes s (run lsubAssign s) s.f0 (Fe.lsub (load s.mem s.f0) (load s.mem s.f1)) := by
  obtain ⟨ax, bx, cx, dx, si, di, r8, r9, r10, r11, r12, r13, r14, r15, s0, s1, s2, f0, f1, f2, cf, of, mem⟩ := s
  obtain ⟨r81, r91, r101, r111, r121, r131, cf1, of1, h, k⟩ := lsubAssign_spec (ax := ax) (bx := bx) (cx := cx) (dx := dx) (si := si) (di := di) (r8 := r8) (r9 := r9) (r10 := r10) (r11 := r11) (r12 := r12) (r13 := r13) (r14 := r14) (r15 := r15) (s0 := s0) (s1 := s1) (s2 := s2) (f0 := f0) (f1 := f1) (f2 := f2) (cf := cf) (of := of) (mem := mem) rfl rfl rfl rfl rfl rfl rfl rfl rfl rfl rfl rfl
  refine writes_store6 rfl (by rw [h]) ?_
  refine eq_lsub (c := cf1) ?_
  simp only [val_mk, val_load]
  exact k

theorem double_writes (s : St) : Writes s (run double s) s.f0 (Fe.double (load s.mem s.f1)) := by
  obtain ⟨ax, bx, cx, dx, si, di, r8, r9, r10, r11, r12, r13, r14, r15, s0, s1, s2, f0, f1, f2, cf, of, mem⟩ := s
  obtain ⟨bx1, cx1, dx1, si1, r81, r91, r101, r111, r121, r131, r141, r151, cf1, of1, h, k⟩ := double_spec (ax := ax) (bx := bx) (cx := cx) (dx := dx) (si := si) (di := di) (r8 := r8) (r9 := r9) (r10 := r10) (r11 := r11) (r12 := r12) (r13 := r13) (r14 := r14) (r15 := r15) (s0 := s0) (s1 := s1) (s2 := s2) (f0 := f0) (f1 := f1) (f2 := f2) (cf := cf) (of := of) (mem := mem) rfl rfl rfl rfl rfl rfl
  refine writes_store6 rfl (by rw [h]) ?_
  refine eq_add ?_
  simp only [val_mk, val_load, Q_cast]
  exact k

theorem doubleAssign_writes (s : St) : Writes s (run doubleAssign s) s.f0 (Fe.double (load s.mem s.f0)) := by
  obtain ⟨ax, bx, cx, dx, si, di, r8, r9, r10, r11, r12, r13, r14, r15, s0, s1, s2, f0, f1, f2, cf, of, mem⟩ := s
  obtain ⟨bx1, cx1, dx1, si1, r81, r91, r101, r111, r121, r131, r141, r151, cf1, of1, h, k⟩ := doubleAssign_spec (ax := ax) (bx := bx) (cx := cx) (dx := dx) (si := si) (di := di) (r8 := r8) (r9 := r9) (r10 := r10) (r11 := r11) (r12 := r12) (r13 := r13) (r14 := r14) (r15 := r15) (s0 := s0) (s1 := s1) (s2 := s2) (f0 := f0) (f1 := f1) (f2 := f2) (cf := cf) (of := of) (mem := mem) rfl rfl rfl rfl rfl rfl
  refine writes_store6 rfl (by rw [h]) ?_
  refine eq_add ?_
  simp only [val_mk, val_load, Q_cast]
  exact k

theorem ldouble_writes (s : St) : Writes s (run ldouble s) s.f0 (Fe.ldouble (load s.mem s.f1)) := by
  obtain ⟨ax, bx, cx, dx, si, di, r8, r9, r10, r11, r12, r13, r14, r15, s0, s1, s2, f0, f1, f2, cf, of, mem⟩ := s
  obtain ⟨r81, r91, r101, r111, r121, r131, cf1, of1, h, k⟩ := ldouble_spec (ax := ax) (bx := bx) (cx := cx) (dx := dx) (si := si) (di := di) (r8 := r8) (r9 := r9) (r10 := r10) (r11 := r11) (r12 := r12) (r13 := r13) (r14 := r14) (r15 := r15) (s0 := s0) (s1 := s1) (s2 := s2) (f0 := f0) (f1 := f1) (f2 := f2) (cf := cf) (of := of) (mem := mem) rfl rfl rfl rfl rfl rfl
  refine writes_store6 rfl (by rw [h]) ?_
  refine eq_ladd (c := cf1) ?_
  simp only [val_mk, val_load]
  exact k

theorem neg_writes (s : St) : Writes s (run neg s) s.f0 (Fe.lsub modulus (load s.mem s.f1)) := by
  obtain ⟨ax, bx, cx, dx, si, di, r8, r9, r10, r11, r12, r13, r14, r15, s0, s1, s2, f0, f1, f2, cf, of, mem⟩ := s
  obtain ⟨r81, r91, r101, r111, r121, r131, cf1, of1, h, k⟩ := neg_spec (ax := ax) (bx := bx) (cx := cx) (dx := dx) (si := si) (di := di) (r8 := r8) (r9 := r9) (r10 := r10) (r11 := r11) (r12 := r12) (r13 := r13) (r14 := r14) (r15 := r15) (s0 := s0) (s1 := s1) (s2 := s2) (f0 := f0) (f1 := f1) (f2 := f2) (cf := cf) (of := of) (mem := mem) rfl rfl rfl rfl rfl rfl
  refine writes_store6 rfl (by rw [h]) ?_
  refine eq_lsub (c := cf1) ?_
  rw [Fe.modulus_val]
  simp only [val_mk, val_load, Q_cast]
  exact k

/-- `mulADX` leaves the product exactly if none of the five carries it drops is set. -/
theorem mulADX_exact (s : St) (ha : (load s.mem s.f1).Lz) (hb : (load s.mem s.f2).Lz) :
    ∃ r, Writes s (run mulADX s) s.f0 r ∧ (r = Fe.mul (load s.mem s.f1) (load s.mem s.f2) ↔
      ∀ n ∈ [150, 173, 196, 219, 243], (run (mulADX.take n) s).of = false) := by
  obtain ⟨ax, bx, cx, dx, si, di, r8, r9, r10, r11, r12, r13, r14, r15, s0, s1, s2, f0, f1, f2, cf, of, mem⟩ := s
  simp only at ha hb ⊢
  have hQ : Q < 2 ^ 381 := by decide +kernel
  have ha' : ((load mem f1).val : ℤ) < 2 ^ 382 := by have : (load mem f1).val < 2 * Q := ha; omega
  have hb' : ((load mem f2).val : ℤ) < 2 ^ 382 := by have : (load mem f2).val < 2 * Q := hb; omega
  obtain ⟨ax1, bx1, cx1, dx1, si1, di1, r81, r91, r101, r111, r121, r131, r141, r151, s01, s11, cf1, of1, h1, M, R, o0, o1, o2, o3, o4, k1, k2, g0, g1, g2, g3, g4, k3, k4⟩ := adxBody_exact (ax := ax) (bx := bx) (cx := cx) (dx := dx) (si := f2) (di := f1) (r8 := r8) (r9 := r9) (r10 := r10) (r11 := r11) (r12 := r12) (r13 := r13) (r14 := r14) (r15 := r15) (s0 := s0) (s1 := s1) (s2 := s2) (f0 := f0) (f1 := f1) (f2 := f2) (cf := cf) (of := of) (mem := mem) rfl rfl rfl rfl rfl rfl rfl rfl rfl rfl rfl rfl
    (val_load mem f1) (val_load mem f2) ha' hb' (Int.natCast_nonneg _) (Int.natCast_nonneg _)
  have h0 : run [.mov (.fp 1) (.reg .di), .mov (.fp 2) (.reg .si)] ⟨ax, bx, cx, dx, si, di, r8, r9, r10, r11, r12, r13, r14, r15, s0, s1, s2, f0, f1, f2, cf, of, mem⟩ =
      ⟨ax, bx, cx, dx, f2, f1, r8, r9, r10, r11, r12, r13, r14, r15, s0, s1, s2, f0, f1, f2, cf, of, mem⟩ := rfl
  have h2 : run [.mov (.fp 0) (.reg .si), .mov (.reg .r13) (.mem .si 0), .mov (.reg .r14) (.mem .si 8), .mov (.reg .r15) (.mem .si 16), .mov (.reg .r8) (.mem .si 24), .mov (.reg .r9) (.mem .si 32), .mov (.reg .r10) (.mem .si 40)] ⟨ax1, bx1, cx1, dx1, si1, di1, r81, r91, r101, r111, r121, r131, r141, r151, s01, s11, s2, f0, f1, f2, cf1, of1, mem⟩ =
      ⟨ax1, bx1, cx1, dx1, f0, di1, r81, r91, r101, r111, r121, r131, r141, r151, s01, s11, s2, f0, f1, f2, cf1, of1, (store6 mem f0 r131 r141 r151 r81 r91 r101)⟩ := rfl
  refine ⟨_, writes_store6 (m := mem) rfl (by unfold mulADX; rw [run_append, run_append, h0, h1, h2]) rfl, ?_⟩
  have hb0 := zb_bnd o0; have hb1 := zb_bnd o1; have hb2 := zb_bnd o2; have hb3 := zb_bnd o3; have hb4 := zb_bnd o4
  rw [mont_final_iff ha hb k1 k2 (R := R)
    (E := 2 ^ 448 * zb o0 + 2 ^ 512 * zb o1 + 2 ^ 576 * zb o2 + 2 ^ 640 * zb o3 + 2 ^ 704 * zb o4)
    (by clear * - hb0 hb1 hb2 hb3 hb4; omega) (by rw [Nat.cast_mul, Q_cast]; linear_combination k3) (by rw [Q_cast, val_mk]; exact k4), adx_loss]
  have t0 : mulADX.take 150 = [.mov (.fp 1) (.reg .di), .mov (.fp 2) (.reg .si)] ++ (adxRow0 ++ adxRow1 ++ adxRow2 ++ adxRow3 ++ adxRow4 ++ adxRow5 ++ adxSwap ++ adxRed0) := by decide +kernel
  rw [← h0, ← run_append, ← t0] at g0
  have t1 : mulADX.take 173 = [.mov (.fp 1) (.reg .di), .mov (.fp 2) (.reg .si)] ++ (adxRow0 ++ adxRow1 ++ adxRow2 ++ adxRow3 ++ adxRow4 ++ adxRow5 ++ adxSwap ++ adxRed0 ++ adxRed1) := by decide +kernel
  rw [← h0, ← run_append, ← t1] at g1
  have t2 : mulADX.take 196 = [.mov (.fp 1) (.reg .di), .mov (.fp 2) (.reg .si)] ++ (adxRow0 ++ adxRow1 ++ adxRow2 ++ adxRow3 ++ adxRow4 ++ adxRow5 ++ adxSwap ++ adxRed0 ++ adxRed1 ++ adxRed2) := by decide +kernel
  rw [← h0, ← run_append, ← t2] at g2
  have t3 : mulADX.take 219 = [.mov (.fp 1) (.reg .di), .mov (.fp 2) (.reg .si)] ++ (adxRow0 ++ adxRow1 ++ adxRow2 ++ adxRow3 ++ adxRow4 ++ adxRow5 ++ adxSwap ++ adxRed0 ++ adxRed1 ++ adxRed2 ++ adxRed3) := by decide +kernel
  rw [← h0, ← run_append, ← t3] at g3
  have t4 : mulADX.take 243 = [.mov (.fp 1) (.reg .di), .mov (.fp 2) (.reg .si)] ++ (adxRow0 ++ adxRow1 ++ adxRow2 ++ adxRow3 ++ adxRow4 ++ adxRow5 ++ adxSwap ++ adxRed0 ++ adxRed1 ++ adxRed2 ++ adxRed3 ++ adxRed4) := by decide +kernel
  rw [← h0, ← run_append, ← t4] at g4
  simp only [List.mem_cons, List.not_mem_nil, or_false, forall_eq_or_imp, forall_eq, g0, g1, g2, g3, g4]

theorem mulADX_writes (s : St) (ha : (load s.mem s.f1).Lz) (hb : (load s.mem s.f2).Lz)
    (h : NoLostCarry ((load s.mem s.f1).val * (load s.mem s.f2).val)) :
    Writes s (run mulADX s) s.f0 (Fe.mul (load s.mem s.f1) (load s.mem s.f2)) := by
  obtain ⟨ax, bx, cx, dx, si, di, r8, r9, r10, r11, r12, r13, r14, r15, s0, s1, s2, f0, f1, f2, cf, of, mem⟩ := s
  simp only at ha hb h ⊢
  have hQ : Q < 2 ^ 381 := by decide +kernel
  have ha' : ((load mem f1).val : ℤ) < 2 ^ 382 := by have : (load mem f1).val < 2 * Q := ha; omega
  have hb' : ((load mem f2).val : ℤ) < 2 ^ 382 := by have : (load mem f2).val < 2 * Q := hb; omega
  obtain ⟨ax1, bx1, cx1, dx1, si1, di1, r81, r91, r101, r111, r121, r131, r141, r151, s01, s11, cf1, of1, h1, M, R, k1, k2, k3, k4⟩ := adxBody_spec (ax := ax) (bx := bx) (cx := cx) (dx := dx) (si := f2) (di := f1) (r8 := r8) (r9 := r9) (r10 := r10) (r11 := r11) (r12 := r12) (r13 := r13) (r14 := r14) (r15 := r15) (s0 := s0) (s1 := s1) (s2 := s2) (f0 := f0) (f1 := f1) (f2 := f2) (cf := cf) (of := of) (mem := mem) rfl rfl rfl rfl rfl rfl rfl rfl rfl rfl rfl rfl
    (val_load mem f1) (val_load mem f2) ha' hb' (Int.natCast_nonneg _) (Int.natCast_nonneg _) (Nat.cast_mul _ _) h
  have h0 : run [.mov (.fp 1) (.reg .di), .mov (.fp 2) (.reg .si)] ⟨ax, bx, cx, dx, si, di, r8, r9, r10, r11, r12, r13, r14, r15, s0, s1, s2, f0, f1, f2, cf, of, mem⟩ =
      ⟨ax, bx, cx, dx, f2, f1, r8, r9, r10, r11, r12, r13, r14, r15, s0, s1, s2, f0, f1, f2, cf, of, mem⟩ := rfl
  have h2 : run [.mov (.fp 0) (.reg .si), .mov (.reg .r13) (.mem .si 0), .mov (.reg .r14) (.mem .si 8), .mov (.reg .r15) (.mem .si 16), .mov (.reg .r8) (.mem .si 24), .mov (.reg .r9) (.mem .si 32), .mov (.reg .r10) (.mem .si 40)] ⟨ax1, bx1, cx1, dx1, si1, di1, r81, r91, r101, r111, r121, r131, r141, r151, s01, s11, s2, f0, f1, f2, cf1, of1, mem⟩ =
      ⟨ax1, bx1, cx1, dx1, f0, di1, r81, r91, r101, r111, r121, r131, r141, r151, s01, s11, s2, f0, f1, f2, cf1, of1, (store6 mem f0 r131 r141 r151 r81 r91 r101)⟩ := rfl
  refine writes_store6 (m := mem) rfl (by unfold mulADX; rw [run_append, run_append, h0, h1, h2]) ?_
  refine mont_final ha hb k1 k2 (M := M) (R := R) ?_ ?_
  · rw [Nat.cast_mul, Q_cast]; exact k3
  · rw [Q_cast, val_mk]; exact k4

/-- `mulAssignADX` leaves the product exactly if none of the five carries it drops is set. -/
theorem mulAssignADX_exact (s : St) (ha : (load s.mem s.f0).Lz) (hb : (load s.mem s.f1).Lz) :
    ∃ r, Writes s (run mulAssignADX s) s.f0 r ∧ (r = Fe.mul (load s.mem s.f0) (load s.mem s.f1) ↔
      ∀ n ∈ [150, 173, 196, 219, 243], (run (mulAssignADX.take n) s).of = false) := by
  obtain ⟨ax, bx, cx, dx, si, di, r8, r9, r10, r11, r12, r13, r14, r15, s0, s1, s2, f0, f1, f2, cf, of, mem⟩ := s
  simp only at ha hb ⊢
  have hQ : Q < 2 ^ 381 := by decide +kernel
  have ha' : ((load mem f0).val : ℤ) < 2 ^ 382 := by have : (load mem f0).val < 2 * Q := ha; omega
  have hb' : ((load mem f1).val : ℤ) < 2 ^ 382 := by have : (load mem f1).val < 2 * Q := hb; omega
  obtain ⟨ax1, bx1, cx1, dx1, si1, di1, r81, r91, r101, r111, r121, r131, r141, r151, s01, s11, cf1, of1, h1, M, R, o0, o1, o2, o3, o4, k1, k2, g0, g1, g2, g3, g4, k3, k4⟩ := adxBody_exact (ax := ax) (bx := bx) (cx := cx) (dx := dx) (si := f1) (di := f0) (r8 := r8) (r9 := r9) (r10 := r10) (r11 := r11) (r12 := r12) (r13 := r13) (r14 := r14) (r15 := r15) (s0 := s0) (s1 := s1) (s2 := s2) (f0 := f0) (f1 := f1) (f2 := f2) (cf := cf) (of := of) (mem := mem) rfl rfl rfl rfl rfl rfl rfl rfl rfl rfl rfl rfl
    (val_load mem f0) (val_load mem f1) ha' hb' (Int.natCast_nonneg _) (Int.natCast_nonneg _)
  have h0 : run [.mov (.fp 0) (.reg .di), .mov (.fp 1) (.reg .si)] ⟨ax, bx, cx, dx, si, di, r8, r9, r10, r11, r12, r13, r14, r15, s0, s1, s2, f0, f1, f2, cf, of, mem⟩ =
      ⟨ax, bx, cx, dx, f1, f0, r8, r9, r10, r11, r12, r13, r14, r15, s0, s1, s2, f0, f1, f2, cf, of, mem⟩ := rfl
  have h2 : run [.mov (.fp 0) (.reg .si), .mov (.reg .r13) (.mem .si 0), .mov (.reg .r14) (.mem .si 8), .mov (.reg .r15) (.mem .si 16), .mov (.reg .r8) (.mem .si 24), .mov (.reg .r9) (.mem .si 32), .mov (.reg .r10) (.mem .si 40)] ⟨ax1, bx1, cx1, dx1, si1, di1, r81, r91, r101, r111, r121, r131, r141, r151, s01, s11, s2, f0, f1, f2, cf1, of1, mem⟩ =
      ⟨ax1, bx1, cx1, dx1, f0, di1, r81, r91, r101, r111, r121, r131, r141, r151, s01, s11, s2, f0, f1, f2, cf1, of1, (store6 mem f0 r131 r141 r151 r81 r91 r101)⟩ := rfl
  refine ⟨_, writes_store6 (m := mem) rfl (by unfold mulAssignADX; rw [run_append, run_append, h0, h1, h2]) rfl, ?_⟩
  have hb0 := zb_bnd o0; have hb1 := zb_bnd o1; have hb2 := zb_bnd o2; have hb3 := zb_bnd o3; have hb4 := zb_bnd o4
  rw [mont_final_iff ha hb k1 k2 (R := R)
    (E := 2 ^ 448 * zb o0 + 2 ^ 512 * zb o1 + 2 ^ 576 * zb o2 + 2 ^ 640 * zb o3 + 2 ^ 704 * zb o4)
    (by clear * - hb0 hb1 hb2 hb3 hb4; omega) (by rw [Nat.cast_mul, Q_cast]; linear_combination k3) (by rw [Q_cast, val_mk]; exact k4), adx_loss]
  have t0 : mulAssignADX.take 150 = [.mov (.fp 0) (.reg .di), .mov (.fp 1) (.reg .si)] ++ (adxRow0 ++ adxRow1 ++ adxRow2 ++ adxRow3 ++ adxRow4 ++ adxRow5 ++ adxSwap ++ adxRed0) := by decide +kernel
  rw [← h0, ← run_append, ← t0] at g0
  have t1 : mulAssignADX.take 173 = [.mov (.fp 0) (.reg .di), .mov (.fp 1) (.reg .si)] ++ (adxRow0 ++ adxRow1 ++ adxRow2 ++ adxRow3 ++ adxRow4 ++ adxRow5 ++ adxSwap ++ adxRed0 ++ adxRed1) := by decide +kernel
  rw [← h0, ← run_append, ← t1] at g1
  have t2 : mulAssignADX.take 196 = [.mov (.fp 0) (.reg .di), .mov (.fp 1) (.reg .si)] ++ (adxRow0 ++ adxRow1 ++ adxRow2 ++ adxRow3 ++ adxRow4 ++ adxRow5 ++ adxSwap ++ adxRed0 ++ adxRed1 ++ adxRed2) := by decide +kernel
  rw [← h0, ← run_append, ← t2] at g2
  have t3 : mulAssignADX.take 219 = [.mov (.fp 0) (.reg .di), .mov (.fp 1) (.reg .si)] ++ (adxRow0 ++ adxRow1 ++ adxRow2 ++ adxRow3 ++ adxRow4 ++ adxRow5 ++ adxSwap ++ adxRed0 ++ adxRed1 ++ adxRed2 ++ adxRed3) := by decide +kernel
  rw [← h0, ← run_append, ← t3] at g3
  have t4 : mulAssignADX.take 243 = [.mov (.fp 0) (.reg .di), .mov (.fp 1) (.reg .si)] ++ (adxRow0 ++ adxRow1 ++ adxRow2 ++ adxRow3 ++ adxRow4 ++ adxRow5 ++ adxSwap ++ adxRed0 ++ adxRed1 ++ adxRed2 ++ adxRed3 ++ adxRed4) := by decide +kernel
  rw [← h0, ← run_append, ← t4] at g4
  simp only [List.mem_cons, List.not_mem_nil, or_false, forall_eq_or_imp, forall_eq, g0, g1, g2, g3, g4]

theorem mulAssignADX_writes (s : St) (ha : (load s.mem s.f0).Lz) (hb : (load s.mem s.f1).Lz)
    (h : NoLostCarry ((load s.mem s.f0).val * (load s.mem s.f1).val)) :
    Writes s (run mulAssignADX s) s.f0 (Fe.mul (load s.mem s.f0) (load s.mem s.f1)) := by
  obtain ⟨ax, bx, cx, dx, si, di, r8, r9, r10, r11, r12, r13, r14, r15, s0, s1, s2, f0, f1, f2, cf, of, mem⟩ := s
  simp only at ha hb h ⊢
  have hQ : Q < 2 ^ 381 := by decide +kernel
  have ha' : ((load mem f0).val : ℤ) < 2 ^ 382 := by have : (load mem f0).val < 2 * Q := ha; omega
  have hb' : ((load mem f1).val : ℤ) < 2 ^ 382 := by have : (load mem f1).val < 2 * Q := hb; omega
  obtain ⟨ax1, bx1, cx1, dx1, si1, di1, r81, r91, r101, r111, r121, r131, r141, r151, s01, s11, cf1, of1, h1, M, R, k1, k2, k3, k4⟩ := adxBody_spec (ax := ax) (bx := bx) (cx := cx) (dx := dx) (si := f1) (di := f0) (r8 := r8) (r9 := r9) (r10 := r10) (r11 := r11) (r12 := r12) (r13 := r13) (r14 := r14) (r15 := r15) (s0 := s0) (s1 := s1) (s2 := s2) (f0 := f0) (f1 := f1) (f2 := f2) (cf := cf) (of := of) (mem := mem) rfl rfl rfl rfl rfl rfl rfl rfl rfl rfl rfl rfl
    (val_load mem f0) (val_load mem f1) ha' hb' (Int.natCast_nonneg _) (Int.natCast_nonneg _) (Nat.cast_mul _ _) h
  have h0 : run [.mov (.fp 0) (.reg .di), .mov (.fp 1) (.reg .si)] ⟨ax, bx, cx, dx, si, di, r8, r9, r10, r11, r12, r13, r14, r15, s0, s1, s2, f0, f1, f2, cf, of, mem⟩ =
      ⟨ax, bx, cx, dx, f1, f0, r8, r9, r10, r11, r12, r13, r14, r15, s0, s1, s2, f0, f1, f2, cf, of, mem⟩ := rfl
  have h2 : run [.mov (.fp 0) (.reg .si), .mov (.reg .r13) (.mem .si 0), .mov (.reg .r14) (.mem .si 8), .mov (.reg .r15) (.mem .si 16), .mov (.reg .r8) (.mem .si 24), .mov (.reg .r9) (.mem .si 32), .mov (.reg .r10) (.mem .si 40)] ⟨ax1, bx1, cx1, dx1, si1, di1, r81, r91, r101, r111, r121, r131, r141, r151, s01, s11, s2, f0, f1, f2, cf1, of1, mem⟩ =
      ⟨ax1, bx1, cx1, dx1, f0, di1, r81, r91, r101, r111, r121, r131, r141, r151, s01, s11, s2, f0, f1, f2, cf1, of1, (store6 mem f0 r131 r141 r151 r81 r91 r101)⟩ := rfl
  refine writes_store6 (m := mem) rfl (by unfold mulAssignADX; rw [run_append, run_append, h0, h1, h2]) ?_
  refine mont_final ha hb k1 k2 (M := M) (R := R) ?_ ?_
  · rw [Nat.cast_mul, Q_cast]; exact k3
  · rw [Q_cast, val_mk]; exact k4

/-- `mulNoADX` leaves the product exactly if no word of the Montgomery quotient is 1. -/
theorem mulNoADX_exact (s : St) (ha : (load s.mem s.f1).Lz) (hb : (load s.mem s.f2).Lz) :
    ∃ r, Writes s (run mulNoADX s) s.f0 r ∧ (r = Fe.mul (load s.mem s.f1) (load s.mem s.f2) ↔
      NoUnitQuotient ((load s.mem s.f1).val * (load s.mem s.f2).val)) := by
  obtain ⟨ax, bx, cx, dx, si, di, r8, r9, r10, r11, r12, r13, r14, r15, s0, s1, s2, f0, f1, f2, cf, of, mem⟩ := s
  simp only at ha hb ⊢
  have hQ : Q < 2 ^ 381 := by decide +kernel
  have ha' : ((load mem f1).val : ℤ) < 2 ^ 382 := by have : (load mem f1).val < 2 * Q := ha; omega
  have hb' : ((load mem f2).val : ℤ) < 2 ^ 382 := by have : (load mem f2).val < 2 * Q := hb; omega
  obtain ⟨ax1, bx1, cx1, dx1, si1, di1, r81, r91, r101, r111, r121, r131, r141, r151, s01, s11, s21, cf1, of1, h1, q0, q1, q2, q3, q4, q5, V1, V2, V3, V4, V5, V6, e1, e2, e3, e4, e5, e6, k4⟩ := noadxBody_exact (ax := ax) (bx := bx) (cx := cx) (dx := dx) (si := f2) (di := f1) (r8 := r8) (r9 := r9) (r10 := r10) (r11 := r11) (r12 := r12) (r13 := r13) (r14 := r14) (r15 := r15) (s0 := s0) (s1 := s1) (s2 := s2) (f0 := f0) (f1 := f1) (f2 := f2) (cf := cf) (of := of) (mem := mem) rfl rfl rfl rfl rfl rfl rfl rfl rfl rfl rfl rfl
    (val_load mem f1) (val_load mem f2) ha' hb' (Int.natCast_nonneg _) (Int.natCast_nonneg _)
  have h0 : run [.mov (.fp 1) (.reg .di), .mov (.fp 2) (.reg .si)] ⟨ax, bx, cx, dx, si, di, r8, r9, r10, r11, r12, r13, r14, r15, s0, s1, s2, f0, f1, f2, cf, of, mem⟩ =
      ⟨ax, bx, cx, dx, f2, f1, r8, r9, r10, r11, r12, r13, r14, r15, s0, s1, s2, f0, f1, f2, cf, of, mem⟩ := rfl
  have h2 : run [.mov (.fp 0) (.reg .si), .mov (.reg .r9) (.mem .si 0), .mov (.reg .r10) (.mem .si 8), .mov (.reg .r11) (.mem .si 16), .mov (.reg .r12) (.mem .si 24), .mov (.reg .cx) (.mem .si 32), .mov (.reg .r14) (.mem .si 40)] ⟨ax1, bx1, cx1, dx1, si1, di1, r81, r91, r101, r111, r121, r131, r141, r151, s01, s11, s21, f0, f1, f2, cf1, of1, mem⟩ =
      ⟨ax1, bx1, cx1, dx1, f0, di1, r81, r91, r101, r111, r121, r131, r141, r151, s01, s11, s21, f0, f1, f2, cf1, of1, (store6 mem f0 r91 r101 r111 r121 cx1 r141)⟩ := rfl
  refine ⟨_, writes_store6 (m := mem) rfl (by unfold mulNoADX; rw [run_append, run_append, h0, h1, h2]) rfl, ?_⟩
  have hb0 := zb_bnd (q0 == 1); have hq0 := z_bnd q0
  have hb1 := zb_bnd (q1 == 1); have hq1 := z_bnd q1
  have hb2 := zb_bnd (q2 == 1); have hq2 := z_bnd q2
  have hb3 := zb_bnd (q3 == 1); have hq3 := z_bnd q3
  have hb4 := zb_bnd (q4 == 1); have hq4 := z_bnd q4
  have hb5 := zb_bnd (q5 == 1); have hq5 := z_bnd q5
  rw [mont_final_iff ha hb (M := z q0 + 2 ^ 64 * z q1 + 2 ^ 128 * z q2 + 2 ^ 192 * z q3 + 2 ^ 256 * z q4 + 2 ^ 320 * z q5) (R := V6)
    (E := 2 ^ 64 * zb (q0 == 1) + 2 ^ 128 * zb (q1 == 1) + 2 ^ 192 * zb (q2 == 1) + 2 ^ 256 * zb (q3 == 1) + 2 ^ 320 * zb (q4 == 1) + 2 ^ 384 * zb (q5 == 1))
    (by clear * - hq0 hq1 hq2 hq3 hq4 hq5; omega) (by clear * - hq0 hq1 hq2 hq3 hq4 hq5; omega)
    (by clear * - hb0 hb1 hb2 hb3 hb4 hb5; omega) (by rw [Nat.cast_mul, Q_cast]; linear_combination e6) (by rw [Q_cast, val_mk]; exact k4), noadx_loss]
  rw [← Q_cast] at e1 e2 e3 e4 e5 e6
  exact (noadx_units (by rw [Nat.cast_mul]; exact e1) (by rw [Nat.cast_mul]; exact e2) (by rw [Nat.cast_mul]; exact e3) (by rw [Nat.cast_mul]; exact e4)
    (by rw [Nat.cast_mul]; exact e5) (by rw [Nat.cast_mul]; exact e6)).symm

theorem mulNoADX_writes (s : St) (ha : (load s.mem s.f1).Lz) (hb : (load s.mem s.f2).Lz)
    (h : NoUnitQuotient ((load s.mem s.f1).val * (load s.mem s.f2).val)) :
    Writes s (run mulNoADX s) s.f0 (Fe.mul (load s.mem s.f1) (load s.mem s.f2)) := by
  obtain ⟨r, h1, h2⟩ := mulNoADX_exact s ha hb
  rwa [h2.mpr h] at h1

/-- `mulAssignNoADX` leaves the product exactly if no word of the Montgomery quotient is 1. -/
theorem mulAssignNoADX_exact (s : St) (ha : (load s.mem s.f0).Lz) (hb : (load s.mem s.f1).Lz) :
    ∃ r, Writes s (run mulAssignNoADX s) s.f0 r ∧ (r = Fe.mul (load s.mem s.f0) (load s.mem s.f1) ↔
      NoUnitQuotient ((load s.mem s.f0).val * (load s.mem s.f1).val)) := by
  obtain ⟨ax, bx, cx, dx, si, di, r8, r9, r10, r11, r12, r13, r14, r15, s0, s1, s2, f0, f1, f2, cf, of, mem⟩ := s
  simp only at ha hb ⊢
  have hQ : Q < 2 ^ 381 := by decide +kernel
  have ha' : ((load mem f0).val : ℤ) < 2 ^ 382 := by have : (load mem f0).val < 2 * Q := ha; omega
  have hb' : ((load mem f1).val : ℤ) < 2 ^ 382 := by have : (load mem f1).val < 2 * Q := hb; omega
  obtain ⟨ax1, bx1, cx1, dx1, si1, di1, r81, r91, r101, r111, r121, r131, r141, r151, s01, s11, s21, cf1, of1, h1, q0, q1, q2, q3, q4, q5, V1, V2, V3, V4, V5, V6, e1, e2, e3, e4, e5, e6, k4⟩ := noadxBody_exact (ax := ax) (bx := bx) (cx := cx) (dx := dx) (si := f1) (di := f0) (r8 := r8) (r9 := r9) (r10 := r10) (r11 := r11) (r12 := r12) (r13 := r13) (r14 := r14) (r15 := r15) (s0 := s0) (s1 := s1) (s2 := s2) (f0 := f0) (f1 := f1) (f2 := f2) (cf := cf) (of := of) (mem := mem) rfl rfl rfl rfl rfl rfl rfl rfl rfl rfl rfl rfl
    (val_load mem f0) (val_load mem f1) ha' hb' (Int.natCast_nonneg _) (Int.natCast_nonneg _)
  have h0 : run [.mov (.fp 0) (.reg .di), .mov (.fp 1) (.reg .si)] ⟨ax, bx, cx, dx, si, di, r8, r9, r10, r11, r12, r13, r14, r15, s0, s1, s2, f0, f1, f2, cf, of, mem⟩ =
      ⟨ax, bx, cx, dx, f1, f0, r8, r9, r10, r11, r12, r13, r14, r15, s0, s1, s2, f0, f1, f2, cf, of, mem⟩ := rfl
  have h2 : run [.mov (.fp 0) (.reg .si), .mov (.reg .r9) (.mem .si 0), .mov (.reg .r10) (.mem .si 8), .mov (.reg .r11) (.mem .si 16), .mov (.reg .r12) (.mem .si 24), .mov (.reg .cx) (.mem .si 32), .mov (.reg .r14) (.mem .si 40)] ⟨ax1, bx1, cx1, dx1, si1, di1, r81, r91, r101, r111, r121, r131, r141, r151, s01, s11, s21, f0, f1, f2, cf1, of1, mem⟩ =
      ⟨ax1, bx1, cx1, dx1, f0, di1, r81, r91, r101, r111, r121, r131, r141, r151, s01, s11, s21, f0, f1, f2, cf1, of1, (store6 mem f0 r91 r101 r111 r121 cx1 r141)⟩ := rfl
  refine ⟨_, writes_store6 (m := mem) rfl (by unfold mulAssignNoADX; rw [run_append, run_append, h0, h1, h2]) rfl, ?_⟩
  have hb0 := zb_bnd (q0 == 1); have hq0 := z_bnd q0
  have hb1 := zb_bnd (q1 == 1); have hq1 := z_bnd q1
  have hb2 := zb_bnd (q2 == 1); have hq2 := z_bnd q2
  have hb3 := zb_bnd (q3 == 1); have hq3 := z_bnd q3
  have hb4 := zb_bnd (q4 == 1); have hq4 := z_bnd q4
  have hb5 := zb_bnd (q5 == 1); have hq5 := z_bnd q5
  rw [mont_final_iff ha hb (M := z q0 + 2 ^ 64 * z q1 + 2 ^ 128 * z q2 + 2 ^ 192 * z q3 + 2 ^ 256 * z q4 + 2 ^ 320 * z q5) (R := V6)
    (E := 2 ^ 64 * zb (q0 == 1) + 2 ^ 128 * zb (q1 == 1) + 2 ^ 192 * zb (q2 == 1) + 2 ^ 256 * zb (q3 == 1) + 2 ^ 320 * zb (q4 == 1) + 2 ^ 384 * zb (q5 == 1))
    (by clear * - hq0 hq1 hq2 hq3 hq4 hq5; omega) (by clear * - hq0 hq1 hq2 hq3 hq4 hq5; omega)
    (by clear * - hb0 hb1 hb2 hb3 hb4 hb5; omega) (by rw [Nat.cast_mul, Q_cast]; linear_combination e6) (by rw [Q_cast, val_mk]; exact k4), noadx_loss]
  rw [← Q_cast] at e1 e2 e3 e4 e5 e6
  exact (noadx_units (by rw [Nat.cast_mul]; exact e1) (by rw [Nat.cast_mul]; exact e2) (by rw [Nat.cast_mul]; exact e3) (by rw [Nat.cast_mul]; exact e4)
    (by rw [Nat.cast_mul]; exact e5) (by rw [Nat.cast_mul]; exact e6)).symm

theorem mulAssignNoADX_writes (s : St) (ha : (load s.mem s.f0).Lz) (hb : (load s.mem s.f1).Lz)
    (h : NoUnitQuotient ((load s.mem s.f0).val * (load s.mem s.f1).val)) :
    Writes s (run mulAssignNoADX s) s.f0 (Fe.mul (load s.mem s.f0) (load s.mem s.f1)) := by
  obtain ⟨r, h1, h2⟩ := mulAssignNoADX_exact s ha hb
  rwa [h2.mpr h] at h1

end Verif.X86
