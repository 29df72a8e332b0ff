import Verif.SM2.Point
import Verif.EC.Order
import Mathlib.Tactic.Linarith

/-!
# The scalar multiplications of sm2_std.go compute multiples of points (lemmas)
-/

namespace Verif.SM2

open Verif.EC WeierstrassCurve

/-- `x³ + ax + b` has no root modulo `p`. -/
theorem noRoot : Order.noRoot c ⟨0xeb9539fb12a69fa8a00429afc717f1319f0c8d5b6b742939772c4ea8ae886749,
    0xbbea3c6e4f9890bc31aef1ce9abbeaf4847d5c84bfa4437849cb29256264e8b1,
    0x4eacc0d01f9e2a10d4f0056c0628ef26e06a3759ce9c5557561509c6fc21376f⟩ := by decide +kernel

/-- the SM2 curve has exactly `n` points. -/
theorem card_eq : Nat.card Pt = c.n := Order.card_eq good ord (by decide +kernel) noRoot

theorem n_smul (Q : Pt) : c.n • Q = 0 := Order.n_smul good ord (by decide +kernel) noRoot Q

theorem exists_smul (Q : Pt) : ∃ k < c.n, Q = k • good.G :=
  Order.exists_smul good ord (by decide +kernel) noRoot Q

theorem order_eq {Q : Pt} (h : Q ≠ 0) : addOrderOf Q = c.n := by
  have : Fact c.n.Prime := ⟨good.np⟩
  exact addOrderOf_eq_prime (n_smul Q) h

theorem smul_eq_zero_iff {Q : Pt} (h : Q ≠ 0) (k : ℕ) : k • Q = 0 ↔ c.n ∣ k := by
  rw [← order_eq h]; exact addOrderOf_dvd_iff_nsmul_eq_zero.symm

theorem smul_inj {Q : Pt} (h : Q ≠ 0) {a b : ℕ} (ha : a < c.n) (hb : b < c.n) (he : a • Q = b • Q) : a = b := by
  have hm := nsmul_eq_nsmul_iff_modEq.mp he
  rw [order_eq h] at hm
  unfold Nat.ModEq at hm
  rwa [Nat.mod_eq_of_lt ha, Nat.mod_eq_of_lt hb] at hm

theorem smul_ne_zero {Q : Pt} (h : Q ≠ 0) {a : ℕ} (h0 : a ≠ 0) (ha : a < c.n) : a • Q ≠ 0 := by
  rw [Ne, smul_eq_zero_iff h]
  intro hd
  exact absurd (Nat.le_of_dvd (Nat.pos_of_ne_zero h0) hd) (by omega)

theorem mod_smul (k : ℕ) (Q : Pt) : (k % c.n) • Q = k • Q := by
  conv_rhs => rw [← Nat.div_add_mod k c.n, add_nsmul, mul_comm, mul_nsmul', n_smul, nsmul_zero, zero_add]

theorem N_toNat : N.toNat = c.n := by rw [N_eq, Int.toNat_natCast]

theorem getScalar_lt (a : Bytes) : getScalar a < c.n := by
  unfold getScalar
  rw [N_toNat, N_eq]
  split
  · exact Nat.mod_lt _ good.np.pos
  · omega

theorem getScalar_smul (a : Bytes) (Q : Pt) : getScalar a • Q = beNat a • Q := by
  unfold getScalar
  rw [N_toNat]
  split
  · exact mod_smul _ _
  · rfl

def Jac.zero : Jac := ⟨Fe.zero, Fe.zero, Fe.zero⟩

theorem jzero : JFe ⟨Fe.zero, Fe.zero, Fe.zero⟩ 0 :=
  ⟨zero_isFe.1, zero_isFe.1, zero_isFe.1, zero_isFe.2⟩

theorem den_factor_one : den (factor 1) = 1 := by
  rw [(factor_isFe (k := 1) (by norm_num)).2]; simp

theorem rep_JFe {x y : Int} {Q : Pt} (h : Rep c x y Q) (hQ : Q ≠ 0) :
    JFe ⟨fromBig x, fromBig y, factor 1⟩ Q := by
  refine ⟨(fromBig_isFe x).1, (fromBig_isFe y).1, (factor_isFe (k := 1) (by norm_num)).1, ?_⟩
  dsimp only
  rw [(fromBig_isFe x).2, (fromBig_isFe y).2, den_factor_one]
  cases Q with
  | zero => exact absurd rfl hQ
  | some x' y' hn => exact ⟨one_ne_zero, by simp [h.1], by simp [h.2]⟩

theorem ofAffine_JFe {x y : Int} {Q : Pt} (h : Rep c x y Q) : JFe (ofAffine x y) Q := by
  refine ⟨(fromBig_isFe x).1, (fromBig_isFe y).1, (fromBig_isFe _).1, ?_⟩
  simp only [ofAffine]
  rw [(fromBig_isFe x).2, (fromBig_isFe y).2, (fromBig_isFe _).2]
  cases Q with
  | zero =>
    obtain ⟨rfl, rfl⟩ := h
    show ((zForAffine 0 0 : Int) : F) = 0
    simp [zForAffine]
  | some x' y' hn =>
    have hne : x ≠ 0 ∨ y ≠ 0 := by
      by_contra hc
      push Not at hc
      obtain ⟨rfl, rfl⟩ := hc
      exact good.origin_off hn ⟨by simpa using h.1.symm, by simpa using h.2.symm⟩
    have hz : zForAffine x y = 1 := if_pos hne
    rw [hz]
    exact ⟨by simp, by simp [h.1], by simp [h.2]⟩

theorem addGh_tri {x1 y1 x2 y2 : Int} {Q R : Pt} (h1 : Rep c x1 y1 Q) (h2 : Rep c x2 y2 R)
    (hne : Q = R → Q = 0) : (addGh x1 y1 x2 y2).Tri (· = enc c (Q + R)) :=
  Tri.bind (pointAdd_tri (ofAffine_JFe h1) (ofAffine_JFe h2) hne) fun _ h => toAffine_tri h

theorem addGh_self_tri {x1 y1 x2 y2 : Int} {Q : Pt} (h1 : Rep c x1 y1 Q) (h2 : Rep c x2 y2 Q) :
    (addGh x1 y1 x2 y2).Tri (· = (0, 0)) :=
  Tri.bind (pointAdd_self_tri (ofAffine_JFe h1) (ofAffine_JFe h2)) fun _ h => toAffine_tri h

theorem doubleGh_tri {x1 y1 : Int} {Q : Pt} (h1 : Rep c x1 y1 Q) : (doubleGh x1 y1).Tri (· = enc c (Q + Q)) :=
  Tri.bind (pointDouble_tri (ofAffine_JFe h1)) fun _ h => toAffine_tri h

/-! ## arbitrary points: 4-bit windows -/

/-- the table of multiples. -/
def TableOk (Q : Pt) (t : List Jac) : Prop :=
  ∀ i < t.length, JFe (t.getD i ⟨Fe.zero, Fe.zero, Fe.zero⟩) (i • Q)

theorem small_lt {a : ℕ} (h : a ≤ 16) : a < c.n := lt_of_le_of_lt h (by decide +kernel)

theorem precompLoop_tri {x y : Fe} {Q : Pt} (hQ : Q ≠ 0) (hxy : JFe ⟨x, y, factor 1⟩ Q) (n m : ℕ) (acc : List Jac)
    (hm : 1 ≤ m) (hnm : m + n ≤ 8) (hl : acc.length = 2 * m) (ht : TableOk Q acc) :
    (precompLoop x y n acc).Tri (fun t => t.length = 2 * (m + n) ∧ TableOk Q t) := by
  induction n generalizing m acc with
  | zero => exact Tri.pure ⟨hl, ht⟩
  | succ n ih =>
    unfold precompLoop
    have hhalf : acc.length / 2 = m := by omega
    rw [hhalf]
    refine Tri.bind (pointDouble_tri (ht m (by omega))) fun d hd => ?_
    rw [← add_nsmul, ← two_mul] at hd
    have h0 : (2 * m) • Q ≠ 0 := smul_ne_zero hQ (by omega) (small_lt (by omega))
    have h1 : (2 * m) • Q ≠ Q := by
      intro he
      have he' : (2 * m) • Q = 1 • Q := by rw [one_nsmul]; exact he
      have := smul_inj hQ (small_lt (by omega)) (small_lt (by omega)) he'
      omega
    refine Tri.bind (pointAddMixed_tri hd hxy h0 h1) fun e he => ?_
    rw [← succ_nsmul] at he
    have := ih (m + 1) (acc ++ [d, e]) (by omega) (by omega) (by simp [hl]; omega) (by
      intro i hi
      rw [List.length_append, hl] at hi
      simp only [List.length_cons, List.length_nil] at hi
      by_cases hlt : i < acc.length
      · rw [List.getD_append _ _ _ _ hlt]; exact ht i hlt
      · rw [List.getD_append_right _ _ _ _ (by omega)]
        have : i = 2 * m ∨ i = 2 * m + 1 := by omega
        rcases this with rfl | rfl
        · simpa [hl] using hd
        · simpa [hl] using he)
    refine Tri.mono this fun t h => ⟨by rw [h.1]; ring, h.2⟩

theorem precomp_tri {x y : Fe} {Q : Pt} (hQ : Q ≠ 0) (hxy : JFe ⟨x, y, factor 1⟩ Q) :
    (precomp x y).Tri (fun t => t.length = 16 ∧ TableOk Q t) := by
  refine precompLoop_tri hQ hxy 7 1 _ le_rfl (by norm_num) (by simp) ?_
  intro i hi
  simp only [List.length_cons, List.length_nil] at hi
  have : i = 0 ∨ i = 1 := by omega
  rcases this with rfl | rfl
  · rw [zero_nsmul]; exact jzero
  · rw [one_nsmul]; exact hxy

theorem selectJacobian_ok {Q : Pt} {t : List Jac} (hl : t.length = 16) (ht : TableOk Q t) {i : ℕ} (hi : i < 16) :
    JFe (selectJacobian t i) (i • Q) := by
  unfold selectJacobian
  split
  · rename_i h; subst h; rw [zero_nsmul]; exact jzero
  · exact ht i (by omega)

theorem four_doubles {p : Jac} {Q : Pt} {m : ℕ} (h : JFe p (m • Q)) :
    (do let d ← pointDouble p
        let d ← pointDouble d
        let d ← pointDouble d
        pointDouble d : Gh Jac).Tri (JFe · ((16 * m) • Q)) := by
  refine Tri.bind (pointDouble_tri h) fun d1 h1 => ?_
  refine Tri.bind (pointDouble_tri h1) fun d2 h2 => ?_
  refine Tri.bind (pointDouble_tri h2) fun d3 h3 => ?_
  refine Tri.mono (pointDouble_tri h3) fun d4 h4 => ?_
  have : (16 * m) • Q = m • Q + m • Q + (m • Q + m • Q) + (m • Q + m • Q + (m • Q + m • Q)) +
      (m • Q + m • Q + (m • Q + m • Q) + (m • Q + m • Q + (m • Q + m • Q))) := by
    simp only [← add_nsmul]; congr 1; ring
  rw [this]; exact h4

theorem multLoop_tri {Q : Pt} (hQ : Q ≠ 0) {t : List Jac} (hl : t.length = 16) (ht : TableOk Q t) {k : ℕ} (hk : k < c.n)
    (n : ℕ) (hn : n ≤ 64) (st : Jac × Bool) (h1 : JFe st.1 ((k / 16 ^ n) • Q)) (h2 : st.2 = true ↔ k / 16 ^ n = 0) :
    (multLoop k t n st).Tri (fun st' => JFe st'.1 (k • Q)) := by
  induction n generalizing st with
  | zero => simp only [pow_zero, Nat.div_one] at h1; exact Tri.pure h1
  | succ n ih =>
    unfold multLoop
    have hk256 : k / 16 ^ 64 = 0 := Nat.div_eq_of_lt (lt_trans hk (by decide +kernel))
    have hdbl : (quadruple (63 - n) st.1).Tri (JFe · ((16 * (k / 16 ^ (n + 1))) • Q)) := by
      unfold quadruple
      split
      · exact four_doubles h1
      · have : n = 63 := by omega
        subst this
        refine Tri.pure ?_
        rw [hk256] at h1 ⊢; exact h1
    refine Tri.bind hdbl fun out hout => ?_
    have hw : windowIndex k (63 - n) = k / 16 ^ n % 16 := by
      unfold windowIndex
      have : 63 - (63 - n) = n := by omega
      rw [this, pow_mul]; norm_num
    rw [hw]
    have hdiv : k / 16 ^ n = 16 * (k / 16 ^ (n + 1)) + k / 16 ^ n % 16 := by
      rw [pow_succ, ← Nat.div_div_eq_div_mul]; omega
    have hle : k / 16 ^ n ≤ k := Nat.div_le_self _ _
    generalize hm : k / 16 ^ (n + 1) = m at *
    generalize hi : k / 16 ^ n % 16 = idx at *
    have hidx : idx < 16 := by rw [← hi]; exact Nat.mod_lt _ (by norm_num)
    have hp := selectJacobian_ok hl ht hidx
    refine Tri.bind (pointAdd_tri hout hp ?_) fun r hr => ?_
    · intro he
      by_cases hm0 : m = 0
      · rw [hm0]; simp
      · have := smul_inj hQ (a := 16 * m) (b := idx) (by omega) (by omega) he
        omega
    rw [← add_nsmul, ← hdiv] at hr
    refine ih (by omega) _ ?_ ?_
    · dsimp only
      cases hb : st.2 with
      | true =>
        have hm0 : m = 0 := h2.mp hb
        simp only [not_true_eq_false, and_false, if_false, if_true]
        rw [hdiv, hm0]; simpa using hp
      | false =>
        simp only [Bool.false_eq_true, not_false_eq_true, and_true, if_false]
        split
        · exact hr
        · rename_i hi0
          have : idx = 0 := by simpa using hi0
          rw [hdiv, this, add_zero]; exact hout
    · dsimp only
      rw [hdiv]
      split
      · constructor
        · intro h; cases h
        · intro h; omega
      · rw [h2]
        constructor <;> intro h <;> omega

theorem scalarMultGh_tri {x y : Int} {Q : Pt} (hQ : Q ≠ 0) (h : Rep c x y Q) (k : Bytes) :
    (scalarMultGh x y k).Tri (· = enc c (beNat k • Q)) := by
  unfold scalarMultGh scalarMultJ
  refine Tri.bind ?_ fun r hr => toAffine_tri hr
  refine Tri.bind (precomp_tri hQ (rep_JFe h hQ)) fun t ht => ?_
  have h0 : getScalar k / 16 ^ 64 = 0 := Nat.div_eq_of_lt (lt_trans (getScalar_lt k) (by decide +kernel))
  refine Tri.bind (multLoop_tri hQ ht.1 ht.2 (getScalar_lt k) 64 le_rfl _ ?_ ?_) fun st hst => ?_
  · rw [h0, zero_nsmul]; exact jzero
  · rw [h0]; simp
  · rw [getScalar_smul] at hst
    exact Tri.pure hst

/-! ## the base point: comb tables -/

/-- the multiple of `G` the comb index stands for. -/
def combVal (i : ℕ) : ℕ :=
  i % 2 + i / 2 % 2 * 2 ^ 64 + i / 4 % 2 * 2 ^ 128 + i / 8 % 2 * 2 ^ 192

theorem table0_check : ∀ i : Fin 15, (toBig (table0.getD i.val (Fe.zero, Fe.zero)).1, toBig (table0.getD i.val (Fe.zero, Fe.zero)).2)
    = Ref.mul c c.gx c.gy (combVal (i.val + 1)) := by decide +kernel

theorem table1_check : ∀ i : Fin 15, (toBig (table1.getD i.val (Fe.zero, Fe.zero)).1, toBig (table1.getD i.val (Fe.zero, Fe.zero)).2)
    = Ref.mul c c.gx c.gy (2 ^ 32 * combVal (i.val + 1)) := by decide +kernel

/-- decidable form of `Fe.Red`. -/
def redB (f : Fe) : Bool :=
  f.a0 < 536870912 && f.a1 < 268435456 && f.a2 < 536870912 && f.a3 < 268435456 && f.a4 < 536870912 &&
  f.a5 < 268435456 && f.a6 < 536870912 && f.a7 < 268435456 && f.a8 < 536870912

theorem redB_ok {f : Fe} (h : redB f = true) : f.Ok := by
  simp only [redB, Bool.and_eq_true, decide_eq_true_eq] at h
  exact Fe.Red.ok ⟨by omega, by omega, by omega, by omega, by omega, by omega, by omega, by omega, by omega⟩

theorem table0_red : ∀ i : Fin 15, redB (table0.getD i.val (Fe.zero, Fe.zero)).1 && redB (table0.getD i.val (Fe.zero, Fe.zero)).2 := by
  decide +kernel
theorem table1_red : ∀ i : Fin 15, redB (table1.getD i.val (Fe.zero, Fe.zero)).1 && redB (table1.getD i.val (Fe.zero, Fe.zero)).2 := by
  decide +kernel

theorem G_ne : good.G ≠ 0 := Affine.Point.some_ne_zero _

theorem entry_ok {x y : Fe} {k : ℕ} (hx : x.Ok) (hy : y.Ok) (hk0 : k ≠ 0) (hk : k < c.n)
    (he : (toBig x, toBig y) = Ref.mul c c.gx c.gy k) : JFe ⟨x, y, factor 1⟩ (k • good.G) := by
  rw [Ref.mul_spec good (Ref.repG good)] at he
  have h0 := smul_ne_zero G_ne hk0 hk
  have hr := rep_enc (k • good.G)
  rw [← he] at hr
  refine ⟨hx, hy, (factor_isFe (k := 1) (by norm_num)).1, ?_⟩
  dsimp only at hr ⊢
  rw [den_factor_one]
  cases hc : k • good.G with
  | zero => exact absurd hc h0
  | some x' y' hn =>
    rw [hc] at hr
    refine ⟨one_ne_zero, ?_, ?_⟩
    · rw [← toBig_cast, hr.1]; ring
    · rw [← toBig_cast, hr.2]; ring

theorem combVal_bound {i : ℕ} (h0 : i ≠ 0) (hi : i < 16) :
    combVal i ≠ 0 ∧ combVal i < c.n ∧ 2 ^ 32 * combVal i ≠ 0 ∧ 2 ^ 32 * combVal i < c.n := by
  have : ∀ i : Fin 15, combVal (i.val + 1) ≠ 0 ∧ combVal (i.val + 1) < c.n ∧ 2 ^ 32 * combVal (i.val + 1) ≠ 0 ∧
      2 ^ 32 * combVal (i.val + 1) < c.n := by decide +kernel
  have := this ⟨i - 1, by omega⟩
  simp only [Nat.sub_add_cancel (Nat.pos_of_ne_zero h0)] at this
  exact this

/-- what a comb table must contain: entry `i` is `w · combVal i` times the base point. -/
def CombOk (table : List (Fe × Fe)) (w : ℕ) : Prop :=
  ∀ i, i ≠ 0 → i < 16 → JFe ⟨(selectAffine table i).1, (selectAffine table i).2, factor 1⟩ ((w * combVal i) • good.G)

theorem table0_ok : CombOk table0 1 := by
  intro i h0 hi
  unfold selectAffine
  rw [if_neg h0, one_mul]
  have hr := table0_red ⟨i - 1, by omega⟩
  have hc := table0_check ⟨i - 1, by omega⟩
  simp only [Nat.sub_add_cancel (Nat.pos_of_ne_zero h0), Bool.and_eq_true] at hr hc
  have hb := combVal_bound h0 hi
  exact entry_ok (redB_ok hr.1) (redB_ok hr.2) hb.1 hb.2.1 hc

theorem table1_ok : CombOk table1 (2 ^ 32) := by
  intro i h0 hi
  unfold selectAffine
  rw [if_neg h0]
  have hr := table1_red ⟨i - 1, by omega⟩
  have hc := table1_check ⟨i - 1, by omega⟩
  simp only [Nat.sub_add_cancel (Nat.pos_of_ne_zero h0), Bool.and_eq_true] at hr hc
  have hb := combVal_bound h0 hi
  exact entry_ok (redB_ok hr.1) (redB_ok hr.2) hb.2.2.1 hb.2.2.2 hc

/-- the state of the comb loop: the accumulator is `m · G`; while it is infinity (`m = 0`) its coordinates are
arbitrary, except that they are `(0, 0, 1)` right after an addition. -/
structure BaseOk (st : Jac × Bool) (m : ℕ) : Prop where
  inf : st.2 = true ↔ m = 0
  rep : m ≠ 0 → JFe st.1 (m • good.G)

theorem baseAdd_tri {table : List (Fe × Fe)} {w : ℕ} (ht : CombOk table w) {idx : ℕ} (hi : idx < 16) {m : ℕ}
    {st : Jac × Bool} (h : BaseOk st m)
    (hlt : m + w * combVal idx < c.n) (hw : w ≠ 0) (hne : idx ≠ 0 → m = w * combVal idx → m = 0) :
    (baseAdd table idx st).Tri (fun st' => BaseOk st' (m + w * combVal idx) ∧
      (m + w * combVal idx = 0 → st'.1 = ⟨Fe.zero, Fe.zero, factor 1⟩)) := by
  have hc0 : combVal 0 = 0 := by decide
  have h2 := h.inf
  unfold baseAdd
  by_cases hi0 : idx = 0
  · subst hi0
    refine Tri.bind (Q := fun _ => True) (fun _ => trivial) fun t _ => ?_
    refine Tri.pure ?_
    rw [hc0, mul_zero, add_zero]
    simp only [ne_eq, not_true_eq_false, false_and, if_false]
    refine ⟨⟨h2, ?_⟩, ?_⟩
    · intro hm
      have hb : st.2 = false := by
        cases hb : st.2 with
        | true => exact absurd (h2.mp hb) hm
        | false => rfl
      simpa [hb] using h.rep hm
    · intro hm
      have hb := h2.mpr hm
      simp [hb, selectAffine]
  · have hp := ht idx hi0 hi
    have hv : combVal idx ≠ 0 := (combVal_bound hi0 hi).1
    have hwv : w * combVal idx ≠ 0 := Nat.mul_ne_zero hw hv
    by_cases hm : m = 0
    · refine Tri.bind (Q := fun _ => True) (fun _ => trivial) fun t _ => ?_
      have hb := h2.mpr hm
      refine Tri.pure ?_
      simp only [hb, if_true, ne_eq, hi0, not_false_eq_true, not_true_eq_false, and_false, if_false]
      rw [hm, zero_add]
      exact ⟨⟨⟨fun h => absurd h (by simp), fun h => absurd h hwv⟩, fun _ => hp⟩, fun h => absurd h hwv⟩
    · have hb : st.2 = false := by
        cases hb : st.2 with
        | true => exact absurd (h2.mp hb) hm
        | false => rfl
      have h0 : m • good.G ≠ 0 := smul_ne_zero G_ne hm (by omega)
      refine Tri.bind (pointAddMixed_tri (h.rep hm) hp h0 ?_) fun t hr => ?_
      · intro he
        exact hm (hne hi0 (smul_inj G_ne (by omega) (by omega) he))
      rw [← add_nsmul] at hr
      refine Tri.pure ?_
      simp only [hb, ne_eq, hi0, not_false_eq_true, Bool.false_eq_true, and_self, if_true]
      exact ⟨⟨⟨fun h => absurd h (by simp), fun h => absurd h (by omega)⟩, fun _ => hr⟩, fun h => absurd h (by omega)⟩

/-- the value of the accumulator when `s` more bits of each 32-bit piece remain. -/
def pref (k s : ℕ) : ℕ :=
  (k % 2 ^ 32 / 2 ^ s + 2 ^ 32 * (k / 2 ^ 32 % 2 ^ 32 / 2 ^ s)) +
  2 ^ 64 * (k / 2 ^ 64 % 2 ^ 32 / 2 ^ s + 2 ^ 32 * (k / 2 ^ 96 % 2 ^ 32 / 2 ^ s)) +
  2 ^ 128 * (k / 2 ^ 128 % 2 ^ 32 / 2 ^ s + 2 ^ 32 * (k / 2 ^ 160 % 2 ^ 32 / 2 ^ s)) +
  2 ^ 192 * (k / 2 ^ 192 % 2 ^ 32 / 2 ^ s + 2 ^ 32 * (k / 2 ^ 224 % 2 ^ 32 / 2 ^ s))

theorem bit_piece (k j s : ℕ) (hs : s < 32) : k / 2 ^ (s + j) % 2 = k / 2 ^ j % 2 ^ 32 / 2 ^ s % 2 := by
  have e : (2 : ℕ) ^ 32 = 2 ^ s * 2 ^ (32 - s) := by rw [← pow_add]; congr 1; omega
  rw [e, Nat.mod_mul_right_div_self, pow_add, mul_comm, ← Nat.div_div_eq_div_mul]
  rw [Nat.mod_mod_of_dvd]
  exact dvd_pow_self 2 (by omega)

theorem half_piece (x s : ℕ) : x / 2 ^ (s + 1) = x / 2 ^ s / 2 := by
  rw [pow_succ, Nat.div_div_eq_div_mul]

theorem combVal_bits {b0 b1 b2 b3 : ℕ} (h0 : b0 < 2) (h1 : b1 < 2) (h2 : b2 < 2) (h3 : b3 < 2) :
    combVal (b0 + 2 * b1 + 4 * b2 + 8 * b3) = b0 + b1 * 2 ^ 64 + b2 * 2 ^ 128 + b3 * 2 ^ 192 := by
  interval_cases b0 <;> interval_cases b1 <;> interval_cases b2 <;> interval_cases b3 <;> decide +kernel

theorem piece_lt (x s : ℕ) : x % 2 ^ 32 / 2 ^ s < 2 ^ 32 :=
  lt_of_le_of_lt (Nat.div_le_self _ _) (Nat.mod_lt _ (by norm_num))

theorem piece_le (x s : ℕ) : x % 2 ^ 32 / 2 ^ s ≤ x % 2 ^ 32 := Nat.div_le_self _ _

theorem pref_le {k : ℕ} (hk : k < 2 ^ 256) (s : ℕ) : pref k s ≤ k := by
  unfold pref
  have h0 := piece_le k s
  have h1 := piece_le (k / 2 ^ 32) s
  have h2 := piece_le (k / 2 ^ 64) s
  have h3 := piece_le (k / 2 ^ 96) s
  have h4 := piece_le (k / 2 ^ 128) s
  have h5 := piece_le (k / 2 ^ 160) s
  have h6 := piece_le (k / 2 ^ 192) s
  have h7 := piece_le (k / 2 ^ 224) s
  generalize k % 2 ^ 32 / 2 ^ s = a0 at *
  generalize k / 2 ^ 32 % 2 ^ 32 / 2 ^ s = a1 at *
  generalize k / 2 ^ 64 % 2 ^ 32 / 2 ^ s = a2 at *
  generalize k / 2 ^ 96 % 2 ^ 32 / 2 ^ s = a3 at *
  generalize k / 2 ^ 128 % 2 ^ 32 / 2 ^ s = a4 at *
  generalize k / 2 ^ 160 % 2 ^ 32 / 2 ^ s = a5 at *
  generalize k / 2 ^ 192 % 2 ^ 32 / 2 ^ s = a6 at *
  generalize k / 2 ^ 224 % 2 ^ 32 / 2 ^ s = a7 at *
  omega

theorem pref_zero {k : ℕ} (hk : k < 2 ^ 256) : pref k 0 = k := by
  unfold pref
  simp only [pow_zero, Nat.div_one]
  omega

theorem pref_32 (k : ℕ) : pref k 32 = 0 := by
  unfold pref
  have (x : ℕ) : x % 2 ^ 32 / 2 ^ 32 = 0 := Nat.div_eq_of_lt (Nat.mod_lt _ (by norm_num))
  simp only [this]; rfl

theorem getBit_lt (k i : ℕ) : getBit k i < 2 := Nat.mod_lt _ (by norm_num)

theorem digits_inj {x0 x1 x2 x3 y0 y1 y2 y3 : ℕ} (h0 : x0 < 2 ^ 64) (h1 : x1 < 2 ^ 64) (h2 : x2 < 2 ^ 64)
    (g0 : y0 < 2 ^ 64) (g1 : y1 < 2 ^ 64) (g2 : y2 < 2 ^ 64)
    (h : x0 + 2 ^ 64 * x1 + 2 ^ 128 * x2 + 2 ^ 192 * x3 = y0 + 2 ^ 64 * y1 + 2 ^ 128 * y2 + 2 ^ 192 * y3) :
    x0 = y0 ∧ x1 = y1 ∧ x2 = y2 ∧ x3 = y3 := by omega

theorem step_value (a0 a1 a2 a3 a4 a5 a6 a7 : ℕ) :
    a0 + 2 ^ 32 * a1 + 2 ^ 64 * (a2 + 2 ^ 32 * a3) + 2 ^ 128 * (a4 + 2 ^ 32 * a5) + 2 ^ 192 * (a6 + 2 ^ 32 * a7) =
    2 * (a0 / 2 + 2 ^ 32 * (a1 / 2) + 2 ^ 64 * (a2 / 2 + 2 ^ 32 * (a3 / 2)) + 2 ^ 128 * (a4 / 2 + 2 ^ 32 * (a5 / 2)) +
      2 ^ 192 * (a6 / 2 + 2 ^ 32 * (a7 / 2))) +
    1 * (a0 % 2 + a2 % 2 * 2 ^ 64 + a4 % 2 * 2 ^ 128 + a6 % 2 * 2 ^ 192) +
    2 ^ 32 * (a1 % 2 + a3 % 2 * 2 ^ 64 + a5 % 2 * 2 ^ 128 + a7 % 2 * 2 ^ 192) := by
  have e0 := Nat.div_add_mod a0 2
  have e1 := Nat.div_add_mod a1 2
  have e2 := Nat.div_add_mod a2 2
  have e3 := Nat.div_add_mod a3 2
  have e4 := Nat.div_add_mod a4 2
  have e5 := Nat.div_add_mod a5 2
  have e6 := Nat.div_add_mod a6 2
  have e7 := Nat.div_add_mod a7 2
  generalize a0 / 2 = q0 at *
  generalize a1 / 2 = q1 at *
  generalize a2 / 2 = q2 at *
  generalize a3 / 2 = q3 at *
  generalize a4 / 2 = q4 at *
  generalize a5 / 2 = q5 at *
  generalize a6 / 2 = q6 at *
  generalize a7 / 2 = q7 at *
  generalize a0 % 2 = r0 at *
  generalize a1 % 2 = r1 at *
  generalize a2 % 2 = r2 at *
  generalize a3 % 2 = r3 at *
  generalize a4 % 2 = r4 at *
  generalize a5 % 2 = r5 at *
  generalize a6 % 2 = r6 at *
  generalize a7 % 2 = r7 at *
  subst e0 e1 e2 e3 e4 e5 e6 e7
  ring

theorem step_coll1 {a0 a1 a2 a3 a4 a5 a6 a7 : ℕ} (h0 : a0 < 2 ^ 32) (h1 : a1 < 2 ^ 32) (h2 : a2 < 2 ^ 32) (h3 : a3 < 2 ^ 32)
    (h4 : a4 < 2 ^ 32) (h5 : a5 < 2 ^ 32)
    (h : 2 * (a0 / 2 + 2 ^ 32 * (a1 / 2) + 2 ^ 64 * (a2 / 2 + 2 ^ 32 * (a3 / 2)) + 2 ^ 128 * (a4 / 2 + 2 ^ 32 * (a5 / 2)) +
      2 ^ 192 * (a6 / 2 + 2 ^ 32 * (a7 / 2))) =
    1 * (a0 % 2 + a2 % 2 * 2 ^ 64 + a4 % 2 * 2 ^ 128 + a6 % 2 * 2 ^ 192)) :
    2 * (a0 / 2 + 2 ^ 32 * (a1 / 2) + 2 ^ 64 * (a2 / 2 + 2 ^ 32 * (a3 / 2)) + 2 ^ 128 * (a4 / 2 + 2 ^ 32 * (a5 / 2)) +
      2 ^ 192 * (a6 / 2 + 2 ^ 32 * (a7 / 2))) = 0 := by
  have := digits_inj (x0 := 2 * (a0 / 2) + 2 ^ 33 * (a1 / 2)) (x1 := 2 * (a2 / 2) + 2 ^ 33 * (a3 / 2))
    (x2 := 2 * (a4 / 2) + 2 ^ 33 * (a5 / 2)) (x3 := 2 * (a6 / 2) + 2 ^ 33 * (a7 / 2))
    (y0 := a0 % 2) (y1 := a2 % 2) (y2 := a4 % 2) (y3 := a6 % 2) (by omega) (by omega) (by omega) (by omega) (by omega) (by omega)
    (by linarith)
  obtain ⟨c0, c1, c2, c3⟩ := this
  have : a0 / 2 = 0 ∧ a1 / 2 = 0 := by omega
  have : a2 / 2 = 0 ∧ a3 / 2 = 0 := by omega
  have : a4 / 2 = 0 ∧ a5 / 2 = 0 := by omega
  have : a6 / 2 = 0 ∧ a7 / 2 = 0 := by omega
  simp [*]

theorem digit2 {a b : ℕ} (ha : a < 2 ^ 32) (h : 2 * (a / 2) + 2 ^ 33 * (b / 2) + a % 2 = 2 ^ 32 * (b % 2)) :
    a / 2 = 0 ∧ b / 2 = 0 ∧ a % 2 = 0 := by omega

theorem combIndex_lt (k i j : ℕ) : combIndex k i j < 16 := by
  unfold combIndex
  have g (j : ℕ) := getBit_lt k j
  have g0 := g (31 - i + j)
  have g1 := g (95 - i + j)
  have g2 := g (159 - i + j)
  have g3 := g (223 - i + j)
  omega

theorem step_coll2 {a0 a1 a2 a3 a4 a5 a6 a7 : ℕ} (h0 : a0 < 2 ^ 32) (h1 : a1 < 2 ^ 32) (h2 : a2 < 2 ^ 32) (h3 : a3 < 2 ^ 32)
    (h4 : a4 < 2 ^ 32) (h5 : a5 < 2 ^ 32) (h6 : a6 < 2 ^ 32)
    (h : 2 * (a0 / 2 + 2 ^ 32 * (a1 / 2) + 2 ^ 64 * (a2 / 2 + 2 ^ 32 * (a3 / 2)) + 2 ^ 128 * (a4 / 2 + 2 ^ 32 * (a5 / 2)) +
      2 ^ 192 * (a6 / 2 + 2 ^ 32 * (a7 / 2))) +
    1 * (a0 % 2 + a2 % 2 * 2 ^ 64 + a4 % 2 * 2 ^ 128 + a6 % 2 * 2 ^ 192) =
    2 ^ 32 * (a1 % 2 + a3 % 2 * 2 ^ 64 + a5 % 2 * 2 ^ 128 + a7 % 2 * 2 ^ 192)) :
    2 * (a0 / 2 + 2 ^ 32 * (a1 / 2) + 2 ^ 64 * (a2 / 2 + 2 ^ 32 * (a3 / 2)) + 2 ^ 128 * (a4 / 2 + 2 ^ 32 * (a5 / 2)) +
      2 ^ 192 * (a6 / 2 + 2 ^ 32 * (a7 / 2))) +
    1 * (a0 % 2 + a2 % 2 * 2 ^ 64 + a4 % 2 * 2 ^ 128 + a6 % 2 * 2 ^ 192) = 0 := by
  have := digits_inj (x0 := 2 * (a0 / 2) + 2 ^ 33 * (a1 / 2) + a0 % 2) (x1 := 2 * (a2 / 2) + 2 ^ 33 * (a3 / 2) + a2 % 2)
    (x2 := 2 * (a4 / 2) + 2 ^ 33 * (a5 / 2) + a4 % 2) (x3 := 2 * (a6 / 2) + 2 ^ 33 * (a7 / 2) + a6 % 2)
    (y0 := 2 ^ 32 * (a1 % 2)) (y1 := 2 ^ 32 * (a3 % 2)) (y2 := 2 ^ 32 * (a5 % 2)) (y3 := 2 ^ 32 * (a7 % 2))
    (by omega) (by omega) (by omega) (by omega) (by omega) (by omega)
    (by linarith)
  obtain ⟨c0, c1, c2, c3⟩ := this
  obtain ⟨p0, p1, p2⟩ := digit2 h0 c0
  obtain ⟨p3, p4, p5⟩ := digit2 h2 c1
  obtain ⟨p6, p7, p8⟩ := digit2 h4 c2
  obtain ⟨p9, p10, p11⟩ := digit2 h6 c3
  rw [p0, p1, p2, p3, p4, p5, p6, p7, p8, p9, p10, p11]; rfl

/-- one pass of the comb: the new value, and the two collisions that cannot happen. -/
theorem pref_step (k s : ℕ) (hs : s < 32) :
    combIndex k (31 - s) 0 < 16 ∧ combIndex k (31 - s) 32 < 16 ∧
    pref k s = 2 * pref k (s + 1) + 1 * combVal (combIndex k (31 - s) 0) + 2 ^ 32 * combVal (combIndex k (31 - s) 32) ∧
    (2 * pref k (s + 1) = 1 * combVal (combIndex k (31 - s) 0) → 2 * pref k (s + 1) = 0) ∧
    (2 * pref k (s + 1) + 1 * combVal (combIndex k (31 - s) 0) = 2 ^ 32 * combVal (combIndex k (31 - s) 32) →
      2 * pref k (s + 1) + 1 * combVal (combIndex k (31 - s) 0) = 0) := by
  refine ⟨combIndex_lt _ _ _, combIndex_lt _ _ _, ?_⟩
  have hss : 31 - (31 - s) = s := by omega
  have e1 : 95 - (31 - s) = s + 64 := by omega
  have e2 : 159 - (31 - s) = s + 128 := by omega
  have e3 : 223 - (31 - s) = s + 192 := by omega
  unfold combIndex
  rw [hss, e1, e2, e3]
  simp only [add_zero]
  have g (j : ℕ) := getBit_lt k j
  rw [combVal_bits (g _) (g _) (g _) (g _), combVal_bits (g _) (g _) (g _) (g _)]
  have a1 : s + 64 + 32 = s + 96 := by omega
  have a2 : s + 128 + 32 = s + 160 := by omega
  have a3 : s + 192 + 32 = s + 224 := by omega
  rw [a1, a2, a3]
  unfold getBit pref
  rw [bit_piece k 32 s hs, bit_piece k 64 s hs, bit_piece k 96 s hs, bit_piece k 128 s hs, bit_piece k 160 s hs,
    bit_piece k 192 s hs, bit_piece k 224 s hs]
  have b0 := bit_piece k 0 s hs
  simp only [add_zero, pow_zero, Nat.div_one] at b0
  rw [b0]
  have hhalf (x : ℕ) := half_piece x s
  simp only [hhalf]
  have h0 := piece_lt k s
  have h1 := piece_lt (k / 2 ^ 32) s
  have h2 := piece_lt (k / 2 ^ 64) s
  have h3 := piece_lt (k / 2 ^ 96) s
  have h4 := piece_lt (k / 2 ^ 128) s
  have h5 := piece_lt (k / 2 ^ 160) s
  have h6 := piece_lt (k / 2 ^ 192) s
  have h7 := piece_lt (k / 2 ^ 224) s
  generalize k % 2 ^ 32 / 2 ^ s = a0 at *
  generalize k / 2 ^ 32 % 2 ^ 32 / 2 ^ s = a1 at *
  generalize k / 2 ^ 64 % 2 ^ 32 / 2 ^ s = a2 at *
  generalize k / 2 ^ 96 % 2 ^ 32 / 2 ^ s = a3 at *
  generalize k / 2 ^ 128 % 2 ^ 32 / 2 ^ s = a4 at *
  generalize k / 2 ^ 160 % 2 ^ 32 / 2 ^ s = a5 at *
  generalize k / 2 ^ 192 % 2 ^ 32 / 2 ^ s = a6 at *
  generalize k / 2 ^ 224 % 2 ^ 32 / 2 ^ s = a7 at *
  exact ⟨step_value _ _ _ _ _ _ _ _, step_coll1 h0 h1 h2 h3 h4 h5, step_coll2 h0 h1 h2 h3 h4 h5 h6⟩

theorem baseLoop_tri {k : ℕ} (hk : k < c.n) (n : ℕ) (hn : n ≤ 32) (st : Jac × Bool) (h : BaseOk st (pref k n))
    (h32 : n = 0 → pref k n = 0 → st.1 = ⟨Fe.zero, Fe.zero, factor 1⟩) :
    (baseLoop k n st).Tri (fun st' => BaseOk st' k ∧ (k = 0 → st'.1 = ⟨Fe.zero, Fe.zero, factor 1⟩)) := by
  have hk256 : k < 2 ^ 256 := lt_trans hk (by decide +kernel)
  induction n generalizing st with
  | zero =>
    rw [pref_zero hk256] at h h32
    exact Tri.pure ⟨h, h32 rfl⟩
  | succ n ih =>
    unfold baseLoop
    obtain ⟨i1, i2, hst, hc1, hc2⟩ := pref_step k n (by omega)
    have hle := pref_le hk256 n
    have hd : (doubleUnlessFirst (31 - n) st.1).Tri (fun out => BaseOk (out, st.2) (2 * pref k (n + 1))) := by
      unfold doubleUnlessFirst
      have hinf : st.2 = true ↔ 2 * pref k (n + 1) = 0 := by rw [h.inf]; omega
      split
      · by_cases hm : pref k (n + 1) = 0
        · intro _
          exact ⟨hinf, fun hc => absurd hm (by omega)⟩
        · refine Tri.mono (pointDouble_tri (h.rep hm)) fun d hd => ⟨hinf, fun _ => ?_⟩
          rwa [← add_nsmul, ← two_mul] at hd
      · have : n = 31 := by omega
        subst this
        rw [pref_32] at h ⊢
        exact Tri.pure ⟨by simpa using h.inf, fun hc => absurd rfl hc⟩
    refine Tri.bind hd fun out hout => ?_
    refine Tri.bind (baseAdd_tri table0_ok i1 hout (by omega) one_ne_zero (fun _ => hc1)) fun st1 h1 => ?_
    refine Tri.bind (baseAdd_tri table1_ok i2 h1.1 (by omega) (by norm_num) (fun _ => hc2)) fun st2 h2 => ?_
    rw [← hst] at h2
    exact ih (by omega) st2 h2.1 (fun _ => h2.2)

theorem toAffine_inf : toAffine ⟨Fe.zero, Fe.zero, factor 1⟩ = ⟨(0, 0), false⟩ := by
  have h1 : (toAffine ⟨Fe.zero, Fe.zero, factor 1⟩).val = (0, 0) := by decide +kernel
  have h2 : (toAffine ⟨Fe.zero, Fe.zero, factor 1⟩).bad = false := by decide +kernel
  rw [← h1, ← h2]

theorem scalarBaseMultGh_tri (k : Bytes) : (scalarBaseMultGh k).Tri (· = enc c (beNat k • good.G)) := by
  unfold scalarBaseMultGh scalarBaseMultJ
  refine Tri.bind (Q := fun r => toAffine r |>.Tri (· = enc c (beNat k • good.G))) ?_ fun r hr => hr
  have h0 : BaseOk ((⟨Fe.zero, Fe.zero, Fe.zero⟩ : Jac), true) (pref (getScalar k) 32) := by
    rw [pref_32]; exact ⟨by simp, fun h => absurd rfl h⟩
  refine Tri.bind (baseLoop_tri (getScalar_lt k) 32 le_rfl _ h0 (fun h => by omega)) fun st hst => ?_
  refine Tri.pure ?_
  rw [← getScalar_smul]
  by_cases hz : getScalar k = 0
  · rw [hst.2 hz, toAffine_inf, hz, zero_nsmul]; exact fun _ => rfl
  · exact toAffine_tri (hst.1.rep hz)

end Verif.SM2
