import Verif.SM2.FieldLemmas
import Mathlib.Data.Nat.Bitwise

/-!
# Correctness of `sm2_stdReduceDegree`, `sm2_stdMul` and `sm2_stdSquare`
-/

set_option linter.unusedSimpArgs false
set_option exponentiation.threshold 600

namespace Verif.SM2

theorem Gh.bind_def {α β : Type} (m : Gh α) (f : α → Gh β) :
    (m >>= f) = ⟨(f m.val).val, m.bad || (f m.val).bad⟩ := rfl

theorem Gh.pure_def {α : Type} (a : α) : (pure a : Gh α) = ⟨a, false⟩ := rfl

/-- the columns are below `2^63`, and the last one below `2^60`. -/
structure Large.Ok (b : Large) : Prop where
  h0 : b.b0 < 9223372036854775808
  h1 : b.b1 < 9223372036854775808
  h2 : b.b2 < 9223372036854775808
  h3 : b.b3 < 9223372036854775808
  h4 : b.b4 < 9223372036854775808
  h5 : b.b5 < 9223372036854775808
  h6 : b.b6 < 9223372036854775808
  h7 : b.b7 < 9223372036854775808
  h8 : b.b8 < 9223372036854775808
  h9 : b.b9 < 9223372036854775808
  h10 : b.b10 < 9223372036854775808
  h11 : b.b11 < 9223372036854775808
  h12 : b.b12 < 9223372036854775808
  h13 : b.b13 < 9223372036854775808
  h14 : b.b14 < 9223372036854775808
  h15 : b.b15 < 9223372036854775808
  h16 : b.b16 < 1152921504606846976

/-- the value of 17 columns. -/
def Large.value (b : Large) : ℤ := 1 * b.b0 + 536870912 * b.b1 + 144115188075855872 * b.b2 + 77371252455336267181195264 * b.b3 + 20769187434139310514121985316880384 * b.b4 + 11150372599265311570767859136324180752990208 * b.b5 + 2993155353253689176481146537402947624255349848014848 * b.b6 + 1606938044258990275541962092341162602522202993782792835301376 * b.b7 + 431359146674410236714672241392314090778194310760649159697657763987456 * b.b8 + 231584178474632390847141970017375815706539969331281128078915168015826259279872 * b.b9 + 62165404551223330269422781018352605012557018849668464680057997111644937126566671941632 * b.b10 + 33374797436264220037422214158899251790667258161822699530422525122222183215322508594108782608384 * b.b11 + 8958978968711216842229769122273777112486581988938598139599956403855167484720643781523509973086428463104 * b.b12 + 4809815209520810450717656262224562232065397860164239095208531909697964083434718092213655548692006303809402830848 * b.b13 + 1291124939043454294827959586001505937164852896414611756415329678270323811008420597314822676640068915717951585986373746688 * b.b14 + 693167423530203714894603546035770925859109268843954143792619895153655326951406405759993601526034894524347802740350892957243539456 * b.b15 + 186070713419675363980626894819329160794532188335953423432061490990243657757029868371504908982723472783555205531204141550984858016925351936 * b.b16

/-- the value of 18 limbs. -/
def Tmp.value (t : Tmp) : ℤ := 1 * t.t0 + 536870912 * t.t1 + 144115188075855872 * t.t2 + 77371252455336267181195264 * t.t3 + 20769187434139310514121985316880384 * t.t4 + 11150372599265311570767859136324180752990208 * t.t5 + 2993155353253689176481146537402947624255349848014848 * t.t6 + 1606938044258990275541962092341162602522202993782792835301376 * t.t7 + 431359146674410236714672241392314090778194310760649159697657763987456 * t.t8 + 231584178474632390847141970017375815706539969331281128078915168015826259279872 * t.t9 + 62165404551223330269422781018352605012557018849668464680057997111644937126566671941632 * t.t10 + 33374797436264220037422214158899251790667258161822699530422525122222183215322508594108782608384 * t.t11 + 8958978968711216842229769122273777112486581988938598139599956403855167484720643781523509973086428463104 * t.t12 + 4809815209520810450717656262224562232065397860164239095208531909697964083434718092213655548692006303809402830848 * t.t13 + 1291124939043454294827959586001505937164852896414611756415329678270323811008420597314822676640068915717951585986373746688 * t.t14 + 693167423530203714894603546035770925859109268843954143792619895153655326951406405759993601526034894524347802740350892957243539456 * t.t15 + 186070713419675363980626894819329160794532188335953423432061490990243657757029868371504908982723472783555205531204141550984858016925351936 * t.t16 + 99895953610111751404211111353381321783955140565279076827493022708011895642232499843849795298031743077114461795885011932654335221737225129801285632 * t.t17

/-- the limbs after splitting. -/
structure Tmp.Ok (t : Tmp) : Prop where
  h0 : t.t0 < 536870912
  h1 : t.t1 < 268435456
  h2 : t.t2 < 536870912
  h3 : t.t3 < 268435456
  h4 : t.t4 < 536870912
  h5 : t.t5 < 268435456
  h6 : t.t6 < 536870912
  h7 : t.t7 < 268435456
  h8 : t.t8 < 536870912
  h9 : t.t9 < 268435456
  h10 : t.t10 < 536870912
  h11 : t.t11 < 268435456
  h12 : t.t12 < 536870912
  h13 : t.t13 < 268435456
  h14 : t.t14 < 536870912
  h15 : t.t15 < 268435456
  h16 : t.t16 < 536870912
  h17 : t.t17 < 2147484672

theorem limbEven_eq {bm2 bm1 b k : Nat} (h2 : bm2 < 9223372036854775808) (hk : k ≤ 8) :
    limbEven bm2 bm1 b k = bm2 / 144115188075855872 + bm1 / 268435456 % 536870912 + b % 536870912 + k := by
  have e1 : hi bm2 / 33554432 = bm2 / 144115188075855872 := by unfold hi; omega
  have e2 : lo bm1 / 268435456 + shl32 (hi bm1) 4 % 536870912 = bm1 / 268435456 % 536870912 := by
    unfold hi lo shl32; omega
  have e3 : lo b % 536870912 = b % 536870912 := by unfold lo; omega
  unfold limbEven
  rw [e1, e3]
  have l1 : bm2 / 144115188075855872 < 64 := by omega
  have l2 : bm1 / 268435456 % 536870912 < 536870912 := by omega
  have l3 : b % 536870912 < 536870912 := by omega
  rw [w32_of_lt (a := _ + lo bm1 / 268435456) (by unfold lo; omega), w32_of_lt (a := _ + shl32 (hi bm1) 4 % 536870912) (by omega),
    w32_of_lt (a := _ + b % 536870912) (by omega), w32_of_lt (by omega)]
  omega

theorem limbOdd_eq {bm2 bm1 b k : Nat} (h2 : bm2 < 9223372036854775808) (hk : k ≤ 8) :
    limbOdd bm2 bm1 b k = bm2 / 144115188075855872 + bm1 / 536870912 % 268435456 + b % 268435456 + k := by
  have e1 : hi bm2 / 33554432 = bm2 / 144115188075855872 := by unfold hi; omega
  have e2 : lo bm1 / 536870912 + shl32 (hi bm1) 3 % 268435456 = bm1 / 536870912 % 268435456 := by
    unfold hi lo shl32; omega
  have e3 : lo b % 268435456 = b % 268435456 := by unfold lo; omega
  unfold limbOdd
  rw [e1, e3]
  have l1 : bm2 / 144115188075855872 < 64 := by omega
  have l2 : bm1 / 536870912 % 268435456 < 268435456 := by omega
  have l3 : b % 268435456 < 268435456 := by omega
  rw [w32_of_lt (a := _ + lo bm1 / 536870912) (by unfold lo; omega), w32_of_lt (a := _ + shl32 (hi bm1) 3 % 268435456) (by omega),
    w32_of_lt (a := _ + b % 268435456) (by omega), w32_of_lt (by omega)]
  omega

/-- the parts of an even column. -/
theorem partsEven (b : Nat) : (b : ℤ) = ((b % 536870912 : ℕ) : ℤ) + 536870912 * ((b / 536870912 % 268435456 : ℕ) : ℤ) + 144115188075855872 * ((b / 144115188075855872 : ℕ) : ℤ) := by
  omega

/-- the parts of an odd column. -/
theorem partsOdd (b : Nat) : (b : ℤ) = ((b % 268435456 : ℕ) : ℤ) + 268435456 * ((b / 268435456 % 536870912 : ℕ) : ℤ) + 144115188075855872 * ((b / 144115188075855872 : ℕ) : ℤ) := by
  omega

set_option maxHeartbeats 4000000 in
theorem split_ok {b : Large} (h : b.Ok) : (split b).Ok ∧ (split b).value = b.value := by
  obtain ⟨h0, h1, h2, h3, h4, h5, h6, h7, h8, h9, h10, h11, h12, h13, h14, h15, h16⟩ := h
  unfold split
  lift_lets
  intro t0 t1a t1b t1c k1 t1 c2 k2 t2 c3 k3 t3 c4 k4 t4 c5 k5 t5 c6 k6 t6 c7 k7 t7 c8 k8 t8 c9 k9 t9 c10 k10 t10 c11 k11 t11 c12 k12 t12 c13 k13 t13 c14 k14 t14 c15 k15 t15 c16 k16 t16 t17a t17b t17c t17
  have e0 : t0 = b.b0 % 536870912 := by simp only [t0, lo]; omega
  have e1b : t1b = b.b0 / 536870912 % 268435456 + 268435456 * 0 := by
    simp only [t1b, t1a, lo]
    have e : shl32 (hi b.b0) 3 % 268435456 = 2 ^ 3 * (b.b0 / 4294967296 % 33554432) := by unfold hi shl32; omega
    rw [e, Nat.lor_comm, ← Nat.two_pow_add_eq_or_of_lt (by omega)]
    omega
  have e1 : t1 + 268435456 * k1 = b.b0 / 536870912 % 268435456 + b.b1 % 268435456 ∧ t1 < 268435456 ∧ k1 ≤ 8 := by
    simp only [t1, k1, t1c]
    rw [e1b, w32_of_lt (by unfold lo; omega)]
    unfold lo; omega
  clear_value t0 t1 k1
  obtain ⟨e1, r1, l1⟩ := e1
  have e2 : t2 + 536870912 * k2 = b.b0 / 144115188075855872 + b.b1 / 268435456 % 536870912 + b.b2 % 536870912 + k1 ∧ t2 < 536870912 ∧ k2 ≤ 8 := by
    simp only [t2, k2, c2]
    rw [limbEven_eq h0 l1]
    omega
  clear_value t2 k2
  obtain ⟨e2, r2, l2⟩ := e2
  have e3 : t3 + 268435456 * k3 = b.b1 / 144115188075855872 + b.b2 / 536870912 % 268435456 + b.b3 % 268435456 + k2 ∧ t3 < 268435456 ∧ k3 ≤ 8 := by
    simp only [t3, k3, c3]
    rw [limbOdd_eq h1 l2]
    omega
  clear_value t3 k3
  obtain ⟨e3, r3, l3⟩ := e3
  have e4 : t4 + 536870912 * k4 = b.b2 / 144115188075855872 + b.b3 / 268435456 % 536870912 + b.b4 % 536870912 + k3 ∧ t4 < 536870912 ∧ k4 ≤ 8 := by
    simp only [t4, k4, c4]
    rw [limbEven_eq h2 l3]
    omega
  clear_value t4 k4
  obtain ⟨e4, r4, l4⟩ := e4
  have e5 : t5 + 268435456 * k5 = b.b3 / 144115188075855872 + b.b4 / 536870912 % 268435456 + b.b5 % 268435456 + k4 ∧ t5 < 268435456 ∧ k5 ≤ 8 := by
    simp only [t5, k5, c5]
    rw [limbOdd_eq h3 l4]
    omega
  clear_value t5 k5
  obtain ⟨e5, r5, l5⟩ := e5
  have e6 : t6 + 536870912 * k6 = b.b4 / 144115188075855872 + b.b5 / 268435456 % 536870912 + b.b6 % 536870912 + k5 ∧ t6 < 536870912 ∧ k6 ≤ 8 := by
    simp only [t6, k6, c6]
    rw [limbEven_eq h4 l5]
    omega
  clear_value t6 k6
  obtain ⟨e6, r6, l6⟩ := e6
  have e7 : t7 + 268435456 * k7 = b.b5 / 144115188075855872 + b.b6 / 536870912 % 268435456 + b.b7 % 268435456 + k6 ∧ t7 < 268435456 ∧ k7 ≤ 8 := by
    simp only [t7, k7, c7]
    rw [limbOdd_eq h5 l6]
    omega
  clear_value t7 k7
  obtain ⟨e7, r7, l7⟩ := e7
  have e8 : t8 + 536870912 * k8 = b.b6 / 144115188075855872 + b.b7 / 268435456 % 536870912 + b.b8 % 536870912 + k7 ∧ t8 < 536870912 ∧ k8 ≤ 8 := by
    simp only [t8, k8, c8]
    rw [limbEven_eq h6 l7]
    omega
  clear_value t8 k8
  obtain ⟨e8, r8, l8⟩ := e8
  have e9 : t9 + 268435456 * k9 = b.b7 / 144115188075855872 + b.b8 / 536870912 % 268435456 + b.b9 % 268435456 + k8 ∧ t9 < 268435456 ∧ k9 ≤ 8 := by
    simp only [t9, k9, c9]
    rw [limbOdd_eq h7 l8]
    omega
  clear_value t9 k9
  obtain ⟨e9, r9, l9⟩ := e9
  have e10 : t10 + 536870912 * k10 = b.b8 / 144115188075855872 + b.b9 / 268435456 % 536870912 + b.b10 % 536870912 + k9 ∧ t10 < 536870912 ∧ k10 ≤ 8 := by
    simp only [t10, k10, c10]
    rw [limbEven_eq h8 l9]
    omega
  clear_value t10 k10
  obtain ⟨e10, r10, l10⟩ := e10
  have e11 : t11 + 268435456 * k11 = b.b9 / 144115188075855872 + b.b10 / 536870912 % 268435456 + b.b11 % 268435456 + k10 ∧ t11 < 268435456 ∧ k11 ≤ 8 := by
    simp only [t11, k11, c11]
    rw [limbOdd_eq h9 l10]
    omega
  clear_value t11 k11
  obtain ⟨e11, r11, l11⟩ := e11
  have e12 : t12 + 536870912 * k12 = b.b10 / 144115188075855872 + b.b11 / 268435456 % 536870912 + b.b12 % 536870912 + k11 ∧ t12 < 536870912 ∧ k12 ≤ 8 := by
    simp only [t12, k12, c12]
    rw [limbEven_eq h10 l11]
    omega
  clear_value t12 k12
  obtain ⟨e12, r12, l12⟩ := e12
  have e13 : t13 + 268435456 * k13 = b.b11 / 144115188075855872 + b.b12 / 536870912 % 268435456 + b.b13 % 268435456 + k12 ∧ t13 < 268435456 ∧ k13 ≤ 8 := by
    simp only [t13, k13, c13]
    rw [limbOdd_eq h11 l12]
    omega
  clear_value t13 k13
  obtain ⟨e13, r13, l13⟩ := e13
  have e14 : t14 + 536870912 * k14 = b.b12 / 144115188075855872 + b.b13 / 268435456 % 536870912 + b.b14 % 536870912 + k13 ∧ t14 < 536870912 ∧ k14 ≤ 8 := by
    simp only [t14, k14, c14]
    rw [limbEven_eq h12 l13]
    omega
  clear_value t14 k14
  obtain ⟨e14, r14, l14⟩ := e14
  have e15 : t15 + 268435456 * k15 = b.b13 / 144115188075855872 + b.b14 / 536870912 % 268435456 + b.b15 % 268435456 + k14 ∧ t15 < 268435456 ∧ k15 ≤ 8 := by
    simp only [t15, k15, c15]
    rw [limbOdd_eq h13 l14]
    omega
  clear_value t15 k15
  obtain ⟨e15, r15, l15⟩ := e15
  have e16 : t16 + 536870912 * k16 = b.b14 / 144115188075855872 + b.b15 / 268435456 % 536870912 + b.b16 % 536870912 + k15 ∧ t16 < 536870912 ∧ k16 ≤ 8 := by
    simp only [t16, k16, c16]
    rw [limbEven_eq h14 l15]
    omega
  clear_value t16 k16
  obtain ⟨e16, r16, l16⟩ := e16
  have e17 : t17 = b.b15 / 144115188075855872 + b.b16 / 536870912 + k16 ∧ t17 < 2147484672 := by
    have x1 : t17b = b.b15 / 144115188075855872 + lo b.b16 / 536870912 := by
      simp only [t17b, t17a]; rw [w32_of_lt (by unfold hi lo; omega)]; unfold hi; omega
    have x2 : t17c = b.b15 / 144115188075855872 + b.b16 / 536870912 := by
      simp only [t17c]
      rw [x1]
      have : shl32 (hi b.b16) 3 = 8 * (b.b16 / 4294967296) := by unfold hi shl32; omega
      rw [this, w32_of_lt (by unfold lo; omega)]
      unfold lo; omega
    simp only [t17]
    rw [x2, w32_of_lt (by omega)]
    omega
  clear_value t17
  obtain ⟨e17, r17⟩ := e17
  have r0 : t0 < 536870912 := by omega
  refine ⟨⟨r0, r1, r2, r3, r4, r5, r6, r7, r8, r9, r10, r11, r12, r13, r14, r15, r16, r17⟩, ?_⟩
  have last : ((b.b16 : ℕ) : ℤ) = ((b.b16 % 536870912 : ℕ) : ℤ) + 536870912 * ((b.b16 / 536870912 : ℕ) : ℤ) := by omega
  simp only [Tmp.value, Large.value]
  have g0 := partsEven b.b0
  have g1 := partsOdd b.b1
  have g2 := partsEven b.b2
  have g3 := partsOdd b.b3
  have g4 := partsEven b.b4
  have g5 := partsOdd b.b5
  have g6 := partsEven b.b6
  have g7 := partsOdd b.b7
  have g8 := partsEven b.b8
  have g9 := partsOdd b.b9
  have g10 := partsEven b.b10
  have g11 := partsOdd b.b11
  have g12 := partsEven b.b12
  have g13 := partsOdd b.b13
  have g14 := partsEven b.b14
  have g15 := partsOdd b.b15
  generalize hq16 : b.b16 % 536870912 = q16 at *
  generalize hp16 : b.b16 / 536870912 = p16 at *
  generalize b.b0 % 536870912 = q0 at *
  generalize b.b0 / 536870912 % 268435456 = p0 at *
  generalize b.b0 / 144115188075855872 = o0 at *
  generalize b.b1 % 268435456 = q1 at *
  generalize b.b1 / 268435456 % 536870912 = p1 at *
  generalize b.b1 / 144115188075855872 = o1 at *
  generalize b.b2 % 536870912 = q2 at *
  generalize b.b2 / 536870912 % 268435456 = p2 at *
  generalize b.b2 / 144115188075855872 = o2 at *
  generalize b.b3 % 268435456 = q3 at *
  generalize b.b3 / 268435456 % 536870912 = p3 at *
  generalize b.b3 / 144115188075855872 = o3 at *
  generalize b.b4 % 536870912 = q4 at *
  generalize b.b4 / 536870912 % 268435456 = p4 at *
  generalize b.b4 / 144115188075855872 = o4 at *
  generalize b.b5 % 268435456 = q5 at *
  generalize b.b5 / 268435456 % 536870912 = p5 at *
  generalize b.b5 / 144115188075855872 = o5 at *
  generalize b.b6 % 536870912 = q6 at *
  generalize b.b6 / 536870912 % 268435456 = p6 at *
  generalize b.b6 / 144115188075855872 = o6 at *
  generalize b.b7 % 268435456 = q7 at *
  generalize b.b7 / 268435456 % 536870912 = p7 at *
  generalize b.b7 / 144115188075855872 = o7 at *
  generalize b.b8 % 536870912 = q8 at *
  generalize b.b8 / 536870912 % 268435456 = p8 at *
  generalize b.b8 / 144115188075855872 = o8 at *
  generalize b.b9 % 268435456 = q9 at *
  generalize b.b9 / 268435456 % 536870912 = p9 at *
  generalize b.b9 / 144115188075855872 = o9 at *
  generalize b.b10 % 536870912 = q10 at *
  generalize b.b10 / 536870912 % 268435456 = p10 at *
  generalize b.b10 / 144115188075855872 = o10 at *
  generalize b.b11 % 268435456 = q11 at *
  generalize b.b11 / 268435456 % 536870912 = p11 at *
  generalize b.b11 / 144115188075855872 = o11 at *
  generalize b.b12 % 536870912 = q12 at *
  generalize b.b12 / 536870912 % 268435456 = p12 at *
  generalize b.b12 / 144115188075855872 = o12 at *
  generalize b.b13 % 268435456 = q13 at *
  generalize b.b13 / 268435456 % 536870912 = p13 at *
  generalize b.b13 / 144115188075855872 = o13 at *
  generalize b.b14 % 536870912 = q14 at *
  generalize b.b14 / 536870912 % 268435456 = p14 at *
  generalize b.b14 / 144115188075855872 = o14 at *
  generalize b.b15 % 268435456 = q15 at *
  generalize b.b15 / 268435456 % 536870912 = p15 at *
  generalize b.b15 / 144115188075855872 = o15 at *
  zify at e0 e1 e2 e3 e4 e5 e6 e7 e8 e9 e10 e11 e12 e13 e14 e15 e16 e17
  linear_combination 1 * e0 + 536870912 * e1 + 144115188075855872 * e2 + 77371252455336267181195264 * e3 + 20769187434139310514121985316880384 * e4 + 11150372599265311570767859136324180752990208 * e5 + 2993155353253689176481146537402947624255349848014848 * e6 + 1606938044258990275541962092341162602522202993782792835301376 * e7 + 431359146674410236714672241392314090778194310760649159697657763987456 * e8 + 231584178474632390847141970017375815706539969331281128078915168015826259279872 * e9 + 62165404551223330269422781018352605012557018849668464680057997111644937126566671941632 * e10 + 33374797436264220037422214158899251790667258161822699530422525122222183215322508594108782608384 * e11 + 8958978968711216842229769122273777112486581988938598139599956403855167484720643781523509973086428463104 * e12 + 4809815209520810450717656262224562232065397860164239095208531909697964083434718092213655548692006303809402830848 * e13 + 1291124939043454294827959586001505937164852896414611756415329678270323811008420597314822676640068915717951585986373746688 * e14 + 693167423530203714894603546035770925859109268843954143792619895153655326951406405759993601526034894524347802740350892957243539456 * e15 + 186070713419675363980626894819329160794532188335953423432061490990243657757029868371504908982723472783555205531204141550984858016925351936 * e16 + 99895953610111751404211111353381321783955140565279076827493022708011895642232499843849795298031743077114461795885011932654335221737225129801285632 * e17 - 1 * g0 - 536870912 * g1 - 144115188075855872 * g2 - 77371252455336267181195264 * g3 - 20769187434139310514121985316880384 * g4 - 11150372599265311570767859136324180752990208 * g5 - 2993155353253689176481146537402947624255349848014848 * g6 - 1606938044258990275541962092341162602522202993782792835301376 * g7 - 431359146674410236714672241392314090778194310760649159697657763987456 * g8 - 231584178474632390847141970017375815706539969331281128078915168015826259279872 * g9 - 62165404551223330269422781018352605012557018849668464680057997111644937126566671941632 * g10 - 33374797436264220037422214158899251790667258161822699530422525122222183215322508594108782608384 * g11 - 8958978968711216842229769122273777112486581988938598139599956403855167484720643781523509973086428463104 * g12 - 4809815209520810450717656262224562232065397860164239095208531909697964083434718092213655548692006303809402830848 * g13 - 1291124939043454294827959586001505937164852896414611756415329678270323811008420597314822676640068915717951585986373746688 * g14 - 693167423530203714894603546035770925859109268843954143792619895153655326951406405759993601526034894524347802740350892957243539456 * g15 - 186070713419675363980626894819329160794532188335953423432061490990243657757029868371504908982723472783555205531204141550984858016925351936 * last

/-- the bounds of the limbs that enter the last part. -/
theorem finish_ok {f : Fe} (h : f.PostA 2147484672) :
    (finish f).Ok ∧ ((finish f).value : ℤ) ≡ f.valueB [ZMOD P] := by
  obtain ⟨h0, h1, h2, h3, h4, h5, h6, h7, h8⟩ := h
  unfold finish
  lift_lets
  intro c0 k0 d0 c1 k1 d1 c2 k2 d2 c3 k3 d3 c4 k4 d4 c5 k5 d5 c6 k6 d6 c7 k7 d7 c8 k8 d8
  have e0 : d0 + 536870912 * k0 = f.a0 + 268435456 * (f.a1 % 2) ∧ d0 < 536870912 ∧ k0 ≤ 7 := by
    simp only [d0, k0, c0, w32, shl32]; omega
  clear_value d0 k0
  obtain ⟨e0, r0, l0⟩ := e0
  have e1 : d1 + 268435456 * k1 = f.a1 / 2 + k0 ∧ d1 < 268435456 ∧ k1 ≤ 7 := by
    simp only [d1, k1, c1, w32, shl32]; omega
  clear_value d1 k1
  obtain ⟨e1, r1, l1⟩ := e1
  have e2 : d2 + 536870912 * k2 = f.a2 + k1 + 268435456 * (f.a3 % 2) ∧ d2 < 536870912 ∧ k2 ≤ 7 := by
    simp only [d2, k2, c2, w32, shl32]; omega
  clear_value d2 k2
  obtain ⟨e2, r2, l2⟩ := e2
  have e3 : d3 + 268435456 * k3 = f.a3 / 2 + k2 ∧ d3 < 268435456 ∧ k3 ≤ 7 := by
    simp only [d3, k3, c3, w32, shl32]; omega
  clear_value d3 k3
  obtain ⟨e3, r3, l3⟩ := e3
  have e4 : d4 + 536870912 * k4 = f.a4 + k3 + 268435456 * (f.a5 % 2) ∧ d4 < 536870912 ∧ k4 ≤ 7 := by
    simp only [d4, k4, c4, w32, shl32]; omega
  clear_value d4 k4
  obtain ⟨e4, r4, l4⟩ := e4
  have e5 : d5 + 268435456 * k5 = f.a5 / 2 + k4 ∧ d5 < 268435456 ∧ k5 ≤ 7 := by
    simp only [d5, k5, c5, w32, shl32]; omega
  clear_value d5 k5
  obtain ⟨e5, r5, l5⟩ := e5
  have e6 : d6 + 536870912 * k6 = f.a6 + k5 + 268435456 * (f.a7 % 2) ∧ d6 < 536870912 ∧ k6 ≤ 7 := by
    simp only [d6, k6, c6, w32, shl32]; omega
  clear_value d6 k6
  obtain ⟨e6, r6, l6⟩ := e6
  have e7 : d7 + 268435456 * k7 = f.a7 / 2 + k6 ∧ d7 < 268435456 ∧ k7 ≤ 7 := by
    simp only [d7, k7, c7, w32, shl32]; omega
  clear_value d7 k7
  obtain ⟨e7, r7, l7⟩ := e7
  have e8 : d8 + 536870912 * k8 = f.a8 + k7 ∧ d8 < 536870912 ∧ k8 ≤ 7 := by
    simp only [d8, k8, c8, w32, shl32]; omega
  clear_value d8 k8
  obtain ⟨e8, r8, l8⟩ := e8
  have key := reduceCarry_ok (f := ⟨d0, d1, d2, d3, d4, d5, d6, d7, d8⟩) ⟨r0, r1, r2, r3, r4, r5, r6, r7, r8⟩ (c := k8) (by omega)
  refine ⟨key.1, key.2.trans (meq ?_)⟩
  have m1 : f.a1 % 2 + 2 * (f.a1 / 2) = f.a1 := by omega
  have m3 : f.a3 % 2 + 2 * (f.a3 / 2) = f.a3 := by omega
  have m5 : f.a5 % 2 + 2 * (f.a5 / 2) = f.a5 := by omega
  have m7 : f.a7 % 2 + 2 * (f.a7 / 2) = f.a7 := by omega
  generalize f.a1 % 2 = x1 at *
  generalize f.a1 / 2 = y1 at *
  generalize f.a3 % 2 = x3 at *
  generalize f.a3 / 2 = y3 at *
  generalize f.a5 % 2 = x5 at *
  generalize f.a5 / 2 = y5 at *
  generalize f.a7 % 2 = x7 at *
  generalize f.a7 / 2 = y7 at *
  zify at e0 e1 e2 e3 e4 e5 e6 e7 e8 m1 m3 m5 m7
  rw [value_eq]
  simp only [Fe.valueB]
  push_cast
  linear_combination 1 * e0 + 536870912 * e1 + 144115188075855872 * e2 + 77371252455336267181195264 * e3 + 20769187434139310514121985316880384 * e4 + 11150372599265311570767859136324180752990208 * e5 + 2993155353253689176481146537402947624255349848014848 * e6 + 1606938044258990275541962092341162602522202993782792835301376 * e7 + 431359146674410236714672241392314090778194310760649159697657763987456 * e8 + 268435456 * m1 + 38685626227668133590597632 * m3 + 5575186299632655785383929568162090376495104 * m5 + 803469022129495137770981046170581301261101496891396417650688 * m7

theorem reduceDegree_eq (b : Large) (t : Tmp) (ht : t = split b) : reduceDegree b =
    (let s1 := stepA ⟨t.t0, t.t1, t.t2, t.t3, t.t4, t.t5, t.t6, t.t7, t.t8, t.t9⟩
     let s2 := stepB (s1.val.win t.t10)
     let s3 := stepA (s2.val.win t.t11)
     let s4 := stepB (s3.val.win t.t12)
     let s5 := stepA (s4.val.win t.t13)
     let s6 := stepB (s5.val.win t.t14)
     let s7 := stepA (s6.val.win t.t15)
     let s8 := stepB (s7.val.win t.t16)
     let s9 := stepA (s8.val.win t.t17)
     ⟨finish s9.val, s1.bad || (s2.bad || (s3.bad || (s4.bad || (s5.bad || (s6.bad || (s7.bad || (s8.bad || (s9.bad || false))))))))⟩) := by
  subst ht
  simp only [reduceDegree, Gh.bind_def, Gh.pure_def]

set_option maxHeartbeats 4000000 in
theorem reduceDegree_ok {b : Large} (h : b.Ok) (hb : (reduceDegree b).bad = false) :
    (reduceDegree b).val.Ok ∧ 2 ^ 257 * ((reduceDegree b).val.value : ℤ) ≡ b.value [ZMOD P] := by
  obtain ⟨ht, hv⟩ := split_ok h
  obtain ⟨h0, h1, h2, h3, h4, h5, h6, h7, h8, h9, h10, h11, h12, h13, h14, h15, h16, h17⟩ := ht
  rw [← hv]
  revert hb
  rw [reduceDegree_eq b _ rfl]
  generalize split b = t at *
  lift_lets
  intro s1 s2 s3 s4 s5 s6 s7 s8 s9 hb
  dsimp only at hb
  simp only [Bool.or_eq_false_iff] at hb
  obtain ⟨b1, b2, b3, b4, b5, b6, b7, b8, b9, -⟩ := hb
  dsimp only
  obtain ⟨p1, q1, v1⟩ := stepA_ok (m := 268435456) ⟨by dsimp only; omega, by dsimp only; omega, by dsimp only; omega, by dsimp only; omega, by dsimp only; omega, by dsimp only; omega, by dsimp only; omega, by dsimp only; omega, by dsimp only; omega, by dsimp only; omega⟩ (by norm_num) b1
  change (stepA _).val.PostA 268435456 at p1
  change s1.val.PostA 268435456 at p1
  change _ = 536870912 * s1.val.valueB at v1
  clear_value s1
  obtain ⟨p2, q2, v2⟩ := stepB_ok ⟨by have := p1.h0; dsimp only [Fe.win]; omega, by have := p1.h1; dsimp only [Fe.win]; omega, by have := p1.h2; dsimp only [Fe.win]; omega, by have := p1.h3; dsimp only [Fe.win]; omega, by have := p1.h4; dsimp only [Fe.win]; omega, by have := p1.h5; dsimp only [Fe.win]; omega, by have := p1.h6; dsimp only [Fe.win]; omega, by have := p1.h7; dsimp only [Fe.win]; omega, by have := p1.h8; dsimp only [Fe.win]; omega, by dsimp only [Fe.win]; omega⟩ b2
  change (stepB _).val.PostB at p2
  change s2.val.PostB at p2
  change _ = 268435456 * s2.val.valueA at v2
  clear_value s2
  obtain ⟨p3, q3, v3⟩ := stepA_ok (m := 268435456) ⟨by have := p2.h0; dsimp only [Fe.win]; omega, by have := p2.h1; dsimp only [Fe.win]; omega, by have := p2.h2; dsimp only [Fe.win]; omega, by have := p2.h3; dsimp only [Fe.win]; omega, by have := p2.h4; dsimp only [Fe.win]; omega, by have := p2.h5; dsimp only [Fe.win]; omega, by have := p2.h6; dsimp only [Fe.win]; omega, by have := p2.h7; dsimp only [Fe.win]; omega, by have := p2.h8; dsimp only [Fe.win]; omega, by dsimp only [Fe.win]; omega⟩ (by norm_num) b3
  change (stepA _).val.PostA 268435456 at p3
  change s3.val.PostA 268435456 at p3
  change _ = 536870912 * s3.val.valueB at v3
  clear_value s3
  obtain ⟨p4, q4, v4⟩ := stepB_ok ⟨by have := p3.h0; dsimp only [Fe.win]; omega, by have := p3.h1; dsimp only [Fe.win]; omega, by have := p3.h2; dsimp only [Fe.win]; omega, by have := p3.h3; dsimp only [Fe.win]; omega, by have := p3.h4; dsimp only [Fe.win]; omega, by have := p3.h5; dsimp only [Fe.win]; omega, by have := p3.h6; dsimp only [Fe.win]; omega, by have := p3.h7; dsimp only [Fe.win]; omega, by have := p3.h8; dsimp only [Fe.win]; omega, by dsimp only [Fe.win]; omega⟩ b4
  change (stepB _).val.PostB at p4
  change s4.val.PostB at p4
  change _ = 268435456 * s4.val.valueA at v4
  clear_value s4
  obtain ⟨p5, q5, v5⟩ := stepA_ok (m := 268435456) ⟨by have := p4.h0; dsimp only [Fe.win]; omega, by have := p4.h1; dsimp only [Fe.win]; omega, by have := p4.h2; dsimp only [Fe.win]; omega, by have := p4.h3; dsimp only [Fe.win]; omega, by have := p4.h4; dsimp only [Fe.win]; omega, by have := p4.h5; dsimp only [Fe.win]; omega, by have := p4.h6; dsimp only [Fe.win]; omega, by have := p4.h7; dsimp only [Fe.win]; omega, by have := p4.h8; dsimp only [Fe.win]; omega, by dsimp only [Fe.win]; omega⟩ (by norm_num) b5
  change (stepA _).val.PostA 268435456 at p5
  change s5.val.PostA 268435456 at p5
  change _ = 536870912 * s5.val.valueB at v5
  clear_value s5
  obtain ⟨p6, q6, v6⟩ := stepB_ok ⟨by have := p5.h0; dsimp only [Fe.win]; omega, by have := p5.h1; dsimp only [Fe.win]; omega, by have := p5.h2; dsimp only [Fe.win]; omega, by have := p5.h3; dsimp only [Fe.win]; omega, by have := p5.h4; dsimp only [Fe.win]; omega, by have := p5.h5; dsimp only [Fe.win]; omega, by have := p5.h6; dsimp only [Fe.win]; omega, by have := p5.h7; dsimp only [Fe.win]; omega, by have := p5.h8; dsimp only [Fe.win]; omega, by dsimp only [Fe.win]; omega⟩ b6
  change (stepB _).val.PostB at p6
  change s6.val.PostB at p6
  change _ = 268435456 * s6.val.valueA at v6
  clear_value s6
  obtain ⟨p7, q7, v7⟩ := stepA_ok (m := 268435456) ⟨by have := p6.h0; dsimp only [Fe.win]; omega, by have := p6.h1; dsimp only [Fe.win]; omega, by have := p6.h2; dsimp only [Fe.win]; omega, by have := p6.h3; dsimp only [Fe.win]; omega, by have := p6.h4; dsimp only [Fe.win]; omega, by have := p6.h5; dsimp only [Fe.win]; omega, by have := p6.h6; dsimp only [Fe.win]; omega, by have := p6.h7; dsimp only [Fe.win]; omega, by have := p6.h8; dsimp only [Fe.win]; omega, by dsimp only [Fe.win]; omega⟩ (by norm_num) b7
  change (stepA _).val.PostA 268435456 at p7
  change s7.val.PostA 268435456 at p7
  change _ = 536870912 * s7.val.valueB at v7
  clear_value s7
  obtain ⟨p8, q8, v8⟩ := stepB_ok ⟨by have := p7.h0; dsimp only [Fe.win]; omega, by have := p7.h1; dsimp only [Fe.win]; omega, by have := p7.h2; dsimp only [Fe.win]; omega, by have := p7.h3; dsimp only [Fe.win]; omega, by have := p7.h4; dsimp only [Fe.win]; omega, by have := p7.h5; dsimp only [Fe.win]; omega, by have := p7.h6; dsimp only [Fe.win]; omega, by have := p7.h7; dsimp only [Fe.win]; omega, by have := p7.h8; dsimp only [Fe.win]; omega, by dsimp only [Fe.win]; omega⟩ b8
  change (stepB _).val.PostB at p8
  change s8.val.PostB at p8
  change _ = 268435456 * s8.val.valueA at v8
  clear_value s8
  obtain ⟨p9, q9, v9⟩ := stepA_ok (m := 2147484672) ⟨by have := p8.h0; dsimp only [Fe.win]; omega, by have := p8.h1; dsimp only [Fe.win]; omega, by have := p8.h2; dsimp only [Fe.win]; omega, by have := p8.h3; dsimp only [Fe.win]; omega, by have := p8.h4; dsimp only [Fe.win]; omega, by have := p8.h5; dsimp only [Fe.win]; omega, by have := p8.h6; dsimp only [Fe.win]; omega, by have := p8.h7; dsimp only [Fe.win]; omega, by have := p8.h8; dsimp only [Fe.win]; omega, by dsimp only [Fe.win]; omega⟩ (by norm_num) b9
  change (stepA _).val.PostA 2147484672 at p9
  change s9.val.PostA 2147484672 at p9
  change _ = 536870912 * s9.val.valueB at v9
  clear_value s9
  obtain ⟨ok, val⟩ := finish_ok p9
  refine ⟨ok, (Int.ModEq.mul_left _ val).trans ?_⟩
  have key : (2 : ℤ) ^ 257 * s9.val.valueB = t.value + (1 * q1 + 536870912 * q2 + 144115188075855872 * q3 + 77371252455336267181195264 * q4 + 20769187434139310514121985316880384 * q5 + 11150372599265311570767859136324180752990208 * q6 + 2993155353253689176481146537402947624255349848014848 * q7 + 1606938044258990275541962092341162602522202993782792835301376 * q8 + 431359146674410236714672241392314090778194310760649159697657763987456 * q9) * P := by
    simp only [Fe.win, Fe.valueA, Fe.valueB] at v1 v2 v3 v4 v5 v6 v7 v8 v9
    simp only [Tmp.value, Fe.valueB]
    linear_combination -(1 * v1 + 536870912 * v2 + 144115188075855872 * v3 + 77371252455336267181195264 * v4 + 20769187434139310514121985316880384 * v5 + 11150372599265311570767859136324180752990208 * v6 + 2993155353253689176481146537402947624255349848014848 * v7 + 1606938044258990275541962092341162602522202993782792835301376 * v8 + 431359146674410236714672241392314090778194310760649159697657763987456 * v9)
  rw [key]
  exact (Int.modEq_iff_dvd).mpr ⟨-(1 * q1 + 536870912 * q2 + 144115188075855872 * q3 + 77371252455336267181195264 * q4 + 20769187434139310514121985316880384 * q5 + 11150372599265311570767859136324180752990208 * q6 + 2993155353253689176481146537402947624255349848014848 * q7 + 1606938044258990275541962092341162602522202993782792835301376 * q8 + 431359146674410236714672241392314090778194310760649159697657763987456 * q9), by ring⟩

theorem mul_lt60 {x y : Nat} (hx : x < 1073741824) (hy : y < 1073741824) : x * y < 1152921504606846976 := by
  have : x * y ≤ 1073741823 * 1073741823 := Nat.mul_le_mul (by omega) (by omega)
  omega

theorem mul_lt59 {x y : Nat} (hx : x < 1073741824) (hy : y < 536870912) : x * y < 576460752303423488 := by
  have : x * y ≤ 1073741823 * 536870911 := Nat.mul_le_mul (by omega) (by omega)
  omega

theorem mul_lt59' {x y : Nat} (hx : x < 536870912) (hy : y < 1073741824) : x * y < 576460752303423488 := by
  rw [Nat.mul_comm]; exact mul_lt59 hy hx

theorem mul_lt58 {x y : Nat} (hx : x < 536870912) (hy : y < 536870912) : x * y < 288230376151711744 := by
  have : x * y ≤ 536870911 * 536870911 := Nat.mul_le_mul (by omega) (by omega)
  omega

theorem w64_of_lt {a : Nat} (ha : a < 18446744073709551616) : w64 a = a := by unfold w64; omega

theorem mulCols_ok {a b : Fe} (ha : a.Ok) (hb : b.Ok) :
    (mulCols a b).Ok ∧ (mulCols a b).value = a.value * b.value := by
  have c0 : (mulCols a b).b0 = a.a0 * b.a0 ∧ (mulCols a b).b0 < 9223372036854775808 := by
    have x0 := mul_lt60 ha.h0 hb.h0
    have e : (mulCols a b).b0 = a.a0 * b.a0 := by
      simp only [mulCols]
      rw [w64_of_lt (by ring_nf at *; omega)]
      try ring
    rw [e]; exact ⟨rfl, by omega⟩
  have c1 : (mulCols a b).b1 = a.a0 * b.a1 + a.a1 * b.a0 ∧ (mulCols a b).b1 < 9223372036854775808 := by
    have x0 := mul_lt59 ha.h0 hb.h1; have x1 := mul_lt59' ha.h1 hb.h0
    have e : (mulCols a b).b1 = a.a0 * b.a1 + a.a1 * b.a0 := by
      simp only [mulCols]
      rw [w64_of_lt (by ring_nf at *; omega)]
      try ring
    rw [e]; exact ⟨rfl, by omega⟩
  have c2 : (mulCols a b).b2 = a.a0 * b.a2 + 2 * (a.a1 * b.a1) + a.a2 * b.a0 ∧ (mulCols a b).b2 < 9223372036854775808 := by
    have x0 := mul_lt60 ha.h0 hb.h2; have x1 := mul_lt58 ha.h1 hb.h1; have x2 := mul_lt60 ha.h2 hb.h0
    have e : (mulCols a b).b2 = a.a0 * b.a2 + 2 * (a.a1 * b.a1) + a.a2 * b.a0 := by
      simp only [mulCols]
      rw [w64_of_lt (by ring_nf at *; omega)]
      try ring
    rw [e]; exact ⟨rfl, by omega⟩
  have c3 : (mulCols a b).b3 = a.a0 * b.a3 + a.a1 * b.a2 + a.a2 * b.a1 + a.a3 * b.a0 ∧ (mulCols a b).b3 < 9223372036854775808 := by
    have x0 := mul_lt59 ha.h0 hb.h3; have x1 := mul_lt59' ha.h1 hb.h2; have x2 := mul_lt59 ha.h2 hb.h1; have x3 := mul_lt59' ha.h3 hb.h0
    have e : (mulCols a b).b3 = a.a0 * b.a3 + a.a1 * b.a2 + a.a2 * b.a1 + a.a3 * b.a0 := by
      simp only [mulCols]
      rw [w64_of_lt (by ring_nf at *; omega)]
      try ring
    rw [e]; exact ⟨rfl, by omega⟩
  have c4 : (mulCols a b).b4 = a.a0 * b.a4 + 2 * (a.a1 * b.a3) + a.a2 * b.a2 + 2 * (a.a3 * b.a1) + a.a4 * b.a0 ∧ (mulCols a b).b4 < 9223372036854775808 := by
    have x0 := mul_lt60 ha.h0 hb.h4; have x1 := mul_lt58 ha.h1 hb.h3; have x2 := mul_lt60 ha.h2 hb.h2; have x3 := mul_lt58 ha.h3 hb.h1; have x4 := mul_lt60 ha.h4 hb.h0
    have e : (mulCols a b).b4 = a.a0 * b.a4 + 2 * (a.a1 * b.a3) + a.a2 * b.a2 + 2 * (a.a3 * b.a1) + a.a4 * b.a0 := by
      simp only [mulCols]
      rw [w64_of_lt (by ring_nf at *; omega)]
      try ring
    rw [e]; exact ⟨rfl, by omega⟩
  have c5 : (mulCols a b).b5 = a.a0 * b.a5 + a.a1 * b.a4 + a.a2 * b.a3 + a.a3 * b.a2 + a.a4 * b.a1 + a.a5 * b.a0 ∧ (mulCols a b).b5 < 9223372036854775808 := by
    have x0 := mul_lt59 ha.h0 hb.h5; have x1 := mul_lt59' ha.h1 hb.h4; have x2 := mul_lt59 ha.h2 hb.h3; have x3 := mul_lt59' ha.h3 hb.h2; have x4 := mul_lt59 ha.h4 hb.h1; have x5 := mul_lt59' ha.h5 hb.h0
    have e : (mulCols a b).b5 = a.a0 * b.a5 + a.a1 * b.a4 + a.a2 * b.a3 + a.a3 * b.a2 + a.a4 * b.a1 + a.a5 * b.a0 := by
      simp only [mulCols]
      rw [w64_of_lt (by ring_nf at *; omega)]
      try ring
    rw [e]; exact ⟨rfl, by omega⟩
  have c6 : (mulCols a b).b6 = a.a0 * b.a6 + 2 * (a.a1 * b.a5) + a.a2 * b.a4 + 2 * (a.a3 * b.a3) + a.a4 * b.a2 + 2 * (a.a5 * b.a1) + a.a6 * b.a0 ∧ (mulCols a b).b6 < 9223372036854775808 := by
    have x0 := mul_lt60 ha.h0 hb.h6; have x1 := mul_lt58 ha.h1 hb.h5; have x2 := mul_lt60 ha.h2 hb.h4; have x3 := mul_lt58 ha.h3 hb.h3; have x4 := mul_lt60 ha.h4 hb.h2; have x5 := mul_lt58 ha.h5 hb.h1; have x6 := mul_lt60 ha.h6 hb.h0
    have e : (mulCols a b).b6 = a.a0 * b.a6 + 2 * (a.a1 * b.a5) + a.a2 * b.a4 + 2 * (a.a3 * b.a3) + a.a4 * b.a2 + 2 * (a.a5 * b.a1) + a.a6 * b.a0 := by
      simp only [mulCols]
      rw [w64_of_lt (by ring_nf at *; omega)]
      try ring
    rw [e]; exact ⟨rfl, by omega⟩
  have c7 : (mulCols a b).b7 = a.a0 * b.a7 + a.a1 * b.a6 + a.a2 * b.a5 + a.a3 * b.a4 + a.a4 * b.a3 + a.a5 * b.a2 + a.a6 * b.a1 + a.a7 * b.a0 ∧ (mulCols a b).b7 < 9223372036854775808 := by
    have x0 := mul_lt59 ha.h0 hb.h7; have x1 := mul_lt59' ha.h1 hb.h6; have x2 := mul_lt59 ha.h2 hb.h5; have x3 := mul_lt59' ha.h3 hb.h4; have x4 := mul_lt59 ha.h4 hb.h3; have x5 := mul_lt59' ha.h5 hb.h2; have x6 := mul_lt59 ha.h6 hb.h1; have x7 := mul_lt59' ha.h7 hb.h0
    have e : (mulCols a b).b7 = a.a0 * b.a7 + a.a1 * b.a6 + a.a2 * b.a5 + a.a3 * b.a4 + a.a4 * b.a3 + a.a5 * b.a2 + a.a6 * b.a1 + a.a7 * b.a0 := by
      simp only [mulCols]
      rw [w64_of_lt (by ring_nf at *; omega)]
      try ring
    rw [e]; exact ⟨rfl, by omega⟩
  have c8 : (mulCols a b).b8 = a.a0 * b.a8 + 2 * (a.a1 * b.a7) + a.a2 * b.a6 + 2 * (a.a3 * b.a5) + a.a4 * b.a4 + 2 * (a.a5 * b.a3) + a.a6 * b.a2 + 2 * (a.a7 * b.a1) + a.a8 * b.a0 ∧ (mulCols a b).b8 < 9223372036854775808 := by
    have x0 := mul_lt60 ha.h0 hb.h8; have x1 := mul_lt58 ha.h1 hb.h7; have x2 := mul_lt60 ha.h2 hb.h6; have x3 := mul_lt58 ha.h3 hb.h5; have x4 := mul_lt60 ha.h4 hb.h4; have x5 := mul_lt58 ha.h5 hb.h3; have x6 := mul_lt60 ha.h6 hb.h2; have x7 := mul_lt58 ha.h7 hb.h1; have x8 := mul_lt60 ha.h8 hb.h0
    have e : (mulCols a b).b8 = a.a0 * b.a8 + 2 * (a.a1 * b.a7) + a.a2 * b.a6 + 2 * (a.a3 * b.a5) + a.a4 * b.a4 + 2 * (a.a5 * b.a3) + a.a6 * b.a2 + 2 * (a.a7 * b.a1) + a.a8 * b.a0 := by
      simp only [mulCols]
      rw [w64_of_lt (by ring_nf at *; omega)]
      try ring
    rw [e]; exact ⟨rfl, by omega⟩
  have c9 : (mulCols a b).b9 = a.a1 * b.a8 + a.a2 * b.a7 + a.a3 * b.a6 + a.a4 * b.a5 + a.a5 * b.a4 + a.a6 * b.a3 + a.a7 * b.a2 + a.a8 * b.a1 ∧ (mulCols a b).b9 < 9223372036854775808 := by
    have x1 := mul_lt59' ha.h1 hb.h8; have x2 := mul_lt59 ha.h2 hb.h7; have x3 := mul_lt59' ha.h3 hb.h6; have x4 := mul_lt59 ha.h4 hb.h5; have x5 := mul_lt59' ha.h5 hb.h4; have x6 := mul_lt59 ha.h6 hb.h3; have x7 := mul_lt59' ha.h7 hb.h2; have x8 := mul_lt59 ha.h8 hb.h1
    have e : (mulCols a b).b9 = a.a1 * b.a8 + a.a2 * b.a7 + a.a3 * b.a6 + a.a4 * b.a5 + a.a5 * b.a4 + a.a6 * b.a3 + a.a7 * b.a2 + a.a8 * b.a1 := by
      simp only [mulCols]
      rw [w64_of_lt (by ring_nf at *; omega)]
      try ring
    rw [e]; exact ⟨rfl, by omega⟩
  have c10 : (mulCols a b).b10 = a.a2 * b.a8 + 2 * (a.a3 * b.a7) + a.a4 * b.a6 + 2 * (a.a5 * b.a5) + a.a6 * b.a4 + 2 * (a.a7 * b.a3) + a.a8 * b.a2 ∧ (mulCols a b).b10 < 9223372036854775808 := by
    have x2 := mul_lt60 ha.h2 hb.h8; have x3 := mul_lt58 ha.h3 hb.h7; have x4 := mul_lt60 ha.h4 hb.h6; have x5 := mul_lt58 ha.h5 hb.h5; have x6 := mul_lt60 ha.h6 hb.h4; have x7 := mul_lt58 ha.h7 hb.h3; have x8 := mul_lt60 ha.h8 hb.h2
    have e : (mulCols a b).b10 = a.a2 * b.a8 + 2 * (a.a3 * b.a7) + a.a4 * b.a6 + 2 * (a.a5 * b.a5) + a.a6 * b.a4 + 2 * (a.a7 * b.a3) + a.a8 * b.a2 := by
      simp only [mulCols]
      rw [w64_of_lt (by ring_nf at *; omega)]
      try ring
    rw [e]; exact ⟨rfl, by omega⟩
  have c11 : (mulCols a b).b11 = a.a3 * b.a8 + a.a4 * b.a7 + a.a5 * b.a6 + a.a6 * b.a5 + a.a7 * b.a4 + a.a8 * b.a3 ∧ (mulCols a b).b11 < 9223372036854775808 := by
    have x3 := mul_lt59' ha.h3 hb.h8; have x4 := mul_lt59 ha.h4 hb.h7; have x5 := mul_lt59' ha.h5 hb.h6; have x6 := mul_lt59 ha.h6 hb.h5; have x7 := mul_lt59' ha.h7 hb.h4; have x8 := mul_lt59 ha.h8 hb.h3
    have e : (mulCols a b).b11 = a.a3 * b.a8 + a.a4 * b.a7 + a.a5 * b.a6 + a.a6 * b.a5 + a.a7 * b.a4 + a.a8 * b.a3 := by
      simp only [mulCols]
      rw [w64_of_lt (by ring_nf at *; omega)]
      try ring
    rw [e]; exact ⟨rfl, by omega⟩
  have c12 : (mulCols a b).b12 = a.a4 * b.a8 + 2 * (a.a5 * b.a7) + a.a6 * b.a6 + 2 * (a.a7 * b.a5) + a.a8 * b.a4 ∧ (mulCols a b).b12 < 9223372036854775808 := by
    have x4 := mul_lt60 ha.h4 hb.h8; have x5 := mul_lt58 ha.h5 hb.h7; have x6 := mul_lt60 ha.h6 hb.h6; have x7 := mul_lt58 ha.h7 hb.h5; have x8 := mul_lt60 ha.h8 hb.h4
    have e : (mulCols a b).b12 = a.a4 * b.a8 + 2 * (a.a5 * b.a7) + a.a6 * b.a6 + 2 * (a.a7 * b.a5) + a.a8 * b.a4 := by
      simp only [mulCols]
      rw [w64_of_lt (by ring_nf at *; omega)]
      try ring
    rw [e]; exact ⟨rfl, by omega⟩
  have c13 : (mulCols a b).b13 = a.a5 * b.a8 + a.a6 * b.a7 + a.a7 * b.a6 + a.a8 * b.a5 ∧ (mulCols a b).b13 < 9223372036854775808 := by
    have x5 := mul_lt59' ha.h5 hb.h8; have x6 := mul_lt59 ha.h6 hb.h7; have x7 := mul_lt59' ha.h7 hb.h6; have x8 := mul_lt59 ha.h8 hb.h5
    have e : (mulCols a b).b13 = a.a5 * b.a8 + a.a6 * b.a7 + a.a7 * b.a6 + a.a8 * b.a5 := by
      simp only [mulCols]
      rw [w64_of_lt (by ring_nf at *; omega)]
      try ring
    rw [e]; exact ⟨rfl, by omega⟩
  have c14 : (mulCols a b).b14 = a.a6 * b.a8 + 2 * (a.a7 * b.a7) + a.a8 * b.a6 ∧ (mulCols a b).b14 < 9223372036854775808 := by
    have x6 := mul_lt60 ha.h6 hb.h8; have x7 := mul_lt58 ha.h7 hb.h7; have x8 := mul_lt60 ha.h8 hb.h6
    have e : (mulCols a b).b14 = a.a6 * b.a8 + 2 * (a.a7 * b.a7) + a.a8 * b.a6 := by
      simp only [mulCols]
      rw [w64_of_lt (by ring_nf at *; omega)]
      try ring
    rw [e]; exact ⟨rfl, by omega⟩
  have c15 : (mulCols a b).b15 = a.a7 * b.a8 + a.a8 * b.a7 ∧ (mulCols a b).b15 < 9223372036854775808 := by
    have x7 := mul_lt59' ha.h7 hb.h8; have x8 := mul_lt59 ha.h8 hb.h7
    have e : (mulCols a b).b15 = a.a7 * b.a8 + a.a8 * b.a7 := by
      simp only [mulCols]
      rw [w64_of_lt (by ring_nf at *; omega)]
      try ring
    rw [e]; exact ⟨rfl, by omega⟩
  have c16 : (mulCols a b).b16 = a.a8 * b.a8 ∧ (mulCols a b).b16 < 1152921504606846976 := by
    have x8 := mul_lt60 ha.h8 hb.h8
    have e : (mulCols a b).b16 = a.a8 * b.a8 := by
      simp only [mulCols]
      rw [w64_of_lt (by ring_nf at *; omega)]
      try ring
    rw [e]; exact ⟨rfl, by omega⟩
  refine ⟨⟨c0.2, c1.2, c2.2, c3.2, c4.2, c5.2, c6.2, c7.2, c8.2, c9.2, c10.2, c11.2, c12.2, c13.2, c14.2, c15.2, c16.2⟩, ?_⟩
  rw [value_eq, value_eq]
  simp only [Large.value]
  rw [c0.1, c1.1, c2.1, c3.1, c4.1, c5.1, c6.1, c7.1, c8.1, c9.1, c10.1, c11.1, c12.1, c13.1, c14.1, c15.1, c16.1]
  push_cast
  ring

theorem squareCols_ok {a : Fe} (ha : a.Ok) :
    (squareCols a).Ok ∧ (squareCols a).value = a.value * a.value := by
  have c0 : (squareCols a).b0 = a.a0 * a.a0 ∧ (squareCols a).b0 < 9223372036854775808 := by
    have x0 := mul_lt60 ha.h0 ha.h0
    have e : (squareCols a).b0 = a.a0 * a.a0 := by
      simp only [squareCols]
      rw [w64_of_lt (by ring_nf at *; omega)]
      try ring
    rw [e]; exact ⟨rfl, by omega⟩
  have c1 : (squareCols a).b1 = 2 * (a.a0 * a.a1) ∧ (squareCols a).b1 < 9223372036854775808 := by
    have x0 := mul_lt59 ha.h0 ha.h1
    have e : (squareCols a).b1 = 2 * (a.a0 * a.a1) := by
      simp only [squareCols]
      rw [w64_of_lt (by ring_nf at *; omega)]
      try ring
    rw [e]; exact ⟨rfl, by omega⟩
  have c2 : (squareCols a).b2 = 2 * (a.a0 * a.a2) + 2 * (a.a1 * a.a1) ∧ (squareCols a).b2 < 9223372036854775808 := by
    have x0 := mul_lt60 ha.h0 ha.h2; have x1 := mul_lt58 ha.h1 ha.h1
    have e : (squareCols a).b2 = 2 * (a.a0 * a.a2) + 2 * (a.a1 * a.a1) := by
      simp only [squareCols]
      rw [w64_of_lt (by ring_nf at *; omega)]
      try ring
    rw [e]; exact ⟨rfl, by omega⟩
  have c3 : (squareCols a).b3 = 2 * (a.a0 * a.a3) + 2 * (a.a1 * a.a2) ∧ (squareCols a).b3 < 9223372036854775808 := by
    have x0 := mul_lt59 ha.h0 ha.h3; have x1 := mul_lt59' ha.h1 ha.h2
    have e : (squareCols a).b3 = 2 * (a.a0 * a.a3) + 2 * (a.a1 * a.a2) := by
      simp only [squareCols]
      rw [w64_of_lt (by ring_nf at *; omega)]
      try ring
    rw [e]; exact ⟨rfl, by omega⟩
  have c4 : (squareCols a).b4 = 2 * (a.a0 * a.a4) + 4 * (a.a1 * a.a3) + a.a2 * a.a2 ∧ (squareCols a).b4 < 9223372036854775808 := by
    have x0 := mul_lt60 ha.h0 ha.h4; have x1 := mul_lt58 ha.h1 ha.h3; have x2 := mul_lt60 ha.h2 ha.h2
    have e : (squareCols a).b4 = 2 * (a.a0 * a.a4) + 4 * (a.a1 * a.a3) + a.a2 * a.a2 := by
      simp only [squareCols]
      rw [w64_of_lt (by ring_nf at *; omega)]
      try ring
    rw [e]; exact ⟨rfl, by omega⟩
  have c5 : (squareCols a).b5 = 2 * (a.a0 * a.a5) + 2 * (a.a1 * a.a4) + 2 * (a.a2 * a.a3) ∧ (squareCols a).b5 < 9223372036854775808 := by
    have x0 := mul_lt59 ha.h0 ha.h5; have x1 := mul_lt59' ha.h1 ha.h4; have x2 := mul_lt59 ha.h2 ha.h3
    have e : (squareCols a).b5 = 2 * (a.a0 * a.a5) + 2 * (a.a1 * a.a4) + 2 * (a.a2 * a.a3) := by
      simp only [squareCols]
      rw [w64_of_lt (by ring_nf at *; omega)]
      try ring
    rw [e]; exact ⟨rfl, by omega⟩
  have c6 : (squareCols a).b6 = 2 * (a.a0 * a.a6) + 4 * (a.a1 * a.a5) + 2 * (a.a2 * a.a4) + 2 * (a.a3 * a.a3) ∧ (squareCols a).b6 < 9223372036854775808 := by
    have x0 := mul_lt60 ha.h0 ha.h6; have x1 := mul_lt58 ha.h1 ha.h5; have x2 := mul_lt60 ha.h2 ha.h4; have x3 := mul_lt58 ha.h3 ha.h3
    have e : (squareCols a).b6 = 2 * (a.a0 * a.a6) + 4 * (a.a1 * a.a5) + 2 * (a.a2 * a.a4) + 2 * (a.a3 * a.a3) := by
      simp only [squareCols]
      rw [w64_of_lt (by ring_nf at *; omega)]
      try ring
    rw [e]; exact ⟨rfl, by omega⟩
  have c7 : (squareCols a).b7 = 2 * (a.a0 * a.a7) + 2 * (a.a1 * a.a6) + 2 * (a.a2 * a.a5) + 2 * (a.a3 * a.a4) ∧ (squareCols a).b7 < 9223372036854775808 := by
    have x0 := mul_lt59 ha.h0 ha.h7; have x1 := mul_lt59' ha.h1 ha.h6; have x2 := mul_lt59 ha.h2 ha.h5; have x3 := mul_lt59' ha.h3 ha.h4
    have e : (squareCols a).b7 = 2 * (a.a0 * a.a7) + 2 * (a.a1 * a.a6) + 2 * (a.a2 * a.a5) + 2 * (a.a3 * a.a4) := by
      simp only [squareCols]
      rw [w64_of_lt (by ring_nf at *; omega)]
      try ring
    rw [e]; exact ⟨rfl, by omega⟩
  have c8 : (squareCols a).b8 = 2 * (a.a0 * a.a8) + 4 * (a.a1 * a.a7) + 2 * (a.a2 * a.a6) + 4 * (a.a3 * a.a5) + a.a4 * a.a4 ∧ (squareCols a).b8 < 9223372036854775808 := by
    have x0 := mul_lt60 ha.h0 ha.h8; have x1 := mul_lt58 ha.h1 ha.h7; have x2 := mul_lt60 ha.h2 ha.h6; have x3 := mul_lt58 ha.h3 ha.h5; have x4 := mul_lt60 ha.h4 ha.h4
    have e : (squareCols a).b8 = 2 * (a.a0 * a.a8) + 4 * (a.a1 * a.a7) + 2 * (a.a2 * a.a6) + 4 * (a.a3 * a.a5) + a.a4 * a.a4 := by
      simp only [squareCols]
      rw [w64_of_lt (by ring_nf at *; omega)]
      try ring
    rw [e]; exact ⟨rfl, by omega⟩
  have c9 : (squareCols a).b9 = 2 * (a.a1 * a.a8) + 2 * (a.a2 * a.a7) + 2 * (a.a3 * a.a6) + 2 * (a.a4 * a.a5) ∧ (squareCols a).b9 < 9223372036854775808 := by
    have x1 := mul_lt59' ha.h1 ha.h8; have x2 := mul_lt59 ha.h2 ha.h7; have x3 := mul_lt59' ha.h3 ha.h6; have x4 := mul_lt59 ha.h4 ha.h5
    have e : (squareCols a).b9 = 2 * (a.a1 * a.a8) + 2 * (a.a2 * a.a7) + 2 * (a.a3 * a.a6) + 2 * (a.a4 * a.a5) := by
      simp only [squareCols]
      rw [w64_of_lt (by ring_nf at *; omega)]
      try ring
    rw [e]; exact ⟨rfl, by omega⟩
  have c10 : (squareCols a).b10 = 2 * (a.a2 * a.a8) + 4 * (a.a3 * a.a7) + 2 * (a.a4 * a.a6) + 2 * (a.a5 * a.a5) ∧ (squareCols a).b10 < 9223372036854775808 := by
    have x2 := mul_lt60 ha.h2 ha.h8; have x3 := mul_lt58 ha.h3 ha.h7; have x4 := mul_lt60 ha.h4 ha.h6; have x5 := mul_lt58 ha.h5 ha.h5
    have e : (squareCols a).b10 = 2 * (a.a2 * a.a8) + 4 * (a.a3 * a.a7) + 2 * (a.a4 * a.a6) + 2 * (a.a5 * a.a5) := by
      simp only [squareCols]
      rw [w64_of_lt (by ring_nf at *; omega)]
      try ring
    rw [e]; exact ⟨rfl, by omega⟩
  have c11 : (squareCols a).b11 = 2 * (a.a3 * a.a8) + 2 * (a.a4 * a.a7) + 2 * (a.a5 * a.a6) ∧ (squareCols a).b11 < 9223372036854775808 := by
    have x3 := mul_lt59' ha.h3 ha.h8; have x4 := mul_lt59 ha.h4 ha.h7; have x5 := mul_lt59' ha.h5 ha.h6
    have e : (squareCols a).b11 = 2 * (a.a3 * a.a8) + 2 * (a.a4 * a.a7) + 2 * (a.a5 * a.a6) := by
      simp only [squareCols]
      rw [w64_of_lt (by ring_nf at *; omega)]
      try ring
    rw [e]; exact ⟨rfl, by omega⟩
  have c12 : (squareCols a).b12 = 2 * (a.a4 * a.a8) + 4 * (a.a5 * a.a7) + a.a6 * a.a6 ∧ (squareCols a).b12 < 9223372036854775808 := by
    have x4 := mul_lt60 ha.h4 ha.h8; have x5 := mul_lt58 ha.h5 ha.h7; have x6 := mul_lt60 ha.h6 ha.h6
    have e : (squareCols a).b12 = 2 * (a.a4 * a.a8) + 4 * (a.a5 * a.a7) + a.a6 * a.a6 := by
      simp only [squareCols]
      rw [w64_of_lt (by ring_nf at *; omega)]
      try ring
    rw [e]; exact ⟨rfl, by omega⟩
  have c13 : (squareCols a).b13 = 2 * (a.a5 * a.a8) + 2 * (a.a6 * a.a7) ∧ (squareCols a).b13 < 9223372036854775808 := by
    have x5 := mul_lt59' ha.h5 ha.h8; have x6 := mul_lt59 ha.h6 ha.h7
    have e : (squareCols a).b13 = 2 * (a.a5 * a.a8) + 2 * (a.a6 * a.a7) := by
      simp only [squareCols]
      rw [w64_of_lt (by ring_nf at *; omega)]
      try ring
    rw [e]; exact ⟨rfl, by omega⟩
  have c14 : (squareCols a).b14 = 2 * (a.a6 * a.a8) + 2 * (a.a7 * a.a7) ∧ (squareCols a).b14 < 9223372036854775808 := by
    have x6 := mul_lt60 ha.h6 ha.h8; have x7 := mul_lt58 ha.h7 ha.h7
    have e : (squareCols a).b14 = 2 * (a.a6 * a.a8) + 2 * (a.a7 * a.a7) := by
      simp only [squareCols]
      rw [w64_of_lt (by ring_nf at *; omega)]
      try ring
    rw [e]; exact ⟨rfl, by omega⟩
  have c15 : (squareCols a).b15 = 2 * (a.a7 * a.a8) ∧ (squareCols a).b15 < 9223372036854775808 := by
    have x7 := mul_lt59' ha.h7 ha.h8
    have e : (squareCols a).b15 = 2 * (a.a7 * a.a8) := by
      simp only [squareCols]
      rw [w64_of_lt (by ring_nf at *; omega)]
      try ring
    rw [e]; exact ⟨rfl, by omega⟩
  have c16 : (squareCols a).b16 = a.a8 * a.a8 ∧ (squareCols a).b16 < 1152921504606846976 := by
    have x8 := mul_lt60 ha.h8 ha.h8
    have e : (squareCols a).b16 = a.a8 * a.a8 := by
      simp only [squareCols]
      rw [w64_of_lt (by ring_nf at *; omega)]
      try ring
    rw [e]; exact ⟨rfl, by omega⟩
  refine ⟨⟨c0.2, c1.2, c2.2, c3.2, c4.2, c5.2, c6.2, c7.2, c8.2, c9.2, c10.2, c11.2, c12.2, c13.2, c14.2, c15.2, c16.2⟩, ?_⟩
  rw [value_eq]
  simp only [Large.value]
  rw [c0.1, c1.1, c2.1, c3.1, c4.1, c5.1, c6.1, c7.1, c8.1, c9.1, c10.1, c11.1, c12.1, c13.1, c14.1, c15.1, c16.1]
  push_cast
  ring

theorem mul_ok {a b : Fe} (ha : a.Ok) (hb : b.Ok) (hbad : (mul a b).bad = false) :
    (mul a b).val.Ok ∧ 2 ^ 257 * ((mul a b).val.value : ℤ) ≡ a.value * b.value [ZMOD P] := by
  obtain ⟨h1, h2⟩ := mulCols_ok ha hb
  rw [← h2]
  exact reduceDegree_ok h1 hbad

theorem square_ok {a : Fe} (ha : a.Ok) (hbad : (square a).bad = false) :
    (square a).val.Ok ∧ 2 ^ 257 * ((square a).val.value : ℤ) ≡ a.value * a.value [ZMOD P] := by
  obtain ⟨h1, h2⟩ := squareCols_ok ha
  rw [← h2]
  exact reduceDegree_ok h1 hbad

end Verif.SM2
