import Verif.Bls.HashMap

/-! A concrete case for the hypotheses of the theorems about hashing: a toy hash function whose `hash_to_field` gives `u0 = 1 + 2 I`,
`u1 = 3 + 4 I` for every message, and the fact that the simplified SWU images of the two have different x-coordinates. -/

namespace Verif.Bls

open Verif.EC

theorem sswuX_of_words {u x y : Fe2} (hu : Fe2.Red u) (hx : Fe2.Red x) (hy : Fe2.Red y) (u0 : Fe2.den u ≠ 0)
    (e1 : Fe2.mul (Fe2.mul x swuA) (Fe2.add (Fe2.mul (Fe2.square u) swuZ) (Fe2.square (Fe2.mul (Fe2.square u) swuZ))) =
      Fe2.mul (Fe2.neg swuB) (Fe2.add (Fe2.add (Fe2.mul (Fe2.square u) swuZ) (Fe2.square (Fe2.mul (Fe2.square u) swuZ))) Fe2.one))
    (e2 : Fe2.square y = swuG x) (e3 : Fe2.isZero y = false) : Spec.sswuX (Fe2.den u) = Fe2.den x := by
  obtain ⟨a1, b1⟩ := Fe2.den_square hu
  obtain ⟨a2, b2⟩ := Fe2.den_mul a1 swuZ_spec.1
  obtain ⟨a3, b3⟩ := Fe2.den_square a2
  obtain ⟨a4, b4⟩ := Fe2.den_add a2 a3
  obtain ⟨a5, b5⟩ := Fe2.den_mul hx swuA_spec.1
  obtain ⟨a6, b6⟩ := Fe2.den_mul a5 a4
  obtain ⟨a7, b7⟩ := Fe2.den_neg swuB_spec.1
  obtain ⟨a8, b8⟩ := Fe2.den_add a4 Fe2.red_one
  obtain ⟨a9, b9⟩ := Fe2.den_mul a7 a8
  obtain ⟨c1, d1⟩ := Fe2.den_square hy
  obtain ⟨c2, d2⟩ := swuG_spec hx
  have hex := exc_aux I_sq sswuZ_nonsquare u0
  have hy0 : Fe2.den y ≠ 0 := fun h => by rw [(Fe2.isZero_den hy).mpr h] at e3; exact absurd e3 (by decide)
  have hg : Spec.g' (Fe2.den x) = Fe2.den y * Fe2.den y := by rw [← d2, ← e2, d1]
  have hx1 : Spec.x1 (Fe2.den u) = Fe2.den x := by
    have h := congrArg Fe2.den e1
    rw [b6, b9, b5, b4, b7, b8, b4, b3, b2, b1, swuZ_spec.2, swuA_spec.2, swuB_spec.2, Fe2.den_one] at h
    rw [Spec.x1, if_neg hex]
    have hA := isoA_ne
    generalize Spec.isoA = A at *
    generalize Spec.isoB = B at *
    generalize Spec.sswuZ = Z at *
    generalize Fe2.den u = v at *
    generalize Fe2.den x = w at *
    generalize hT : Z ^ 2 * v ^ 4 + Z * v ^ 2 = T at *
    have h' : w * A * T = -B * (T + 1) := by
      rw [← hT]
      linear_combination h
    field_simp
    linear_combination -h'
  rw [Spec.sswuX, hx1, hg, if_pos ⟨⟨_, rfl⟩, mul_ne_zero hy0 hy0⟩]

/-- `1 + 2 I`. -/
def sampleU0 : Fe2 := ⟨Fe.toMont ⟨1, 0, 0, 0, 0, 0⟩, Fe.toMont ⟨2, 0, 0, 0, 0, 0⟩⟩
/-- `3 + 4 I`. -/
def sampleU1 : Fe2 := ⟨Fe.toMont ⟨3, 0, 0, 0, 0, 0⟩, Fe.toMont ⟨4, 0, 0, 0, 0, 0⟩⟩
def sampleX0 : Fe2 := ⟨⟨18351288377401188919, 4125230269454743610, 10134812727848004157, 13396673931281146735, 3262999606912654326, 576145453732010191⟩,
  ⟨15853985420688321699, 7070632768821504255, 8401501557215939829, 7437464014984708813, 1630955511080303546, 291103181667034538⟩⟩
def sampleY0 : Fe2 := ⟨⟨13269294773635572339, 13155318217817932564, 5038997171721211749, 3594784747229340943, 7792642264787201270, 818142948096861344⟩,
  ⟨17273963133262639955, 9971495779321255133, 10246460448695540700, 6370091171431556333, 16213112934934415571, 527131971535794898⟩⟩
def sampleX1 : Fe2 := ⟨⟨5471885115138534986, 10692306460101238936, 8028018995827470890, 12820705455578888036, 3470385560310893592, 1299736694663618634⟩,
  ⟨11375629553054623041, 9684818453300496240, 8765312163215764934, 16735991245867020658, 4871950703754114077, 466934244008939560⟩⟩
def sampleY1 : Fe2 := ⟨⟨1106596031512282504, 16796772640579265190, 12577955491852401484, 12172400767394406868, 7321252767003466347, 1030434897788846124⟩,
  ⟨13758697336229751860, 9172591163963466477, 18402269857156597373, 18334440183786163703, 12162603133531106460, 99042202839630095⟩⟩

theorem small_ne {n : ℕ} (h0 : n ≠ 0) (h : n < Q) : (n : Fq) ≠ 0 := by
  rw [Ne, ZMod.natCast_eq_zero_iff]
  exact fun hd => absurd (Nat.le_of_dvd (Nat.pos_of_ne_zero h0) hd) (by omega)

theorem den_small (a : Fe) (h : a.val < Q) : Fe.Red (Fe.toMont a) ∧ Fe.den (Fe.toMont a) = (a.val : Fq) := Fe.den_toMont h

theorem den2_mk {a b : Fe} {x y : Fq} (h1 : Fe.Red a ∧ Fe.den a = x) (h2 : Fe.Red b ∧ Fe.den b = y) :
    Fe2.Red ⟨a, b⟩ ∧ Fe2.den ⟨a, b⟩ = ⟨x, y⟩ := ⟨⟨h1.1, h2.1⟩, by rw [Fe2.den, h1.2, h2.2]⟩

theorem pairs_eq {a b c d a' b' c' d' : ℕ} (h1 : a = a') (h2 : b = b') (h3 : c = c') (h4 : d = d') :
    some ((⟨(a : Fq), (b : Fq)⟩ : Fq2), (⟨(c : Fq), (d : Fq)⟩ : Fq2)) = some (⟨(a' : Fq), (b' : Fq)⟩, ⟨(c' : Fq), (d' : Fq)⟩) := by
  rw [h1, h2, h3, h4]

theorem sampleU0_spec : Fe2.Red sampleU0 ∧ Fe2.den sampleU0 = ⟨((1 : ℕ) : Fq), ((2 : ℕ) : Fq)⟩ := by
  have h1 := den_small ⟨1, 0, 0, 0, 0, 0⟩ (by decide +kernel)
  have h2 := den_small ⟨2, 0, 0, 0, 0, 0⟩ (by decide +kernel)
  rw [show Fe.val ⟨1, 0, 0, 0, 0, 0⟩ = 1 from by decide +kernel] at h1
  rw [show Fe.val ⟨2, 0, 0, 0, 0, 0⟩ = 2 from by decide +kernel] at h2
  exact den2_mk h1 h2

theorem sampleU1_spec : Fe2.Red sampleU1 ∧ Fe2.den sampleU1 = ⟨((3 : ℕ) : Fq), ((4 : ℕ) : Fq)⟩ := by
  have h1 := den_small ⟨3, 0, 0, 0, 0, 0⟩ (by decide +kernel)
  have h2 := den_small ⟨4, 0, 0, 0, 0, 0⟩ (by decide +kernel)
  rw [show Fe.val ⟨3, 0, 0, 0, 0, 0⟩ = 3 from by decide +kernel] at h1
  rw [show Fe.val ⟨4, 0, 0, 0, 0, 0⟩ = 4 from by decide +kernel] at h2
  exact den2_mk h1 h2

theorem pair_ne {a b : Fq} (h : a ≠ 0) : (⟨a, b⟩ : Fq2) ≠ 0 := fun e => h (congrArg QuadraticAlgebra.re e)

theorem sampleU0_ne : Fe2.den sampleU0 ≠ 0 := by
  rw [sampleU0_spec.2]
  exact pair_ne (small_ne (by decide) (by decide +kernel))

theorem sampleU1_ne : Fe2.den sampleU1 ≠ 0 := by
  rw [sampleU1_spec.2]
  exact pair_ne (small_ne (by decide) (by decide +kernel))

theorem sample_sswuX : Spec.sswuX (Fe2.den sampleU0) ≠ Spec.sswuX (Fe2.den sampleU1) := by
  have r0 : Fe2.Red sampleX0 := ⟨by decide +kernel, by decide +kernel⟩
  have r1 : Fe2.Red sampleX1 := ⟨by decide +kernel, by decide +kernel⟩
  rw [sswuX_of_words sampleU0_spec.1 r0 (y := sampleY0) ⟨by decide +kernel, by decide +kernel⟩ sampleU0_ne (by decide +kernel)
      (by decide +kernel) (by decide +kernel),
    sswuX_of_words sampleU1_spec.1 r1 (y := sampleY1) ⟨by decide +kernel, by decide +kernel⟩ sampleU1_ne (by decide +kernel)
      (by decide +kernel) (by decide +kernel)]
  intro h
  exact absurd ((Fe2.equal_den r0 r1).mpr h) (by decide +kernel)

/-- the SWU images of the two elements are different points. -/
theorem sample_ne (x y : Fq2) : ¬ (Spec.Sswu (Fe2.den sampleU0) x y ∧ Spec.Sswu (Fe2.den sampleU1) x y) := fun h =>
  sample_sswuX (h.1.x_eq.symm.trans h.2.x_eq)

/-- a toy hash: 31 zeros and half the counter byte of `expand_message_xmd` (0 for an odd counter). -/
def sampleH (m : Bytes) : Bytes :=
  List.replicate 31 0 ++ [if (m.getD 32 0) % 2 = 0 then (m.getD 32 0) / 2 else 0]

theorem sampleH_length (m : Bytes) : (sampleH m).length = 32 := by simp [sampleH]

theorem sample_getD {b : Bytes} (h : b.length = 32) (x : UInt8) (t : Bytes) : (b ++ [x] ++ t).getD 32 0 = x := by
  rw [List.getD_eq_getElem?_getD, List.append_assoc, List.getElem?_append_right (by omega), h]
  rfl

theorem sample_block (b0 d : Bytes) (h0 : b0.length = 32) : ∀ i, i < 8 →
    (Spec.block sampleH b0 d i).length = 32 ∧ Spec.block sampleH b0 d i = List.replicate 31 0 ++ [if (i + 1) % 2 = 0 then UInt8.ofNat ((i + 1) / 2) else 0] := by
  have hx : ∀ a b : Bytes, a.length = 32 → b.length = 32 → (Spec.strxor a b).length = 32 := by
    intro a b ha hb
    rw [Spec.strxor, List.length_zipWith, ha, hb]; rfl
  have hl : ∀ i, (Spec.block sampleH b0 d i).length = 32 := by
    intro i
    cases i with
    | zero => exact sampleH_length _
    | succ n => exact sampleH_length _
  intro i hi
  refine ⟨hl i, ?_⟩
  have key : ∀ j, j < 8 → ∀ c : Bytes, c.length = 32 → sampleH (c ++ Spec.i2osp (j + 1) 1 ++ d) =
      List.replicate 31 0 ++ [if (j + 1) % 2 = 0 then UInt8.ofNat ((j + 1) / 2) else 0] := by
    intro j hj c hc
    have e : Spec.i2osp (j + 1) 1 = [UInt8.ofNat (j + 1)] := by
      simp [Spec.i2osp, List.range_succ]
    rw [sampleH, e, sample_getD hc]
    interval_cases j <;> rfl
  cases i with
  | zero => exact key 0 hi _ h0
  | succ n => exact key (n + 1) hi _ (hx _ _ h0 (hl n))

theorem sample_hashToField (msg dst : Bytes) (hd : dst.length ≤ 255) :
    Spec.hashToField sampleH msg dst = some (Fe2.den sampleU0, Fe2.den sampleU1) := by
  rw [Spec.hashToField, Spec.expand]
  simp only []
  rw [if_neg (by omega)]
  generalize hb : sampleH _ = b0
  have h0 : b0.length = 32 := by rw [← hb]; exact sampleH_length _
  generalize dst ++ Spec.i2osp dst.length 1 = d
  have hr : List.range ((256 + 31) / 32) = [0, 1, 2, 3, 4, 5, 6, 7] := by decide
  have B := fun i hi => (sample_block b0 d h0 i hi).2
  rw [hr]
  simp only [List.flatMap_cons, List.flatMap_nil]
  rw [B 0 (by decide), B 1 (by decide), B 2 (by decide), B 3 (by decide), B 4 (by decide), B 5 (by decide), B 6 (by decide), B 7 (by decide),
    Option.map_some, sampleU0_spec.2, sampleU1_spec.2]
  unfold Spec.fieldElem
  refine pairs_eq ?_ ?_ ?_ ?_ <;> decide +kernel

end Verif.Bls
