import Verif.Bls.HashG1Map
import Verif.Bls.Cofactor1

/-!
# Hashing to G1: `hash_to_field`, the cofactors, and the encoding to G2
-/

namespace Verif.Bls

open Verif.EC WeierstrassCurve

set_option linter.constructorNameAsVariable false

/-! ## hash_to_field -/

theorem hashToFp_ret {H : Bytes → Bytes} {msg dst u : Bytes} {n : ℕ} {es : List Fe} (he : expandMsg H msg dst (n * 64) = .ret u)
    (h : hashElems u n 0 = some es) : hashToFp H msg dst n = .ret (some es) := by
  unfold hashToFp
  rw [he, ← h]
  rfl

theorem hashToG1_fields {H : Bytes → Bytes} (hH : ∀ m, (H m).length = 32) (msg dst : Bytes) (bd : Build) {u0 u1 : Fq}
    (hu : Spec.hashToField1 H msg dst = some (u0, u1)) :
    ∃ a0 a1, hashToG1 bd H msg dst = .ret (some (mapToG1 bd a0 a1)) ∧ Fe.Red a0 ∧ Fe.Red a1 ∧ Fe.den a0 = u0 ∧ Fe.den a1 = u1 := by
  unfold Spec.hashToField1 at hu
  obtain ⟨u, hu1, hu2⟩ := Option.map_eq_some_iff.mp hu
  obtain ⟨he, hl⟩ := expandMsg_spec hH (by decide) hu1
  obtain ⟨es, h1, h2, h3⟩ := hashElems_spec u 2 0 (by omega)
  rw [Prod.mk.injEq] at hu2
  match es, h1, h2, h3 with
  | [a, b], h1, _, h3 =>
    have k0 := h3 0 (by simp)
    have k1 := h3 1 (by simp)
    simp only [List.getElem_cons_zero, List.getElem_cons_succ, Nat.zero_add] at k0 k1
    refine ⟨a, b, ?_, k0.1, k1.1, k0.2.trans hu2.1, k1.2.trans hu2.2⟩
    unfold hashToG1
    rw [hashToFp_ret he h1]
    rfl

theorem encodeToG1_fields {H : Bytes → Bytes} (hH : ∀ m, (H m).length = 32) (msg dst : Bytes) (bd : Build) {u : Fq}
    (hu : Spec.encodeToField1 H msg dst = some u) :
    ∃ a, encodeToG1 bd H msg dst = .ret (some (encodeG1 bd a)) ∧ Fe.Red a ∧ Fe.den a = u := by
  unfold Spec.encodeToField1 at hu
  obtain ⟨v, hu1, hu2⟩ := Option.map_eq_some_iff.mp hu
  obtain ⟨he, hl⟩ := expandMsg_spec hH (by decide) hu1
  obtain ⟨es, h1, h2, h3⟩ := hashElems_spec v 1 0 (by omega)
  match es, h1, h2, h3 with
  | [a], h1, _, h3 =>
    have k0 := h3 0 (by simp)
    simp only [List.getElem_cons_zero, Nat.zero_add] at k0
    refine ⟨a, ?_, k0.1, k0.2.trans hu2⟩
    unfold encodeToG1
    rw [hashToFp_ret he h1]
    rfl

theorem encodeToG2_fields {H : Bytes → Bytes} (hH : ∀ m, (H m).length = 32) (msg dst : Bytes) (bd : Build) {u : Fq2}
    (hu : Spec.encodeToField2 H msg dst = some u) :
    ∃ a, encodeToG2 bd H msg dst = .ret (some (encodeG2 bd a)) ∧ Fe2.Red a ∧ Fe2.den a = u := by
  unfold Spec.encodeToField2 at hu
  obtain ⟨v, hu1, hu2⟩ := Option.map_eq_some_iff.mp hu
  obtain ⟨he, hl⟩ := expandMsg_spec hH (by decide) hu1
  obtain ⟨es, h1, h2, h3⟩ := hashElems_spec v 2 0 (by omega)
  match es, h1, h2, h3 with
  | [a, b], h1, _, h3 =>
    have k0 := h3 0 (by simp)
    have k1 := h3 1 (by simp)
    simp only [List.getElem_cons_zero, List.getElem_cons_succ, Nat.zero_add] at k0 k1
    refine ⟨⟨a, b⟩, ?_, ⟨k0.1, k1.1⟩, ?_⟩
    · unfold encodeToG2
      rw [hashToFp_ret he h1]
      rfl
    · rw [Fe2.den_mk, k0.2, k1.2]; exact hu2

theorem expand_some (H : Bytes → Bytes) (msg dst : Bytes) (hd : dst.length ≤ 255) {len : ℕ} (hl : (len + 31) / 32 ≤ 255) (hl' : len ≤ 65535) :
    ∃ u, Spec.expand H msg dst len = some u := by
  unfold Spec.expand
  simp only []
  rw [if_neg (by omega)]
  exact ⟨_, rfl⟩

theorem hashToField1_some (H : Bytes → Bytes) (msg dst : Bytes) (hd : dst.length ≤ 255) : ∃ u, Spec.hashToField1 H msg dst = some u := by
  obtain ⟨u, h⟩ := expand_some H msg dst hd (len := 128) (by omega) (by omega)
  exact ⟨_, by rw [Spec.hashToField1, h]; rfl⟩

theorem encodeToField1_some (H : Bytes → Bytes) (msg dst : Bytes) (hd : dst.length ≤ 255) : ∃ u, Spec.encodeToField1 H msg dst = some u := by
  obtain ⟨u, h⟩ := expand_some H msg dst hd (len := 64) (by omega) (by omega)
  exact ⟨_, by rw [Spec.encodeToField1, h]; rfl⟩

theorem encodeToField2_some (H : Bytes → Bytes) (msg dst : Bytes) (hd : dst.length ≤ 255) : ∃ u, Spec.encodeToField2 H msg dst = some u := by
  obtain ⟨u, h⟩ := expand_some H msg dst hd (len := 128) (by omega) (by omega)
  exact ⟨_, by rw [Spec.encodeToField2, h]; rfl⟩

/-! ## the encoding to G2 -/

theorem encodeG2_spec {u : Fe2} (hu : Fe2.Red u) (n : Fe2.den u ≠ 0) :
    ∃ R, Spec.EncodesTo2 (Fe2.den u) R ∧ sem2.Rep (encodeG2 .amd64 u) R := by
  obtain ⟨rx, ry, c, s⟩ := swuG2_spec hu
  have s := s n
  simp only [encodeG2]
  generalize swuG2 .amd64 u = q at *
  obtain ⟨x, y⟩ := q
  simp only at rx ry c s ⊢
  obtain ⟨i1, i2, j1, j2⟩ := isogenyG2_spec rx ry
  generalize isogenyG2 .amd64 x y = i at *
  obtain ⟨ix, iy⟩ := i
  simp only at i1 i2 j1 j2 ⊢
  have hE := iso_on_curve c
  have hP : sem2.Rep ⟨ix, iy, Fe2.one⟩ (.some (Spec.isoX (Fe2.den x)) (Spec.isoY (Fe2.den x) (Fe2.den y)) (E2_nonsing hE)) := by
    refine Sem.Rep.mk' i1 i2 sem2.one.1 j1 j2 sem2.one.2 ⟨one_ne_zero, ?_, ?_⟩ <;> simp
  refine ⟨Spec.hEff • (.some (Spec.isoX (Fe2.den x)) (Spec.isoY (Fe2.den x) (Fe2.den y)) (E2_nonsing hE) : Spec.E2.Point),
    ⟨_, _, E2_nonsing hE, s, rfl⟩, ?_⟩
  rw [← cofactor_eq]
  exact Sem.rep_affine_of (Sem.rep_mul hP _)

/-! ## the cofactors -/

theorem hEff1_clear (T : Spec.E1.Point) : Spec.r • (Spec.hEff1 • T) = 0 := by
  rw [← mul_nsmul]; exact eff_kill T

theorem cofactorG1_eq : cofactorG1 = h1 := by decide +kernel

theorem cofactorG1_clear (T : Spec.E1.Point) : Spec.r • (cofactorG1 • T) = 0 := by
  rw [← mul_nsmul, cofactorG1_eq]
  rw [← card_E1]
  exact card_nsmul_eq_zero'

/-! ## the specification allows one result only -/

theorem EncodesTo1_unique {u : Fq} {R R' : Spec.E1.Point} (h : Spec.EncodesTo1 u R) (h' : Spec.EncodesTo1 u R') : R = R' := by
  obtain ⟨P, T, hs, hi, rfl⟩ := h
  obtain ⟨P', T', hs', hi', rfl⟩ := h'
  rw [Sswu1_unique hs hs'] at hi
  rw [Iso1_unique hi hi']

theorem HashesTo1_unique {u0 u1 : Fq} {R R' : Spec.E1.Point} (h : Spec.HashesTo1 u0 u1 R) (h' : Spec.HashesTo1 u0 u1 R') : R = R' := by
  obtain ⟨P0, P1, T, a0, a1, hi, rfl⟩ := h
  obtain ⟨P0', P1', T', b0, b1, hi', rfl⟩ := h'
  rw [Sswu1_unique a0 b0, Sswu1_unique a1 b1] at hi
  rw [Iso1_unique hi hi']

/-- every field element has an SWU image. -/
theorem Sswu1_exists (u : Fq) : ∃ P, Spec.Sswu1 u P := by
  have hv : u.val < Q := ZMod.val_lt u
  have hb : beNat (padLeft 48 (natBytes u.val)) = u.val := by rw [beNat_padLeft, beNat_natBytes]
  obtain ⟨a, -, ra, e⟩ := (Fe.fromBytes_spec (padLeft 48 (natBytes u.val))).1
    ⟨padLeft_length (natBytes_length_le (hv.trans (by decide +kernel))), by rw [hb]; exact hv⟩
  rw [hb, ZMod.natCast_zmod_val] at e
  obtain ⟨x, y, -, -, -, h, hs⟩ := swuG1_spec ra
  rw [e] at hs
  exact ⟨_, hs⟩

/-! ## numbers -/

theorem natEq {a b : ℕ} (h : a % Q = b % Q) : (a : Fq) = (b : Fq) := (ZMod.natCast_eq_natCast_iff' _ _ _).mpr h

theorem x11_aux {K : Type*} [Field K] {A B x d : K} (hA : A ≠ 0) (hd : d ≠ 0) (h : A * x * d + B * (d + 1) = 0) :
    (-B / A) * (1 + d⁻¹) = x := by
  field_simp
  linear_combination -h

/-- `x` is the first candidate for `u`. -/
def x1Check (u x : ℕ) : Bool :=
  (121 * u ^ 4 + 11 * u ^ 2) % Q != 0 && (Spec.iso1A * x * (121 * u ^ 4 + 11 * u ^ 2) + Spec.iso1B * (121 * u ^ 4 + 11 * u ^ 2 + 1)) % Q == 0

theorem x11_of {u x : ℕ} (h : x1Check u x = true) : Spec.x11 (u : Fq) = x := by
  rw [x1Check, Bool.and_eq_true, bne_iff_ne, beq_iff_eq] at h
  have hd := nat_ne1 h.1
  have he := natEq (h.2.trans (Nat.zero_mod Q).symm)
  push_cast at hd he
  have e : (11 : Fq) ^ 2 * u ^ 4 + 11 * u ^ 2 = 121 * u ^ 4 + 11 * u ^ 2 := by ring
  rw [Spec.x11, e, if_neg hd]
  exact x11_aux iso1A_ne hd he

theorem sswuX1_sq {u x y : ℕ} (h : x1Check u x = true) (hy : y * y % Q = (x ^ 3 + Spec.iso1A * x + Spec.iso1B) % Q) :
    Spec.sswuX1 (u : Fq) = x ∧ (y : Fq) ^ 2 = Spec.g1' x := by
  have hy := natEq hy
  push_cast at hy
  have hs : (y : Fq) ^ 2 = Spec.g1' x := by rw [pow_two, hy, Spec.g1']
  refine ⟨?_, hs⟩
  rw [Spec.sswuX1, x11_of h, if_pos]
  exact ⟨y, by rw [← hs, pow_two]⟩

theorem nonsq_aux {K : Type*} [Field K] {z g w : K} (hz : ¬ IsSquare z) (hg : g ≠ 0) (h : w * w = z * g) : ¬ IsSquare g := by
  rintro ⟨s, rfl⟩
  have hs : s ≠ 0 := fun e => hg (by rw [e, mul_zero])
  exact hz ⟨w / s, by field_simp; linear_combination -h⟩

theorem sswuX1_nonsq {u x1 x w : ℕ} (h : x1Check u x1 = true) (hw : w * w % Q = 11 * (x1 ^ 3 + Spec.iso1A * x1 + Spec.iso1B) % Q)
    (hx : 11 * u ^ 2 * x1 % Q = x % Q) : Spec.sswuX1 (u : Fq) = x := by
  have hw := natEq hw
  have hx := natEq hx
  push_cast at hw hx
  rw [Spec.sswuX1, x11_of h, if_neg, hx]
  exact nonsq_aux eleven_nonsquare (g1'_ne _) (by rw [hw, Spec.g1'])

theorem sswu1_point {u x y : ℕ} (hx : Spec.sswuX1 (u : Fq) = x) (hy : y * y % Q = (x ^ 3 + Spec.iso1A * x + Spec.iso1B) % Q)
    (hu : u < Q) (hy' : y < Q) (hp : y % 2 = u % 2) :
    ∃ h : Spec.E1'.Nonsingular (x : Fq) (y : Fq), Spec.Sswu1 (u : Fq) (.some _ _ h) := by
  have hy := natEq hy
  push_cast at hy
  have hs : (y : Fq) ^ 2 = Spec.g1' x := by rw [pow_two, hy, Spec.g1']
  exact ⟨E1'_nonsing hs, _, _, _, rfl, hx.symm, by rw [ZMod.val_natCast_of_lt hy', ZMod.val_natCast_of_lt hu, hp]⟩

/-- the value of the polynomial, reduced. -/
def evalN (x : ℕ) : List ℕ → ℕ
  | [] => 0
  | k :: ks => (k + x * evalN x ks) % Q

theorem poly_evalN (x : ℕ) : ∀ ks, Spec.poly (x : Fq) ks = (evalN x ks : ℕ)
  | [] => by rw [Spec.poly, evalN, Nat.cast_zero]
  | k :: ks => by rw [Spec.poly, evalN, ZMod.natCast_mod, poly_evalN x ks]; push_cast; rfl

theorem not_exc {x : ℕ} {y : Fq} {h : Spec.E1'.Nonsingular (x : Fq) y} (h2 : evalN x Spec.k2 % Q ≠ 0) (h4 : evalN x Spec.k4 % Q ≠ 0) :
    ¬ Spec.Exceptional (.some _ _ h) := by
  intro he
  rcases he with he | he
  · rw [poly_evalN] at he; exact nat_ne1 h2 he
  · rw [poly_evalN] at he; exact nat_ne1 h4 he

/-! ## a regular input -/

def sX1 : ℕ := 0x174657bd1790e3c18599f7331604540c9317297001e4ef7e30848c67b39962d4d7bdb3ceb81ebad2f30b0879aa7c8d7a
def sY1 : ℕ := 0x60c037ddd686c247964cd679764e008f5c9888fa34b34fc31808877bc6c890c4f8991a3b9a1a82ed88c8f713228c1d7
def sX2 : ℕ := 0x6e53afe5b33d9544bcd2de302a2cc678f97790b44d4d8a5a82f966596b3fc147bc61bbe8e67d6e30efe8670baca970c
def sY2 : ℕ := 0xc098c4a03dbbf3aab3405a1d9fb7bbb1354e45d72a7a1b64e9e8052cf00ac89886101f45647e12cb82e3102c465f7ba
def sL : ℕ := 0xdb8f88124fd13896234d4469c8b822f644f473f153c2f489247ac3b81695ce0a3a5eb52e86fb466d2a6934cf1514c86
def sX3 : ℕ := 0xfbbf33440b5618e1163826d92e7b6fbe574eeb84585b8ceee74bddd39f9f37bfe1841d5166168dd93f896b384b0f716

theorem sswu_one : ∃ h : Spec.E1'.Nonsingular (sX1 : Fq) (sY1 : Fq), Spec.Sswu1 ((1 : ℕ) : Fq) (.some _ _ h) :=
  sswu1_point (sswuX1_nonsq (x1 := 0x17645c73bcd2e8a71b0d59df9627096b8e1de476f5f60dd69ea85c017d131830e6e3ca8616303f87512ebaf3c9adf597)
    (w := 0x8e8063275250434ca754195f36f704d828d6c2349b5308bc3eecbd28e65073a8f8f214dbb3e6512ea216752cce4e69f) (by decide +kernel)
    (by decide +kernel) (by decide +kernel)) (by decide +kernel) (by decide +kernel) (by decide +kernel) (by decide +kernel)

theorem sswu_two : ∃ h : Spec.E1'.Nonsingular (sX2 : Fq) (sY2 : Fq), Spec.Sswu1 ((2 : ℕ) : Fq) (.some _ _ h) :=
  sswu1_point (sswuX1_sq (by decide +kernel) (y := sY2) (by decide +kernel)).1 (by decide +kernel) (by decide +kernel) (by decide +kernel)
    (by decide +kernel)

theorem slope_aux {K : Type*} [Field K] {x1 x2 y1 y2 l : K} (hx : x1 ≠ x2) (h : l * x1 + y2 = l * x2 + y1) : (y1 - y2) / (x1 - x2) = l := by
  rw [div_eq_iff (sub_ne_zero.mpr hx)]
  linear_combination -h

theorem sX_ne : (sX1 : Fq) ≠ sX2 := fun h => absurd ((ZMod.natCast_eq_natCast_iff' _ _ _).mp h) (by decide +kernel)

theorem sum_x {a b : Fq} {x1 y1 x2 y2 l x3 : Fq} {h1 : (sw a b).Nonsingular x1 y1} {h2 : (sw a b).Nonsingular x2 y2} (hx : x1 ≠ x2)
    (h : l * x1 + y2 = l * x2 + y1) (h3 : x3 + x1 + x2 = l * l) :
    ∃ y3 h3, (.some x1 y1 h1 + .some x2 y2 h2 : (sw a b).Point) = .some x3 y3 h3 := by
  have hs : (sw a b).slope x1 x2 y1 y2 = l := by rw [Affine.slope_of_X_ne hx]; exact slope_aux hx h
  have hX : (sw a b).addX x1 x2 ((sw a b).slope x1 x2 y1 y2) = x3 := by
    rw [hs, Affine.addX]
    simp only [sw]
    linear_combination -h3
  have hadd := Affine.Point.add_of_X_ne (W := sw a b) (h₁ := h1) (h₂ := h2) hx
  generalize_proofs at hadd
  rename_i hn
  refine ⟨_, hX ▸ hn, hadd.trans ?_⟩
  simp only [Affine.Point.some.injEq, and_true]
  exact hX

/-- the field elements 1 and 2 are regular. -/
theorem sample_regular1 {P0 P1 : Spec.E1'.Point} (h0 : Spec.Sswu1 1 P0) (h1 : Spec.Sswu1 2 P1) : P0 ≠ P1 ∧ ¬ Spec.Exceptional (P0 + P1) := by
  obtain ⟨n0, s0⟩ := sswu_one
  obtain ⟨n1, s1⟩ := sswu_two
  rw [Nat.cast_one] at s0
  rw [Nat.cast_ofNat] at s1
  obtain rfl := Sswu1_unique h0 s0
  obtain rfl := Sswu1_unique h1 s1
  refine ⟨fun h => sX_ne (Affine.Point.some.inj h).1, ?_⟩
  obtain ⟨y, hn, e⟩ := sum_x (h1 := n0) (h2 := n1) (l := (sL : Fq)) (x3 := (sX3 : Fq)) sX_ne
    (by have := natEq (a := sL * sX1 + sY2) (b := sL * sX2 + sY1) (by decide +kernel); push_cast at this; exact this)
    (by have := natEq (a := sX3 + sX1 + sX2) (b := sL * sL) (by decide +kernel); push_cast at this; exact this)
  rw [e]
  exact not_exc (by decide +kernel) (by decide +kernel)

/-- the field element 1 is not sent to an exceptional point. -/
theorem sample_encode1 {P : Spec.E1'.Point} (h : Spec.Sswu1 1 P) : ¬ Spec.Exceptional P := by
  obtain ⟨n0, s0⟩ := sswu_one
  rw [Nat.cast_one] at s0
  obtain rfl := Sswu1_unique h s0
  exact not_exc (by decide +kernel) (by decide +kernel)

/-! ## an exceptional point -/

def excU : ℕ := 0x146850b3bdc2495ed73bb803dfaa951a88abff0acb5c7aeac52b48f3c808e87ce3885b98ce916e17caef21a6cbc6b598
def excX : ℕ := 0xd7f2d0d03ae035321eed4c1479d13251abf0e9a96479623eb5380b575e319851fb5e5a8b43b9c1a46880f54bf2b2f7c
def excY : ℕ := 0x59e4a8d101f0c51d351b3877c5197f07d08511978f9492dacd907f783f756008f967f1556f49e19032b4ecc3f415b40

theorem exc_sswuX : Spec.sswuX1 (excU : Fq) = excX := (sswuX1_sq (by decide +kernel) (y := excY) (by decide +kernel)).1

theorem exc_k2 : Spec.poly (excX : Fq) Spec.k2 = 0 := by
  rw [poly_evalN, show evalN excX Spec.k2 = 0 from by decide +kernel, Nat.cast_zero]

theorem exc_k4 : Spec.poly (excX : Fq) Spec.k4 = 0 := by
  rw [poly_evalN, show evalN excX Spec.k4 = 0 from by decide +kernel, Nat.cast_zero]

theorem exc_encodes : Spec.EncodesTo1 (excU : Fq) 0 := by
  obtain ⟨h, hs⟩ := sswu1_point (u := excU) (x := excX) (y := excY) exc_sswuX (by decide +kernel) (by decide +kernel) (by decide +kernel) (by decide +kernel)
  refine ⟨_, 0, hs, ?_, (nsmul_zero _).symm⟩
  rw [Spec.Iso1, if_pos (.inl exc_k2)]

/-! doubling and adding, when the doubled point is infinity -/

section
variable {α : Type} {g : Ops α} {F : Type} [Field F] [DecidableEq F] (S : Sem g F)

include S in
theorem mulLoop_inf (e : ℕ) (q : P3 α) (hq : ¬ g.isInf q = true) : ∀ (k i : ℕ) (n : P3 α), S.Red n.x → S.Red n.y → S.Red n.z → S.den n.z = 0 →
    g.mulLoop e k i q n = q
  | 0, _, _, _, _, _, _ => rfl
  | k + 1, i, n, hx, hy, hz, h => by
    have hr : S.Rep n 0 := ⟨hx, hy, hz, h⟩
    obtain ⟨dx, dy, dz, hd⟩ := Sem.rep_dbl hr
    rw [zero_add] at hd
    have ha : g.addPt q n = q := by
      have hi : g.isInf n = true := (Sem.isInf_iff hr).mpr rfl
      rw [Ops.addPt, if_neg hq, if_pos hi]
    rw [Ops.mulLoop, ha, ite_self]
    exact mulLoop_inf e q hq k _ _ dx dy dz hd

end

theorem Fe.zero_of_den {a : Fe} (h : Fe.Red a) (h0 : Fe.den a = 0) : a = Fe.zero := by
  exact Fe.den_inj h Fe.red_zero (h0.trans Fe.den_zero.symm)

/-- the field element `excU` is mapped to the coordinates (0, 0). -/
theorem exc_encodeG1 {u : Fe} (hu : Fe.Red u) (h : Fe.den u = (excU : Fq)) : encodeG1 .amd64 u = ⟨Fe.zero, Fe.zero, Fe.one⟩ := by
  obtain ⟨x, y, e, rx, ry, hn, hs⟩ := swuG1_spec hu
  obtain ⟨x', y', h', hp, hx, -⟩ := hs
  have hX : Fe.den x = (excX : Fq) := by
    have := (Affine.Point.some.inj hp).1
    rw [this, hx, h, exc_sswuX]
  obtain ⟨a, b, e2, ra, rb, ea, eb⟩ := isogenyG1_spec rx ry
  rw [hX, exc_k2, div_zero] at ea
  rw [hX, exc_k4, div_zero] at eb
  rw [Fe.zero_of_den ra ea, Fe.zero_of_den rb eb] at e2
  simp only [encodeG1, e, e2, clearCofactorG1]
  have hd : (g1 .amd64).mulScalar ⟨Fe.zero, Fe.zero, Fe.one⟩ cofactorEffG1 = ⟨Fe.zero, Fe.zero, Fe.one⟩ := by
    rw [Ops.mulScalar, show Fe.bitLen cofactorEffG1 = 63 + 1 from by decide +kernel, Ops.mulLoop, if_pos (by decide +kernel)]
    have hb : (g1 .amd64).addPt (g1 .amd64).blank ⟨Fe.zero, Fe.zero, Fe.one⟩ = ⟨Fe.zero, Fe.zero, Fe.one⟩ := by decide +kernel
    have hdb : (g1 .amd64).dbl ⟨Fe.zero, Fe.zero, Fe.one⟩ = ⟨Fe.zero, Fe.zero, Fe.zero⟩ := by decide +kernel
    rw [hb, hdb]
    exact mulLoop_inf sem1 _ _ (by decide +kernel) _ _ _ sem1.zero.1 sem1.zero.1 sem1.zero.1 sem1.zero.2
  rw [hd]
  decide +kernel

end Verif.Bls
