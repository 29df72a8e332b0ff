import Verif.Bls.KyberLemmas
import Verif.Bls.MultiExpLemmas
import Verif.Props.Bls3

/-!
# BLS12-381: C91–C93 (uncompressed encodings, multi-exponentiation, point objects)

Specification: `Verif/Bls/GroupSpec.lean` and `Verif/Bls/KyberSpec.lean`.
-/

namespace Verif.Props

open Verif.EC Verif.Bls Verif.Api Verif.Bls.Spec

/-! ## C91: the uncompressed and the plain format -/

/-- the 96 uncompressed bytes of a point of G1. -/
def uncompress1 : E1.Point → Bytes := uncompress E1 48 bytes1

/-- the 192 uncompressed bytes of a point of G2. -/
def uncompress2 : E2.Point → Bytes := uncompress E2 96 bytes2

/-- `x ‖ y` for G1, zeros for infinity. -/
def plain1 : E1.Point → Bytes := plain E1 48 bytes1

/-- `x ‖ y` for G2, zeros for infinity. -/
def plain2 : E2.Point → Bytes := plain E2 96 bytes2

theorem uncomp1_eq (P : E1.Point) : sem1.uncomp P = uncompress1 P := by rw [Sem.uncomp, uncompress1, size1]; rfl
theorem uncomp2_eq (P : E2.Point) : sem2.uncomp P = uncompress2 P := by rw [Sem.uncomp, uncompress2, size2]; rfl
theorem plain1_eq (P : E1.Point) : sem1.plain P = plain1 P := by rw [Sem.plain, plain1, size1]; rfl
theorem plain2_eq (P : E2.Point) : sem2.plain P = plain2 P := by rw [Sem.plain, plain2, size2]; rfl

/-- C91, G1: `FromUncompressed` accepts exactly the strings that start with the uncompressed encoding of a point of the subgroup of order
`r`, and `ToUncompressed` returns these 96 bytes. -/
theorem C91_g1_uncompressed (s : Bytes) :
    ((∃ p, (g1 .amd64).fromUncompressed s = some p) ↔ ∃ P : E1.Point, r • P = 0 ∧ ∃ tail, s = uncompress1 P ++ tail) ∧
      ∀ p, (g1 .amd64).fromUncompressed s = some p → (g1 .amd64).toUncompressed p = s.take 96 := by
  constructor
  · constructor
    · rintro ⟨p, h⟩
      obtain ⟨-, P, -, ho, hc⟩ := Sem.fromUncompressed_some (S := sem1) h
      refine ⟨P, (ord1 P).mp ho, s.drop (2 * (g1 .amd64).size), ?_⟩
      rw [← uncomp1_eq P, hc, List.take_append_drop]
    · rintro ⟨P, ho, t, rfl⟩
      obtain ⟨p, e, -⟩ := Sem.fromUncompressed_uncomp (S := sem1) ((ord1 P).mpr ho) t
      exact ⟨p, by rw [← uncomp1_eq]; exact e⟩
  · intro p h
    obtain ⟨-, P, hP, -, hc⟩ := Sem.fromUncompressed_some (S := sem1) h
    rw [Sem.toUncompressed_eq hP, hc, size1]

/-- C91, G2: the same with 192 bytes. -/
theorem C91_g2_uncompressed (s : Bytes) :
    ((∃ p, (g2 .amd64).fromUncompressed s = some p) ↔ ∃ P : E2.Point, r • P = 0 ∧ ∃ tail, s = uncompress2 P ++ tail) ∧
      ∀ p, (g2 .amd64).fromUncompressed s = some p → (g2 .amd64).toUncompressed p = s.take 192 := by
  constructor
  · constructor
    · rintro ⟨p, h⟩
      obtain ⟨-, P, -, ho, hc⟩ := Sem.fromUncompressed_some (S := sem2) h
      refine ⟨P, (ord2 P).mp ho, s.drop (2 * (g2 .amd64).size), ?_⟩
      rw [← uncomp2_eq P, hc, List.take_append_drop]
    · rintro ⟨P, ho, t, rfl⟩
      obtain ⟨p, e, -⟩ := Sem.fromUncompressed_uncomp (S := sem2) ((ord2 P).mpr ho) t
      exact ⟨p, by rw [← uncomp2_eq]; exact e⟩
  · intro p h
    obtain ⟨-, P, hP, -, hc⟩ := Sem.fromUncompressed_some (S := sem2) h
    rw [Sem.toUncompressed_eq hP, hc, size2]

theorem bytes1_zero : sem1.bytes 0 = List.replicate (g1 .amd64).size 0 := by
  have e : sem1.bytes 0 = bytes1 0 := rfl
  rw [size1, e, bytes1, ZMod.val_zero]; decide +kernel

theorem bytes2_zero : sem2.bytes 0 = List.replicate (g2 .amd64).size 0 := by
  have e : sem2.bytes 0 = bytes2 0 := rfl
  have e1 : (0 : Fq2).re = 0 := rfl
  have e2 : (0 : Fq2).im = 0 := rfl
  rw [size2, e, bytes2, e1, e2, ZMod.val_zero]; decide +kernel

/-- C91: `FromBytes` accepts exactly the plain encodings of the points of the curve, with no byte to spare, and `ToBytes` returns the string. -/
theorem C91_plain (s : Bytes) :
    ((∃ p, (g1 .amd64).fromBytesPt s = some p) ↔ ∃ P : E1.Point, s = plain1 P) ∧
      (∀ p, (g1 .amd64).fromBytesPt s = some p → (g1 .amd64).toBytesPt p = s) ∧
      ((∃ p, (g2 .amd64).fromBytesPt s = some p) ↔ ∃ P : E2.Point, s = plain2 P) ∧
      ∀ p, (g2 .amd64).fromBytesPt s = some p → (g2 .amd64).toBytesPt p = s := by
  refine ⟨⟨?_, ?_⟩, ?_, ⟨?_, ?_⟩, ?_⟩
  · rintro ⟨p, h⟩
    obtain ⟨P, -, hc⟩ := Sem.fromBytesPt_some (S := sem1) bytes1_zero h
    exact ⟨P, hc.symm.trans (plain1_eq P)⟩
  · rintro ⟨P, rfl⟩
    obtain ⟨p, h, -⟩ := Sem.fromBytesPt_plain (S := sem1) bytes1_zero P
    exact ⟨p, by rw [← plain1_eq]; exact h⟩
  · intro p h
    obtain ⟨P, hP, hc⟩ := Sem.fromBytesPt_some (S := sem1) bytes1_zero h
    rw [Sem.toBytesPt_eq hP, hc]
  · rintro ⟨p, h⟩
    obtain ⟨P, -, hc⟩ := Sem.fromBytesPt_some (S := sem2) bytes2_zero h
    exact ⟨P, hc.symm.trans (plain2_eq P)⟩
  · rintro ⟨P, rfl⟩
    obtain ⟨p, h, -⟩ := Sem.fromBytesPt_plain (S := sem2) bytes2_zero P
    exact ⟨p, by rw [← plain2_eq]; exact h⟩
  · intro p h
    obtain ⟨P, hP, hc⟩ := Sem.fromBytesPt_some (S := sem2) bytes2_zero h
    rw [Sem.toBytesPt_eq hP, hc]

theorem two_nonsing : E1.Nonsingular 0 2 := sem1.nonsing (by
  have e : sem1.bF = (4 : Fq) := rfl
  rw [e]; norm_num)

/-- the point `(0, 2)`. -/
def twoPt : E1.Point := .some 0 2 two_nonsing

theorem two_ne_neg : (2 : Fq) ≠ -2 := by
  intro h
  have h4 : (2 : Fq) * 2 = 0 := by linear_combination h
  exact sem1.two_ne (mul_self_eq_zero.mp h4)

theorem twoPt_three : twoPt + twoPt = -twoPt := by
  rw [twoPt]
  have hy : (2 : Fq) ≠ E1.negY 0 2 := by simpa [WeierstrassCurve.Affine.negY, sw] using two_ne_neg
  rw [WeierstrassCurve.Affine.Point.add_self_of_Y_ne hy, WeierstrassCurve.Affine.Point.neg_some]
  simp [WeierstrassCurve.Affine.slope, WeierstrassCurve.Affine.addX, WeierstrassCurve.Affine.addY, WeierstrassCurve.Affine.negAddY,
    WeierstrassCurve.Affine.negY, sw, two_ne_neg]

/-- C91 is false for `FromBytes` if "decodes only elements of the group" is meant: the plain format is not checked for subgroup
membership.  The point `(0, 2)` is accepted and has order 3. -/
theorem C91_false_subgroup : ∃ P : E1.Point, r • P ≠ 0 ∧ ∃ p, (g1 .amd64).fromBytesPt (plain1 P) = some p ∧ (g1 .amd64).inSubgroup p = false := by
  have h3 : (3 : ℕ) • twoPt = 0 := by
    rw [succ_nsmul, two_nsmul, twoPt_three, neg_add_cancel]
  have hr : r • twoPt ≠ 0 := by
    have e : r = 3 * (r / 3) + 1 := by decide +kernel
    rw [e, add_nsmul, one_nsmul, mul_comm, mul_nsmul', h3, nsmul_zero, zero_add]
    exact WeierstrassCurve.Affine.Point.some_ne_zero _
  obtain ⟨p, h, hp⟩ := Sem.fromBytesPt_plain (S := sem1) bytes1_zero twoPt
  refine ⟨twoPt, hr, p, by rw [← plain1_eq]; exact h, ?_⟩
  rw [Bool.eq_false_iff]
  intro hs
  exact hr ((ord1 _).mp ((Sem.inSubgroup_iff hp).mp hs))

example : ∃ p, (g1 .amd64).fromUncompressed (uncompress1 (5 • gen1)) = some p :=
  (C91_g1_uncompressed _).1.mpr ⟨5 • gen1, (by rw [← mul_nsmul', mul_comm, mul_nsmul', gen1_order, nsmul_zero]), [], (List.append_nil _).symm⟩

example : ∃ p, (g2 .amd64).fromBytesPt (plain2 (7 • gen2)) = some p := (C91_plain _).2.2.1.mpr ⟨_, rfl⟩

/-! ## C92: multi-exponentiation -/

/-- the words are the Montgomery form of Jacobian coordinates of the point: `Z = 0` for infinity, `x = X/Z²`, `y = Y/Z³` otherwise. -/
def Jac1 (p : P3 Fe) (P : E1.Point) : Prop := ∃ X Y Z, IsMont381 p.x X ∧ IsMont381 p.y Y ∧ IsMont381 p.z Z ∧ JRep E1 X Y Z P

/-- the same for G2. -/
def Jac2 (p : P3 Fe2) (P : E2.Point) : Prop := ∃ X Y Z, IsMont381x2 p.x X ∧ IsMont381x2 p.y Y ∧ IsMont381x2 p.z Z ∧ JRep E2 X Y Z P

theorem jac1_iff (p : P3 Fe) (P : E1.Point) : Jac1 p P ↔ sem1.Rep p P := by
  unfold Jac1
  simp only [isMont381_iff]
  constructor
  · rintro ⟨X, Y, Z, hx, hy, hz, h⟩
    exact Sem.Rep.mk' (S := sem1) hx.1 hy.1 hz.1 hx.2 hy.2 hz.2 h
  · rintro ⟨hx, hy, hz, h⟩
    exact ⟨_, _, _, ⟨hx, rfl⟩, ⟨hy, rfl⟩, ⟨hz, rfl⟩, h⟩

theorem jac2_iff (p : P3 Fe2) (P : E2.Point) : Jac2 p P ↔ sem2.Rep p P := by
  unfold Jac2
  simp only [isMont2_iff]
  constructor
  · rintro ⟨X, Y, Z, hx, hy, hz, h⟩
    exact Sem.Rep.mk' (S := sem2) hx.1 hy.1 hz.1 hx.2 hy.2 hz.2 h
  · rintro ⟨hx, hy, hz, h⟩
    exact ⟨_, _, _, ⟨hx, rfl⟩, ⟨hy, rfl⟩, ⟨hz, rfl⟩, h⟩

/-- `e₀·P₀ + e₁·P₁ + …` -/
def linComb {G : Type*} [AddCommGroup G] (Ps : List G) (es : List ℕ) : G := (List.zipWith (fun P (e : ℕ) => e • P) Ps es).sum

theorem lsum_linComb {G : Type*} [AddCommGroup G] (m : ℕ) (Ps : List G) : ∀ (es : List ℕ), (∀ e ∈ es, e < 2 ^ m) →
    lsum (fun e => e % 2 ^ m) (Ps.zip es) = linComb Ps es := by
  induction Ps with
  | nil => intro es _; rfl
  | cons P Ps ih =>
    intro es h
    cases es with
    | nil => rfl
    | cons e es =>
      rw [List.zip_cons_cons, lsum_cons, ih es fun e he => h e (List.mem_cons_of_mem _ he), linComb, linComb, List.zipWith_cons_cons, List.sum_cons,
        Nat.mod_eq_of_lt (h e List.mem_cons_self)]

theorem window_bits {c : ℕ} (hc : 0 < c) : 256 ≤ c * (255 / c + 1) := by
  have := Nat.div_add_mod 255 c
  have := Nat.mod_lt 255 hc
  rw [mul_add, mul_one]; omega

theorem multi_gen {α : Type} {g : Ops α} {F : Type} [Field F] [DecidableEq F] {S : Sem g F} {c : ℕ} (hc0 : 0 < c) (hc : c ≤ 64)
    {ps : List (P3 α)} {Ps : List S.W.Point} (h : List.Forall₂ S.Rep ps Ps) (es : List ℕ) (hl : ps.length = es.length) (he : ∀ e ∈ es, e < 2 ^ 256) :
    ∃ q, g.multiExp c ps es = .ret (some q, es.map fun _ => 0) ∧ S.Rep q (linComb Ps es) := by
  obtain ⟨q, h1, h2⟩ := Sem.multiExp_rep hc hc0 h es hl
  have hb := window_bits hc0
  have he' : ∀ e ∈ es, e < 2 ^ (c * (255 / c + 1)) := fun e h => lt_of_lt_of_le (he e h) (Nat.pow_le_pow_right (by norm_num) hb)
  refine ⟨q, ?_, ?_⟩
  · rw [h1]
    congr 2
    apply List.map_congr_left
    intro e h
    rw [Nat.shiftRight_eq_div_pow, Nat.div_eq_of_lt (he' e h)]
  · rw [← lsum_linComb _ _ _ he']; exact h2

/-- C92, the part that holds, for G1.  For points in any representation, any number of scalars below `2^256` and any window width from 1 to
64 (the code uses 3, or a width computed in floating point from the number of scalars), `MultiExp` returns the sum of the multiples.
Lists of different lengths are an error.  Missing: the caller's scalars, which are all zero afterwards (also part of the statement here, see
`C92_false_scalars`), and scalars of more bits (`C92_false_long`). -/
theorem C92_g1_partial (c : ℕ) (hc0 : 0 < c) (hc : c ≤ 64) (ps : List (P3 Fe)) (Ps : List E1.Point) (h : List.Forall₂ Jac1 ps Ps) (es : List ℕ) :
    (ps.length ≠ es.length → (g1 .amd64).multiExp c ps es = .ret (none, es)) ∧
      (ps.length = es.length → (∀ e ∈ es, e < 2 ^ 256) →
        ∃ q, (g1 .amd64).multiExp c ps es = .ret (some q, es.map fun _ => 0) ∧ Jac1 q (linComb Ps es)) := by
  refine ⟨fun hl => Sem.multiExp_error c ps es hl, fun hl he => ?_⟩
  have h' : List.Forall₂ sem1.Rep ps Ps := h.imp fun p P => (jac1_iff p P).mp
  obtain ⟨q, h1, h2⟩ := multi_gen hc0 hc h' es hl he
  exact ⟨q, h1, (jac1_iff _ _).mpr h2⟩

/-- C92, G2. -/
theorem C92_g2_partial (c : ℕ) (hc0 : 0 < c) (hc : c ≤ 64) (ps : List (P3 Fe2)) (Ps : List E2.Point) (h : List.Forall₂ Jac2 ps Ps) (es : List ℕ) :
    (ps.length ≠ es.length → (g2 .amd64).multiExp c ps es = .ret (none, es)) ∧
      (ps.length = es.length → (∀ e ∈ es, e < 2 ^ 256) →
        ∃ q, (g2 .amd64).multiExp c ps es = .ret (some q, es.map fun _ => 0) ∧ Jac2 q (linComb Ps es)) := by
  refine ⟨fun hl => Sem.multiExp_error c ps es hl, fun hl he => ?_⟩
  have h' : List.Forall₂ sem2.Rep ps Ps := h.imp fun p P => (jac2_iff p P).mp
  obtain ⟨q, h1, h2⟩ := multi_gen hc0 hc h' es hl he
  exact ⟨q, h1, (jac2_iff _ _).mpr h2⟩

example : List.Forall₂ Jac1 [(g1 .amd64).gen, (g1 .amd64).gen] [gen1, gen1] ∧
    [(g1 .amd64).gen, (g1 .amd64).gen].length = [5, 2 ^ 255].length ∧ (∀ e ∈ [5, 2 ^ 255], e < 2 ^ 256) ∧
    List.Forall₂ Jac2 [(g2 .amd64).gen, (g2 .amd64).gen] [gen2, gen2] :=
  ⟨.cons ((jac1_iff _ _).mpr rep_gen1) (.cons ((jac1_iff _ _).mpr rep_gen1) .nil), rfl, by decide +kernel,
    .cons ((jac2_iff _ _).mpr rep_gen2) (.cons ((jac2_iff _ _).mpr rep_gen2) .nil)⟩

/-- C92 is false for the caller's memory: the slice of scalars is overwritten, a scalar 1 becomes 0. -/
theorem C92_false_scalars : ∃ q, (g1 .amd64).multiExp 3 [(g1 .amd64).gen] [1] = .ret (some q, [0]) := by
  obtain ⟨q, h, -⟩ := (C92_g1_partial 3 (by decide) (by decide) [(g1 .amd64).gen] [gen1] (.cons ((jac1_iff _ _).mpr rep_gen1) .nil) [1]).2 rfl
    (by intro e he; rw [List.mem_singleton] at he; subst he; norm_num)
  exact ⟨q, h⟩

/-- C92 is false for longer scalars: with the window width 3 the bits from 258 on are ignored, and `2^258` times the generator comes out as
infinity (the code's `MulScalar` gives the correct point). -/
theorem C92_false_long : ∃ q, (g1 .amd64).multiExp 3 [(g1 .amd64).gen] [2 ^ 258] = .ret (some q, [1]) ∧ Jac1 q 0 ∧
    Jac1 ((g1 .amd64).mulScalar (g1 .amd64).gen (2 ^ 258)) (2 ^ 258 • gen1) ∧ 2 ^ 258 • gen1 ≠ 0 := by
  obtain ⟨q, h1, h2⟩ := Sem.multiExp_rep (S := sem1) (c := 3) (by decide) (by decide) (.cons rep_gen1 .nil) [2 ^ 258] rfl
  refine ⟨q, ?_, ?_, ?_, ?_⟩
  · rw [h1]; simp [Nat.shiftRight_eq_div_pow]
  · rw [jac1_iff]
    have e : lsum (fun e => e % 2 ^ (3 * (255 / 3 + 1))) (List.zip [gen1] [2 ^ 258]) = 0 := by
      rw [List.zip_cons_cons, lsum_cons]
      norm_num [lsum]
    rw [← e]; exact h2
  · rw [jac1_iff]; exact Sem.rep_mul rep_gen1 _
  · intro h
    have h3 : ∀ n : ℕ, (n : ℕ) • gen1 = (n % r) • gen1 := by
      intro n
      conv_lhs => rw [← Nat.div_add_mod n r, add_nsmul, mul_comm, mul_nsmul', gen1_order, nsmul_zero, zero_add]
    have h4 : (2 ^ 258 * 3137269164058489588414836834200986821980679036713353013717690787001593065488) • gen1 = 0 := by rw [mul_comm, mul_nsmul', h, nsmul_zero]
    rw [h3, show 2 ^ 258 * 3137269164058489588414836834200986821980679036713353013717690787001593065488 % r = 1 from by decide +kernel, one_nsmul] at h4
    exact gen1_ne h4

/-! ## C93: point objects -/

/-- G1 as the machine of `Verif/Bls/KyberSpec.lean` sees it. -/
def grp1 : Kyber.Spec.Grp E1.Point where
  zero := 0
  gen := gen1
  add := (· + ·)
  neg := (- ·)
  smul := fun n P => n • P
  mem := fun P => r • P = 0
  enc := compress1
  size := 48

/-- G2. -/
def grp2 : Kyber.Spec.Grp E2.Point where
  zero := 0
  gen := gen2
  add := (· + ·)
  neg := (- ·)
  smul := fun n P => n • P
  mem := fun P => r • P = 0
  enc := compress2
  size := 96

theorem grp1_eq : Kyber.grp sem1 gen1 = grp1 := by
  unfold Kyber.grp grp1
  rw [size1, show sem1.comp = compress1 from funext comp1_eq, order_eq]
  rfl

theorem grp2_eq : Kyber.grp sem2 gen2 = grp2 := by
  unfold Kyber.grp grp2
  rw [size2, show sem2.comp = compress2 from funext comp2_eq, order_eq]
  rfl

/-- C93, G1: every program of calls on point objects, with receivers that are also arguments, objects decoded from any bytes or stream, copies
and failures, shows its caller exactly what the machine over the group `E1` shows: the results of `Equal`, `MarshalBinary`,
`UnmarshalBinary`, `UnmarshalFrom` and `IsInCorrectGroup`, and whether it panics. -/
theorem C93_g1 (prog : List Kyber.Op) : Kyber.observe (g1 .amd64) prog = Kyber.Spec.observe grp1 prog := by
  rw [← grp1_eq]; exact Kyber.observe_eq rep_gen1 prog

/-- C93, G2. -/
theorem C93_g2 (prog : List Kyber.Op) : Kyber.observe (g2 .amd64) prog = Kyber.Spec.observe grp2 prog := by
  rw [← grp2_eq]; exact Kyber.observe_eq rep_gen2 prog

theorem order_add {G : Type*} [AddCommGroup G] {n : ℕ} {P Q : G} (h : n • P = 0) (h' : n • Q = 0) : n • (P + Q) = 0 := by
  rw [nsmul_add, h, h', add_zero]

theorem order_smul {G : Type*} [AddCommGroup G] {n : ℕ} (k : ℕ) {P : G} (h : n • P = 0) : n • (k • P) = 0 := by
  rw [← mul_nsmul', mul_comm, mul_nsmul', h, nsmul_zero]

theorem order_neg {G : Type*} [AddCommGroup G] {n : ℕ} {P : G} (h : n • P = 0) : n • (-P) = 0 := by
  rw [neg_nsmul, h, neg_zero]

theorem run_append {G : Type} (K : Kyber.Spec.Grp G) (p q : List Kyber.Op) : ∀ H, Kyber.Spec.run K H (p ++ q) =
    Kyber.Spec.run K H p >>= fun a => Kyber.Spec.run K a.1 q >>= fun b => .ret (b.1, a.2 ++ b.2) := by
  induction p with
  | nil =>
    intro H
    simp only [List.nil_append, Kyber.Spec.run, Go.ret_bind]
    cases Kyber.Spec.run K H q <;> rfl
  | cons o os ih =>
    intro H
    simp only [List.cons_append, Kyber.Spec.run]
    cases Kyber.Spec.step K H o with
    | panic => rfl
    | ret a =>
      simp only [Go.ret_bind]
      rw [ih]
      cases Kyber.Spec.run K a.1 os with
      | panic => rfl
      | ret b =>
        simp only [Go.ret_bind]
        cases Kyber.Spec.run K b.1 q <;> rfl

theorem always_member {G : Type} {K : Kyber.Spec.Grp G} (h0 : K.mem K.zero) (hg : K.mem K.gen) (ha : ∀ P Q, K.mem P → K.mem Q → K.mem (K.add P Q))
    (hn : ∀ P, K.mem P → K.mem (K.neg P)) (hs : ∀ n P, K.mem P → K.mem (K.smul n P)) (prog : List Kyber.Op) (k : ℕ) (obs : List Kyber.Obs)
    (h : Kyber.Spec.observe K (prog ++ [.inGroup k]) = .ret obs) : obs.getLast? = some (.bool true) := by
  unfold Kyber.Spec.observe at h
  obtain ⟨a, ha', h⟩ := Kyber.bind_ret h
  rw [Go.ret.injEq] at h
  subst h
  rw [run_append] at ha'
  obtain ⟨b, hb, ha'⟩ := Kyber.bind_ret ha'
  obtain ⟨c, hc, ha'⟩ := Kyber.bind_ret ha'
  rw [Go.ret.injEq] at ha'
  subst ha'
  have hi := Kyber.inv_run h0 hg ha hn hs prog (H := []) (fun P hP => by cases hP) hb
  obtain ⟨d, hd, hc⟩ := Kyber.bind_ret hc
  simp only [Kyber.Spec.run, Go.ret_bind, Go.ret.injEq] at hc
  subst hc
  obtain ⟨P, hP, hd⟩ := Kyber.bind_ret hd
  rw [Go.ret.injEq] at hd
  subst hd
  have hm := hi P (Kyber.mem_of_obj hP)
  simp [hm]

/-- C93: whatever was done before, a usable object lies in the subgroup of order `r`. -/
theorem C93_subgroup (prog : List Kyber.Op) (k : ℕ) (obs : List Kyber.Obs) :
    (Kyber.observe (g1 .amd64) (prog ++ [.inGroup k]) = .ret obs → obs.getLast? = some (.bool true)) ∧
      (Kyber.observe (g2 .amd64) (prog ++ [.inGroup k]) = .ret obs → obs.getLast? = some (.bool true)) := by
  rw [C93_g1, C93_g2]
  exact ⟨always_member (K := grp1) (nsmul_zero r) gen1_order (fun _ _ => order_add) (fun _ => order_neg) (fun n _ => order_smul n) prog k obs,
    always_member (K := grp2) (nsmul_zero r) gen2_order (fun _ _ => order_add) (fun _ => order_neg) (fun n _ => order_smul n) prog k obs⟩

/-- C93 is false for the contract of kyber's `Point` interface, "`Null` sets the receiver to the neutral element, `Base` sets it to the base
point": both return a new object and leave the receiver as it was. -/
theorem C93_false_receiver : Kyber.observe (g1 .amd64) [.point, .base 0, .equal 0 1] = .ret [.unit, .unit, .bool false] ∧
    Kyber.observe (g1 .amd64) [.point, .base 0, .null 1, .equal 1 2] = .ret [.unit, .unit, .unit, .bool false] := by
  rw [C93_g1, C93_g1]
  have e : ((0 : E1.Point) = gen1) = False := eq_false fun h => gen1_ne h.symm
  have e' : (gen1 = (0 : E1.Point)) = False := eq_false gen1_ne
  constructor <;> simp [Kyber.Spec.observe, Kyber.Spec.run, Kyber.Spec.step, Kyber.obj, grp1, e, e']

theorem dec1_nil : grp1.dec [] = none := by
  unfold Kyber.Spec.Grp.dec
  rw [dif_neg]
  rintro ⟨P, -, t, h⟩
  have := congrArg List.length h
  have hl : (grp1.enc P).length = 48 := compress1_length P
  rw [List.length_append, hl, List.length_nil] at this
  omega

/-- C93 is false for failed decoding, if it is meant to leave the object alone or usable: afterwards every use of the object panics.
(`UnmarshalFrom` on a stream that ends too early leaves it usable.) -/
theorem C93_false_failed_decode : Kyber.observe (g1 .amd64) [.base 0, .unmarshal 0 [], .equal 0 0] = .panic ∧
    Kyber.observe (g1 .amd64) [.base 0, .unmarshalFrom 0 [], .equal 0 0] = .ret [.unit, .read 0 true, .bool true] := by
  rw [C93_g1, C93_g1]
  have e : grp1.size = 48 := rfl
  constructor
  · simp [Kyber.Spec.observe, Kyber.Spec.run, Kyber.Spec.step, Kyber.obj, dec1_nil]
  · simp [Kyber.Spec.observe, Kyber.Spec.run, Kyber.Spec.step, Kyber.obj, e]

/-- a program with an aliased receiver: `b := Base(); b.Add(b, b); c := Base(); c.Mul(2, nil)`; the two are equal. -/
example : Kyber.observe (g2 .amd64) [.base 0, .add 0 0 0, .base 0, .mul 1 2 none, .equal 0 1] = .ret [.unit, .unit, .unit, .unit, .bool true] := by
  rw [C93_g2]
  have e : (gen2 + gen2 = 2 • gen2) = True := eq_true (two_nsmul gen2).symm
  simp [Kyber.Spec.observe, Kyber.Spec.run, Kyber.Spec.step, Kyber.Spec.assign, Kyber.obj, grp2, e]

end Verif.Props
