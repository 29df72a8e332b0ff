import Verif.Bls.VerifyLemmas
import Verif.Bls.Inverse
import Verif.Bls.HashExists
import Verif.Bls.HashEqual
import Verif.Bls.HashSample
import Verif.Props.Sample
import Verif.Props.Bls

/-!
# BLS12-381: C59 and C77–C83

The specification is `Verif/Bls/GroupSpec.lean` (the curves `E1 : y² = x³ + 4` over `Fq`, `E2 : y² = x³ + 4(1 + u)` over
`Fq2 = Fq[u]/(u² + 1)`, the order `r`, the zcash encodings `compress1`, `compress2`) and `Verif/Bls/HashSpec.lean` (RFC 9380).
`H` is crypto/sha256 (any function with 32-byte values), `X` is the external library g1pubs.  Theorems about curve points are about
the amd64 build, whose assembly is taken to compute what the Go code of `add`, `sub`, `mul`, … in arithmetic_fallback.go computes;
the other builds use a `square` that is wrong (`C77_false_generic_square`).
-/

namespace Verif.Props

open Verif.EC Verif.Bls Verif.Api Verif.Bls.Spec

/-! ## C77: the base field -/

/-- the words are the canonical Montgomery form of `x`. -/
def IsMont381 (a : Fe) (x : Fq) : Prop := a.val < Q ∧ (a.val : Fq) = x * 2 ^ 384

theorem isMont381_iff (a : Fe) (x : Fq) : IsMont381 a x ↔ Fe.Red a ∧ Fe.den a = x := by
  have e := Fe.val_of_den a
  have hne := Fe.R_ne
  rw [Nat.cast_pow, Nat.cast_ofNat] at e hne
  unfold IsMont381
  rw [e]
  constructor
  · rintro ⟨h1, h2⟩
    exact ⟨h1, mul_right_cancel₀ hne h2⟩
  · rintro ⟨h1, rfl⟩
    exact ⟨h1, rfl⟩

/-- C77: on canonical Montgomery words `add`, `double`, `sub`, `neg`, `mul`, `square` (amd64), `inverse` and `exp` compute the operation
of the field and return canonical words (`inverse` of 0 is 0); `equal`, `isZero` decide equality; `sqrt` says whether there is a root
and then returns one. -/
theorem C77_field_partial (a b : Fe) (x y : Fq) (ha : IsMont381 a x) (hb : IsMont381 b y) (e : ℕ) :
    IsMont381 (Fe.add a b) (x + y) ∧ IsMont381 (Fe.double a) (x + x) ∧ IsMont381 (Fe.sub a b) (x - y) ∧ IsMont381 (Fe.neg a) (-x) ∧
      IsMont381 (Fe.mul a b) (x * y) ∧ IsMont381 (Fe.square .amd64 a) (x * x) ∧ IsMont381 (Fe.inverse a) x⁻¹ ∧
      IsMont381 (Fe.exp a e) (x ^ e) ∧ (Fe.equal a b = true ↔ x = y) ∧ (Fe.isZero a = true ↔ x = 0) ∧
      ((Fe.sqrt .amd64 a).2 = true ↔ ∃ z, z * z = x) ∧
      ((Fe.sqrt .amd64 a).2 = true → ∃ z, IsMont381 (Fe.sqrt .amd64 a).1 z ∧ z * z = x) := by
  rw [isMont381_iff] at ha hb
  obtain ⟨ha, rfl⟩ := ha
  obtain ⟨hb, rfl⟩ := hb
  simp only [isMont381_iff]
  obtain ⟨s1, s2, s3⟩ := Fe.sqrt_spec ha
  exact ⟨Fe.den_add ha hb, Fe.den_double ha, Fe.den_sub ha hb, Fe.den_neg ha, Fe.den_mul ha.lz hb.lz, Fe.den_square ha,
    Fe.inverse_spec ha, Fe.exp_spec ha e, Fe.equal_den ha hb, Fe.isZero_den ha, s2, fun h => ⟨_, ⟨s1, rfl⟩, s3 h⟩⟩

/-- C77: bytes.  `fromBytes` accepts exactly the 48-byte strings below the modulus, and `toBytes` inverts it. -/
theorem C77_bytes (b : Bytes) :
    (b.length = 48 ∧ beNat b < Q → ∃ a, Fe.fromBytes b = some a ∧ IsMont381 a (beNat b : Fq) ∧ Fe.toBytes a = b) ∧
      (¬ (b.length = 48 ∧ beNat b < Q) → Fe.fromBytes b = none) := by
  refine ⟨fun h => ?_, (Fe.fromBytes_spec b).2⟩
  obtain ⟨a, h1, h2, h3⟩ := (Fe.fromBytes_spec b).1 h
  refine ⟨a, h1, (isMont381_iff _ _).mpr ⟨h2, h3⟩, ?_⟩
  rw [Fe.toBytes_eq h2, h3, ZMod.val_natCast, Nat.mod_eq_of_lt h.2]
  apply beNat_inj_of_length
  · rw [Fe.be48_length (lt_trans h.2 Fe.Q_lt_256), h.1]
  · rw [Fe.beNat_be48]

/-- C77 is false for `square` on builds other than amd64: this canonical element is not squared correctly (a carry is lost). -/
theorem C77_false_generic_square : ∃ a, a.val < Q ∧ Fe.square .generic a ≠ Fe.mul a a := by
  refine ⟨⟨0xb07dd871fd5b390d, 0xb9a9ca5a908289a9, 0, 0, 0, 0⟩, by decide +kernel, by decide +kernel⟩

example : IsMont381 (Fe.toMont ⟨5, 0, 0, 0, 0, 0⟩) 5 := by
  rw [isMont381_iff]
  have := Fe.den_toMont (a := ⟨5, 0, 0, 0, 0, 0⟩) (by decide +kernel)
  refine ⟨this.1, this.2.trans ?_⟩
  rw [show Fe.val ⟨5, 0, 0, 0, 0, 0⟩ = 5 from by decide +kernel]
  norm_num

/-! ## C78: point encodings -/

/-- C78, G1: a string is accepted as a compressed point exactly when its first 48 bytes are the encoding of a point of the subgroup of
order `r`, and then encoding the result returns these 48 bytes. -/
theorem C78_g1_compressed (s : Bytes) :
    ((∃ p, (g1 .amd64).fromCompressed s = some p) ↔ ∃ P : E1.Point, r • P = 0 ∧ ∃ tail, s = compress1 P ++ tail) ∧
      ∀ p, (g1 .amd64).fromCompressed s = some p → (g1 .amd64).toCompressed p = s.take 48 := by
  constructor
  · constructor
    · rintro ⟨p, h⟩
      obtain ⟨-, P, hP, ho, hc⟩ := Sem.fromCompressed_some (S := sem1) h
      refine ⟨P, (ord1 P).mp ho, s.drop (g1 .amd64).size, ?_⟩
      have e : compress1 P = s.take (g1 .amd64).size := (comp1_eq P).symm.trans hc
      exact (List.take_append_drop (g1 .amd64).size s).symm.trans (congrArg (· ++ _) e.symm)
    · rintro ⟨P, ho, t, rfl⟩
      obtain ⟨p, e, -⟩ := Sem.fromCompressed_comp (S := sem1) ((ord1 P).mpr ho) t
      exact ⟨p, by rw [← comp1_eq]; exact e⟩
  · intro p h
    obtain ⟨-, P, hP, ho, hc⟩ := Sem.fromCompressed_some (S := sem1) h
    rw [Sem.toCompressed_eq hP, ← size1]
    exact hc

/-- C78, G2: the same with 96 bytes. -/
theorem C78_g2_compressed (s : Bytes) :
    ((∃ p, (g2 .amd64).fromCompressed s = some p) ↔ ∃ P : E2.Point, r • P = 0 ∧ ∃ tail, s = compress2 P ++ tail) ∧
      ∀ p, (g2 .amd64).fromCompressed s = some p → (g2 .amd64).toCompressed p = s.take 96 := by
  constructor
  · constructor
    · rintro ⟨p, h⟩
      obtain ⟨P, h, -⟩ := fromCompressed2_some h
      exact ⟨P, h⟩
    · rintro ⟨P, h⟩
      obtain ⟨p, h, -⟩ := fromCompressed2_of h
      exact ⟨p, h⟩
  · intro p h
    obtain ⟨-, P, hP, ho, hc⟩ := Sem.fromCompressed_some (S := sem2) h
    rw [Sem.toCompressed_eq hP, ← size2]
    exact hc

/-- C78: different points have different encodings (in the subgroup or not). -/
theorem C78_injective : Function.Injective compress1 ∧ Function.Injective compress2 :=
  ⟨fun P P' h => comp_inj_all (S := sem1) ((comp1_eq P).trans (h.trans (comp1_eq P').symm)),
    fun P P' h => comp_inj_all (S := sem2) ((comp2_eq P).trans (h.trans (comp2_eq P').symm))⟩

/-- C78 is false for strict length checking: bytes after a compressed point are ignored. -/
theorem C78_false_trailing (tail : Bytes) :
    (∃ p, (g1 .amd64).fromCompressed (0xc0 :: List.replicate 47 0 ++ tail) = some p) ∧
      ∃ p, (g2 .amd64).fromCompressed (0xc0 :: List.replicate 95 0 ++ tail) = some p := by
  constructor
  · refine (C78_g1_compressed _).1.mpr ⟨0, encodes1_zero.1, tail, ?_⟩
    rw [compress1_zero]
  · refine (C78_g2_compressed _).1.mpr ⟨0, encodes2_zero.1, tail, ?_⟩
    rw [compress2_zero]

/-! ## C79: the group law -/

/-- C79, G1: the functions on decoded points compute the group law: the encodings of the results are those of the sum, difference,
negative, double and multiple; `Equal` is equality and `IsZero` holds for infinity only. -/
theorem C79_g1 (P P' : E1.Point) (hP : r • P = 0) (hP' : r • P' = 0) :
    ∃ p p', (g1 .amd64).fromCompressed (compress1 P) = some p ∧ (g1 .amd64).fromCompressed (compress1 P') = some p' ∧
      (g1 .amd64).toCompressed ((g1 .amd64).addPt p p') = compress1 (P + P') ∧
      (g1 .amd64).toCompressed ((g1 .amd64).subPt p p') = compress1 (P - P') ∧
      (g1 .amd64).toCompressed ((g1 .amd64).negPt p) = compress1 (-P) ∧
      (g1 .amd64).toCompressed ((g1 .amd64).dbl p) = compress1 (P + P) ∧
      (∀ e, (g1 .amd64).toCompressed ((g1 .amd64).mulScalar p e) = compress1 (e • P)) ∧
      ((g1 .amd64).eqPt p p' = true ↔ P = P') ∧ ((g1 .amd64).isInf p = true ↔ P = 0) := by
  obtain ⟨p, e, h⟩ := fromCompressed1_of ⟨hP, rfl⟩
  obtain ⟨p', e', h'⟩ := fromCompressed1_of ⟨hP', rfl⟩
  refine ⟨p, p', e, e', (Sem.toCompressed_eq (Sem.rep_add h h')).trans (comp1_eq _), (Sem.toCompressed_eq (Sem.rep_sub h h')).trans (comp1_eq _),
    (Sem.toCompressed_eq (Sem.rep_neg h)).trans (comp1_eq _), (Sem.toCompressed_eq (Sem.rep_dbl h)).trans (comp1_eq _),
    fun n => (Sem.toCompressed_eq (Sem.rep_mul h n)).trans (comp1_eq _), Sem.eqPt_iff h h', Sem.isInf_iff h⟩

/-- C79, G2. -/
theorem C79_g2 (P P' : E2.Point) (hP : r • P = 0) (hP' : r • P' = 0) :
    ∃ p p', (g2 .amd64).fromCompressed (compress2 P) = some p ∧ (g2 .amd64).fromCompressed (compress2 P') = some p' ∧
      (g2 .amd64).toCompressed ((g2 .amd64).addPt p p') = compress2 (P + P') ∧
      (g2 .amd64).toCompressed ((g2 .amd64).subPt p p') = compress2 (P - P') ∧
      (g2 .amd64).toCompressed ((g2 .amd64).negPt p) = compress2 (-P) ∧
      (g2 .amd64).toCompressed ((g2 .amd64).dbl p) = compress2 (P + P) ∧
      (∀ e, (g2 .amd64).toCompressed ((g2 .amd64).mulScalar p e) = compress2 (e • P)) ∧
      ((g2 .amd64).eqPt p p' = true ↔ P = P') ∧ ((g2 .amd64).isInf p = true ↔ P = 0) := by
  obtain ⟨p, e, h⟩ := fromCompressed2_of (s := compress2 P) ⟨hP, [], (List.append_nil _).symm⟩
  obtain ⟨p', e', h'⟩ := fromCompressed2_of (s := compress2 P') ⟨hP', [], (List.append_nil _).symm⟩
  refine ⟨p, p', e, e', (Sem.toCompressed_eq (Sem.rep_add h h')).trans (comp2_eq _), (Sem.toCompressed_eq (Sem.rep_sub h h')).trans (comp2_eq _),
    (Sem.toCompressed_eq (Sem.rep_neg h)).trans (comp2_eq _), (Sem.toCompressed_eq (Sem.rep_dbl h)).trans (comp2_eq _),
    fun n => (Sem.toCompressed_eq (Sem.rep_mul h n)).trans (comp2_eq _), Sem.eqPt_iff h h', Sem.isInf_iff h⟩

/-! ## C59: key generation and aggregation -/

/-- the dispatcher uses this model of package bls12_381. -/
def BlsEnv (E : Env) (H : Bytes → Bytes) (X : Phore) : Prop :=
  E.bls = Bls.scheme .amd64 H X ∧ E.blsAggregate = (fun s => .ret (aggregate .amd64 s)) ∧ E.blsMulBaseAdd = scalarMultBaseAdd X

/-- one of the two BLS curve identifiers. -/
def IsBls (t : UInt32) : Prop := t = ECC_CURVE_BLS_NUL ∨ t = ECC_CURVE_BLS_AUG

variable {E : Env} {H : Bytes → Bytes} {X : Phore}

theorem genPub_bls (hE : BlsEnv E H X) {t : UInt32} (ht : IsBls t) (k : Bytes) :
    genPubkey E k t = .ret (genPubErr (Bls.genPublicKey X k)) := by
  rcases ht with rfl | rfl <;> simp [genPubkey, hE.1, Bls.scheme, ECC_CURVE_BLS_NUL, ECC_CURVE_BLS_AUG, ECC_CURVE_ED25519_NORMAL,
    ECC_CURVE_ED25519, ECC_CURVE_X25519, ECC_CURVE_CURVE25519_SHA256, ECC_CURVE_SECP256K1, ECC_CURVE_SECP256R1, ECC_CURVE_SM2_STANDARD]

/-- C59: `GenPubkey` succeeds exactly for 32-byte keys below the order and otherwise returns nothing. -/
theorem C59_genPubkey (hE : BlsEnv E H X) (t : UInt32) (ht : IsBls t) (k : Bytes) :
    (k.length = 32 ∧ beNat k < r → genPubkey E k t = .ret (X.serialize (X.privToPub k), SUCCESS)) ∧
      (¬ (k.length = 32 ∧ beNat k < r) → genPubkey E k t = .ret ([], FAILURE)) := by
  rw [genPub_bls hE ht, Bls.genPublicKey, isScalarLegal, order_eq]
  constructor
  · rintro ⟨h1, h2⟩
    have e : copyTo 32 k = k := by rw [copyTo, List.take_append_of_le_length (by omega), List.take_of_length_le (by omega)]
    rw [if_neg (by simpa using h1), if_neg (by simpa using h2), e]
    rfl
  · intro h
    by_cases h1 : k.length = 32
    · have h2 : ¬ beNat k < r := fun h2 => h ⟨h1, h2⟩
      rw [if_neg (by simpa using h1), if_pos (by simpa using h2)]
      rfl
    · rw [if_pos h1]
      rfl

/-- `s` is the encoding of the subgroup point `P`, possibly followed by more bytes. -/
def EncodesG2 (s : Bytes) (P : E2.Point) : Prop := r • P = 0 ∧ ∃ tail, s = compress2 P ++ tail

theorem agg_bls (hE : BlsEnv E H X) {t : UInt32} (ht : IsBls t) {sigs : List Bytes} (hs : sigs ≠ []) :
    aggregateSignatures E t sigs = match aggregate .amd64 sigs with
      | .ok b => .ret (b, SUCCESS)
      | .error _ => .ret ([], FAILURE) := by
  have h0 : sigs.length ≠ 0 := by rwa [Ne, List.length_eq_zero_iff]
  rw [aggregateSignatures, if_neg h0, if_pos (show t = ECC_CURVE_BLS_NUL ∨ t = ECC_CURVE_BLS_AUG from ht), hE.2.1]
  simp only [Go.ret_bind]
  cases aggregate .amd64 sigs <;> rfl

/-- C59, what holds of aggregation.  If every element starts with the encoding of a subgroup point, the result is the encoding of the sum
of the points; if some element does not, the call fails.  Missing: an element with extra bytes after the point is malformed but
accepted (`C59_false_trailing`). -/
theorem C59_aggregate_partial (hE : BlsEnv E H X) (t : UInt32) (ht : IsBls t) (sigs : List Bytes) (hs : sigs ≠ []) :
    (∀ Ps, List.Forall₂ EncodesG2 sigs Ps → aggregateSignatures E t sigs = .ret (compress2 Ps.sum, SUCCESS)) ∧
      ((∃ s ∈ sigs, ¬ ∃ P, EncodesG2 s P) → aggregateSignatures E t sigs = .ret ([], FAILURE)) := by
  rw [agg_bls hE ht hs]
  constructor
  · intro Ps h
    rw [aggregate_some h]
  · rintro ⟨s, h1, h2⟩
    rw [aggregate_none ⟨s, h1, fun P hP => h2 ⟨P, hP⟩⟩]

/-- C59: the order of the signatures does not matter. -/
theorem C59_order (hE : BlsEnv E H X) (t : UInt32) (sigs sigs' : List Bytes) (hp : sigs.Perm sigs') :
    aggregateSignatures E t sigs = aggregateSignatures E t sigs' := by
  rw [aggregateSignatures, aggregateSignatures, hp.length_eq, hE.2.1]
  simp only [aggregate_perm hp]

/-- C59: no signatures, or another curve. -/
theorem C59_errors (E : Env) (t : UInt32) (sigs : List Bytes) :
    aggregateSignatures E t [] = .ret ([], FAILURE) ∧ (sigs ≠ [] → ¬ IsBls t → aggregateSignatures E t sigs = .ret ([], ECC_WRONG_TYPE)) := by
  refine ⟨rfl, fun hs ht => ?_⟩
  rw [aggregateSignatures, if_neg (by rwa [List.length_eq_zero_iff]), if_neg (show ¬ (t = ECC_CURVE_BLS_NUL ∨ t = ECC_CURVE_BLS_AUG) from ht)]

/-- C59 is false for elements that are too long. -/
theorem C59_false_trailing (hE : BlsEnv E H X) (t : UInt32) (ht : IsBls t) (tail : Bytes) :
    aggregateSignatures E t [0xc0 :: List.replicate 95 0 ++ tail] = .ret (0xc0 :: List.replicate 95 0, SUCCESS) := by
  have := (C59_aggregate_partial hE t ht [0xc0 :: List.replicate 95 0 ++ tail] (by simp)).1 [0]
    (.cons ⟨encodes2_zero.1, tail, by rw [compress2_zero]⟩ .nil)
  rw [this, List.sum_cons, List.sum_nil, add_zero, compress2_zero]

/-! ## C80: hashing to G2 -/

/-- C80, the part that holds: whenever the two elements `u0`, `u1` of `hash_to_field` are not 0 and their images under the simplified SWU
map are different points, hashing returns the point of RFC 9380.  Missing: for `u = 0` the code maps to another point
(`C80_false_zero`), and for equal points it doubles a point of `E'` with the formula of another curve (`C80_false_equal`).  Hashing never fails (`C80_total`). -/
theorem C80_rfc9380_partial (hH : ∀ m, (H m).length = 32) (msg dst : Bytes) (u0 u1 : Fq2) (hu : hashToField H msg dst = some (u0, u1))
    (h0 : u0 ≠ 0) (h1 : u1 ≠ 0) (hx : ∀ x y, ¬ (Sswu u0 x y ∧ Sswu u1 x y)) :
    ∃ p P, hashToG2 .amd64 H msg dst = .ret (some p) ∧ HashesTo u0 u1 P ∧ (g2 .amd64).toCompressed p = compress2 P := by
  obtain ⟨p, P, h1, h2, h3⟩ := hashToG2_spec hH msg dst hu h0 h1 hx
  exact ⟨p, P, h1, h2, (Sem.toCompressed_eq h3).trans (comp2_eq P)⟩

/-- C80: hashing with a tag of at most 255 bytes returns a point. -/
theorem C80_total (hH : ∀ m, (H m).length = 32) (msg dst : Bytes) (hd : dst.length ≤ 255) (bd : Build) :
    ∃ p, hashToG2 bd H msg dst = .ret (some p) := hashToG2_ret hH msg dst hd bd

/-- C80: the specification allows one point only. -/
theorem C80_unique (u0 u1 : Fq2) (P P' : E2.Point) (h : HashesTo u0 u1 P) (h' : HashesTo u0 u1 P') : P = P' := HashesTo_unique h h'

/-- C80: the specification gives a point for every pair of field elements. -/
theorem C80_exists (u0 u1 : Fq2) : ∃ P, HashesTo u0 u1 P := HashesTo_exists u0 u1

/-- C80: the field elements `u` and `-u` have opposite images, and hashing gives infinity, as RFC 9380 says. -/
example (u : Fq2) (h : u ≠ 0) : ∀ x y, ¬ (Sswu u x y ∧ Sswu (-u) x y) := fun _ _ h' => Sswu_neg h h'.1 h'.2

/-- the words are the canonical Montgomery form of `x`. -/
def IsMont381x2 (a : Fe2) (x : Fq2) : Prop := IsMont381 a.c0 x.re ∧ IsMont381 a.c1 x.im

theorem isMont2_iff (a : Fe2) (x : Fq2) : IsMont381x2 a x ↔ Fe2.Red a ∧ Fe2.den a = x := by
  rw [IsMont381x2, isMont381_iff, isMont381_iff]
  constructor
  · rintro ⟨⟨h1, h2⟩, h3, h4⟩
    exact ⟨⟨h1, h3⟩, QuadraticAlgebra.ext h2 h4⟩
  · rintro ⟨⟨h1, h3⟩, rfl⟩
    exact ⟨⟨h1, rfl⟩, h3, rfl⟩

/-- C80 is false at `u = 0`: the map to the curve returns a point with the wrong x-coordinate. -/
theorem C80_false_zero (u : Fe2) (hu : IsMont381x2 u 0) (x y : Fq2) (hx : IsMont381x2 (swuG2 .amd64 u).1 x)
    (_hy : IsMont381x2 (swuG2 .amd64 u).2 y) : ¬ Sswu 0 x y := by
  rw [isMont2_iff] at hu hx
  intro h
  exact swuG2_zero hu.1 hu.2 (hx.2.trans h.x_eq)

example : IsMont381x2 ⟨Fe.zero, Fe.zero⟩ 0 ∧ ∃ x y, IsMont381x2 (swuG2 .amd64 ⟨Fe.zero, Fe.zero⟩).1 x ∧ IsMont381x2 (swuG2 .amd64 ⟨Fe.zero, Fe.zero⟩).2 y := by
  have hz : IsMont381x2 ⟨Fe.zero, Fe.zero⟩ 0 := by
    have : IsMont381 Fe.zero 0 := by
      have e : Fe.val Fe.zero = 0 := by decide +kernel
      rw [IsMont381, e, zero_mul, Nat.cast_zero]
      exact ⟨by decide +kernel, rfl⟩
    exact ⟨this, this⟩
  have h := swuG2_spec ((isMont2_iff _ _).mp hz).1
  exact ⟨hz, _, _, (isMont2_iff _ _).mpr ⟨h.1, rfl⟩, (isMont2_iff _ _).mpr ⟨h.2.1, rfl⟩⟩

/-- C80 is false for equal field elements: for the toy hash with constant value, under which every message has two equal field elements other
than 0, hashing returns coordinates that are not on the curve. -/
theorem C80_false_equal : ∃ H : Bytes → Bytes, (∀ m, (H m).length = 32) ∧ ∀ msg dst : Bytes, dst.length ≤ 255 →
    ∃ u p, hashToField H msg dst = some (u, u) ∧ u ≠ 0 ∧ hashToG2 .amd64 H msg dst = .ret (some p) ∧ (g2 .amd64).isOnCurve p = false := by
  refine ⟨constH, constH_length, fun msg dst hd => ?_⟩
  obtain ⟨p, h1, h2⟩ := const_off msg dst hd
  exact ⟨_, p, const_hashToField msg dst hd, ne_zero_of equ_red.1 (by decide +kernel), h1, h2⟩

/-- the inputs on which hashing is shown to follow RFC 9380. -/
structure Regular (H : Bytes → Bytes) (msg dst : Bytes) (u0 u1 : Fq2) : Prop where
  fields : hashToField H msg dst = some (u0, u1)
  ne0 : u0 ≠ 0
  ne1 : u1 ≠ 0
  ne : ∀ x y, ¬ (Sswu u0 x y ∧ Sswu u1 x y)

example : (∀ m, (sampleH m).length = 32) ∧ ∀ msg, ∃ u0 u1, Regular sampleH msg BASIC_SCHEME_DST u0 u1 :=
  ⟨sampleH_length, fun msg => ⟨_, _, sample_hashToField msg _ (by decide +kernel), sampleU0_ne, sampleU1_ne, sample_ne⟩⟩

/-! ## C81: signing -/

theorem sign_nul (hE : BlsEnv E H X) (k : Bytes) (ID : Option Bytes) (m : Bytes) (rs : List Bytes) :
    signature E k ID m ECC_CURVE_BLS_NUL rs = some (do return signErr (noV (← Bls.sign .amd64 H k (basicDst ++ m)))) := by
  unfold signature
  rw [hE.1]
  rfl

theorem sign_aug (hE : BlsEnv E H X) (k : Bytes) (ID : Option Bytes) (m : Bytes) (rs : List Bytes) :
    signature E k ID m ECC_CURVE_BLS_AUG rs =
      some (do return signErr (noV (← Bls.sign .amd64 H k (augDst ++ ((genPubErr (Bls.genPublicKey X k)).1 ++ m))))) := by
  unfold signature
  rw [genPub_bls hE (.inr rfl), hE.1]
  rfl

theorem verify_nul (hE : BlsEnv E H X) (pk : Bytes) (ID : Option Bytes) (m s : Bytes) :
    Api.verify E pk ID m s ECC_CURVE_BLS_NUL = (do return passCode (← Bls.verify .amd64 H pk (basicDst ++ m) s)) := by
  unfold Api.verify
  rw [hE.1]
  rfl

theorem verify_aug (hE : BlsEnv E H X) (pk : Bytes) (ID : Option Bytes) (m s : Bytes) :
    Api.verify E pk ID m s ECC_CURVE_BLS_AUG = (do return passCode (← Bls.verify .amd64 H pk (augDst ++ (pk ++ m)) s)) := by
  unfold Api.verify
  rw [hE.1]
  rfl

theorem hash_regular (hH : ∀ m, (H m).length = 32) {msg dst : Bytes} {u0 u1 : Fq2} (hr : Regular H msg dst u0 u1) :
    ∃ p P, hashToG2 .amd64 H msg dst = .ret (some p) ∧ HashesTo u0 u1 P ∧ sem2.Rep p P :=
  hashToG2_spec hH msg dst hr.fields hr.ne0 hr.ne1 hr.ne

/-- C81, basic scheme: the signature of `m` is the encoding of the multiple, by the key modulo `r`, of the point `m` hashes to; it does
not depend on the ID nor on randomness.  Missing: the messages whose hash is not `Regular`. -/
theorem C81_sign_nul_partial (hE : BlsEnv E H X) (hH : ∀ m, (H m).length = 32) (m : Bytes) (u0 u1 : Fq2)
    (hr : Regular H m BASIC_SCHEME_DST u0 u1) :
    ∃ P, HashesTo u0 u1 P ∧ ∀ (k : Bytes) (ID : Option Bytes) (rs : List Bytes), k.length = 32 →
      signature E k ID m ECC_CURVE_BLS_NUL rs = some (.ret (compress2 ((beNat k % r) • P), 0, SUCCESS)) := by
  obtain ⟨p, P, h1, h2, h3⟩ := hash_regular hH hr
  refine ⟨P, h2, fun k ID rs hk => ?_⟩
  rw [sign_nul hE, sign_of_hash hk ((hashPoint_basic _ _ _).trans h1) h3]
  rfl

/-- C81, augmented scheme: the same for the message preceded by the public key. -/
theorem C81_sign_aug_partial (hE : BlsEnv E H X) (hH : ∀ m, (H m).length = 32) (m k pk : Bytes) (hk : k.length = 32)
    (hpk : genPubkey E k ECC_CURVE_BLS_AUG = .ret (pk, SUCCESS)) (u0 u1 : Fq2) (hr : Regular H (pk ++ m) AUG_SCHEME_DST u0 u1) :
    ∃ P, HashesTo u0 u1 P ∧ ∀ (ID : Option Bytes) (rs : List Bytes),
      signature E k ID m ECC_CURVE_BLS_AUG rs = some (.ret (compress2 ((beNat k % r) • P), 0, SUCCESS)) := by
  obtain ⟨p, P, h1, h2, h3⟩ := hash_regular hH hr
  refine ⟨P, h2, fun ID rs => ?_⟩
  rw [genPub_bls hE (.inr rfl)] at hpk
  have e : (genPubErr (Bls.genPublicKey X k)).1 = pk := by
    rw [Go.ret.injEq] at hpk
    rw [hpk]
  rw [sign_aug hE, e, sign_of_hash hk ((hashPoint_aug _ _ _).trans h1) h3]
  rfl

theorem signErr_ok {k m : Bytes} (hH : ∀ m, (H m).length = 32) (hk : k.length = 32)
    (hp : ∃ p, hashPoint .amd64 H m = .ret (some p)) : ∃ s, Bls.sign .amd64 H k m = .ret (.ok s) := by
  obtain ⟨p, e⟩ := hp
  rw [Bls.sign, if_neg (by simpa using hk), e]
  exact ⟨_, rfl⟩

/-- C81: signing fails exactly for keys that do not have 32 bytes. -/
theorem C81_key_length (hE : BlsEnv E H X) (hH : ∀ m, (H m).length = 32) (t : UInt32) (ht : IsBls t) (k m : Bytes) (ID : Option Bytes) (rs : List Bytes) :
    (k.length = 32 → ∃ s, signature E k ID m t rs = some (.ret (s, 0, SUCCESS))) ∧
      (k.length ≠ 32 → signature E k ID m t rs = some (.ret ([], 0, FAILURE))) := by
  rcases ht with rfl | rfl
  · rw [sign_nul hE]
    constructor
    · intro hk
      obtain ⟨s, e⟩ := signErr_ok (m := basicDst ++ m) hH hk
        (by rw [hashPoint_basic]; exact hashToG2_ret hH m basicDst (by rw [basicDst_length]; decide) _)
      exact ⟨s, by rw [e]; rfl⟩
    · intro hk
      rw [Bls.sign, if_pos hk]
      rfl
  · rw [sign_aug hE]
    constructor
    · intro hk
      obtain ⟨s, e⟩ := signErr_ok (m := augDst ++ ((genPubErr (Bls.genPublicKey X k)).1 ++ m)) hH hk
        (by rw [hashPoint_aug]; exact hashToG2_ret hH _ augDst (by rw [augDst_length]; decide) _)
      exact ⟨s, by rw [e]; rfl⟩
    · intro hk
      rw [Bls.sign, if_pos hk]
      rfl

/-- C81 is false for keys `GenPubkey` rejects: a 32-byte key that is not below the order signs as the key reduced modulo `r` does. -/
theorem C81_false_illegal_key (hE : BlsEnv E H X) (hH : ∀ m, (H m).length = 32) (m k k' : Bytes) (hk : k.length = 32) (hk' : k'.length = 32)
    (hge : r ≤ beNat k) (he : beNat k' = beNat k % r) (ID ID' : Option Bytes) (rs rs' : List Bytes) :
    genPubkey E k ECC_CURVE_BLS_NUL = .ret ([], FAILURE) ∧
      signature E k ID m ECC_CURVE_BLS_NUL rs = signature E k' ID' m ECC_CURVE_BLS_NUL rs' ∧
      ∃ s, signature E k ID m ECC_CURVE_BLS_NUL rs = some (.ret (s, 0, SUCCESS)) := by
  refine ⟨(C59_genPubkey hE _ (.inl rfl) k).2 fun h => by omega, ?_, (C81_key_length hE hH _ (.inl rfl) k m ID rs).1 hk⟩
  rw [sign_nul hE, sign_nul hE, Bls.sign, Bls.sign, if_neg (by simpa using hk), if_neg (by simpa using hk')]
  have : newScalar k = newScalar k' := by rw [newScalar, newScalar, order_eq, he, Nat.mod_mod]
  rw [this]

example : (List.replicate 32 (255 : UInt8)).length = 32 ∧ r ≤ beNat (List.replicate 32 (255 : UInt8)) ∧
    ∃ k', k'.length = 32 ∧ beNat k' = beNat (List.replicate 32 (255 : UInt8)) % r := by
  refine ⟨rfl, by decide +kernel, be 32 (beNat (List.replicate 32 (255 : UInt8)) % r), ?_, ?_⟩ <;> decide +kernel

/-- C81, aggregation in the basic scheme: the aggregate of the signatures of `m` under several keys is the signature under the sum of the
keys.  Missing: the messages whose hash is not `Regular`. -/
theorem C81_aggregate_partial (hE : BlsEnv E H X) (hH : ∀ m, (H m).length = 32) (m : Bytes) (u0 u1 : Fq2)
    (hr : Regular H m BASIC_SCHEME_DST u0 u1)
    (ks sigs : List Bytes) (hne : ks ≠ []) (hk : ∀ k ∈ ks, k.length = 32)
    (hs : List.Forall₂ (fun k s => ∃ ID rs, signature E k ID m ECC_CURVE_BLS_NUL rs = some (.ret (s, 0, SUCCESS))) ks sigs)
    (k sig : Bytes) (hk3 : k.length = 32) (hsum : beNat k ≡ (ks.map beNat).sum [MOD r])
    (ID : Option Bytes) (rs : List Bytes) (hsig : signature E k ID m ECC_CURVE_BLS_NUL rs = some (.ret (sig, 0, SUCCESS))) :
    aggregateSignatures E ECC_CURVE_BLS_NUL sigs = .ret (sig, SUCCESS) := by
  obtain ⟨P, hP, hall⟩ := C81_sign_nul_partial hE hH m u0 u1 hr
  have ho := hash_order hP
  have hmod : ∀ n, (n % r) • P = n • P := by
    intro n
    conv_rhs => rw [← Nat.mod_add_div n r, add_nsmul, mul_nsmul, ho]
    rw [rzero2, add_zero]
  have key : ∀ k s ID rs, k.length = 32 → signature E k ID m ECC_CURVE_BLS_NUL rs = some (.ret (s, 0, SUCCESS)) → s = compress2 (beNat k • P) := by
    intro k s ID rs h1 h2
    rw [hall k ID rs h1, hmod, Option.some.injEq, Go.ret.injEq, Prod.mk.injEq] at h2
    exact h2.1.symm
  have hF : List.Forall₂ EncodesG2 sigs (ks.map fun k => beNat k • P) := by
    clear hne hsum
    induction hs with
    | nil => exact .nil
    | cons h _ ih =>
      obtain ⟨ID, rs, h⟩ := h
      refine .cons ⟨?_, [], ?_⟩ (ih fun k hk' => hk k (List.mem_cons_of_mem _ hk'))
      · rw [← mul_nsmul', mul_nsmul, ho, rzero2]
      · rw [List.append_nil]
        exact key _ _ _ _ (hk _ List.mem_cons_self) h
  have hse : sigs ≠ [] := by
    rintro rfl
    cases hs
    exact hne rfl
  have hsum' : (ks.map fun k => beNat k • P).sum = beNat k • P := by
    have e : (ks.map fun k => beNat k • P).sum = (ks.map beNat).sum • P := by
      clear hne hsum hs hF hse hk
      induction ks with
      | nil => rw [List.map_nil, List.map_nil, List.sum_nil, List.sum_nil, zero_nsmul]
      | cons a l ih => rw [List.map_cons, List.map_cons, List.sum_cons, List.sum_cons, ih, add_nsmul]
    rw [e, ← hmod, ← hmod (beNat k), hsum]
  rw [(C59_aggregate_partial hE _ (.inl rfl) sigs hse).1 _ hF, hsum', key k sig ID rs hk3 hsig]

/-! ## C82: verification -/

/-- C82: a public key or signature of the wrong length and a signature that is not the encoding of a point of the subgroup are rejected. -/
theorem C82_rejects (hE : BlsEnv E H X) (hH : ∀ m, (H m).length = 32) (t : UInt32) (ht : IsBls t) (pk m s : Bytes) (ID : Option Bytes)
    (h : pk.length ≠ 48 ∨ s.length ≠ 96 ∨ ¬ ∃ P, r • P = 0 ∧ s = compress2 P) : Api.verify E pk ID m s t = .ret FAILURE := by
  have main : ∀ m', (∃ p, hashPoint .amd64 H m' = .ret (some p)) → Bls.verify .amd64 H pk m' s = .ret false := by
    rintro m' ⟨p, hp⟩
    by_cases h1 : pk.length ≠ 48
    · rw [Bls.verify, if_pos (.inl h1)]
    by_cases h2 : s.length ≠ 96
    · rw [Bls.verify, if_pos (.inr (.inr h2))]
    have h3 := (h.resolve_left h1).resolve_left h2
    exact verify_badSig hp fun P hP => h3 ⟨P, hP.1, hP.exact (not_not.mp h2)⟩
  rcases ht with rfl | rfl
  · rw [verify_nul hE, main]
    · rfl
    · rw [hashPoint_basic]
      exact hashToG2_ret hH _ _ (by rw [basicDst_length]; decide) _
  · rw [verify_aug hE, main]
    · rfl
    · rw [hashPoint_aug]
      exact hashToG2_ret hH _ _ (by rw [augDst_length]; decide) _

/-- the compressed point at infinity of G1. -/
def infKey : Bytes := 0xc0 :: List.replicate 47 0
/-- the compressed point at infinity of G2. -/
def infSig : Bytes := 0xc0 :: List.replicate 95 0

/-- C82 is false for the identity public key: the signature at infinity verifies for every message. -/
theorem C82_false_infinity (hE : BlsEnv E H X) (hH : ∀ m, (H m).length = 32) (t : UInt32) (ht : IsBls t) (m : Bytes) (ID : Option Bytes) :
    Api.verify E infKey ID m infSig t = .ret SUCCESS := by
  rcases ht with rfl | rfl
  · obtain ⟨q, hq⟩ := hashToG2_ret hH m basicDst (by rw [basicDst_length]; decide) .amd64
    have hne : basicDst ++ m ≠ [] := fun h => by have := congrArg List.length h; rw [List.length_append, basicDst_length] at this; simp at this
    have := verify_infinity ((hashPoint_basic .amd64 H m).trans hq) hne
    rw [verify_nul hE, infKey, infSig, this]
    rfl
  · obtain ⟨q, hq⟩ := hashToG2_ret hH (infKey ++ m) augDst (by rw [augDst_length]; decide) .amd64
    have hne : augDst ++ (infKey ++ m) ≠ [] := fun h => by have := congrArg List.length h; rw [List.length_append, augDst_length] at this; simp at this
    have := verify_infinity ((hashPoint_aug .amd64 H (infKey ++ m)).trans hq) hne
    rw [verify_aug hE]
    unfold infKey infSig at *
    rw [this]
    rfl

/-- C82 is false for public keys that are not the encoding of a point of the subgroup: with a well-formed signature, verification panics. -/
theorem C82_false_panic (hE : BlsEnv E H X) (hH : ∀ m, (H m).length = 32) (t : UInt32) (ht : IsBls t) (pk m s : Bytes) (ID : Option Bytes)
    (hpk : pk.length = 48) (hbad : ¬ ∃ P, r • P = 0 ∧ pk = compress1 P) (hs : s.length = 96) (hgood : ∃ P, r • P = 0 ∧ s = compress2 P) :
    Api.verify E pk ID m s t = .panic := by
  obtain ⟨S, hS, rfl⟩ := hgood
  have hS' : Encodes2 (compress2 S) S := ⟨hS, [], (List.append_nil _).symm⟩
  have hb : ∀ P, ¬ Encodes1 pk P := fun P hP => hbad ⟨P, hP⟩
  rcases ht with rfl | rfl
  · obtain ⟨q, hq⟩ := hashToG2_ret hH m basicDst (by rw [basicDst_length]; decide) .amd64
    have hne : basicDst ++ m ≠ [] := fun h => by have := congrArg List.length h; rw [List.length_append, basicDst_length] at this; simp at this
    rw [verify_nul hE, verify_badKey ((hashPoint_basic .amd64 H m).trans hq) hpk hne hs hS' hb]
    rfl
  · obtain ⟨q, hq⟩ := hashToG2_ret hH (pk ++ m) augDst (by rw [augDst_length]; decide) .amd64
    have hne : augDst ++ (pk ++ m) ≠ [] := fun h => by have := congrArg List.length h; rw [List.length_append, augDst_length] at this; simp at this
    rw [verify_aug hE, verify_badKey ((hashPoint_aug .amd64 H (pk ++ m)).trans hq) hpk hne hs hS' hb]
    rfl

example : (List.replicate 48 (0 : UInt8)).length = 48 ∧ (¬ ∃ P, r • P = 0 ∧ List.replicate 48 (0 : UInt8) = compress1 P) ∧
    infSig.length = 96 ∧ ∃ P, r • P = 0 ∧ infSig = compress2 P := by
  refine ⟨rfl, ?_, rfl, 0, encodes2_zero.1, rfl⟩
  rintro ⟨P, h1, h2⟩
  obtain ⟨p, e, -⟩ := fromCompressed1_of ⟨h1, h2⟩
  rw [show (g1 .amd64).fromCompressed (List.replicate 48 0) = none from by decide +kernel] at e
  exact absurd e (by simp)

/-- C82, package bls12_381 itself: a message without one of the two scheme tags hashes to infinity, so the signature at infinity verifies
under every valid public key. -/
theorem C82_false_unprefixed (pk m : Bytes) (P : E1.Point) (hP : r • P = 0) (hpk : pk = compress1 P) (hm : m ≠ [])
    (h1 : ¬ BASIC_SCHEME_DST <+: m) (h2 : ¬ AUG_SCHEME_DST <+: m) : Bls.verify .amd64 H pk m infSig = .ret true :=
  verify_unprefixed (by rw [hpk, compress1_length]) hm h1 h2 ⟨hP, hpk⟩

example : [1, 2, 3] ≠ ([] : Bytes) ∧ ¬ BASIC_SCHEME_DST <+: [1, 2, 3] ∧ ¬ AUG_SCHEME_DST <+: [1, 2, 3] := by
  refine ⟨by decide, fun h => ?_, fun h => ?_⟩
  · have := h.length_le
    rw [show BASIC_SCHEME_DST.length = 43 from by decide +kernel] at this
    exact absurd this (by decide)
  · have := h.length_le
    rw [show AUG_SCHEME_DST.length = 43 from by decide +kernel] at this
    exact absurd this (by decide)

/-! ## C83: multiplying the generator and adding -/

/-- C83: what `Point_mulBaseG_add` does on the BLS identifiers.  The result is the sum whenever the point parses and the scalar is below
the order; every other 32-byte scalar or point ends in a panic, not in an error. -/
theorem C83_mulBaseG_add (hE : BlsEnv E H X) (t : UInt32) (ht : IsBls t) (pointin scalar : Bytes) (hp : pointin.length = 48) :
    (scalar.length ≠ 32 → pointMulBaseGAdd E pointin scalar t = .ret ([], false)) ∧
    (scalar.length = 32 → beNat scalar < r → ∀ P, X.deserialize pointin = some P →
      beNat (X.serialize (X.add P (X.privToPub scalar))) ≠ 0 →
      pointMulBaseGAdd E pointin scalar t = .ret (X.serialize (X.add P (X.privToPub scalar)), false)) ∧
    (scalar.length = 32 → (r ≤ beNat scalar ∨ X.deserialize pointin = none) → pointMulBaseGAdd E pointin scalar t = .panic) := by
  have hc : ∀ n b, b.length = n → copyTo n b = b := by
    intro n b h
    rw [copyTo, List.take_append_of_le_length (by omega), List.take_of_length_le (by omega)]
  have main : scalar.length = 32 → pointMulBaseGAdd E pointin scalar t = scalarMultBaseAdd X pointin scalar := by
    intro hs
    rcases ht with rfl | rfl <;> simp [pointMulBaseGAdd, hs, hE.2.2, ECC_CURVE_BLS_NUL, ECC_CURVE_BLS_AUG,
      ECC_CURVE_ED25519, ECC_CURVE_SECP256K1, ECC_CURVE_SECP256R1, ECC_CURVE_SM2_STANDARD]
  refine ⟨fun h => by rw [pointMulBaseGAdd, if_pos h], fun hs hlt P hP hz => ?_, fun hs h => ?_⟩
  · rw [main hs, scalarMultBaseAdd, hc _ _ hp, hP, scalarMulG, if_neg (by simpa using hs), isScalarLegal, order_eq,
      if_neg (by simpa using hlt), hc _ _ hs]
    simp only [deref, Go.ret_bind]
    rw [if_neg hz]
    rfl
  · rw [main hs, scalarMultBaseAdd, hc _ _ hp]
    rcases h with h | h
    · have : scalarMulG X scalar = none := by
        rw [scalarMulG, if_neg (by simpa using hs), isScalarLegal, order_eq, if_pos (by simpa using h)]
      rw [this]
      cases X.deserialize pointin <;> rfl
    · rw [h]
      rfl

/-! ## an environment -/

/-- a stand-in for g1pubs: points are their own bytes. -/
def samplePhore : Phore where
  Pt := Bytes
  privToPub k := 0x80 :: List.replicate 15 0 ++ k
  serialize := id
  deserialize b := if b.length = 48 then some b else none
  add a _ := a

def blsSampleEnv : Env :=
  { sampleEnv with
    bls := Bls.scheme .amd64 sampleH samplePhore
    blsAggregate := fun s => .ret (aggregate .amd64 s)
    blsMulBaseAdd := scalarMultBaseAdd samplePhore }

theorem blsSampleEnv_ok : BlsEnv blsSampleEnv sampleH samplePhore := ⟨rfl, rfl, rfl⟩

example : key1.length = 32 ∧ beNat key1 < r ∧ ¬ beNat (List.replicate 32 (255 : UInt8)) < r ∧
    ∀ m, ∃ u0 u1, Regular sampleH ((0x80 :: List.replicate 15 0 ++ key1) ++ m) AUG_SCHEME_DST u0 u1 :=
  ⟨by decide, by decide +kernel, by decide +kernel, fun m => ⟨_, _, sample_hashToField _ _ (by decide +kernel), sampleU0_ne, sampleU1_ne, sample_ne⟩⟩

end Verif.Props
