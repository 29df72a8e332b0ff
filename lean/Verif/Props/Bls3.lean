import Verif.Bls.GTLemmas
import Verif.Props.Bls2

/-!
# BLS12-381: C84–C90, signatures that verify, the pairing, and the target group

The specification is `Verif/Bls/GroupSpec.lean`, `Verif/Bls/HashSpec.lean`, `Verif/Bls/PairingSpec.lean` (`Fq12`, the reduced ate pairing
`pairing`), the generators `gen1`, `gen2` of `Verif/Bls/GroupOrder.lean` and the encoding `EncodesGT` of `Verif/Bls/GTSpec.lean`.
-/

namespace Verif.Props

open Verif.EC Verif.Bls Verif.Api Verif.Bls.Spec

variable {E : Env} {H : Bytes → Bytes} {X : Phore}

/-- what is assumed of g1pubs in C84: the public key of a legal secret key is the encoding of that multiple of the generator. -/
def PhoreOk (X : Phore) : Prop := ∀ k : Bytes, k.length = 32 → beNat k < r → X.serialize (X.privToPub k) = compress1 (beNat k • gen1)

/-! ## C85: which signatures verify -/

theorem nul_ne (m : Bytes) : basicDst ++ m ≠ [] := fun h => by
  have := congrArg List.length h; rw [List.length_append, basicDst_length] at this; simp at this

theorem aug_ne (m : Bytes) : augDst ++ m ≠ [] := fun h => by
  have := congrArg List.length h; rw [List.length_append, augDst_length] at this; simp at this

theorem verify_exact {q : P3 Fe2} {P : E2.Point} {m' : Bytes} (hh : hashPoint .amd64 H m' = .ret (some q)) (hq : sem2.Rep q P)
    (hP : r • P = 0) (hm : m' ≠ []) (k : ℕ) (s : Bytes) :
    Bls.verify .amd64 H (compress1 (k • gen1)) m' s = .ret (decide (s = compress2 (k • P))) := by
  by_cases hs : ∃ S, r • S = 0 ∧ s = compress2 S
  · obtain ⟨S, hS, e⟩ := hs
    obtain ⟨b, e1, e2⟩ := verify_iff hh hq hP hm (A := k • gen1) ⟨smul_order1 k, rfl⟩ e hS
    rw [pairing_eq_iff hS hP] at e2
    rw [e1, Go.ret.injEq, Bool.eq_iff_iff, e2, decide_eq_true_iff, e]
    constructor
    · intro h; rw [h]
    · intro h; exact C78_injective.2 h
  · have h0 : ¬ s = compress2 (k • P) := fun h => hs ⟨_, smul_order2 hP k, h⟩
    rw [decide_eq_false h0]
    by_cases hl : s.length ≠ 96
    · rw [Bls.verify, if_pos (.inr (.inr hl))]
    exact verify_badSig hh fun S hS => hs ⟨S, hS.1, hS.exact (not_not.mp hl)⟩

theorem passCode_decide (p : Prop) [Decidable p] : passCode (decide p) = if p then SUCCESS else FAILURE := by
  by_cases h : p
  · rw [decide_eq_true h, if_pos h]; rfl
  · rw [decide_eq_false h, if_neg h]; rfl

/-- C85: the valid public keys are the encodings of the multiples of the generator, each of one multiple below the order. -/
theorem C85_keys (pk : Bytes) : (∃ A, r • A = 0 ∧ pk = compress1 A) ↔ ∃! k, k < r ∧ pk = compress1 (k • gen1) := by
  constructor
  · rintro ⟨A, hA, rfl⟩
    obtain ⟨k, rfl⟩ := mem_gen1 hA
    have hmod : (k % r) • gen1 = k • gen1 := by
      conv_rhs => rw [← Nat.mod_add_div k r, add_nsmul, mul_nsmul, gen1_order]
      rw [nsmul_zero, add_zero]
    refine ⟨k % r, ⟨Nat.mod_lt _ prime_r.pos, by rw [hmod]⟩, ?_⟩
    rintro j ⟨hj, e⟩
    have e1 := C78_injective.1 e
    have ho : addOrderOf gen1 = r := by
      haveI := Fact.mk prime_r
      exact addOrderOf_eq_prime gen1_order gen1_ne
    have := (nsmul_eq_nsmul_iff_modEq (x := gen1)).mp e1
    rw [ho] at this
    rw [← Nat.mod_eq_of_lt hj]
    exact this.symm
  · rintro ⟨k, ⟨-, e⟩, -⟩
    exact ⟨_, smul_order1 k, e⟩

/-- C85, basic scheme: under the public key of `k` exactly one string verifies for `m`, the encoding of `k` times the point `m` hashes to;
every other string is rejected with `FAILURE`.  Missing: the messages whose hash is not `Regular`. -/
theorem C85_exact_nul_partial (hE : BlsEnv E H X) (hH : ∀ m, (H m).length = 32) (m : Bytes) (u0 u1 : Fq2)
    (hr : Regular H m BASIC_SCHEME_DST u0 u1) :
    ∃ P, HashesTo u0 u1 P ∧ ∀ (k : ℕ) (ID : Option Bytes) (s : Bytes),
      Api.verify E (compress1 (k • gen1)) ID m s ECC_CURVE_BLS_NUL = .ret (if s = compress2 (k • P) then SUCCESS else FAILURE) := by
  obtain ⟨p, P, h1, h2, h3⟩ := hash_regular hH hr
  refine ⟨P, h2, fun k ID s => ?_⟩
  rw [verify_nul hE, verify_exact ((hashPoint_basic _ _ _).trans h1) h3 (hash_order h2) (nul_ne m) k s, ← passCode_decide]
  rfl

/-- C85, augmented scheme: the same for the message preceded by the public key. -/
theorem C85_exact_aug_partial (hE : BlsEnv E H X) (hH : ∀ m, (H m).length = 32) (m : Bytes) (k : ℕ) (u0 u1 : Fq2)
    (hr : Regular H (compress1 (k • gen1) ++ m) AUG_SCHEME_DST u0 u1) :
    ∃ P, HashesTo u0 u1 P ∧ ∀ (ID : Option Bytes) (s : Bytes),
      Api.verify E (compress1 (k • gen1)) ID m s ECC_CURVE_BLS_AUG = .ret (if s = compress2 (k • P) then SUCCESS else FAILURE) := by
  obtain ⟨p, P, h1, h2, h3⟩ := hash_regular hH hr
  refine ⟨P, h2, fun ID s => ?_⟩
  rw [verify_aug hE, verify_exact ((hashPoint_aug _ _ _).trans h1) h3 (hash_order h2) (aug_ne _) k s, ← passCode_decide]
  rfl

/-- C85: a signature of `m` verifies under no other key: if `s` verifies for `m` under two valid public keys, they are equal or `s`
is the point at infinity.  Missing: the messages whose hash is not `Regular`. -/
theorem C85_one_key_partial (hE : BlsEnv E H X) (hH : ∀ m, (H m).length = 32) (m : Bytes) (u0 u1 : Fq2)
    (hr : Regular H m BASIC_SCHEME_DST u0 u1) (A B : E1.Point) (hA : r • A = 0) (hB : r • B = 0) (s : Bytes)
    (ID ID' : Option Bytes) (h1 : Api.verify E (compress1 A) ID m s ECC_CURVE_BLS_NUL = .ret SUCCESS)
    (h2 : Api.verify E (compress1 B) ID' m s ECC_CURVE_BLS_NUL = .ret SUCCESS) : A = B ∨ s = infSig := by
  obtain ⟨P, hP, hall⟩ := C85_exact_nul_partial hE hH m u0 u1 hr
  obtain ⟨k, rfl⟩ := mem_gen1 hA
  obtain ⟨j, rfl⟩ := mem_gen1 hB
  have key : ∀ (k : ℕ) ID, Api.verify E (compress1 (k • gen1)) ID m s ECC_CURVE_BLS_NUL = .ret SUCCESS → s = compress2 (k • P) := by
    intro k ID h
    by_contra hs
    rw [hall, if_neg hs, Go.ret.injEq] at h
    exact absurd h (by decide)
  have e := C78_injective.2 ((key k ID h1).symm.trans (key j ID' h2))
  by_cases hP0 : P = 0
  · right
    rw [key k ID h1, hP0, nsmul_zero]
    rfl
  left
  have ho : addOrderOf P = r := by
    haveI := Fact.mk prime_r
    exact addOrderOf_eq_prime (hash_order hP) hP0
  have ho1 : addOrderOf gen1 = r := by
    haveI := Fact.mk prime_r
    exact addOrderOf_eq_prime gen1_order gen1_ne
  have hm := (nsmul_eq_nsmul_iff_modEq (x := P)).mp e
  rw [ho, ← ho1] at hm
  exact (nsmul_eq_nsmul_iff_modEq (x := gen1)).mpr hm

/-! ## C84: signatures verify -/

/-- C84, basic scheme: for every legal key and message, the signature verifies under the generated public key, whatever the IDs and the
randomness.  Missing: the messages whose hash is not `Regular`; `PhoreOk` is assumed of the library that computes the public key. -/
theorem C84_roundtrip_nul_partial (hE : BlsEnv E H X) (hX : PhoreOk X) (hH : ∀ m, (H m).length = 32) (k m : Bytes) (hk : k.length = 32)
    (hlt : beNat k < r) (u0 u1 : Fq2) (hr : Regular H m BASIC_SCHEME_DST u0 u1) (ID ID' : Option Bytes) (rs : List Bytes) :
    ∃ pk s, genPubkey E k ECC_CURVE_BLS_NUL = .ret (pk, SUCCESS) ∧ signature E k ID m ECC_CURVE_BLS_NUL rs = some (.ret (s, 0, SUCCESS)) ∧
      Api.verify E pk ID' m s ECC_CURVE_BLS_NUL = .ret SUCCESS := by
  obtain ⟨P, hP, hs⟩ := C81_sign_nul_partial hE hH m u0 u1 hr
  obtain ⟨P', hP', hv⟩ := C85_exact_nul_partial hE hH m u0 u1 hr
  have e : P' = P := C80_unique u0 u1 _ _ hP' hP
  refine ⟨_, _, (C59_genPubkey hE _ (.inl rfl) k).1 ⟨hk, hlt⟩, hs k ID rs hk, ?_⟩
  rw [hX k hk hlt, hv, Nat.mod_eq_of_lt hlt, if_pos (by rw [e])]

/-- C84, augmented scheme. -/
theorem C84_roundtrip_aug_partial (hE : BlsEnv E H X) (hX : PhoreOk X) (hH : ∀ m, (H m).length = 32) (k m : Bytes) (hk : k.length = 32)
    (hlt : beNat k < r) (u0 u1 : Fq2) (hr : Regular H (compress1 (beNat k • gen1) ++ m) AUG_SCHEME_DST u0 u1) (ID ID' : Option Bytes)
    (rs : List Bytes) :
    ∃ pk s, genPubkey E k ECC_CURVE_BLS_AUG = .ret (pk, SUCCESS) ∧ signature E k ID m ECC_CURVE_BLS_AUG rs = some (.ret (s, 0, SUCCESS)) ∧
      Api.verify E pk ID' m s ECC_CURVE_BLS_AUG = .ret SUCCESS := by
  have hg := (C59_genPubkey hE _ (.inr rfl) k).1 ⟨hk, hlt⟩
  rw [hX k hk hlt] at hg
  obtain ⟨P, hP, hs⟩ := C81_sign_aug_partial hE hH m k _ hk hg u0 u1 hr
  obtain ⟨P', hP', hv⟩ := C85_exact_aug_partial hE hH m (beNat k) u0 u1 hr
  have e : P' = P := C80_unique u0 u1 _ _ hP' hP
  refine ⟨_, _, hg, hs ID rs, ?_⟩
  rw [hv, Nat.mod_eq_of_lt hlt, if_pos (by rw [e])]

/-- a library that satisfies `PhoreOk`. -/
noncomputable def specPhore : Phore where
  Pt := E1.Point
  privToPub k := beNat k • gen1
  serialize := compress1
  deserialize _ := none
  add a b := a + b

noncomputable def blsSpecEnv : Env :=
  { sampleEnv with
    bls := Bls.scheme .amd64 sampleH specPhore
    blsAggregate := fun s => .ret (aggregate .amd64 s)
    blsMulBaseAdd := scalarMultBaseAdd specPhore }

example : BlsEnv blsSpecEnv sampleH specPhore ∧ PhoreOk specPhore ∧ key1.length = 32 ∧ beNat key1 < r ∧
    (∀ m, ∃ u0 u1, Regular sampleH m BASIC_SCHEME_DST u0 u1) ∧
    ∀ m, ∃ u0 u1, Regular sampleH (compress1 (beNat key1 • gen1) ++ m) AUG_SCHEME_DST u0 u1 :=
  ⟨⟨rfl, rfl, rfl⟩, fun _ _ _ => rfl, by decide, by decide +kernel,
    fun m => ⟨_, _, sample_hashToField m _ (by decide +kernel), sampleU0_ne, sampleU1_ne, sample_ne⟩,
    fun m => ⟨_, _, sample_hashToField _ _ (by decide +kernel), sampleU0_ne, sampleU1_ne, sample_ne⟩⟩

/-! ## C83: the sum -/

/-- what is assumed of g1pubs in `C83_sum`: its points are those of the curve, its operations are the group's, it serializes into the
zcash encoding and reads the encodings of the points of the subgroup back. -/
structure PhoreGroup (X : Phore) where
  den : X.Pt → E1.Point
  pub : ∀ k : Bytes, k.length = 32 → beNat k < r → den (X.privToPub k) = beNat k • gen1
  ser : ∀ p, X.serialize p = compress1 (den p)
  dec : ∀ A, r • A = 0 → ∃ p, X.deserialize (compress1 A) = some p ∧ den p = A
  add : ∀ p q, den (X.add p q) = den p + den q

theorem compress1_pos (A : E1.Point) : beNat (compress1 A) ≠ 0 := by
  have key : ∀ b : UInt8, b.toNat ≠ 0 → ∀ l, beNat (b :: l) ≠ 0 := by
    intro b hb l
    rw [beNat_cons]
    have : 0 < b.toNat * 256 ^ l.length := by positivity
    omega
  have h7 : ∀ n < 256, 128 ||| n ≠ 0 ∧ 160 ||| n ≠ 0 := by decide +kernel
  have hl := compress1_length A
  cases A with
  | zero => exact key 0xc0 (by decide) _
  | some x y hxy =>
    change (setFlags (if larger1 y then 0xa0 else 0x80) (bytes1 x)).length = 48 at hl
    change beNat (setFlags (if larger1 y then 0xa0 else 0x80) (bytes1 x)) ≠ 0
    generalize bytes1 x = b at hl ⊢
    cases b with
    | nil => simp [setFlags] at hl
    | cons c t =>
      refine key _ ?_ t
      split_ifs
      · exact (h7 c.toNat c.toNat_lt).2
      · exact (h7 c.toNat c.toNat_lt).1

/-- C83: for every point of the subgroup and every scalar below the order, the sum of the point and the multiple of the generator. -/
theorem C83_sum (hE : BlsEnv E H X) (G : PhoreGroup X) (t : UInt32) (ht : IsBls t) (A : E1.Point) (hA : r • A = 0) (scalar : Bytes)
    (hs : scalar.length = 32) (hlt : beNat scalar < r) :
    pointMulBaseGAdd E (compress1 A) scalar t = .ret (compress1 (A + beNat scalar • gen1), false) := by
  obtain ⟨p, hp, hd⟩ := G.dec A hA
  have e : X.serialize (X.add p (X.privToPub scalar)) = compress1 (A + beNat scalar • gen1) := by
    rw [G.ser, G.add, hd, G.pub scalar hs hlt]
  rw [← e]
  exact (C83_mulBaseG_add hE t ht _ scalar (compress1_length A)).2.1 hs hlt p hp (by rw [e]; exact compress1_pos _)

/-- C83 is false for opposite points: the flag that reports the point at infinity is not set, and the encoding of infinity is returned as
if it were an ordinary point. -/
theorem C83_false_infinity (hE : BlsEnv E H X) (G : PhoreGroup X) (t : UInt32) (ht : IsBls t) (scalar : Bytes)
    (hs : scalar.length = 32) (hlt : beNat scalar < r) :
    pointMulBaseGAdd E (compress1 (-(beNat scalar • gen1))) scalar t = .ret (0xc0 :: List.replicate 47 0, false) := by
  rw [C83_sum hE G t ht _ (by rw [neg_nsmul, ← mul_nsmul', mul_comm, mul_nsmul', gen1_order, nsmul_zero, neg_zero]) scalar hs hlt, neg_add_cancel, compress1_zero]

open Classical in
/-- a library that satisfies `PhoreGroup`. -/
noncomputable def groupPhore : Phore where
  Pt := E1.Point
  privToPub k := beNat k • gen1
  serialize := compress1
  deserialize b := if h : ∃ A, r • A = 0 ∧ compress1 A = b then some h.choose else none
  add a b := a + b

noncomputable def groupPhore_ok : PhoreGroup groupPhore where
  den := id
  pub _ _ _ := rfl
  ser _ := rfl
  dec A hA := by
    have h : ∃ B, r • B = 0 ∧ compress1 B = compress1 A := ⟨A, hA, rfl⟩
    exact ⟨h.choose, dif_pos h, C78_injective.1 h.choose_spec.2⟩
  add _ _ := rfl

noncomputable def blsGroupEnv : Env :=
  { sampleEnv with
    bls := Bls.scheme .amd64 sampleH groupPhore
    blsAggregate := fun s => .ret (aggregate .amd64 s)
    blsMulBaseAdd := scalarMultBaseAdd groupPhore }

example : BlsEnv blsGroupEnv sampleH groupPhore ∧ Nonempty (PhoreGroup groupPhore) ∧ IsBls ECC_CURVE_BLS_NUL ∧ r • (5 • gen1) = 0 ∧
    key1.length = 32 ∧ beNat key1 < r :=
  ⟨⟨rfl, rfl, rfl⟩, ⟨groupPhore_ok⟩, .inl rfl,
    by rw [← mul_nsmul', mul_comm, mul_nsmul', gen1_order, nsmul_zero], by decide, by decide +kernel⟩

/-! ## C86: aggregates verify -/

/-- C86: if every `sᵢ` verifies for the same message under the public key `Aᵢ`, the aggregate verifies under the key `Σ Aᵢ`.  Missing: the
messages whose hash is not `Regular`. -/
theorem C86_aggregate_partial (hE : BlsEnv E H X) (hH : ∀ m, (H m).length = 32) (m : Bytes) (u0 u1 : Fq2)
    (hr : Regular H m BASIC_SCHEME_DST u0 u1) (As : List E1.Point) (sigs : List Bytes) (hne : sigs ≠ [])
    (h : List.Forall₂ (fun A s => r • A = 0 ∧ ∃ ID, Api.verify E (compress1 A) ID m s ECC_CURVE_BLS_NUL = .ret SUCCESS) As sigs) :
    ∃ agg, aggregateSignatures E ECC_CURVE_BLS_NUL sigs = .ret (agg, SUCCESS) ∧
      ∀ ID, Api.verify E (compress1 As.sum) ID m agg ECC_CURVE_BLS_NUL = .ret SUCCESS := by
  obtain ⟨P, hP, hall⟩ := C85_exact_nul_partial hE hH m u0 u1 hr
  have ho := hash_order hP
  have key : ∃ ks : List ℕ, List.Forall₂ EncodesG2 sigs (ks.map (· • P)) ∧ As.sum = ks.sum • gen1 := by
    clear hne
    induction h with
    | nil => exact ⟨[], .nil, by rw [List.sum_nil, List.sum_nil, zero_nsmul]⟩
    | @cons A s As sigs h _ ih =>
      obtain ⟨ks, i1, i2⟩ := ih
      obtain ⟨hA, ID, hv⟩ := h
      obtain ⟨k, hk⟩ := mem_gen1 hA
      have hs : s = compress2 (k • P) := by
        by_contra hs
        rw [hk, hall, if_neg hs, Go.ret.injEq] at hv
        exact absurd hv (by decide)
      refine ⟨k :: ks, .cons ⟨smul_order2 ho k, [], by rw [hs, List.append_nil]⟩ i1, ?_⟩
      rw [List.sum_cons, List.sum_cons, i2, hk, add_nsmul]
  obtain ⟨ks, h1, h2⟩ := key
  have hsum : (ks.map (· • P)).sum = ks.sum • P := by
    clear h1 h2
    induction ks with
    | nil => rw [List.map_nil, List.sum_nil, List.sum_nil, zero_nsmul]
    | cons a l ih => rw [List.map_cons, List.sum_cons, List.sum_cons, ih, add_nsmul]
  refine ⟨compress2 (ks.sum • P), ?_, fun ID => ?_⟩
  · rw [(C59_aggregate_partial hE _ (.inl rfl) sigs hne).1 _ h1, hsum]
  · rw [h2, hall, if_pos rfl]

example (m : Bytes) (k : Bytes) (hk : k.length = 32) (hlt : beNat k < r) : ∃ u0 u1 s, Regular sampleH m BASIC_SCHEME_DST u0 u1 ∧
    List.Forall₂ (fun A s => r • A = 0 ∧ ∃ ID, Api.verify blsSpecEnv (compress1 A) ID m s ECC_CURVE_BLS_NUL = .ret SUCCESS)
      [beNat k • gen1, beNat k • gen1] [s, s] := by
  have hR : Regular sampleH m BASIC_SCHEME_DST _ _ := ⟨sample_hashToField m _ (by decide +kernel), sampleU0_ne, sampleU1_ne, sample_ne⟩
  obtain ⟨pk, s, e1, -, e3⟩ := C84_roundtrip_nul_partial (E := blsSpecEnv) (X := specPhore) ⟨rfl, rfl, rfl⟩ (fun _ _ _ => rfl) sampleH_length k m hk hlt
    _ _ hR none none []
  have hg := (C59_genPubkey (E := blsSpecEnv) (X := specPhore) (H := sampleH) ⟨rfl, rfl, rfl⟩ _ (.inl rfl) k).1 ⟨hk, hlt⟩
  rw [hg, Go.ret.injEq, Prod.mk.injEq] at e1
  have e2 : pk = compress1 (beNat k • gen1) := e1.1.symm
  rw [e2] at e3
  exact ⟨_, _, s, hR, .cons ⟨smul_order1 _, none, e3⟩ (.cons ⟨smul_order1 _, none, e3⟩ .nil)⟩

/-! ## C87: the pairing -/

/-- the points the compressed encodings of `P` and `T` decode to. -/
def Decoded (p : P3 Fe) (q : P3 Fe2) (P : E1.Point) (T : E2.Point) : Prop :=
  (g1 .amd64).fromCompressed (compress1 P) = some p ∧ (g2 .amd64).fromCompressed (compress2 T) = some q

theorem decoded_exists {P : E1.Point} {T : E2.Point} (hP : r • P = 0) (hT : r • T = 0) : ∃ p q, Decoded p q P T := by
  obtain ⟨p, e, -⟩ := fromCompressed1_of (s := compress1 P) ⟨hP, rfl⟩
  obtain ⟨q, e', -⟩ := fromCompressed2_of (s := compress2 T) ⟨hT, [], (List.append_nil _).symm⟩
  exact ⟨p, q, e, e'⟩

theorem Decoded.rep {p : P3 Fe} {q : P3 Fe2} {P : E1.Point} {T : E2.Point} (h : Decoded p q P T) (hP : r • P = 0) (hT : r • T = 0) :
    sem1.Rep p P ∧ sem2.Rep q T := by
  obtain ⟨p', e, h1⟩ := fromCompressed1_of (s := compress1 P) ⟨hP, rfl⟩
  obtain ⟨q', e', h2⟩ := fromCompressed2_of (s := compress2 T) ⟨hT, [], (List.append_nil _).symm⟩
  rw [h.1, Option.some.injEq] at e
  rw [h.2, Option.some.injEq] at e'
  rw [e, e']
  exact ⟨h1, h2⟩

theorem marshal_eq {a b : Fe12} {y z : Fq12} (ha : Fe12.Is a y) (hb : Fe12.Is b z) (h : y = z) : OwGT.marshal a = OwGT.marshal b := by
  rw [h] at ha
  exact ha.encodes.unique hb.encodes

theorem order_pow3 {z : Fq12} (h : z ^ r = 1) : (z ^ 3) ^ r = 1 := by rw [← pow_mul, mul_comm, pow_mul, h, one_pow]

theorem pow_comm3 {M : Type*} [CommMonoid M] (z : M) (a b : ℕ) : ((z ^ b) ^ a) ^ 3 = (z ^ 3) ^ (a * b) := by
  rw [← pow_mul, ← pow_mul, ← pow_mul]
  congr 1
  ring

/-- C87: `Pair` of points of the two groups is the cube of the reduced ate pairing, an element of GT; it is the identity exactly if one of
the points is infinity. -/
theorem C87_pair (P : E1.Point) (T : E2.Point) (hP : r • P = 0) (hT : r • T = 0) (p : P3 Fe) (q : P3 Fe2) (h : Decoded p q P T) :
    EncodesGT (OwGT.marshal (pair .amd64 p q)) (pairing P T ^ 3) ∧ (pairing P T ^ 3) ^ r = 1 ∧
      (OwGT.equal (pair .amd64 p q) OwGT.new = true ↔ P = 0 ∨ T = 0) := by
  obtain ⟨h1, h2⟩ := h.rep hP hT
  have hi := pair_is h1 h2 hT
  refine ⟨hi.encodes, order_pow3 (pairing_pow_r P T), ?_⟩
  rw [OwGT.equal, OwGT.new, hi.equal_iff Fe12.is_one, cube_one r_mod (pairing_pow_r P T), pairing_eq_one_iff hP hT]

/-- C87: `Pair` is bilinear. -/
theorem C87_bilinear (P P' : E1.Point) (T T' : E2.Point) (hP : r • P = 0) (hP' : r • P' = 0) (hT : r • T = 0) (hT' : r • T' = 0)
    (p p' : P3 Fe) (q q' : P3 Fe2) (h : Decoded p q P T) (h' : Decoded p' q' P' T') :
    OwGT.marshal (pair .amd64 ((g1 .amd64).addPt p p') q) = OwGT.marshal (OwGT.add (pair .amd64 p q) (pair .amd64 p' q)) ∧
      OwGT.marshal (pair .amd64 p ((g2 .amd64).addPt q q')) = OwGT.marshal (OwGT.add (pair .amd64 p q) (pair .amd64 p q')) ∧
      ∀ a b, OwGT.marshal (pair .amd64 ((g1 .amd64).mulScalar p a) ((g2 .amd64).mulScalar q b)) =
        OwGT.marshal (GT.exp (pair .amd64 p q) (a * b)) := by
  obtain ⟨h1, h2⟩ := h.rep hP hT
  obtain ⟨h1', h2'⟩ := h'.rep hP' hT'
  have hi := pair_is h1 h2 hT
  refine ⟨?_, ?_, fun a b => ?_⟩
  · refine marshal_eq (pair_is (Sem.rep_add h1 h1') h2 hT) (hi.mul (pair_is h1' h2 hT)) ?_
    have := pairing_add_left P P' hT
    exact (congrArg (· ^ 3) this).trans (mul_pow _ _ _)
  · refine marshal_eq (pair_is h1 (Sem.rep_add h2 h2') (by exact (nsmul_add T T' r).trans (by rw [hT, hT', add_zero])))
      (hi.mul (pair_is h1 h2' hT')) ?_
    have := pairing_add_right P hT hT'
    exact (congrArg (· ^ 3) this).trans (mul_pow _ _ _)
  · refine marshal_eq (pair_is (Sem.rep_mul h1 a) (Sem.rep_mul h2 b) (smul_order2 hT b))
      (hi.cyclotomicExp (cy_of_pow (order_pow3 (pairing_pow_r P T))) (a * b)) ?_
    have e1 := pairing_smul_left a P (smul_order2 hT b)
    have e2 := pairing_smul_right b P hT
    rw [e2] at e1
    exact (congrArg (· ^ 3) e1).trans (pow_comm3 _ a b)

example : ∃ p q, Decoded p q gen1 gen2 ∧ gen1 ≠ 0 ∧ gen2 ≠ 0 ∧ r • gen1 = 0 ∧ r • gen2 = 0 := by
  obtain ⟨p, q, h⟩ := decoded_exists gen1_order gen2_order
  exact ⟨p, q, h, gen1_ne, gen2_ne, gen1_order, gen2_order⟩

/-! ## C88: the pairing check -/

/-- the engine after a list of `AddPair` (`false`) and `AddPairInv` (`true`) calls. -/
def engine (ps : List (Bool × P3 Fe × P3 Fe2)) : List (P3 Fe × P3 Fe2) :=
  ps.foldl (fun eng p => if p.1 then addPairInv .amd64 eng p.2.1 p.2.2 else addPair .amd64 eng p.2.1 p.2.2) []

/-- the exponent an entry contributes: `a b`, or `-a b` for an inverted one. -/
def term (e : Bool × ℕ × ℕ) : ℤ := if e.1 then -((e.2.1 : ℤ) * e.2.2) else (e.2.1 : ℤ) * e.2.2

theorem pairing_gens (a b : ℕ) : pairing (a • gen1) (b • gen2) = pairing gen1 gen2 ^ ((a : ℤ) * b) := by
  rw [pairing_smul_left a _ (smul_order2 gen2_order b), pairing_smul_right b _ gen2_order, ← pow_mul, mul_comm b a, ← zpow_natCast,
    Nat.cast_mul]

theorem engine_is (es : List (Bool × ℕ × ℕ)) (ps : List (Bool × P3 Fe × P3 Fe2))
    (h : List.Forall₂ (fun e p => p.1 = e.1 ∧ Decoded p.2.1 p.2.2 (e.2.1 • gen1) (e.2.2 • gen2)) es ps) :
    ∀ (l : List (P3 Fe × P3 Fe2)) (ss : List Ent) (n : ℤ), List.Forall₂ Good l ss → prodOf ss = pairing gen1 gen2 ^ n →
      ∃ ss', List.Forall₂ Good (ps.foldl (fun eng p => if p.1 then addPairInv .amd64 eng p.2.1 p.2.2 else addPair .amd64 eng p.2.1 p.2.2) l) ss' ∧
        prodOf ss' = pairing gen1 gen2 ^ (n + (es.map term).sum) := by
  have hg : pairing gen1 gen2 ≠ 0 := pairing_ne _ _
  induction h with
  | nil =>
    intro l ss n h1 h2
    exact ⟨ss, h1, by rw [List.map_nil, List.sum_nil, add_zero, h2]⟩
  | @cons e p es ps h _ ih =>
    intro l ss n h1 h2
    obtain ⟨hb, hd⟩ := h
    obtain ⟨r1, r2⟩ := hd.rep (smul_order1 _) (smul_order2 gen2_order _)
    rw [List.foldl_cons, List.map_cons, List.sum_cons, ← add_assoc]
    cases hc : e.1 with
    | true =>
      obtain ⟨ss', h1', h2'⟩ := addPairInv_is h1 r1 r2 (smul_order2 gen2_order _)
      rw [if_pos (by rw [hb, hc])]
      refine ih _ ss' _ h1' ?_
      rw [h2', h2, term, if_pos hc, zpow_add₀ hg, zpow_neg, ← pairing_gens]
    | false =>
      obtain ⟨ss', h1', h2'⟩ := addPair_is h1 r1 r2 (smul_order2 gen2_order _)
      rw [if_neg (by rw [hb, hc]; simp)]
      refine ih _ ss' _ h1' ?_
      rw [h2', h2, term, if_neg (by rw [hc]; simp), zpow_add₀ hg, ← pairing_gens]

theorem zpow_one_iff {K : Type*} [Field K] {g : K} {r : ℕ} (hr : r.Prime) (h1 : g ^ r = 1) (hne : g ≠ 1) (n : ℤ) : g ^ n = 1 ↔ (r : ℤ) ∣ n := by
  have h0 : g ≠ 0 := by
    rintro rfl
    rw [zero_pow hr.ne_zero] at h1
    exact zero_ne_one h1
  have ho : orderOf (Units.mk0 g h0) = r := by
    haveI := Fact.mk hr
    refine orderOf_eq_prime (Units.ext ?_) fun h => hne ?_
    · rw [Units.val_pow_eq_pow_val, Units.val_mk0, Units.val_one, h1]
    · have := congrArg Units.val h
      rwa [Units.val_mk0, Units.val_one] at this
  rw [← ho, orderOf_dvd_iff_zpow_eq_one, ← Units.val_inj, Units.val_zpow_eq_zpow_val, Units.val_mk0, Units.val_one]

theorem gens_zpow (n : ℤ) : pairing gen1 gen2 ^ n = 1 ↔ (r : ℤ) ∣ n := zpow_one_iff prime_r (pairing_pow_r _ _) pairing_gen n

theorem zpow_order (n : ℤ) : (pairing gen1 gen2 ^ n) ^ r = 1 := by
  rw [← zpow_natCast, ← zpow_mul, mul_comm, zpow_mul, zpow_natCast, pairing_pow_r, one_zpow]

/-- C88: the pairing engine.  After adding any pairs `(aᵢ G1, bᵢ G2)` and inverted pairs in any order, `Check` holds exactly if
`Σ ± aᵢ bᵢ` is divisible by the order. -/
theorem C88_check (es : List (Bool × ℕ × ℕ)) (ps : List (Bool × P3 Fe × P3 Fe2))
    (h : List.Forall₂ (fun e p => p.1 = e.1 ∧ Decoded p.2.1 p.2.2 (e.2.1 • gen1) (e.2.2 • gen2)) es ps) :
    check .amd64 (engine ps) = true ↔ (r : ℤ) ∣ (es.map term).sum := by
  obtain ⟨ss, h1, h2⟩ := engine_is es ps h [] [] 0 .nil (by rw [prodOf_nil, zpow_zero])
  rw [zero_add] at h2
  rw [engine, check, Fe12.Is.equal_iff Fe12.is_one (calculate_is h1), h2, eq_comm, cube_one r_mod (zpow_order _), gens_zpow]

/-- C88: `ValidatePairing(a G1, b G2, c G1, d G2)` holds exactly if `a b = c d` modulo the order. -/
theorem C88_validate (a b c d : ℕ) (p p' : P3 Fe) (q q' : P3 Fe2) (h : Decoded p q (a • gen1) (b • gen2))
    (h' : Decoded p' q' (c • gen1) (d • gen2)) : validatePairing .amd64 p q p' q' = true ↔ a * b ≡ c * d [MOD r] := by
  have := C88_check [(false, a, b), (true, c, d)] [(false, p, q), (true, p', q')] (.cons ⟨rfl, h⟩ (.cons ⟨rfl, h'⟩ .nil))
  rw [validatePairing]
  refine this.trans ?_
  rw [show (a * b ≡ c * d [MOD r]) ↔ (c * d ≡ a * b [MOD r]) from ⟨Nat.ModEq.symm, Nat.ModEq.symm⟩, Nat.modEq_iff_dvd]
  simp [term, sub_eq_add_neg]

/-- C88: every element of the two groups is a multiple of the generator, so the two theorems above cover all arguments. -/
theorem C88_generators (P : E1.Point) (T : E2.Point) (hP : r • P = 0) (hT : r • T = 0) : (∃ a : ℕ, P = a • gen1) ∧ ∃ b : ℕ, T = b • gen2 :=
  ⟨mem_gen1 hP, mem_gen2 hT⟩

example (a b c d : ℕ) : ∃ p p' q q', Decoded p q (a • gen1) (b • gen2) ∧ Decoded p' q' (c • gen1) (d • gen2) := by
  obtain ⟨p, q, h⟩ := decoded_exists (smul_order1 a) (smul_order2 gen2_order b)
  obtain ⟨p', q', h'⟩ := decoded_exists (smul_order1 c) (smul_order2 gen2_order d)
  exact ⟨p, p', q, q', h, h'⟩

/-! ## C89: arithmetic in the target field and group -/

/-- the element `a`, obtained from bytes, has the value `z`. -/
def ReadsAs (a : Fe12) (z : Fq12) : Prop := ∃ s, EncodesGT s z ∧ (GT.fromBytes s).1 = some a

theorem ReadsAs.is {a : Fe12} {z : Fq12} (h : ReadsAs a z) : Fe12.Is a z := by
  obtain ⟨s, h1, h2⟩ := h
  obtain ⟨b, hb, e⟩ := gt_fromBytes h1
  rw [e] at h2
  rw [← Option.some.inj h2]
  exact hb

theorem readsAs_exists (z : Fq12) : ∃ a, ReadsAs a z := by
  obtain ⟨s, hs⟩ := encodesGT_exists z
  obtain ⟨a, -, e⟩ := gt_fromBytes hs
  exact ⟨a, s, hs, by rw [e]⟩

/-- C89: `Add`, `Sub`, `Mul` and `Inverse` are the operations of the field `Fq12`, and `Equal` is equality; `Square` and `Exp` are right for
elements of the group of order `r`. -/
theorem C89_arithmetic (a b : Fe12) (x y : Fq12) (ha : ReadsAs a x) (hb : ReadsAs b y) :
    EncodesGT (OwGT.marshal (GT.add a b)) (x + y) ∧ EncodesGT (OwGT.marshal (GT.sub a b)) (x - y) ∧
      EncodesGT (OwGT.marshal (GT.mul a b)) (x * y) ∧ EncodesGT (OwGT.marshal (GT.inverse .amd64 a)) x⁻¹ ∧
      (OwGT.equal a b = true ↔ x = y) ∧
      (x ^ r = 1 → EncodesGT (OwGT.marshal (GT.square a)) (x ^ 2) ∧ ∀ s, EncodesGT (OwGT.marshal (GT.exp a s)) (x ^ s)) := by
  have ha := ha.is
  have hb := hb.is
  refine ⟨(ha.addF hb).encodes, (ha.subF hb).encodes, (ha.mul hb).encodes, ha.inverse.encodes, ha.equal_iff hb, fun hx => ⟨?_, fun s => ?_⟩⟩
  · rw [pow_two]
    exact (Fe12.Is.cyclotomicSquare ha (cy_of_pow hx)).encodes
  · exact (ha.cyclotomicExp (cy_of_pow hx) s).encodes

example (x : Fq12) : ∃ a, ReadsAs a x := readsAs_exists x

example : ∃ x : Fq12, x ≠ 1 ∧ x ^ r = 1 := ⟨pairing gen1 gen2, pairing_gen, pairing_pow_r _ _⟩

/-- C89 is false of `Square` and `Exp` on other field elements, such as the results of `Add`: the square of `1 + 1` is not
`(1 + 1) * (1 + 1)`. -/
theorem C89_false_square : GT.square (GT.add Fe12.one Fe12.one) ≠ GT.mul (GT.add Fe12.one Fe12.one) (GT.add Fe12.one Fe12.one) ∧
    GT.exp (GT.add Fe12.one Fe12.one) 2 ≠ GT.mul (GT.add Fe12.one Fe12.one) (GT.add Fe12.one Fe12.one) := by
  have h : (GT.square (GT.add Fe12.one Fe12.one)).c0.c0.c0 ≠ (GT.mul (GT.add Fe12.one Fe12.one) (GT.add Fe12.one Fe12.one)).c0.c0.c0 := by
    decide +kernel
  have h' : (GT.exp (GT.add Fe12.one Fe12.one) 2).c0.c0.c0 ≠ (GT.mul (GT.add Fe12.one Fe12.one) (GT.add Fe12.one Fe12.one)).c0.c0.c0 := by
    decide +kernel
  exact ⟨fun e => h (by rw [e]), fun e => h' (by rw [e])⟩

/-! ## C90: the target group as a kyber group -/

/-- C90: `UnmarshalBinary` succeeds exactly on the 576-byte encodings of the elements of order dividing `r`, and `MarshalBinary` then returns
the same bytes; an encoding of another field element is an error, but the receiver takes that element; for other bytes the receiver
becomes nil. -/
theorem C90_unmarshal (s : Bytes) :
    (∀ z, EncodesGT s z → z ^ r = 1 → ∃ a, OwGT.unmarshal s = (some a, false) ∧ OwGT.marshal a = s) ∧
      (∀ z, EncodesGT s z → z ^ r ≠ 1 → ∃ a, OwGT.unmarshal s = (some a, true) ∧ OwGT.marshal a = s) ∧
      ((∀ z, ¬ EncodesGT s z) → OwGT.unmarshal s = (none, true)) := by
  refine ⟨fun z h hz => ?_, fun z h hz => ?_, fun h => gt_fromBytes_none h⟩
  · obtain ⟨a, ha, e⟩ := gt_fromBytes h
    exact ⟨a, by rw [OwGT.unmarshal, e, if_pos hz], ha.encodes.unique h⟩
  · obtain ⟨a, ha, e⟩ := gt_fromBytes h
    exact ⟨a, by rw [OwGT.unmarshal, e, if_neg hz], ha.encodes.unique h⟩

/-- C90: the encoding is a bijection between the field and the strings `FromBytes` reads. -/
theorem C90_encoding : (∀ z, ∃! s, EncodesGT s z) ∧ ∀ s y z, EncodesGT s y → EncodesGT s z → s.length = 576 ∧ y = z := by
  refine ⟨fun z => ?_, fun s y z h k => ⟨h.length, h.inj k⟩⟩
  obtain ⟨s, hs⟩ := encodesGT_exists z
  exact ⟨s, hs, fun t ht => ht.unique hs⟩

/-- C90, what holds of the group: the elements that unmarshal are closed under `Add`, which is commutative and associative with the new
element as identity.  Missing: `Null` and `Sub` (`C90_false_null`, `C90_false_sub`); `Neg` and `Mul` are not implemented. -/
theorem C90_group_partial (s t u : Bytes) (a b c : Fe12) (ha : OwGT.unmarshal s = (some a, false)) (hb : OwGT.unmarshal t = (some b, false))
    (hc : OwGT.unmarshal u = (some c, false)) :
    OwGT.unmarshal (OwGT.marshal (OwGT.add a b)) = (some (OwGT.add a b), false) ∧
      OwGT.marshal (OwGT.add a b) = OwGT.marshal (OwGT.add b a) ∧
      OwGT.marshal (OwGT.add (OwGT.add a b) c) = OwGT.marshal (OwGT.add a (OwGT.add b c)) ∧
      OwGT.marshal (OwGT.add a OwGT.new) = OwGT.marshal a ∧
      ∃ a', OwGT.unmarshal (OwGT.marshal a') = (some a', false) ∧ OwGT.marshal (OwGT.add a a') = OwGT.marshal OwGT.new := by
  have key : ∀ {s : Bytes} {a : Fe12}, OwGT.unmarshal s = (some a, false) → ∃ z, Fe12.Is a z ∧ z ^ r = 1 := by
    intro s a h
    by_cases hs : ∃ z, EncodesGT s z
    · obtain ⟨z, hz⟩ := hs
      obtain ⟨a', h', e⟩ := gt_fromBytes hz
      rw [OwGT.unmarshal, e, Prod.mk.injEq, Option.some.injEq] at h
      by_cases hr : z ^ r = 1
      · exact ⟨z, h.1 ▸ h', hr⟩
      · rw [if_neg hr] at h
        exact absurd h.2 (by decide)
    · rw [OwGT.unmarshal, gt_fromBytes_none (not_exists.mp hs)] at h
      exact absurd (congrArg Prod.snd h) (by simp)
  have back : ∀ {a : Fe12} {z : Fq12}, Fe12.Is a z → z ^ r = 1 → OwGT.unmarshal (OwGT.marshal a) = (some a, false) := by
    intro a z h hz
    obtain ⟨a', h', e⟩ := gt_fromBytes h.encodes
    rw [if_pos hz] at e
    rw [OwGT.unmarshal, OwGT.marshal, e, h'.ext h]
  obtain ⟨x, hx, ox⟩ := key ha
  obtain ⟨y, hy, oy⟩ := key hb
  obtain ⟨z, hz, oz⟩ := key hc
  refine ⟨back (hx.mul hy) (by rw [mul_pow, ox, oy, one_mul]), marshal_eq (hx.mul hy) (hy.mul hx) (mul_comm _ _),
    marshal_eq ((hx.mul hy).mul hz) (hx.mul (hy.mul hz)) (mul_assoc _ _ _), marshal_eq (hx.mul Fe12.is_one) hx (mul_one _),
    GT.inverse .amd64 a, back hx.inverse (by rw [inv_pow, ox, inv_one]), marshal_eq (hx.mul hx.inverse) Fe12.is_one (mul_inv_cancel₀ ?_)⟩
  intro h
  rw [h, zero_pow prime_r.ne_zero] at ox
  exact zero_ne_one ox

example : ∃ s a, OwGT.unmarshal s = (some a, false) ∧ OwGT.equal a OwGT.new = false := by
  obtain ⟨p, q, h⟩ := decoded_exists gen1_order gen2_order
  obtain ⟨h1, h2, h3⟩ := C87_pair gen1 gen2 gen1_order gen2_order p q h
  obtain ⟨a, e, -⟩ := (C90_unmarshal _).1 _ h1 h2
  obtain ⟨a', ha', e'⟩ := gt_fromBytes h1
  refine ⟨_, a, e, ?_⟩
  rw [OwGT.unmarshal, e', Prod.mk.injEq, Option.some.injEq] at e
  rw [← e.1, ← Bool.not_eq_true, OwGT.equal, OwGT.new, ha'.equal_iff Fe12.is_one, cube_one r_mod (pairing_pow_r _ _)]
  exact pairing_gen

/-- C90 is false of `Null`: it is not the identity but an element that absorbs every other one, and its own encoding is rejected. -/
theorem C90_false_null : ∃ n, OwGT.null = some n ∧ OwGT.marshal n = List.replicate 576 0 ∧ (OwGT.unmarshal (OwGT.marshal n)).2 = true ∧
    OwGT.equal n OwGT.new = false ∧ ∀ (s : Bytes) (a : Fe12), OwGT.unmarshal s = (some a, false) → OwGT.marshal (OwGT.add n a) = OwGT.marshal n := by
  have h0 : EncodesGT (List.replicate 576 0) 0 := by
    refine ⟨0, 0, 0, 0, 0, 0, by rw [map_zero]; ring, ?_⟩
    have : bytes2 0 = List.replicate 96 0 := by decide +kernel
    rw [this]
    decide +kernel
  have hr : ¬ (0 : Fq12) ^ r = 1 := by
    rw [zero_pow prime_r.ne_zero]
    exact zero_ne_one
  obtain ⟨n, hn, e⟩ := gt_fromBytes h0
  have hm : OwGT.marshal n = List.replicate 576 0 := hn.encodes.unique h0
  refine ⟨n, by rw [OwGT.null, OwGT.nullOf, e], hm, ?_, ?_, fun s a ha => ?_⟩
  · rw [hm, OwGT.unmarshal, e, if_neg hr]
  · rw [← Bool.not_eq_true, OwGT.equal, OwGT.new, hn.equal_iff Fe12.is_one]
    exact zero_ne_one
  · have : ∃ z, Fe12.Is a z := by
      by_cases hs : ∃ z, EncodesGT s z
      · obtain ⟨z, hz⟩ := hs
        obtain ⟨a', h', e⟩ := gt_fromBytes hz
        rw [OwGT.unmarshal, e, Prod.mk.injEq, Option.some.injEq] at ha
        exact ⟨z, ha.1 ▸ h'⟩
      · rw [OwGT.unmarshal, gt_fromBytes_none (not_exists.mp hs)] at ha
        exact absurd (congrArg Prod.snd ha) (by simp)
    obtain ⟨z, hz⟩ := this
    exact marshal_eq (hn.mul hz) hn (zero_mul z)

/-- C90 is false of `Sub`: `a - a` is never the identity, and its encoding is rejected. -/
theorem C90_false_sub (s : Bytes) (a : Fe12) (ha : OwGT.unmarshal s = (some a, false)) :
    OwGT.equal (OwGT.sub a a) OwGT.new = false ∧ (OwGT.unmarshal (OwGT.marshal (OwGT.sub a a))).2 = true := by
  have : ∃ z, Fe12.Is a z := by
    by_cases hs : ∃ z, EncodesGT s z
    · obtain ⟨z, hz⟩ := hs
      obtain ⟨a', h', e⟩ := gt_fromBytes hz
      rw [OwGT.unmarshal, e, Prod.mk.injEq, Option.some.injEq] at ha
      exact ⟨z, ha.1 ▸ h'⟩
    · rw [OwGT.unmarshal, gt_fromBytes_none (not_exists.mp hs)] at ha
      exact absurd (congrArg Prod.snd ha) (by simp)
  obtain ⟨z, hz⟩ := this
  have hsub := hz.subF hz
  rw [sub_self] at hsub
  constructor
  · rw [← Bool.not_eq_true, OwGT.equal, OwGT.new, OwGT.sub, GT.sub, hsub.equal_iff Fe12.is_one]
    exact zero_ne_one
  · obtain ⟨n, hn, e⟩ := gt_fromBytes hsub.encodes
    rw [OwGT.unmarshal, OwGT.marshal, OwGT.sub, GT.sub, e, if_neg]
    rw [zero_pow prime_r.ne_zero]
    exact zero_ne_one

end Verif.Props
