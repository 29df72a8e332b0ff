import Verif.SM2.Protocol
import Verif.SM2.Mult
import Verif.SM2.Spec
import Verif.ECDSA.Lemmas
import Verif.Api.Lemmas

/-! # The SM2 protocol functions in terms of the curve group -/

namespace Verif.SM2

open Verif.EC Verif.ECDSA WeierstrassCurve

/-- partial correctness up to the ghost flag. -/
def Run.Tri {α : Type} (m : Run α) (Q : Go α → Prop) : Prop := m.bad = false → Q m.val

theorem Run.bind_val {α β : Type} (m : Run α) (f : α → Run β) :
    (m >>= f).val = (m.val >>= fun a => (f a).val) := by
  show (match m.val with | .ret a => _ | .panic => _ : Run β).val = _
  cases h : m.val <;> rfl

theorem RTri.bind {α β : Type} {m : Run α} {f : α → Run β} {Q : Go α → Prop} {R : Go β → Prop}
    (h1 : m.Tri Q) (h2 : ∀ a, Q (.ret a) → (f a).Tri R) (h3 : Q .panic → R .panic) : (m >>= f).Tri R := by
  intro hb
  cases hm : m.val with
  | ret a =>
    have hb' : m.bad = false ∧ (f a).bad = false := by
      have : (m >>= f).bad = (m.bad || (f a).bad) := by
        show (match m.val with | .ret a => _ | .panic => _ : Run β).bad = _
        rw [hm]
      rw [this] at hb; simpa using hb
    rw [Run.bind_val, hm]
    have := h1 hb'.1
    rw [hm] at this
    exact h2 a this hb'.2
  | panic =>
    have hb' : m.bad = false := by
      have : (m >>= f).bad = m.bad := by
        show (match m.val with | .ret a => _ | .panic => _ : Run β).bad = _
        rw [hm]
      rwa [this] at hb
    rw [Run.bind_val, hm]
    have := h1 hb'
    rw [hm] at this
    exact h3 this

theorem RTri.pure {α : Type} {a : α} {Q : Go α → Prop} (h : Q (.ret a)) : (pure a : Run α).Tri Q := fun _ => h

theorem RTri.ofGo {α : Type} {g : Go α} {Q : Go α → Prop} (h : Q g) : (ofGo g).Tri Q := fun _ => h

theorem RTri.run {α : Type} {m : Gh α} {Q : α → Prop} (h : m.Tri Q) :
    m.run.Tri (fun g => ∃ a, g = .ret a ∧ Q a) := fun hb => ⟨_, rfl, h hb⟩

theorem RTri.mono {α : Type} {m : Run α} {Q R : Go α → Prop} (h : m.Tri Q) (hqr : ∀ a, Q a → R a) : m.Tri R :=
  fun hb => hqr _ (h hb)

/-- a field computation followed by a run. -/
theorem RTri.gbind {α β : Type} {m : Gh α} {f : α → Run β} {Q : α → Prop} {R : Go β → Prop}
    (h1 : m.Tri Q) (h2 : ∀ a, Q a → (f a).Tri R) : (m.run >>= f).Tri R :=
  RTri.bind (RTri.run h1) (fun a ⟨_, he, hq⟩ => by cases he; exact h2 _ hq) (fun ⟨_, he, _⟩ => by cases he)

theorem c_n256 : c.n < 2 ^ 256 := by decide +kernel
theorem c_p256 : c.p < 2 ^ 256 := by decide +kernel

theorem rep_of_encodes {b : Bytes} {Q : Pt} (h : Encodes b Q) :
    Rep c (beNat (b.take 32)) (beNat (b.drop 32)) Q := by
  obtain ⟨-, -, h1, h2⟩ := h
  have := rep_enc Q
  rw [enc_eq] at this
  rw [h1, h2]; exact this

theorem encodes_pub {k : ℕ} (h0 : 1 ≤ k) (hn : k < c.n) :
    Encodes (encode64 (enc c (k • good.G))) (k • good.G) :=
  encodes_encode64 c_p256 (smul_ne_zero G_ne (by omega) hn)

/-! ## `IsOnCurve` -/

theorem isOnCurve_tri (X Y : Int) :
    (isOnCurveGh X Y).Tri (fun b => (b = true ↔ (Y : F) ^ 2 = (X : F) ^ 3 + (c.a : F) * X + (c.b : F))) := by
  unfold isOnCurveGh
  have hx := fromBig_isFe X
  have hy := fromBig_isFe Y
  refine Tri.bind (square_tri hx) fun x3 h3 => ?_
  refine Tri.bind (mul_tri h3 hx) fun x3 h3 => ?_
  refine Tri.bind (mul_tri feA_isFe hx) fun a ha => ?_
  refine Tri.bind (square_tri hy) fun y2 h2 => ?_
  refine Tri.pure ?_
  rw [beq_iff_eq, toBig_eq_iff, (add_isFe (add_isFe h3 ha) feB_isFe).2, h2.2]
  constructor
  · intro h; rw [← h]; ring
  · intro h; rw [h]; ring

/-! ## signatures -/

theorem N_pos : 0 < N := by decide +kernel

theorem randFieldElement_range (b : Bytes) : ∃ k : ℕ, randFieldElement N b = k ∧ 0 < k ∧ k < c.n := by
  have h1 : (0 : Int) ≤ (beNat b : Int) % (N - 1) := Int.emod_nonneg _ (by decide +kernel)
  have h2 : (beNat b : Int) % (N - 1) < N - 1 := Int.emod_lt_of_pos _ (by decide +kernel)
  refine ⟨((beNat b : Int) % (N - 1) + 1).toNat, ?_, ?_, ?_⟩
  · unfold randFieldElement; omega
  · omega
  · have := N_eq; omega

instance : Fact c.n.Prime := ⟨good.np⟩

theorem mod_eq_of_zmod {a b : ℕ} (h : (a : ZMod c.n) = (b : ZMod c.n)) : a % c.n = b % c.n :=
  (ZMod.natCast_eq_natCast_iff' _ _ _).mp h

theorem emodN_nat (x : Int) : ∃ r : ℕ, x % N = r ∧ r < c.n ∧ ((r : ℕ) : ZMod c.n) = (x : ZMod c.n) := by
  have h1 : 0 ≤ x % N := Int.emod_nonneg _ (by decide +kernel)
  have h2 : x % N < N := Int.emod_lt_of_pos _ N_pos
  have hN := N_eq
  refine ⟨(x % N).toNat, by omega, by omega, ?_⟩
  have : (((x % N).toNat : ℕ) : Int) = x % N := by omega
  rw [← Int.cast_natCast, this, hN, ZMod.intCast_mod]

/-- outcome of the signing loop: it panics only for `d = n - 1`, and what it returns is a signature. -/
structure SignPost (d e : ℕ) (g : Go (Option (Int × Int × UInt8))) : Prop where
  pan : g = .panic → d + 1 = c.n
  sig : ∀ r s v, g = .ret (some (r, s, v)) → ∃ r' s' : ℕ, r = r' ∧ s = s' ∧ Signed d e r' s' v ∧ d + 1 ≠ c.n

theorem SignPost.none {d e : ℕ} : SignPost d e (.ret none) := ⟨fun h => (nomatch h), fun _ _ _ h => nomatch h⟩

theorem signTry_tri {d : ℕ} (hd : d < c.n) (e : ℕ) (b : Bytes) :
    (signTry d e b).Tri (SignPost d e) := by
  unfold signTry
  obtain ⟨k, hk, hk0, hkn⟩ := randFieldElement_range b
  dsimp only
  rw [hk]
  refine RTri.gbind (scalarBaseMultGh_tri _) fun p hp => ?_
  simp only [Int.natAbs_natCast, beNat_natBytes] at hp
  rw [enc_eq] at hp
  subst hp
  dsimp only
  obtain ⟨r, hr, hrn, hrc⟩ := emodN_nat ((xval (k • good.G) : Int) + (e : Int))
  rw [hr]
  split
  · exact RTri.pure SignPost.none
  rename_i hr0
  have hN := N_eq
  have hr0' : 0 < r := by
    rcases Nat.eq_zero_or_pos r with h | h
    · exfalso; apply hr0; subst h
      refine ⟨rfl, ?_⟩; omega
    · exact h
  by_cases hdn : d + 1 = c.n
  · have : modInverse ((d : Int) + 1) N = none := by
      apply modInverse_none_of_dvd (by decide +kernel)
      rw [hN]; exact ⟨1, by omega⟩
    rw [this]
    exact RTri.bind (Q := fun g => g = .panic) (RTri.ofGo rfl) (fun a ha => by cases ha) (fun _ => ⟨fun _ => hdn, fun _ _ _ h => nomatch h⟩)
  have hd1 : (((d : Int) + 1 : Int) : ZMod c.n) ≠ 0 := by
    have : ((d : Int) + 1) = ((d + 1 : ℕ) : Int) := by push_cast; ring
    rw [this, Int.cast_natCast, Ne, ZMod.natCast_eq_zero_iff]
    intro h; have := Nat.le_of_dvd (by omega) h; omega
  obtain ⟨w, hw, -, -, hwc⟩ := modInverse_prime hd1
  rw [hN, hw]
  refine RTri.bind (Q := fun g => g = .ret w) (RTri.ofGo rfl) (fun a ha => ?_) (fun h => nomatch h)
  cases ha
  rw [← hN]
  obtain ⟨s, hs, hsn, hsc⟩ := emodN_nat (((k : Int) - (d : Int) * (r : Int)) * w)
  rw [hs]
  split
  · exact RTri.pure SignPost.none
  rename_i hs0
  refine RTri.pure ⟨fun h => (nomatch h), fun r1 s1 v1 h => ?_⟩
  cases h
  refine ⟨r, s, rfl, rfl, ⟨hr0', hrn, by omega, hsn, k, hk0, hkn, ?_, ?_, ?_⟩, hdn⟩
  · rw [← Nat.mod_eq_of_lt hrn]
    apply mod_eq_of_zmod
    rw [hrc]; push_cast; ring
  · rw [← Nat.mod_eq_of_lt hkn]
    apply mod_eq_of_zmod
    push_cast
    rw [hsc]
    have : ((w : Int) : ZMod c.n) * ((d : ZMod c.n) + 1) = 1 := by
      rw [hwc]
      push_cast at hd1 ⊢
      exact inv_mul_cancel₀ hd1
    push_cast
    linear_combination ((k : ZMod c.n) - d * r) * this
  · by_cases hv : yval (k • good.G) % 2 = 1
    · rw [if_pos hv, if_pos (by omega)]
    · rw [if_neg hv, if_neg (by omega)]

theorem signLoop_tri {d : ℕ} (hd : d < c.n) (e : ℕ) (rnd : List Bytes) :
    (signLoop d e rnd).Tri (SignPost d e) := by
  induction rnd with
  | nil => exact RTri.pure SignPost.none
  | cons b bs ih =>
    rw [signLoop]
    refine RTri.bind (signTry_tri hd e b) (fun o ho => ?_) (fun h => ⟨fun _ => h.pan rfl, fun _ _ _ h => nomatch h⟩)
    cases o with
    | none => dsimp only; exact ih
    | some t => dsimp only; exact RTri.pure ho

theorem fieldBytes_consts : natBytes (toBig feA).natAbs = fieldBytes c.a ∧ natBytes B.natAbs = fieldBytes c.b ∧
    natBytes Gx.natAbs = fieldBytes c.gx ∧ natBytes Gy.natAbs = fieldBytes c.gy := by
  have hA : toBig feA = A := by decide +kernel
  rw [hA]
  exact ⟨by decide +kernel, by decide +kernel, by decide +kernel, by decide +kernel⟩

theorem entl_eq {n : ℕ} (h : n < 8192) :
    entl n = [UInt8.ofNat (8 * n / 256), UInt8.ofNat (8 * n % 256)] := by
  unfold entl
  dsimp only
  rw [Nat.mod_eq_of_lt (show 8 * n < 65536 by omega), Nat.mod_eq_of_lt (show 8 * n / 256 < 256 by omega)]

theorem ZA_eq (H : Bytes → Bytes) (Q : Pt) (uid : Bytes) :
    ZA H (xval Q) (yval Q) uid = if uid.length ≥ 8192 then .error .other else .ok (zOf H Q uid) := by
  unfold ZA
  split
  · rfl
  rename_i h
  obtain ⟨ha, hb, hx, hy⟩ := fieldBytes_consts
  rw [ha, hb, hx, hy, entl_eq (by omega)]
  simp only [Int.natAbs_natCast]
  rfl

/-- the identity, if given, is short enough. -/
def IdOk (ID : Option Bytes) : Prop := ∀ id, ID = some id → id.length < 8192

theorem digest_eq (H : Bytes → Bytes) (Q : Pt) {hash : Bytes} (hl : hash.length = 32) (ID : Option Bytes) :
    (IdOk ID ∧ digest H (xval Q) (yval Q) hash ID = .ok (digestOf H Q ID hash : Int)) ∨
    (¬ IdOk ID ∧ digest H (xval Q) (yval Q) hash ID = .error .other) := by
  cases ID with
  | none =>
    left
    refine ⟨fun _ h => (nomatch h), ?_⟩
    simp [digest, hl, digestOf]
  | some id =>
    by_cases h : id.length ≥ 8192
    · right
      refine ⟨fun hi => by have := hi id rfl; omega, ?_⟩
      simp only [digest, ZA_eq, if_pos h]
    · left
      refine ⟨fun i hi => by cases hi; omega, ?_⟩
      simp only [digest, ZA_eq, if_neg h]
      rfl

/-- outcome of `sign`. -/
structure SignRPost (H : Bytes → Bytes) (key : Bytes) (ID : Option Bytes) (hash : Bytes)
    (g : Go (Option (Except Err (Bytes × UInt8)))) : Prop where
  pan : g = .panic → beNat key + 1 = c.n
  sig : ∀ sig v, g = .ret (some (.ok (sig, v))) → key.length = 32 ∧ 0 < beNat key ∧ beNat key + 1 < c.n ∧
    hash.length = 32 ∧ IdOk ID ∧ ∃ r s : ℕ, sig = be32 r ++ be32 s ∧
      Signed (beNat key) (digestOf H (beNat key • good.G) ID hash) r s v
  err : ∀ e, g = .ret (some (.error e)) →
    (e = .privateKeyIllegal ∧ ¬ (key.length = 32 ∧ 0 < beNat key ∧ beNat key < c.n)) ∨
    (e = .messageIllegal ∧ hash.length ≠ 32) ∨ (e = .other ∧ ¬ IdOk ID)

theorem SignRPost.none {H : Bytes → Bytes} {key : Bytes} {ID : Option Bytes} {hash : Bytes} :
    SignRPost H key ID hash (.ret none) :=
  ⟨fun h => (nomatch h), fun _ _ h => (nomatch h), fun _ h => nomatch h⟩

theorem SignRPost.error {H : Bytes → Bytes} {key : Bytes} {ID : Option Bytes} {hash : Bytes} {e : Err}
    (h : (e = .privateKeyIllegal ∧ ¬ (key.length = 32 ∧ 0 < beNat key ∧ beNat key < c.n)) ∨
    (e = .messageIllegal ∧ hash.length ≠ 32) ∨ (e = .other ∧ ¬ IdOk ID)) :
    SignRPost H key ID hash (.ret (some (.error e))) :=
  ⟨fun h => (nomatch h), fun _ _ h => (nomatch h), fun _ h' => by cases h'; exact h⟩

theorem signR_tri (H : Bytes → Bytes) (key : Bytes) (ID : Option Bytes) (hash : Bytes) (rnd : List Bytes) :
    (signR H key ID hash rnd).Tri (SignRPost H key ID hash) := by
  unfold signR
  have hN := N_eq
  split
  · rename_i h; exact RTri.pure (.error (.inl ⟨rfl, fun h' => h h'.1⟩))
  rename_i hkl
  split
  · rename_i h; exact RTri.pure (.error (.inr (.inl ⟨rfl, h⟩)))
  rename_i hhl
  dsimp only
  split
  · rename_i h; exact RTri.pure (.error (.inl ⟨rfl, fun h' => by omega⟩))
  rename_i hk0
  split
  · rename_i h; exact RTri.pure (.error (.inl ⟨rfl, fun h' => by omega⟩))
  rename_i hkn
  refine RTri.gbind (scalarBaseMultGh_tri _) fun p hp => ?_
  rw [enc_eq] at hp
  subst hp
  dsimp only
  rcases digest_eq H (beNat key • good.G) (show hash.length = 32 by omega) ID with ⟨hid, hd⟩ | ⟨hid, hd⟩
  · rw [hd]
    dsimp only
    refine RTri.bind (signLoop_tri (by omega) _ rnd) (fun o ho => ?_)
      (fun h => ⟨fun _ => h.pan rfl, fun _ _ h => (nomatch h), fun _ h => nomatch h⟩)
    match o, ho with
    | none, _ => exact RTri.pure .none
    | some (r, s, v), ho =>
      obtain ⟨r', s', hr, hs, hsig, hdn⟩ := ho.sig r s v rfl
      refine RTri.pure ⟨fun h => (nomatch h), fun sg w h => ?_, fun _ h => nomatch h⟩
      rw [Go.ret.injEq, Option.some.injEq, Except.ok.injEq, Prod.mk.injEq] at h
      obtain ⟨rfl, rfl⟩ := h
      refine ⟨by omega, by omega, by omega, by omega, hid, r', s', ?_, hsig⟩
      rw [hr, hs]; rfl
  · rw [hd]
    exact RTri.pure (.error (.inr (.inr ⟨rfl, hid⟩)))

/-- what the code computes for the point of the verification equation: the sum, except that adding equal points gives
infinity. -/
noncomputable def codeSum (A B : Pt) : Pt := if A = B then 0 else A + B

theorem addGh_code {x1 y1 x2 y2 : Int} {Q R : Pt} (h1 : Rep c x1 y1 Q) (h2 : Rep c x2 y2 R) :
    (addGh x1 y1 x2 y2).Tri (· = enc c (codeSum Q R)) := by
  unfold codeSum
  split
  · rename_i h; subst h; exact addGh_self_tri h1 h2
  · rename_i h; exact addGh_tri h1 h2 (fun h' => absurd h' h)

theorem codeSum_eq {A B : Pt} (h : A = B → A = 0) : codeSum A B = A + B := by
  unfold codeSum
  split
  · rename_i h'; rw [← h', h h', add_zero]
  · rfl

theorem beNat_natAbs (n : ℕ) : beNat (natBytes ((n : Int)).natAbs) = n := by simp

theorem verifyCore_tri {X Y : Int} {Q : Pt} (hQ : Q ≠ 0) (h : Rep c X Y Q) (e r s : ℕ) :
    (verifyCore X Y e r s).Tri (fun b => (b = true ↔ 0 < r ∧ r < c.n ∧ 0 < s ∧ s < c.n ∧ (r + s) % c.n ≠ 0 ∧
      (e + xval (codeSum (s • good.G) (((r + s) % c.n) • Q))) % c.n = r)) := by
  have hN := N_eq
  unfold verifyCore
  split
  · refine Tri.pure ?_
    simp only [Bool.false_eq_true, false_iff]; omega
  split
  · refine Tri.pure ?_
    simp only [Bool.false_eq_true, false_iff]; omega
  dsimp only
  have ht : ((r : Int) + (s : Int)) % N = (((r + s) % c.n : ℕ) : Int) := by rw [hN]; push_cast; rfl
  rw [ht]
  split
  · refine Tri.pure ?_
    rename_i h0
    have : (r + s) % c.n = 0 := by exact_mod_cast h0
    simp [this]
  rename_i ht0
  have ht0' : (r + s) % c.n ≠ 0 := by exact_mod_cast ht0
  refine Tri.bind (scalarBaseMultGh_tri _) fun p1 hp1 => ?_
  refine Tri.bind (scalarMultGh_tri hQ h _) fun p2 hp2 => ?_
  rw [beNat_natAbs] at hp1 hp2
  subst hp1 hp2
  refine Tri.bind (addGh_code (rep_enc _) (rep_enc _)) fun p hp => ?_
  rw [enc_eq] at hp
  subst hp
  refine Tri.pure ?_
  rw [beq_iff_eq]
  generalize xval (codeSum _ _) = x
  have : ((x : Int) + (e : Int)) % N = (((e + x) % c.n : ℕ) : Int) := by rw [hN]; push_cast; rw [add_comm]
  rw [this, Int.natCast_inj]
  constructor
  · intro h'; exact ⟨by omega, by omega, by omega, by omega, ht0', h'⟩
  · intro h'; exact h'.2.2.2.2.2

theorem verifyR_tri (H : Bytes → Bytes) {pub : Bytes} {Q : Pt} (hQ : Encodes pub Q) (ID : Option Bytes) (hash sig : Bytes) :
    (verifyR H pub ID hash sig).Tri (fun b => (b = true ↔ sig.length = 64 ∧ hash.length = 32 ∧ IdOk ID ∧
      let r := beNat (sig.take 32)
      let s := beNat (sig.drop 32)
      0 < r ∧ r < c.n ∧ 0 < s ∧ s < c.n ∧ (r + s) % c.n ≠ 0 ∧
      (digestOf H Q ID hash + xval (codeSum (s • good.G) (((r + s) % c.n) • Q))) % c.n = r)) := by
  unfold verifyR
  rw [if_neg (by simp [hQ.2.1])]
  split
  · rename_i h; exact Tri.pure (by simp [h])
  rename_i hsl
  split
  · rename_i h; exact Tri.pure (by simp [h])
  rename_i hhl
  have hsl' : sig.length = 64 := by omega
  have hhl' : hash.length = 32 := by omega
  dsimp only
  rw [hQ.2.2.1, hQ.2.2.2]
  rcases digest_eq H Q hhl' ID with ⟨hid, hd⟩ | ⟨hid, hd⟩
  · rw [hd]
    have hrep := rep_enc Q
    rw [enc_eq] at hrep
    refine Tri.mono (verifyCore_tri hQ.1 hrep _ _ _) fun b hb => ?_
    rw [hb]
    simp [hsl', hhl', hid]
  · rw [hd]
    exact Tri.pure (by simp [hid])

/-- signing and verification are inverse to each other in the group. -/
theorem Signed.point {d e r s : ℕ} {v : UInt8} (h : Signed d e r s v) :
    (e + xval (s • good.G + ((r + s) % c.n) • (d • good.G))) % c.n = r := by
  obtain ⟨-, -, -, -, k, -, hkn, hr, hk, -⟩ := h
  have : s • good.G + ((r + s) % c.n) • (d • good.G) = k • good.G := by
    rw [mod_smul, ← mul_nsmul', ← add_nsmul]
    rw [← mod_smul, ← hk]
    congr 1
    ring_nf
  rw [this, hr]

end Verif.SM2
