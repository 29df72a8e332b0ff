import Verif.Ed25519.Api
import Verif.Ed25519.ScalarMult

/-!
# Ed25519 signatures: what key generation, signing and verification compute
-/

namespace Verif.Ed25519

open Edwards

/-! ## The order of the base point -/

theorem addOrder_base : addOrderOf base = L := by
  have h := addOrderOf_dvd_of_nsmul_eq_zero L_base
  rcases (Nat.dvd_prime (Fact.out : Nat.Prime L)).mp h with h1 | h1
  · exact absurd (AddMonoid.addOrderOf_eq_one_iff.mp h1) base_ne_zero
  · exact h1

theorem zsmul_base_eq_zero {n : Int} : n • base = 0 ↔ (L : Int) ∣ n := by
  rw [← addOrder_base]; exact addOrderOf_dvd_iff_zsmul_eq_zero.symm

theorem nsmul_base_mod (n : ℕ) : (n % L) • base = n • base := by
  rw [← addOrder_base]; exact mod_addOrderOf_nsmul base n

theorem nsmul_base_eq {a b : ℕ} : a • base = b • base ↔ a % L = b % L := by
  rw [← addOrder_base]
  exact nsmul_eq_nsmul_iff_modEq

/-! ## Clamping -/

theorem byte_all {p : UInt8 → Prop} (h : ∀ n : Fin 256, p (UInt8.ofNat n.val)) (b : UInt8) : p b := by
  have := h ⟨b.toNat, UInt8.toNat_lt b⟩
  simpa using this

theorem and_248 (b : UInt8) : (b &&& 248).toNat = b.toNat / 8 * 8 := by
  revert b; exact byte_all (by decide +kernel)

theorem clamp_63 (b : UInt8) : (b &&& 63 ||| 64).toNat = 64 + b.toNat % 64 := by
  revert b; exact byte_all (by decide +kernel)

theorem clamp_127 (b : UInt8) : b &&& 127 ||| 64 = b &&& 63 ||| 64 := by
  revert b; exact byte_all (by decide +kernel)

theorem and_224 (b : UInt8) : b &&& 224 = 0 ↔ b.toNat < 32 := by
  revert b; exact byte_all (by decide +kernel)

theorem and_127 (b : UInt8) : (b &&& 0x7F).toNat = b.toNat % 128 := by
  revert b; exact byte_all (by decide +kernel)

theorem and_128 (b : UInt8) : (b &&& 0x80).toNat = b.toNat / 128 * 128 := by
  revert b; exact byte_all (by decide +kernel)

/-- the scalar of RFC 8032: the three low bits and the top bit cleared, the second highest set. -/
def clampNat (n : ℕ) : ℕ := 2 ^ 254 + n % 2 ^ 254 / 8 * 8

theorem clampSign_length (s : Bytes) : (clampSign s).length = s.length := by simp [clampSign, setByte]

theorem split32 {s : Bytes} (h : s.length = 32) : ∃ (a : UInt8) (m : Bytes) (b : UInt8), m.length = 30 ∧ s = a :: (m ++ [b]) := by
  match s, h with
  | a :: t, h =>
    have ht : t.length = 31 := by simpa using h
    have hne : t ≠ [] := by intro h0; rw [h0] at ht; simp at ht
    refine ⟨a, t.dropLast, t.getLast hne, by simp [ht], ?_⟩
    rw [List.dropLast_append_getLast hne]

theorem clampSign_val {s : Bytes} (h : s.length = 32) : leNat (clampSign s) = clampNat (leNat s) := by
  obtain ⟨a, m, b, hm, rfl⟩ := split32 h
  have e : clampSign (a :: (m ++ [b])) = (a &&& 248) :: (m ++ [b &&& 63 ||| 64]) := by
    simp [clampSign, setByte, List.set_append, List.getD, List.getElem?_append, hm]
  have lt := leNat_lt m
  rw [hm] at lt
  have ha := UInt8.toNat_lt a
  have hb := UInt8.toNat_lt b
  rw [e, clampNat]
  simp only [leNat, leNat_append, hm, and_248, clamp_63, Nat.mul_zero, Nat.add_zero]
  have h30 : (256 : ℕ) ^ 30 = 2 ^ 240 := by norm_num
  rw [h30] at lt ⊢
  have key : (a.toNat + 256 * (leNat m + 2 ^ 240 * b.toNat)) % 2 ^ 254 = a.toNat + 256 * (leNat m + 2 ^ 240 * (b.toNat % 64)) := by
    have : a.toNat + 256 * (leNat m + 2 ^ 240 * b.toNat) =
        a.toNat + 256 * (leNat m + 2 ^ 240 * (b.toNat % 64)) + 2 ^ 254 * (b.toNat / 64) := by
      have := Nat.div_add_mod b.toNat 64
      omega
    rw [this, Nat.add_mul_mod_self_left, Nat.mod_eq_of_lt]
    have : b.toNat % 64 ≤ 63 := by omega
    omega
  rw [key]
  omega

theorem clampNat_lt (n : ℕ) : clampNat n < 2 ^ 255 := by
  have : n % 2 ^ 254 < 2 ^ 254 := Nat.mod_lt _ (by positivity)
  unfold clampNat
  omega

theorem clampPub_take {s : Bytes} (h : s.length = 64) : (clampPub s).take 32 = clampSign (s.take 32) := by
  have ht : (s.take 32).length = 32 := by rw [List.length_take, h]; rfl
  have hs : s = s.take 32 ++ s.drop 32 := (List.take_append_drop 32 s).symm
  obtain ⟨a, m, b, hm, e⟩ := split32 ht
  rw [e] at hs ⊢
  rw [hs]
  simp [clampPub, clampSign, setByte, List.set_append, List.getD, List.getElem?_append, List.take_append, hm, clamp_127]

/-! ## Verification -/

theorem extNeg_rep {p : Ext} {A : Pt} (h : RepE p A) : RepE (extNeg p) (-A) := by
  refine ⟨feNeg_bd h.tX, h.tY, h.tZ, feNeg_bd h.tT, h.z0, ?_, ?_, ?_⟩ <;> simp only [extNeg, neg_x, neg_y]
  · rw [feNeg_val h.tX, h.x]; ring
  · rw [h.y]
  · rw [feNeg_val h.tT, h.t]; ring

theorem top_bits {s : Bytes} (h : s.length = 32) : s.getD 31 0 &&& 224 = 0 ↔ leNat s < 2 ^ 253 := by
  rw [and_224]
  have lt := leNat_lt (s.take 31)
  rw [List.length_take, h] at lt
  have lt : leNat (s.take 31) < 256 ^ 31 := lt
  have sp := last_split s h
  have h31 : (256 : ℕ) ^ 31 * 32 = 2 ^ 253 := by norm_num
  constructor
  · intro hb
    have : 256 ^ 31 * (s.getD 31 0).toNat ≤ 256 ^ 31 * 31 := Nat.mul_le_mul_left _ (by omega)
    omega
  · intro hv
    by_contra hc
    have : 256 ^ 31 * 32 ≤ 256 ^ 31 * (s.getD 31 0).toNat := Nat.mul_le_mul_left _ (by omega)
    omega

theorem scReduce_lt {s : Bytes} (h : s.length = 64) : leNat (scReduce s) < 2 ^ 253 := by
  rw [scReduce_spec h]
  exact lt_trans (Nat.mod_lt _ (by decide)) (by rw [L_eq]; norm_num)

theorem getD_drop (s : Bytes) (i j : ℕ) : (s.drop i).getD j 0 = s.getD (i + j) 0 := by simp [List.getD]

theorem eq_iff_leNat {a b : Bytes} (h : a.length = b.length) : a = b ↔ leNat a = leNat b :=
  ⟨fun e => by rw [e], leNat_inj_of_length h⟩

/-- the verification equation with `-A`: `s B - h A`. -/
theorem dsm_eq {p : Ext} {A : Pt} (h : RepE p A) {hash S : Bytes} (hh : hash.length = 64) (hS : S.length = 32) (hlt : leNat S < 2 ^ 253) :
    leNat (projToBytes (geDoubleScalarMult (scReduce hash) (extNeg p) S)) = enc (leNat S • base - (leNat hash % L) • A) := by
  have r := geDoubleScalarMult_rep (extNeg_rep h) (scReduce_length hash) (scReduce_lt hh) hS hlt
  rw [projToBytes_spec r, scReduce_spec hh, smul_neg]
  congr 1
  abel

theorem edVerify_iff {sha512 : Bytes → Bytes} (hsha : ∀ m, (sha512 m).length = 64) (pub msg sig : Bytes) :
    edVerify sha512 pub msg sig = true ↔ pub.length = 32 ∧ sig.length = 64 ∧ leNat (sig.drop 32) < 2 ^ 253 ∧
      ∃ A : Pt, Decodes pub A ∧
        leNat (sig.take 32) = enc (leNat (sig.drop 32) • base - (leNat (sha512 (sig.take 32 ++ pub ++ msg)) % L) • A) := by
  unfold edVerify
  by_cases hp : pub.length = 32
  · rw [if_neg (by simpa using hp)]
    by_cases hs : sig.length = 64
    · have hd : (sig.drop 32).length = 32 := by rw [List.length_drop, hs]
      have ht : (sig.take 32).length = 32 := by rw [List.length_take, hs]; rfl
      have hb := top_bits hd
      rw [getD_drop] at hb
      by_cases hv : leNat (sig.drop 32) < 2 ^ 253
      · have hb' := hb.mpr hv
        rw [if_neg (by rw [not_or]; exact ⟨by simpa using hs, by simpa using hb'⟩)]
        dsimp only
        rcases extFromBytes_spec hp with ⟨h1, A, hA, r⟩ | ⟨h1, h2⟩
        · rw [if_neg (by simp [h1]), beq_iff_eq, eq_iff_leNat (by rw [projToBytes, affBytes_length, ht]), dsm_eq r (hsha _) hd hv]
          constructor
          · intro e; exact ⟨hp, hs, hv, A, hA, e.symm⟩
          · rintro ⟨_, _, _, A', hA', e⟩
            rw [hA.unique hA']; exact e.symm
        · rw [if_pos (by simp [h1])]
          simp only [Bool.false_eq_true, false_iff]
          rintro ⟨_, _, _, A, hA, _⟩
          exact h2 A hA.1
      · rw [if_pos (Or.inr (fun h => hv (hb.mp h)))]
        simp only [hv, false_and, and_false, Bool.false_eq_true]
    · rw [if_pos (Or.inl hs)]
      simp [hs]
  · rw [if_pos hp]
    simp [hp]

/-! ## Signing -/

theorem extToBytes_length (p : Ext) : (extToBytes p).length = 32 := affBytes_length _ _ _

/-- what `signCore` returns. -/
theorem signCore_spec {sha512 : Bytes → Bytes} (hsha : ∀ m, (sha512 m).length = 64) {expanded pub seed msg : Bytes}
    (he : expanded.length = 32) : let sig := signCore sha512 expanded pub seed msg
    let r := leNat (sha512 (seed ++ msg)) % L
    sig.length = 64 ∧ leNat (sig.take 32) = enc (r • base) ∧
      leNat (sig.drop 32) = (leNat (sha512 (sig.take 32 ++ pub ++ msg)) % L * leNat expanded + r) % L := by
  intro sig r
  have lr : leNat (scReduce (sha512 (seed ++ msg))) = r := scReduce_spec (hsha _)
  have rr := geScalarMultBase_rep (scReduce_length (sha512 (seed ++ msg)))
    (lt_trans (scReduce_lt (hsha _)) (by norm_num))
  have lR := extToBytes_spec rr
  have hl := extToBytes_length (geScalarMultBase (scReduce (sha512 (seed ++ msg))))
  have ht : sig.take 32 = extToBytes (geScalarMultBase (scReduce (sha512 (seed ++ msg)))) := by
    simp only [sig, signCore]
    rw [List.take_left' hl]
  have hd : sig.drop 32 = scMulAdd (scReduce (sha512 (sig.take 32 ++ pub ++ msg))) expanded (scReduce (sha512 (seed ++ msg))) := by
    rw [ht]
    simp only [sig, signCore]
    rw [List.drop_left' hl]
  refine ⟨?_, ?_, ?_⟩
  · simp only [sig, signCore, List.length_append, hl, scMulAdd_length]
  · rw [ht, lR, lr]
  · rw [hd, scMulAdd_spec (scReduce_length _) he (scReduce_length _), lr, scReduce_spec (hsha _)]

theorem L_lt : L < 2 ^ 253 := by rw [L_eq]; norm_num

/-- a signature made with the scalar `leNat expanded` under the public key of the scalar `k` is accepted exactly when `L` divides
`h (leNat expanded - k)`, where `h` is the hash. -/
theorem sign_verify_iff {sha512 : Bytes → Bytes} (hsha : ∀ m, (sha512 m).length = 64) {expanded pub seed msg : Bytes}
    (he : expanded.length = 32) (hp : pub.length = 32) {k : ℕ} (hk : leNat pub = enc (k • base)) :
    let sig := signCore sha512 expanded pub seed msg
    edVerify sha512 pub msg sig = true ↔
      (L : Int) ∣ (leNat (sha512 (sig.take 32 ++ pub ++ msg)) : Int) * ((leNat expanded : Int) - k) := by
  intro sig
  obtain ⟨h1, h2, h3⟩ := signCore_spec hsha (pub := pub) (seed := seed) (msg := msg) he
  change sig.length = 64 at h1
  change leNat (sig.take 32) = _ at h2
  change leNat (sig.drop 32) = (leNat (sha512 (sig.take 32 ++ pub ++ msg)) % L * _ + _) % L at h3
  generalize leNat (sha512 (seed ++ msg)) % L = r at *
  generalize hh : leNat (sha512 (sig.take 32 ++ pub ++ msg)) = H at *
  have dec := decodes_of_enc hk
  have hlt : leNat (sig.drop 32) < 2 ^ 253 := by rw [h3]; exact lt_trans (Nat.mod_lt _ (by decide)) L_lt
  rw [edVerify_iff hsha]
  have key : leNat (sig.drop 32) • base - (H % L) • k • base = r • base ↔ (L : Int) ∣ (H : Int) * ((leNat expanded : Int) - k) := by
    rw [h3, nsmul_base_mod, ← sub_eq_zero]
    have : (H % L * leNat expanded + r) • base - (H % L) • k • base - r • base =
        ((H % L : ℕ) * ((leNat expanded : Int) - k) : Int) • base := by
      rw [← mul_nsmul', ← natCast_zsmul, ← natCast_zsmul, ← natCast_zsmul, ← sub_smul, ← sub_smul]
      refine congrArg (fun z : Int => z • base) ?_
      generalize H % L = H'
      push_cast
      ring
    rw [this, zsmul_base_eq_zero, Int.natCast_mod]
    constructor
    · intro hd
      have : (H : Int) * ((leNat expanded : Int) - k) = (H % L : Int) * ((leNat expanded : Int) - k) +
          (L : Int) * ((H / L : Int) * ((leNat expanded : Int) - k)) := by
        have := Int.emod_add_mul_ediv (H : Int) L
        conv_lhs => rw [← this]
        ring
      rw [this]
      exact dvd_add hd (Dvd.intro _ rfl)
    · intro hd
      have : (H % L : Int) * ((leNat expanded : Int) - k) = (H : Int) * ((leNat expanded : Int) - k) -
          (L : Int) * ((H / L : Int) * ((leNat expanded : Int) - k)) := by
        have := Int.emod_add_mul_ediv (H : Int) L
        conv_rhs => lhs; rw [← this]
        ring
      rw [this]
      exact dvd_sub hd (Dvd.intro _ rfl)
  rw [← key, hh]
  constructor
  · rintro ⟨_, _, _, A, hA, e⟩
    rw [hA.unique dec, h2] at e
    exact (enc_injective e).symm
  · intro e
    exact ⟨hp, h1, hlt, _, dec, by rw [e, h2]⟩

/-! ## X25519: reading a public key -/

theorem sign_neg_spec {s : Bytes} (h : s.length = 32) {X Y : Fe} (tX : Loose X) (tY : Tight Y)
    (hy : fval Y = ((leNat s % 2 ^ 255 : ℕ) : F))
    (on : fval Y ^ 2 - fval X ^ 2 = 1 + D * fval X ^ 2 * fval Y ^ 2) :
    let X' := if feIsNegative X = s.getD 31 0 >>> 7 then feNeg (feReduce X) else feReduce X
    ∃ A : Pt, Decodes s A ∧ RepE ⟨X', Y, feOne, feMul X' Y⟩ (-A) := by
  intro X'
  have n := feIsNegative_spec tX
  have r := feReduce_canon tX
  have rv := feReduce_val tX
  have hs := sign_bit h
  have key : Wide X' ∧ fval X' ^ 2 = fval X ^ 2 ∧ (-fval X' = 0 ∨ (-fval X').val % 2 = leNat s / 2 ^ 255) := by
    simp only [X']
    split
    · rename_i he
      refine ⟨feNeg_bd r.bd, by rw [feNeg_val r.bd, rv]; ring, Or.inr ?_⟩
      rw [feNeg_val r.bd, rv, neg_neg, ← n, he, hs]
    · rename_i hne
      refine ⟨r.bd, by rw [rv], ?_⟩
      rw [rv]
      by_cases hz : fval X = 0
      · left; rw [hz, neg_zero]
      · right
        have a := neg_parity hz
        have hb : leNat s / 2 ^ 255 < 2 := by
          have := leNat_lt s
          rw [h] at this
          have : leNat s < 2 ^ 256 := lt_of_lt_of_le this (by norm_num)
          omega
        have : (fval X).val % 2 ≠ leNat s / 2 ^ 255 := by
          rw [← n, ← hs]
          exact fun e => hne (UInt8.toNat_inj.mp e)
        omega
  obtain ⟨w, sq, par⟩ := key
  refine ⟨⟨-fval X', fval Y, by rw [neg_sq, sq]; exact on⟩, ⟨hy, par⟩, w, tY, feOne_tight, feMul_tight w.loose tY.loose, ?_, ?_, ?_, ?_⟩ <;>
    simp only [neg_x, neg_y] <;> rw [feOne_val]
  · exact one_ne_zero
  · ring
  · ring
  · rw [feMul_val w.loose tY.loose]; ring

theorem extFromBytesNegate_spec {s : Bytes} (h : s.length = 32) :
    ((extFromBytesNegate s).1 = true ∧ ∃ A : Pt, Decodes s A ∧ RepE (extFromBytesNegate s).2 (-A)) ∨
      ((extFromBytesNegate s).1 = false ∧ ∀ A : Pt, A.y ≠ ((leNat s % 2 ^ 255 : ℕ) : F)) := by
  have base := extFromBytes_spec h
  obtain ⟨tY, hy⟩ := feFromBytes_spec h
  have sp := sqrtCand_spec tY
  simp only [extFromBytes] at base
  simp only [extFromBytesNegate]
  simp only at sp
  generalize feFromBytes s = Y at *
  generalize sqrtCand Y = c at *
  obtain ⟨u, X, vxx⟩ := c
  simp only at sp base ⊢
  obtain ⟨tu, tX, tv, hu, hv, hw⟩ := sp
  have tu' : Bd 67779952 33889976 u := tu
  have cs := feIsNonZero_spec (feSub_bd tv tu').loose
  have ca := feIsNonZero_spec (feAdd_bd tv tu').loose
  rw [feSub_val tv tu', hu, hv] at cs
  rw [feAdd_val tv tu', hu, hv] at ca
  by_cases h1 : (D * fval Y ^ 2 + 1) * fval X ^ 2 - (fval Y ^ 2 - 1) = 0
  · rw [if_pos h1] at cs
    rw [cs, if_neg (by decide)]
    left
    exact ⟨rfl, sign_neg_spec h tX.loose tY hy ((on_iff _ _).mpr (by linear_combination h1))⟩
  · rw [if_neg h1] at cs
    rw [cs, if_pos (by decide)]
    by_cases h2 : (D * fval Y ^ 2 + 1) * fval X ^ 2 + (fval Y ^ 2 - 1) = 0
    · rw [if_pos h2] at ca
      rw [ca, if_neg (by decide)]
      left
      have tm := feMul_tight tX.loose sqrtM1C_tight.loose
      refine ⟨rfl, sign_neg_spec h tm.loose tY hy ((on_iff _ _).mpr ?_)⟩
      rw [feMul_val tX.loose sqrtM1C_tight.loose, sqrtM1C_val]
      linear_combination -h2 + (D * fval Y ^ 2 + 1) * fval X ^ 2 * sqrtM1_sq
    · rw [if_neg h2] at ca
      rw [cs, ca, if_pos rfl, if_pos rfl] at base
      rw [ca, if_pos (by decide)]
      right
      rcases base with ⟨h3, _⟩ | h3
      · exact absurd h3 (by simp)
      · exact h3

/-! ## Conversions -/

theorem montToEdy_spec {u : Fe} (h : Tight u) : Tight (montToEdy u) ∧ fval (montToEdy u) = (fval u - 1) / (fval u + 1) := by
  have t1 := feSub_bd h feOne_tight
  have t2 := feAdd_bd h feOne_tight
  obtain ⟨t3, e3⟩ := feInvert_spec t2.loose
  refine ⟨feMul_tight t1.loose t3.loose, ?_⟩
  simp only [montToEdy]
  rw [feMul_val t1.loose t3.loose, e3, feSub_val h feOne_tight, feAdd_val h feOne_tight, feOne_val, div_eq_mul_inv]

theorem montFromEdy_spec {y : Fe} (h : Tight y) : Tight (montFromEdy y) ∧ fval (montFromEdy y) = (1 + fval y) / (1 - fval y) := by
  have t1 := feSub_bd feOne_tight h
  have t2 := feAdd_bd h feOne_tight
  obtain ⟨t3, e3⟩ := feInvert_spec t1.loose
  refine ⟨feMul_tight t3.loose t2.loose, ?_⟩
  simp only [montFromEdy]
  rw [feMul_val t3.loose t2.loose, e3, feSub_val feOne_tight h, feAdd_val h feOne_tight, feOne_val, div_eq_mul_inv]
  ring

theorem feIsReduced_iff {s : Bytes} (h : s.length = 32) : feIsReduced s = false ↔ leNat s < P := by
  obtain ⟨t, e⟩ := feFromBytes_spec h
  unfold feIsReduced
  rw [bne_eq_false_iff_eq, eq_iff_leNat (by rw [h, feToBytes_length]), feToBytes_spec t.loose, e]
  constructor
  · intro hh; rw [hh]; exact ZMod.val_lt _
  · intro hlt
    have hP : P < 2 ^ 255 := by rw [P_eq]; norm_num
    rw [Nat.mod_eq_of_lt (by omega)]
    exact (ZMod.val_natCast_of_lt hlt).symm

/-- `ConvertXToEd` on a 32-byte string. -/
theorem convertXToEd_spec {x : Bytes} (h : x.length = 32) :
    (leNat x < P → ∃ b, convertXToEd x = .ok b ∧ b.length = 32 ∧ leNat b = (((leNat x : F) - 1) / ((leNat x : F) + 1)).val) ∧
    (P ≤ leNat x → convertXToEd x = .error .other) := by
  have hr := feIsReduced_iff h
  obtain ⟨t, e⟩ := feFromBytes_spec h
  obtain ⟨t2, e2⟩ := montToEdy_spec t
  unfold convertXToEd
  constructor
  · intro hlt
    have hP : P < 2 ^ 255 := by rw [P_eq]; norm_num
    rw [if_neg (by rw [hr.mpr hlt]; simp)]
    refine ⟨_, rfl, feToBytes_length _, ?_⟩
    rw [feToBytes_spec t2.loose, e2, e, Nat.mod_eq_of_lt (by omega)]
  · intro hge
    rw [if_pos]
    by_contra hc
    have := hr.mp (by simpa using hc)
    omega

/-- `ConvertEdToX` on a 32-byte string. -/
theorem convertEdToX_spec {ed : Bytes} (h : ed.length = 32) : let y : F := ((leNat ed % 2 ^ 255 : ℕ) : F)
    ∃ b, convertEdToX ed = .ok b ∧ b.length = 32 ∧ leNat b = ((1 + y) / (1 - y)).val := by
  intro y
  obtain ⟨t, e⟩ := feFromBytes_spec h
  obtain ⟨t2, e2⟩ := montFromEdy_spec t
  have hv := feToBytes_spec t2.loose
  have hr : feIsReduced (feToBytes (montFromEdy (feFromBytes ed))) = false := by
    rw [feIsReduced_iff (feToBytes_length _), hv]
    exact ZMod.val_lt _
  unfold convertEdToX
  dsimp only
  rw [if_neg (by rw [hr]; simp)]
  refine ⟨_, rfl, feToBytes_length _, ?_⟩
  rw [hv, e2, e]

/-! ## X25519 signatures -/

theorem top_or (x c : UInt8) : (x &&& 0x7F ||| (c &&& 0x80)).toNat = x.toNat % 128 + 128 * (c.toNat / 128) := by
  have h0 : ∀ c : UInt8, c &&& 0x80 = 0 ∧ c.toNat / 128 = 0 ∨ c &&& 0x80 = 0x80 ∧ c.toNat / 128 = 1 := byte_all (by decide +kernel)
  have h1 : ∀ x : UInt8, (x &&& 0x7F ||| 0).toNat = x.toNat % 128 ∧ (x &&& 0x7F ||| 0x80).toNat = x.toNat % 128 + 128 :=
    byte_all (by decide +kernel)
  rcases h0 c with ⟨e, e'⟩ | ⟨e, e'⟩ <;> rw [e, e']
  · exact (h1 x).1
  · exact (h1 x).2

theorem low255 {s : Bytes} (h : s.length = 32) :
    leNat s % 2 ^ 255 = leNat (s.take 31) + 256 ^ 31 * ((s.getD 31 0).toNat % 128) ∧ leNat s / 2 ^ 255 = (s.getD 31 0).toNat / 128 := by
  have lt := leNat_lt (s.take 31)
  rw [List.length_take, h] at lt
  have lt : leNat (s.take 31) < 256 ^ 31 := lt
  have sp := last_split s h
  generalize (s.getD 31 0).toNat = b at *
  have h31 : (256 : ℕ) ^ 31 * 128 = 2 ^ 255 := by norm_num
  have e : leNat s = leNat (s.take 31) + 256 ^ 31 * (b % 128) + 2 ^ 255 * (b / 128) := by
    rw [sp]
    conv_lhs => rw [← Nat.mod_add_div b 128]
    rw [← h31]; ring
  have hlt : leNat (s.take 31) + 256 ^ 31 * (b % 128) < 2 ^ 255 := by
    have : b % 128 ≤ 127 := by omega
    have : 256 ^ 31 * (b % 128) ≤ 256 ^ 31 * 127 := Nat.mul_le_mul_left _ this
    omega
  rw [e]
  constructor
  · rw [Nat.add_mul_mod_self_left, Nat.mod_eq_of_lt hlt]
  · rw [Nat.add_mul_div_left _ _ (by positivity), Nat.div_eq_of_lt hlt, Nat.zero_add]

theorem clear_top {s : Bytes} (h : s.length = 32) : leNat (setByte s 31 (· &&& 0x7F)) = leNat s % 2 ^ 255 := by
  rw [setByte, set_last _ h, (low255 h).1, and_127]

theorem with_top {s : Bytes} (h : s.length = 32) (c : UInt8) :
    leNat (setByte s 31 (fun x => x &&& 0x7F ||| (c &&& 0x80))) = leNat s % 2 ^ 255 + 2 ^ 255 * (c.toNat / 128) := by
  rw [setByte, set_last _ h, (low255 h).1, top_or]
  have h31 : (256 : ℕ) ^ 31 * 128 = 2 ^ 255 := by norm_num
  rw [← h31]; ring

theorem setByte_length (s : Bytes) (i : ℕ) (f : UInt8 → UInt8) : (setByte s i f).length = s.length := by simp [setByte]

theorem setByte_take {s : Bytes} (f : UInt8 → UInt8) : (setByte s 63 f).take 32 = s.take 32 := by
  unfold setByte
  rw [List.take_set_of_le (by omega)]

theorem setByte_drop {s : Bytes} (h : s.length = 64) (f : UInt8 → UInt8) : (setByte s 63 f).drop 32 = setByte (s.drop 32) 31 f := by
  unfold setByte
  rw [List.drop_set, if_neg (by omega), getD_drop]

/-- the accepted signatures of `verify_modify`. -/
theorem verifyModify_iff {sha512 : Bytes → Bytes} (hsha : ∀ m, (sha512 m).length = 64) {R S pk : Bytes} (msg : Bytes)
    (hR : R.length = 32) (hS : S.length = 32) (hp : pk.length = 32) :
    verifyModify sha512 R S msg pk = true ↔ leNat S < 2 ^ 253 ∧
      ∃ A : Pt, Decodes pk A ∧ leNat R = enc (leNat S • base - (leNat (sha512 (R ++ pk ++ msg)) % L) • A) := by
  have hb := top_bits hS
  unfold verifyModify
  by_cases hv : leNat S < 2 ^ 253
  · rw [if_neg (by simpa using hb.mpr hv)]
    dsimp only
    rcases extFromBytesNegate_spec hp with ⟨h1, A, hA, r⟩ | ⟨h1, h2⟩
    · have rr := geDoubleScalarMult_rep r (scReduce_length (sha512 (R ++ pk ++ msg))) (scReduce_lt (hsha _)) hS hv
      have e0 : leNat S • base - (leNat (sha512 (R ++ pk ++ msg)) % L) • A =
          (leNat (sha512 (R ++ pk ++ msg)) % L) • (-A) + leNat S • base := by
        rw [smul_neg]; abel
      rw [if_neg (by simp [h1]), beq_iff_eq, eq_iff_leNat (by rw [projToBytes, affBytes_length, hR]), projToBytes_spec rr,
        scReduce_spec (hsha _), ← e0]
      constructor
      · intro e; exact ⟨hv, A, hA, e.symm⟩
      · rintro ⟨_, A', hA', e⟩
        rw [hA.unique hA']; exact e.symm
    · rw [if_pos (by simp [h1])]
      simp only [Bool.false_eq_true, false_iff]
      rintro ⟨_, A, hA, _⟩
      exact h2 A hA.1
  · rw [if_pos (fun h => hv (hb.mp h))]
    simp only [hv, false_and, Bool.false_eq_true]

/-- the Edwards `y` of a Montgomery `u`. -/
def edY (u : F) : F := (u - 1) / (u + 1)

/-- the accepted signatures of `X25519_verify`. -/
theorem xVerify_iff {sha512 : Bytes → Bytes} (hsha : ∀ m, (sha512 m).length = 64) (pub msg sig : Bytes) :
    xVerify sha512 pub msg sig = true ↔ pub.length = 32 ∧ sig.length = 64 ∧ msg ≠ [] ∧
      leNat (sig.drop 32) % 2 ^ 255 < 2 ^ 253 ∧
      ∃ (pk : Bytes) (A : Pt), pk.length = 32 ∧
        leNat pk = (edY ((leNat pub % 2 ^ 255 : ℕ) : F)).val + 2 ^ 255 * (leNat (sig.drop 32) / 2 ^ 255) ∧ Decodes pk A ∧
        leNat (sig.take 32) = enc ((leNat (sig.drop 32) % 2 ^ 255) • base -
          (leNat (sha512 (sig.take 32 ++ pk ++ msg)) % L) • A) := by
  unfold xVerify
  by_cases h : sig.length ≠ 64 ∨ pub.length ≠ 32 ∨ msg.length = 0
  · rw [if_pos h]
    simp only [Bool.false_eq_true, false_iff]
    rintro ⟨h1, h2, h3, _⟩
    rcases h with h | h | h
    · exact h h2
    · exact h h1
    · exact h3 (List.length_eq_zero_iff.mp h)
  · rw [if_neg h]
    push Not at h
    obtain ⟨hs, hp, hm⟩ := h
    have hm : msg ≠ [] := fun e => hm (by rw [e]; rfl)
    have hd : (sig.drop 32).length = 32 := by rw [List.length_drop, hs]
    have ht : (sig.take 32).length = 32 := by rw [List.length_take, hs]; rfl
    obtain ⟨t, e⟩ := feFromBytes_spec hp
    obtain ⟨t2, e2⟩ := montToEdy_spec t
    have hv := feToBytes_spec t2.loose
    have hl := feToBytes_length (montToEdy (feFromBytes pub))
    dsimp only
    generalize feToBytes (montToEdy (feFromBytes pub)) = yb at *
    have hlow : leNat yb % 2 ^ 255 = (edY ((leNat pub % 2 ^ 255 : ℕ) : F)).val := by
      rw [hv, e2, e]
      have hP : P < 2 ^ 255 := by rw [P_eq]; norm_num
      exact Nat.mod_eq_of_lt (lt_trans (val_lt_P _) hP)
    have hpk := with_top hl (sig.getD 63 0)
    have h63 : sig.getD 63 0 = (sig.drop 32).getD 31 0 := (getD_drop sig 32 31).symm
    rw [hlow, h63, ← (low255 hd).2] at hpk
    rw [← h63] at hpk
    rw [verifyModify_iff hsha msg ht (by rw [setByte_length, hd]) (by rw [setByte_length, hl]), clear_top hd]
    generalize hg : setByte yb 31 (fun x => x &&& 0x7F ||| (sig.getD 63 0 &&& 0x80)) = pk at *
    have hpl : pk.length = 32 := by rw [← hg, setByte_length, hl]
    constructor
    · rintro ⟨h1, A, h2, h3⟩
      exact ⟨hp, hs, hm, h1, pk, A, hpl, hpk, h2, h3⟩
    · rintro ⟨_, _, _, h1, pk', A, hl', hv', h2, h3⟩
      have : pk' = pk := leNat_inj_of_length (by rw [hl', hpl]) (by rw [hv', hpk])
      rw [this] at h2 h3
      exact ⟨h1, A, h2, h3⟩

/-- what `sign_modify` returns. -/
theorem signModify_spec {sha512 : Bytes → Bytes} (hsha : ∀ m, (sha512 m).length = 64) {prikey edPub msg random : Bytes}
    (he : prikey.length = 32) : let sig := signModify sha512 msg prikey edPub random
    let r := leNat (sha512 (noncePrefix ++ prikey ++ msg ++ random)) % L
    sig.length = 64 ∧ leNat (sig.take 32) = enc (r • base) ∧
      leNat (sig.drop 32) = (leNat (sha512 (sig.take 32 ++ edPub ++ msg)) % L * leNat prikey + r) % L := by
  intro sig r
  have lr : leNat (scReduce (sha512 (noncePrefix ++ prikey ++ msg ++ random))) = r := scReduce_spec (hsha _)
  have rr := geScalarMultBase_rep (scReduce_length (sha512 (noncePrefix ++ prikey ++ msg ++ random)))
    (lt_trans (scReduce_lt (hsha _)) (by norm_num))
  have lR := extToBytes_spec rr
  have hl := extToBytes_length (geScalarMultBase (scReduce (sha512 (noncePrefix ++ prikey ++ msg ++ random))))
  have ht : sig.take 32 = extToBytes (geScalarMultBase (scReduce (sha512 (noncePrefix ++ prikey ++ msg ++ random)))) := by
    simp only [sig, signModify]
    rw [List.take_left' hl]
  have hd : sig.drop 32 = scMulAdd (scReduce (sha512 (sig.take 32 ++ edPub ++ msg))) prikey
      (scReduce (sha512 (noncePrefix ++ prikey ++ msg ++ random))) := by
    rw [ht]
    simp only [sig, signModify]
    rw [List.drop_left' hl]
  refine ⟨?_, ?_, ?_⟩
  · simp only [sig, signModify, List.length_append, hl, scMulAdd_length]
  · rw [ht, lR, lr]
  · rw [hd, scMulAdd_spec (scReduce_length _) he (scReduce_length _), lr, scReduce_spec (hsha _)]

theorem edGenPub_spec {k : Bytes} (h : k.length = 32) (hk : leNat k < 2 ^ 255) :
    ∃ pub, edGenPub k = .ok pub ∧ pub.length = 32 ∧ leNat pub = enc (leNat k • base) := by
  unfold edGenPub
  rw [if_neg (by simpa using h)]
  exact ⟨_, rfl, extToBytes_length _, extToBytes_spec (geScalarMultBase_rep h hk)⟩

/-- what `X25519_sign` returns: the Edwards public key `pk` of the scalar and a signature whose last bit is the sign bit of `pk`. -/
theorem xSign_spec {sha512 : Bytes → Bytes} (hsha : ∀ m, (sha512 m).length = 64) {k msg random : Bytes} (h : k.length = 32)
    (hk : leNat k < 2 ^ 255) : ∃ pk sig, pk.length = 32 ∧ leNat pk = enc (leNat k • base) ∧ xSign sha512 random k msg = .ok sig ∧
      sig.length = 64 ∧
      let r := leNat (sha512 (noncePrefix ++ k ++ msg ++ random)) % L
      leNat (sig.take 32) = enc (r • base) ∧
      leNat (sig.drop 32) = (leNat (sha512 (sig.take 32 ++ pk ++ msg)) % L * leNat k + r) % L + 2 ^ 255 * (leNat pk / 2 ^ 255) := by
  obtain ⟨pk, e1, hl, hpk⟩ := edGenPub_spec h hk
  obtain ⟨s1, s2, s3⟩ := signModify_spec hsha (edPub := pk) (msg := msg) (random := random) h
  unfold xSign
  rw [e1]
  dsimp only
  refine ⟨pk, _, hl, hpk, rfl, by rw [setByte_length, s1], ?_⟩
  generalize signModify sha512 msg k pk random = sg at *
  have hd : (sg.drop 32).length = 32 := by rw [List.length_drop, s1]
  rw [setByte_take, setByte_drop s1, with_top hd]
  refine ⟨s2, ?_⟩
  rw [s3, (low255 hl).2]
  congr 1
  exact Nat.mod_eq_of_lt (lt_trans (lt_trans (Nat.mod_lt _ (by decide)) L_lt) (by norm_num))

theorem xGenPub_spec {k : Bytes} (h : k.length = 32) (hk : leNat k < 2 ^ 255) : let y := (leNat k • base).y
    ∃ pub, xGenPub k = .ok pub ∧ pub.length = 32 ∧ leNat pub = ((1 + y) / (1 - y)).val := by
  intro y
  unfold xGenPub
  rw [if_neg (by simpa using h)]
  have e := extToBytes_spec (geScalarMultBase_rep h hk)
  obtain ⟨b, h1, h2, h3⟩ := convertEdToX_spec (extToBytes_length (geScalarMultBase k))
  refine ⟨b, h1, h2, ?_⟩
  rw [h3, e, enc_low, ZMod.natCast_zmod_val]

theorem two_ne_zero_F : (2 : F) ≠ 0 := by
  have : ((2 : ℕ) : F) ≠ 0 := by
    rw [Ne, ZMod.natCast_eq_zero_iff]
    intro h
    have := Nat.le_of_dvd (by norm_num) h
    rw [P_eq] at this
    norm_num at this
  exact_mod_cast this

theorem edY_montU {y : F} (h : y ≠ 1) : edY ((1 + y) / (1 - y)) = y := by
  have h1 : 1 - y ≠ 0 := sub_ne_zero.mpr (Ne.symm h)
  have h2 : (1 + y) / (1 - y) + 1 = 2 / (1 - y) := by field_simp; ring
  have h3 : (1 + y) / (1 - y) - 1 = 2 * y / (1 - y) := by field_simp; ring
  rw [edY, h2, h3]
  field_simp [two_ne_zero_F]

/-- the only point with `y = 1` is the identity. -/
theorem y_one {A : Pt} (h : A.y = 1) : A = 0 := by
  have on := A.on
  rw [h] at on
  have : A.x ^ 2 * (1 + D) = 0 := by linear_combination -on
  have hD : (1 + D : F) ≠ 0 := by
    intro e
    have hd : D = -1 := by linear_combination e
    have := v_ne_zero (y := 1)
    rw [hd] at this
    exact this (by ring)
  rcases mul_eq_zero.mp this with hx | hx
  · ext
    · exact pow_eq_zero_iff (by norm_num) |>.mp hx
    · exact h
  · exact absurd hx hD

/-- every X25519 signature on a non-empty message is accepted, unless the scalar is a multiple of the order. -/
theorem xSign_verifies {sha512 : Bytes → Bytes} (hsha : ∀ m, (sha512 m).length = 64) {k msg random : Bytes} (h : k.length = 32)
    (hk : leNat k < 2 ^ 255) (hL : leNat k % L ≠ 0) (hm : msg ≠ []) :
    ∃ pub sig, xGenPub k = .ok pub ∧ xSign sha512 random k msg = .ok sig ∧ xVerify sha512 pub msg sig = true := by
  obtain ⟨pub, g1, g2, g3⟩ := xGenPub_spec h hk
  obtain ⟨pk, sig, p1, p2, p3, p4, p5, p6⟩ := xSign_spec hsha (msg := msg) (random := random) h hk
  refine ⟨pub, sig, g1, p3, ?_⟩
  have hne : (leNat k • base).y ≠ 1 := by
    intro e
    apply hL
    have e0 : leNat k • base = 0 • base := by rw [zero_smul]; exact y_one e
    simpa using nsmul_base_eq.mp e0
  have hP : P < 2 ^ 255 := by rw [P_eq]; norm_num
  have hSlt : ∀ n, n % L < 2 ^ 255 := fun n => lt_trans (lt_trans (Nat.mod_lt _ (by decide)) L_lt) (by norm_num)
  have hS : leNat (sig.drop 32) % 2 ^ 255 = (leNat (sha512 (sig.take 32 ++ pk ++ msg)) % L * leNat k +
      leNat (sha512 (noncePrefix ++ k ++ msg ++ random)) % L) % L := by
    rw [p6, Nat.add_mul_mod_self_left, Nat.mod_eq_of_lt (hSlt _)]
  have hT : leNat (sig.drop 32) / 2 ^ 255 = leNat pk / 2 ^ 255 := by
    rw [p6, Nat.add_mul_div_left _ _ (by positivity), Nat.div_eq_of_lt (hSlt _), Nat.zero_add]
  have hpub : leNat pub % 2 ^ 255 = leNat pub := Nat.mod_eq_of_lt (by rw [g3]; exact lt_trans (val_lt_P _) hP)
  rw [xVerify_iff hsha]
  refine ⟨g2, p4, hm, ?_, pk, leNat k • base, p1, ?_, decodes_of_enc p2, ?_⟩
  · rw [hS]; exact lt_trans (Nat.mod_lt _ (by decide)) L_lt
  · rw [hpub, g3, ZMod.natCast_zmod_val, edY_montU hne, hT, ← enc_low (leNat k • base), ← p2, Nat.mod_add_div]
  · rw [hS, nsmul_base_mod, p5]
    congr 1
    rw [add_smul, mul_smul]
    abel

/-! ## Point addition -/

theorem leNat_replicate_zero (n : ℕ) : leNat (List.replicate n 0) = 0 := by
  induction n with
  | zero => rfl
  | succ n ih => simp [List.replicate_succ, leNat, ih]

theorem oneBytes_val : leNat oneBytes = 1 := by decide
theorem oneBytes_length : oneBytes.length = 32 := rfl

theorem feIsZero_iff {f : Fe} (h : Loose f) : feIsZero f = true ↔ fval f = 0 := by
  unfold feIsZero
  rw [beq_iff_eq, eq_iff_leNat (by rw [feToBytes_length]; rfl), feToBytes_spec h, leNat_replicate_zero, ZMod.val_eq_zero]

theorem feIsOne_iff {f : Fe} (h : Loose f) : feIsOne f = true ↔ fval f = 1 := by
  unfold feIsOne
  have e : leNat (1 :: List.replicate 31 (0 : UInt8)) = 1 := oneBytes_val
  rw [beq_iff_eq, eq_iff_leNat (by rw [feToBytes_length]; rfl), feToBytes_spec h, e]
  constructor
  · intro hv
    apply ZMod.val_injective P
    rw [hv, ZMod.val_one]
  · intro hv; rw [hv, ZMod.val_one]

theorem affOut_spec {R : Proj} {A : Pt} (h : RepP R A) :
    (A = 0 → affOut R = ([], true)) ∧ (A ≠ 0 → ∃ out, affOut R = (out, false) ∧ out.length = 32 ∧ leNat out = enc A) := by
  obtain ⟨ti, ei⟩ := feInvert_spec h.tZ.loose
  have lx := (feMul_tight h.tX.loose ti.loose).loose
  have ly := (feMul_tight h.tY.loose ti.loose).loose
  have ex : fval (feMul R.X (feInvert R.Z)) = A.x := by
    rw [feMul_val h.tX.loose ti.loose, ei, h.x, mul_assoc, mul_inv_cancel₀ h.z0, mul_one]
  have ey : fval (feMul R.Y (feInvert R.Z)) = A.y := by
    rw [feMul_val h.tY.loose ti.loose, ei, h.y, mul_assoc, mul_inv_cancel₀ h.z0, mul_one]
  have hx := feIsZero_iff lx
  have hy := feIsOne_iff ly
  rw [ex] at hx
  rw [ey] at hy
  unfold affOut
  dsimp only
  constructor
  · intro h0
    rw [if_pos]
    rw [Bool.and_eq_true, hx, hy, h0]
    exact ⟨rfl, rfl⟩
  · intro h0
    rw [if_neg]
    · exact ⟨_, rfl, affBytes_length _ _ _, projToBytes_spec h⟩
    · rw [Bool.and_eq_true, hx, hy]
      rintro ⟨_, h2⟩
      exact h0 (y_one h2)

theorem fit32_eq {s : Bytes} (h : s.length = 32) : fit32 s = s := by
  unfold fit32
  rw [List.take_left' h]

/-- `Point_add` of two decodable strings. -/
theorem edAdd_spec {a b : Bytes} {A B : Pt} (ha : a.length = 32) (hb : b.length = 32) (dA : Decodes a A) (dB : Decodes b B) :
    (A + B = 0 → edAdd a b = ([], true)) ∧
      (A + B ≠ 0 → ∃ out, edAdd a b = (out, false) ∧ out.length = 32 ∧ leNat out = enc (A + B)) := by
  unfold edAdd
  rw [fit32_eq ha, fit32_eq hb]
  have lt : leNat oneBytes < 2 ^ 253 := by rw [oneBytes_val]; norm_num
  have r := gePointAdd_rep (extFromBytes_true ha dA).2 (extFromBytes_true hb dB).2 oneBytes_length lt oneBytes_length lt
  rw [oneBytes_val, one_smul, one_smul] at r
  exact affOut_spec r

/-- `ScalarMultBaseAdd` of a decodable string. -/
theorem edMulBaseAdd_spec {a k : Bytes} {A : Pt} (ha : a.length = 32) (hk : k.length = 32) (dA : Decodes a A)
    (hlt : leNat k < 2 ^ 253) :
    (A + leNat k • base = 0 → edMulBaseAdd a k = ([], true)) ∧
      (A + leNat k • base ≠ 0 → ∃ out, edMulBaseAdd a k = (out, false) ∧ out.length = 32 ∧ leNat out = enc (A + leNat k • base)) := by
  unfold edMulBaseAdd
  rw [fit32_eq ha, fit32_eq hk]
  have lt : leNat oneBytes < 2 ^ 253 := by rw [oneBytes_val]; norm_num
  have r := geDoubleScalarMult_rep (extFromBytes_true ha dA).2 oneBytes_length lt hk hlt
  rw [oneBytes_val, one_smul] at r
  exact affOut_spec r

/-! ## Key generation and signing with a seed -/

theorem curveGenPub_spec {sha512 : Bytes → Bytes} (hsha : ∀ m, (sha512 m).length = 64) {k : Bytes} (h : k.length = 32) :
    ∃ pub, curveGenPub sha512 k = .ok pub ∧ pub.length = 32 ∧
      leNat pub = enc (clampNat (leNat ((sha512 k).take 32)) • base) := by
  have ht : ((sha512 k).take 32).length = 32 := by rw [List.length_take, hsha]; rfl
  have hv := clampSign_val ht
  have hl : (clampSign ((sha512 k).take 32)).length = 32 := by rw [clampSign_length, ht]
  unfold curveGenPub
  rw [if_neg (by simpa using h)]
  dsimp only
  rw [clampPub_take (hsha k)]
  refine ⟨_, rfl, extToBytes_length _, ?_⟩
  rw [extToBytes_spec (geScalarMultBase_rep hl (by rw [hv]; exact clampNat_lt _)), hv]

end Verif.Ed25519
