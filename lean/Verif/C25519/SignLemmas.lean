import Verif.C25519.Sign
import Verif.C25519.Pack

/-!
# curve25519_sha256.go: lemmas on the byte-string arithmetic
-/

namespace Verif.C25519

open Verif.Ed25519 (Fe i64 toByte toByte_toNat)

/-- the order of the base point. -/
def L : ℕ := 2 ^ 252 + 27742317777372353535851937790883648493

theorem order_leNat : leNat order = L := by decide +kernel

theorem mulaLoop_spec (z : Int) (q x : Bytes) (v : Int) (h : q.length = x.length) :
    (mulaLoop z q x v).1.length = q.length ∧
    ((leNat (mulaLoop z q x v).1 : ℕ) : Int) + 256 ^ q.length * (mulaLoop z q x v).2 = v + leNat q + z * leNat x := by
  induction q generalizing x v with
  | nil =>
    cases x with
    | nil => simp [mulaLoop, leNat]
    | cons => simp at h
  | cons b q ih =>
    cases x with
    | nil => simp at h
    | cons c x =>
      obtain ⟨h1, h2⟩ := ih x ((v + (b.toNat + z * c.toNat)) / 2 ^ 8) (by simpa using h)
      refine ⟨by simp only [mulaLoop, List.length_cons, h1], ?_⟩
      simp only [mulaLoop, leNat, List.length_cons, Nat.cast_add, Nat.cast_mul, Nat.cast_ofNat, toByte_toNat]
      have e := Int.mul_ediv_add_emod (v + (b.toNat + z * c.toNat)) (2 ^ 8)
      rw [pow_succ (256 : Int) q.length]
      generalize mulaLoop z q x ((v + (b.toNat + z * c.toNat)) / 2 ^ 8) = r at *
      rw [show (v + (b.toNat + z * c.toNat)) % 256 = (v + (b.toNat + z * c.toNat)) % 2 ^ 8 by norm_num]
      generalize (v + (b.toNat + z * c.toNat)) / 2 ^ 8 = w at *
      generalize (v + (b.toNat + z * c.toNat)) % 2 ^ 8 = w' at *
      linear_combination 256 * h2 + e

theorem mulaSmall_full {q x : Bytes} {n : ℕ} (hq : q.length = n) (hx : x.length = n) (z : Int) :
    (mulaSmall q 0 x n z).1.length = n ∧
    ((leNat (mulaSmall q 0 x n z).1 : ℕ) : Int) + 256 ^ n * (mulaSmall q 0 x n z).2 = leNat q + z * leNat x := by
  unfold mulaSmall
  rw [List.drop_zero, List.take_of_length_le hq.le, List.take_of_length_le hx.le]
  obtain ⟨h1, h2⟩ := mulaLoop_spec z q x 0 (hq.trans hx.symm)
  rw [hq] at h1 h2
  exact ⟨h1, by rw [h2]; ring⟩

theorem at_leNat (r : Bytes) (i : ℕ) : at' r i = ((leNat r / 256 ^ i % 256 : ℕ) : Int) := by
  have leNat_digit : ∀ (k : Bytes) (i : ℕ), leNat k / 256 ^ i % 256 = (k.getD i 0).toNat := by
    intro k
    induction k with
    | nil => intro i; simp [leNat]
    | cons b k ih =>
      intro i
      have := b.toNat_lt
      cases i with
      | zero => simp only [leNat, pow_zero, Nat.div_one, List.getD_cons_zero]; omega
      | succ i =>
        rw [pow_succ', ← Nat.div_div_eq_div_mul, List.getD_cons_succ, ← ih i]
        congr 2
        simp only [leNat]; omega
  rw [leNat_digit]; rfl

theorem splice_all {p b : Bytes} (h : b.length = p.length) : splice p 0 b = b := by
  unfold splice
  rw [List.take_zero, List.nil_append, Nat.zero_add, h, List.drop_length, List.append_nil]

/-- `divmod` of a number of 32 bytes by the order leaves the remainder. -/
theorem divmod32 {q r : Bytes} (hr : r.length = 32) :
    (divmod q r 32 order 32).2.length = 32 ∧ leNat (divmod q r 32 order 32).2 = leNat r % L := by
  have ho : order.length = 32 := rfl
  have hlt := leNat_lt r
  rw [hr] at hlt
  have e1 : at' order 31 * 2 ^ 8 + (if 32 > 1 then at' order 30 else 0) = 4096 := by decide
  have key : (divmod q r 32 order 32).2 =
      let z := (at' r 31 * 2 ^ 8 + at' r 30) / 4096
      let a := mulaSmall r 0 order 32 (-z)
      let b := (mulaSmall a.1 0 order 32 (-a.2)).1
      (b.set 31 0).set 31 (toByte (at' b 31)) := by
    unfold divmod
    simp only [show (32 : ℕ) - 1 = 31 from rfl, show (32 : ℕ) - 2 = 30 from rfl, show (32 : ℕ) + 1 - 32 = 1 from rfl]
    rw [e1]
    simp only [divLoop, divStep, show (31 : ℕ) + 0 + 1 - 32 = 0 from rfl, show (31 : ℕ) + 0 = 31 from rfl, show (31 : ℕ) - 1 = 30 from rfl,
      show (32 : ℕ) - 1 = 31 from rfl]
    rw [if_pos (by norm_num : (31 : ℕ) > 0)]
    simp only [zero_mul, zero_add]
    have hA := (mulaSmall_full hr ho (-((at' r 31 * 2 ^ 8 + at' r 30) / 4096))).1
    generalize mulaSmall r 0 order 32 (-((at' r 31 * 2 ^ 8 + at' r 30) / 4096)) = A at *
    rw [splice_all (p := r) (by rw [hA, hr])]
    rw [splice_all (by rw [(mulaSmall_full hA ho _).1, hA])]
  rw [key]
  dsimp only
  obtain ⟨a1, a2⟩ := mulaSmall_full hr ho (-((at' r 31 * 2 ^ 8 + at' r 30) / 4096))
  rw [order_leNat] at a2
  have d31 := at_leNat r 31
  have d30 := at_leNat r 30
  have alt := leNat_lt (mulaSmall r 0 order 32 (-((at' r 31 * 2 ^ 8 + at' r 30) / 4096))).1
  rw [a1] at alt
  generalize mulaSmall r 0 order 32 (-((at' r 31 * 2 ^ 8 + at' r 30) / 4096)) = a at *
  obtain ⟨b1, b2⟩ := mulaSmall_full a1 ho (-a.2)
  rw [order_leNat] at b2
  have blt := leNat_lt (mulaSmall a.1 0 order 32 (-a.2)).1
  rw [b1] at blt
  generalize mulaSmall a.1 0 order 32 (-a.2) = b at *
  have hset : (b.1.set 31 0).set 31 (toByte (at' b.1 31)) = b.1 := by
    rw [List.set_set]
    have : toByte (at' b.1 31) = b.1[31] := by
      apply UInt8.toNat_inj.1
      have := toByte_toNat (at' b.1 31)
      have e : at' b.1 31 = ((b.1[31]).toNat : Int) := by unfold at'; simp [List.getD_eq_getElem?_getD, b1]
      rw [e] at this ⊢
      have := (b.1[31]).toNat_lt
      omega
    rw [this, List.set_getElem_self]
  rw [hset]
  refine ⟨b1, ?_⟩
  have hz : (at' r 31 * 2 ^ 8 + at' r 30) / 4096 = ((leNat r / 2 ^ 252 : ℕ) : Int) := by
    rw [d31, d30]
    generalize leNat r = R at *
    norm_num at hlt ⊢
    omega
  rw [hz] at a2
  generalize leNat r = R at *
  generalize leNat a.1 = A at *
  generalize leNat b.1 = B at *
  generalize a.2 = c at *
  generalize b.2 = e at *
  unfold L at *
  norm_num at hlt alt blt a2 b2 hz ⊢
  obtain ⟨z, hzz⟩ : ∃ z, R / 7237005577332262213973186563042994240829374041602535252466099000494570602496 = z := ⟨_, rfl⟩
  have hz16 : z < 16 := by omega
  have hzz' : (R : Int) / 7237005577332262213973186563042994240829374041602535252466099000494570602496 = z := by omega
  rw [hzz'] at a2
  have hR : 7237005577332262213973186563042994240829374041602535252466099000494570602496 * z ≤ R ∧ R < 7237005577332262213973186563042994240829374041602535252466099000494570602496 * z + 7237005577332262213973186563042994240829374041602535252466099000494570602496 := by omega
  have hc : c = 0 ∨ c = -1 := by omega
  rcases hc with rfl | rfl
  · have : e = 0 := by omega
    subst this
    have : (R : Int) = 7237005577332262213973186563042994240857116359379907606001950938285454250989 * z + B := by omega
    have hB : B < 7237005577332262213973186563042994240857116359379907606001950938285454250989 := by omega
    omega
  · have : e = 1 ∨ e = 0 ∨ e = -1 := by omega
    have hB : B < 7237005577332262213973186563042994240857116359379907606001950938285454250989 := by omega
    omega

theorem isCanonicalSignature_iff {v : Bytes} (h : 32 ≤ v.length) : isCanonicalSignature v = true ↔ leNat (v.take 32) < L := by
  unfold isCanonicalSignature
  have hl : (v.take 32).length = 32 := by rw [List.length_take]; omega
  obtain ⟨h1, h2⟩ := divmod32 (q := List.replicate 32 0) hl
  simp only [beq_iff_eq]
  constructor
  · intro e
    rw [e] at h2
    rw [h2]
    exact Nat.mod_lt _ (by unfold L; positivity)
  · intro hlt
    apply leNat_inj_of_length (by rw [h1, hl])
    rw [h2, Nat.mod_eq_of_lt hlt]

end Verif.C25519
