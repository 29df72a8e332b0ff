import Verif.Bls.GroupBytes

/-!
# The two groups of BLS12-381

Lemmas: the field operations of g1.go and g2.go (amd64 build) compute in `Fq` and `Fq2`, so that
everything proved over `Sem` holds for both groups.
-/

namespace Verif.Bls

open Verif.EC WeierstrassCurve

theorem Q_odd : Q % 2 = 1 := by decide +kernel

theorem val_ne_neg_val {z : Fq} (h : z ≠ 0) : z.val ≠ (-z).val := by
  have hQ := Q_odd
  have hz := ZMod.val_lt z
  rw [ZMod.neg_val, if_neg h]
  omega

theorem not_larger1 (z : Fq) : ¬ Spec.larger1 z ↔ z.val ≤ (-z).val := by
  rw [Spec.larger1, not_lt]

theorem larger1_neg {z : Fq} (h : z ≠ 0) : Spec.larger1 (-z) ↔ ¬ Spec.larger1 z := by
  have := val_ne_neg_val h
  rw [Spec.larger1, Spec.larger1, neg_neg]
  omega

theorem not_larger2 (z : Fq2) : ¬ Spec.larger2 z ↔
    if z.im = 0 then z.re.val ≤ (-z.re).val else z.im.val ≤ (-z.im).val := by
  rw [Spec.larger2, QuadraticAlgebra.im_neg, QuadraticAlgebra.re_neg]
  by_cases h : z.im = 0
  · rw [if_pos h, h, neg_zero]; omega
  · have := val_ne_neg_val h
    rw [if_neg h]; omega

theorem larger2_neg {z : Fq2} (h : z ≠ 0) : Spec.larger2 (-z) ↔ ¬ Spec.larger2 z := by
  rw [Spec.larger2, Spec.larger2, neg_neg, QuadraticAlgebra.im_neg, QuadraticAlgebra.re_neg]
  by_cases h1 : z.im = 0
  · have h2 : z.re ≠ 0 := fun h2 => h (QuadraticAlgebra.ext h2 h1)
    have := val_ne_neg_val h2
    rw [h1, neg_zero]; omega
  · have := val_ne_neg_val h1
    omega

theorem head_lt {b : Bytes} (hl : b.length = 48) (hv : beNat b < Q) : ∃ h t, b = h :: t ∧ h.toNat < 32 := by
  cases b with
  | nil => simp at hl
  | cons c t =>
    refine ⟨c, t, rfl, ?_⟩
    rw [beNat_cons] at hv
    have hl' : t.length = 47 := by simpa using hl
    rw [hl'] at hv
    have hQ : Q < 32 * 256 ^ 47 := by decide +kernel
    by_contra hc
    have h32 : 32 ≤ c.toNat := Nat.le_of_not_lt hc
    have : 32 * 256 ^ 47 ≤ c.toNat * 256 ^ 47 := Nat.mul_le_mul_right _ h32
    omega

theorem bytes1_eq (z : Fq) : Spec.bytes1 z = Fe.be48 z.val := by
  rw [Spec.bytes1, Spec.be, Fe.be48]

theorem bytes2_eq (z : Fq2) : Spec.bytes2 z = Fe2.enc z := by
  rw [Spec.bytes2, Spec.be, Spec.be, Fe2.enc, Fe.be48, Fe.be48]

theorem bytes1_head (z : Fq) : ∃ h t, Spec.bytes1 z = h :: t ∧ h.toNat < 32 := by
  rw [bytes1_eq]
  exact head_lt (Fe2.be48_val_length z) (by rw [Fe.beNat_be48]; exact ZMod.val_lt z)

theorem bytes2_head (z : Fq2) : ∃ h t, Spec.bytes2 z = h :: t ∧ h.toNat < 32 := by
  rw [bytes2_eq, Fe2.enc]
  obtain ⟨h, t, e, hh⟩ := bytes1_head z.im
  rw [bytes1_eq] at e
  rw [e]
  exact ⟨h, _, rfl, hh⟩

theorem nat_ne {n : ℕ} (h : n % Q ≠ 0) : ((n : ℕ) : Fq) ≠ 0 := Fe.natCast_ne_zero_of h

theorem two_ne1 : (2 : Fq) ≠ 0 := by
  have := nat_ne (n := 2) (by decide +kernel); exact_mod_cast this

theorem three_ne1 : (3 : Fq) ≠ 0 := by
  have := nat_ne (n := 3) (by decide +kernel); exact_mod_cast this

theorem four_ne1 : (4 : Fq) ≠ 0 := by
  have := nat_ne (n := 4) (by decide +kernel); exact_mod_cast this

theorem ne_of_re {z : Fq2} (h : z.re ≠ 0) : z ≠ 0 := by
  rintro rfl; exact h QuadraticAlgebra.re_zero

theorem bG1_spec : Fe.Red bG1 ∧ Fe.den bG1 = 4 := by
  obtain ⟨x, hx⟩ : ∃ x, x = bG1 := ⟨_, rfl⟩
  have hr : Fe.Red x := by rw [hx]; decide +kernel
  have h4 : Fe.double (Fe.double Fe.one) = x := by rw [hx]; decide +kernel
  rw [← hx]
  refine ⟨hr, ?_⟩
  obtain ⟨h1, e1⟩ := Fe.den_double Fe.red_one
  obtain ⟨h2, e2⟩ := Fe.den_double h1
  rw [← h4, e2, e1, Fe.den_one]; norm_num

theorem g1_zero (bd : Build) : (g1 bd).zero = Fe.zero := by simp only [g1]
theorem g1_one (bd : Build) : (g1 bd).one = Fe.one := by simp only [g1]
theorem g1_isZero (bd : Build) : (g1 bd).isZero = Fe.isZero := by simp only [g1]
theorem g1_equal (bd : Build) : (g1 bd).equal = Fe.equal := by simp only [g1]
theorem g1_add (bd : Build) : (g1 bd).add = Fe.add := by simp only [g1]
theorem g1_sub (bd : Build) : (g1 bd).sub = Fe.sub := by simp only [g1]
theorem g1_mul (bd : Build) : (g1 bd).mul = Fe.mul := by simp only [g1]
theorem g1_double (bd : Build) : (g1 bd).double = Fe.double := by simp only [g1]
theorem g1_neg (bd : Build) : (g1 bd).neg = Fe.neg := by simp only [g1]
theorem g1_signBE (bd : Build) : (g1 bd).signBE = Fe.signBE := by simp only [g1]
theorem g1_fromBytes (bd : Build) : (g1 bd).fromBytes = Fe.fromBytes := by simp only [g1]
theorem g1_toBytes (bd : Build) : (g1 bd).toBytes = Fe.toBytes := by simp only [g1]
theorem g2_zero (bd : Build) : (g2 bd).zero = Fe2.zero := by simp only [g2]
theorem g2_one (bd : Build) : (g2 bd).one = Fe2.one := by simp only [g2]
theorem g2_isZero (bd : Build) : (g2 bd).isZero = Fe2.isZero := by simp only [g2]
theorem g2_equal (bd : Build) : (g2 bd).equal = Fe2.equal := by simp only [g2]
theorem g2_add (bd : Build) : (g2 bd).add = Fe2.add := by simp only [g2]
theorem g2_sub (bd : Build) : (g2 bd).sub = Fe2.sub := by simp only [g2]
theorem g2_mul (bd : Build) : (g2 bd).mul = Fe2.mul := by simp only [g2]
theorem g2_double (bd : Build) : (g2 bd).double = Fe2.double := by simp only [g2]
theorem g2_neg (bd : Build) : (g2 bd).neg = Fe2.neg := by simp only [g2]
theorem g2_signBE (bd : Build) : (g2 bd).signBE = Fe2.signBE := by simp only [g2]
theorem g2_fromBytes (bd : Build) : (g2 bd).fromBytes = Fe2.fromBytes := by simp only [g2]
theorem g2_toBytes (bd : Build) : (g2 bd).toBytes = Fe2.toBytes := by simp only [g2]
theorem g1_square (bd : Build) : (g1 bd).square = Fe.square bd := by simp only [g1]
theorem g1_inverse (bd : Build) : (g1 bd).inverse = Fe.inverse := by simp only [g1]
theorem g1_sqrt (bd : Build) : (g1 bd).sqrt = Fe.sqrt bd := by simp only [g1]
theorem g2_square (bd : Build) : (g2 bd).square = Fe2.square := by simp only [g2]
theorem g2_inverse (bd : Build) : (g2 bd).inverse = Fe2.inverse bd := by simp only [g2]
theorem g2_sqrt (bd : Build) : (g2 bd).sqrt = Fe2.sqrt := by simp only [g2]

/-- g1.go computes in `Fq`. -/
def sem1 : Sem (g1 .amd64) Fq where
  den := Fe.den
  Red := Fe.Red
  bF := 4
  zero := by rw [g1_zero]; exact ⟨Fe.red_zero, Fe.den_zero⟩
  one := by rw [g1_one]; exact ⟨Fe.red_one, Fe.den_one⟩
  b := bG1_spec
  isZero := by rw [g1_isZero]; exact Fe.isZero_den
  equal := by rw [g1_equal]; exact Fe.equal_den
  add := by rw [g1_add]; exact Fe.den_add
  sub := by rw [g1_sub]; exact Fe.den_sub
  mul := by rw [g1_mul]; exact fun ha hb => Fe.den_mul ha.lz hb.lz
  double := by rw [g1_double]; exact Fe.den_double
  neg := by rw [g1_neg]; exact Fe.den_neg
  square := by rw [g1_square]; exact Fe.den_square
  inverse := by rw [g1_inverse]; exact Fe.inverse_spec
  sqrt := by rw [g1_sqrt]; exact Fe.sqrt_spec
  larger := Spec.larger1
  decL := inferInstance
  signBE := by rw [g1_signBE]; exact fun ha => (Fe.signBE_spec ha).trans (not_larger1 _).symm
  larger_neg := larger1_neg
  bytes := Spec.bytes1
  bytes_length := fun z => by rw [bytes1_eq]; exact Fe2.be48_val_length z
  bytes_head := bytes1_head
  toBytes := by rw [g1_toBytes]; exact fun ha => (Fe.toBytes_eq ha).trans (bytes1_eq _).symm
  fromBytes_bytes := by rw [g1_fromBytes]; exact fun z => by rw [bytes1_eq]; exact Fe2.fe_fromBytes_be48 z
  fromBytes_some := by rw [g1_fromBytes]; exact fun h => by rw [bytes1_eq]; exact Fe2.fe_fromBytes_some h
  two_ne := two_ne1
  three_ne := three_ne1
  b_ne := four_ne1
  size_pos := by decide

/-- g2.go computes in `Fq2`. -/
def sem2 : Sem (g2 .amd64) Fq2 where
  den := Fe2.den
  Red := Fe2.Red
  bF := Spec.b2
  zero := by rw [g2_zero]; exact ⟨Fe2.red_zero, Fe2.den_zero⟩
  one := by rw [g2_one]; exact ⟨Fe2.red_one, Fe2.den_one⟩
  b := Fe2.mk_spec bG1_spec.1 bG1_spec.1 bG1_spec.2 bG1_spec.2
  isZero := by rw [g2_isZero]; exact Fe2.isZero_den
  equal := by rw [g2_equal]; exact Fe2.equal_den
  add := by rw [g2_add]; exact Fe2.den_add
  sub := by rw [g2_sub]; exact Fe2.den_sub
  mul := by rw [g2_mul]; exact Fe2.den_mul
  double := by rw [g2_double]; exact Fe2.den_double
  neg := by rw [g2_neg]; exact Fe2.den_neg
  square := by rw [g2_square]; exact Fe2.den_square
  inverse := by rw [g2_inverse]; exact Fe2.den_inverse
  sqrt := by rw [g2_sqrt]; exact Fe2.sqrt_spec
  larger := Spec.larger2
  decL := inferInstance
  signBE := by rw [g2_signBE]; exact fun ha => (Fe2.signBE_spec ha).trans (not_larger2 _).symm
  larger_neg := larger2_neg
  bytes := Spec.bytes2
  bytes_length := fun z => by rw [bytes2_eq]; exact Fe2.enc_length z
  bytes_head := bytes2_head
  toBytes := by rw [g2_toBytes]; exact fun ha => (Fe2.toBytes_eq ha).trans (bytes2_eq _).symm
  fromBytes_bytes := by rw [g2_fromBytes]; exact fun z => by rw [bytes2_eq]; exact Fe2.fromBytes_enc z
  fromBytes_some := by rw [g2_fromBytes]; exact fun h => by rw [bytes2_eq]; exact Fe2.fromBytes_some h
  two_ne := ne_of_re (by rw [QuadraticAlgebra.re_ofNat]; exact two_ne1)
  three_ne := ne_of_re (by rw [QuadraticAlgebra.re_ofNat]; exact three_ne1)
  b_ne := ne_of_re four_ne1
  size_pos := by decide

end Verif.Bls
