import Verif.SM2.Curve
import Verif.SM2.FieldMul
import Verif.EC.Ref
import Verif.Primes.Certs

/-!
# SM2 field elements as elements of `ZMod p` (lemmas)
-/

namespace Verif.SM2

open Verif.EC

/-- GB/T 32918.5 domain parameters of the SM2 recommended curve. -/
def c : Params where
  p := 0xFFFFFFFEFFFFFFFFFFFFFFFFFFFFFFFFFFFFFFFF00000000FFFFFFFFFFFFFFFF
  n := 0xFFFFFFFEFFFFFFFFFFFFFFFFFFFFFFFF7203DF6B21C6052B53BBF40939D54123
  a := 0xFFFFFFFEFFFFFFFFFFFFFFFFFFFFFFFFFFFFFFFF00000000FFFFFFFFFFFFFFFC
  b := 0x28E9FA9E9D9F5E344D5A9E4BCF6509A7F39789F515AB8F92DDBCBD414D940E93
  gx := 0x32C4AE2C1F1981195F9904466A39C9948FE30BBFF2660BE1715A4589334C74C7
  gy := 0xBC3736A2F4F6779C59BDCEE36B692153D0A9877CC62A474002DF32E52139F0A0

instance : Fact c.p.Prime := ⟨prime_sm2P⟩

theorem natCast_ne_zero_of {p : ℕ} (k : ℕ) (h : k % p ≠ 0) : (k : ZMod p) ≠ 0 := by
  rw [Ne, ZMod.natCast_eq_zero_iff]
  intro hd; exact h (Nat.mod_eq_zero_of_dvd hd)

theorem good : Good c where
  p3 := by decide +kernel
  np := prime_sm2N
  disc := by
    have := natCast_ne_zero_of (p := c.p) (4 * c.a ^ 3 + 27 * c.b ^ 2) (by decide +kernel)
    exact_mod_cast this
  b0 := natCast_ne_zero_of _ (by decide +kernel)
  gxlt := by decide +kernel
  gylt := by decide +kernel
  g := by
    have : ((c.gy ^ 2 : ℕ) : ZMod c.p) = ((c.gx ^ 3 + c.a * c.gx + c.b : ℕ) : ZMod c.p) := by
      rw [ZMod.natCast_eq_natCast_iff]
      show _ % _ = _ % _
      decide +kernel
    exact_mod_cast this

theorem ord : c.n • good.G = 0 := Ref.n_smul_G good (by decide +kernel)

abbrev F := ZMod c.p
abbrev Pt := c.Pt

theorem P_pos : 0 < P := by decide +kernel
theorem P_eq : P = ((c.p : ℕ) : Int) := by decide +kernel
theorem N_eq : N = ((c.n : ℕ) : Int) := by decide +kernel

theorem mod_range (x : Int) : 0 ≤ x % P ∧ x % P < P :=
  ⟨Int.emod_nonneg _ P_pos.ne', Int.emod_lt_of_pos _ P_pos⟩

@[simp] theorem modP_cast (x : Int) : ((x % P : Int) : F) = (x : F) := by
  rw [P_eq, ZMod.intCast_mod]

theorem cast_of_modEq {x y : Int} (h : x ≡ y [ZMOD P]) : (x : F) = (y : F) := by
  rw [ZMod.intCast_eq_intCast_iff]; rw [P_eq] at h; exact h

theorem R_RInverse : (2 ^ 257 : F) * (RInverse : F) = 1 := by
  have h : ((2 : Int) ^ 257 * RInverse) ≡ 1 [ZMOD P] := by decide +kernel
  have := cast_of_modEq h
  push_cast at this; exact this

theorem RInverse_ne : (RInverse : F) ≠ 0 := by
  intro h; have := R_RInverse; rw [h, mul_zero] at this; exact zero_ne_one this

/-- the field element a limb vector stands for (Montgomery form with `R = 2^257`). -/
def den (f : Fe) : F := (f.value : F) * (RInverse : F)

theorem toBig_cast (f : Fe) : (toBig f : F) = den f := by
  unfold toBig den
  rw [modP_cast]; push_cast; rfl

theorem toBig_range (f : Fe) : 0 ≤ toBig f ∧ toBig f < P := mod_range _

theorem toBig_eq (f : Fe) : toBig f = ((den f).val : Int) := by
  rw [← toBig_cast, ZMod.val_intCast, ← P_eq, Int.emod_eq_of_lt (toBig_range f).1 (toBig_range f).2]

theorem toBig_eq_iff (f g : Fe) : toBig f = toBig g ↔ den f = den g := by
  rw [toBig_eq, toBig_eq]
  constructor
  · intro h; exact ZMod.val_injective _ (by exact_mod_cast h)
  · intro h; rw [h]

theorem toBig_zero_iff (f : Fe) : toBig f = 0 ↔ den f = 0 := by
  rw [toBig_eq]
  constructor
  · intro h; exact (ZMod.val_eq_zero _).mp (by exact_mod_cast h)
  · intro h; rw [h]; simp

/-- the limbs are in range and stand for `v`. -/
def IsFe (f : Fe) (v : F) : Prop := f.Ok ∧ den f = v

theorem limbsOf_red (x : Nat) : (limbsOf x).Red := by
  constructor <;> exact Nat.mod_lt _ (by norm_num)

theorem two257 : (2 : Nat) ^ 257 = 231584178474632390847141970017375815706539969331281128078915168015826259279872 := by
  decide +kernel

theorem limbsOf_value {x : Nat} (h : x < 2 ^ 257) : (limbsOf x).value = x := by
  unfold limbsOf Fe.value
  dsimp only
  rw [two257] at h
  omega

theorem fromBig_isFe (a : Int) : IsFe (fromBig a) (a : F) := by
  refine ⟨(limbsOf_red _).ok, ?_⟩
  unfold den fromBig
  have h := mod_range (a * 2 ^ 257)
  have hlt : (a * 2 ^ 257 % P).toNat < 2 ^ 257 := by
    have : P < 2 ^ 257 := by decide +kernel
    have h1 := h.1
    have h2 := h.2
    have h3 : ((2 ^ 257 : ℕ) : ℤ) = 2 ^ 257 := by norm_num
    rw [Int.toNat_lt h1, h3]; exact h2.trans this
  rw [limbsOf_value hlt]
  have e : (((a * 2 ^ 257 % P).toNat : ℕ) : F) = ((a * 2 ^ 257 % P : Int) : F) := by
    rw [← Int.cast_natCast, Int.toNat_of_nonneg h.1]
  rw [e, modP_cast]
  push_cast
  rw [mul_assoc, R_RInverse, mul_one]

theorem zero_isFe : IsFe Fe.zero 0 := by
  refine ⟨by constructor <;> decide, ?_⟩
  show ((0 : ℕ) : F) * _ = 0
  simp

theorem add_isFe {a b : Fe} {x y : F} (ha : IsFe a x) (hb : IsFe b y) : IsFe (add a b) (x + y) := by
  obtain ⟨h1, h2⟩ := add_ok ha.1 hb.1
  refine ⟨h1, ?_⟩
  rw [← ha.2, ← hb.2]
  have := cast_of_modEq h2
  unfold den
  push_cast at this
  rw [this]; ring

theorem sub_isFe {a b : Fe} {x y : F} (ha : IsFe a x) (hb : IsFe b y) : IsFe (sub a b) (x - y) := by
  obtain ⟨h1, h2⟩ := sub_ok ha.1 hb.1
  refine ⟨h1, ?_⟩
  rw [← ha.2, ← hb.2]
  have := cast_of_modEq h2
  unfold den
  push_cast at this
  rw [this]; ring

/-- partial correctness of a run: the result satisfies `Q` unless the ghost flag was raised. -/
def Gh.Tri {α : Type} (m : Gh α) (Q : α → Prop) : Prop := m.bad = false → Q m.val

theorem Tri.bind {α β : Type} {m : Gh α} {f : α → Gh β} {Q : α → Prop} {R : β → Prop}
    (hm : m.Tri Q) (hf : ∀ a, Q a → (f a).Tri R) : (m >>= f).Tri R := by
  intro hb
  rw [Gh.bind_def] at hb ⊢
  simp only [Bool.or_eq_false_iff] at hb
  exact hf _ (hm hb.1) hb.2

theorem Tri.pure {α : Type} {a : α} {Q : α → Prop} (h : Q a) : (pure a : Gh α).Tri Q := fun _ => h

theorem Tri.mono {α : Type} {m : Gh α} {Q R : α → Prop} (h : m.Tri Q) (hqr : ∀ a, Q a → R a) : m.Tri R :=
  fun hb => hqr _ (h hb)

theorem mont {u v w : F} (h : (2 ^ 257 : F) * u = v * w) :
    u * (RInverse : F) = v * (RInverse : F) * (w * (RInverse : F)) := by
  have hR := R_RInverse
  have : u = v * w * (RInverse : F) := by
    rw [← h]; linear_combination -u * hR
  rw [this]; ring

theorem mul_tri {a b : Fe} {x y : F} (ha : IsFe a x) (hb : IsFe b y) : (mul a b).Tri (IsFe · (x * y)) := by
  intro hbad
  obtain ⟨h1, h2⟩ := mul_ok ha.1 hb.1 hbad
  refine ⟨h1, ?_⟩
  rw [← ha.2, ← hb.2]
  have := cast_of_modEq h2
  unfold den
  push_cast at this
  exact mont this

theorem square_tri {a : Fe} {x : F} (ha : IsFe a x) : (square a).Tri (IsFe · (x ^ 2)) := by
  intro hbad
  obtain ⟨h1, h2⟩ := square_ok ha.1 hbad
  refine ⟨h1, ?_⟩
  rw [← ha.2, pow_two]
  have := cast_of_modEq h2
  unfold den
  push_cast at this
  exact mont this

theorem factor_isFe {k : Nat} (h : k ≤ 8) : IsFe (factor k) (k : F) := by
  have : ∀ k : Fin 9, (factor k.val).value * RInverse ≡ (k.val : Int) [ZMOD P] := by decide +kernel
  have h2 := cast_of_modEq (this ⟨k, by omega⟩)
  refine ⟨?_, ?_⟩
  · interval_cases k <;> constructor <;> decide
  · unfold den; push_cast at h2; exact h2

theorem scalar_tri {a : Fe} {x : F} {k : Nat} (ha : IsFe a x) (h : k ≤ 8) : (scalar a k).Tri (IsFe · (x * k)) :=
  mul_tri ha (factor_isFe h)

theorem feA_isFe : IsFe feA ((c.a : ℕ) : F) := by
  have := fromBig_isFe A
  have e : ((A : Int) : F) = ((c.a : ℕ) : F) := by
    have : A = ((c.a : ℕ) : Int) := by decide +kernel
    rw [this, Int.cast_natCast]
  rwa [e] at this

theorem feB_isFe : IsFe feB ((c.b : ℕ) : F) := by
  have := fromBig_isFe B
  have e : ((B : Int) : F) = ((c.b : ℕ) : F) := by
    have : B = ((c.b : ℕ) : Int) := by decide +kernel
    rw [this, Int.cast_natCast]
  rwa [e] at this

end Verif.SM2
