/-!
# Byte strings and big-endian / little-endian integers

Go `[]byte` is modelled by `List UInt8`.  Go's `math/big` conversions used throughout the repo:

* `new(big.Int).SetBytes(b)`  – `beNat b`
* `x.Bytes()` (minimal big-endian, no leading zero, empty for 0) – `natBytes x`
* the recurring loop `for len(x) < 32 { x = append([]byte{0x00}, x...) }`
  (e.g. ecdsa.go:97-107) and `copy(buf[32-len(t):], t)` into a zeroed 32-byte buffer
  (e.g. sm2_std.go:995-1000) – `padLeft 32 x`
-/

namespace Verif

abbrev Bytes := List UInt8

/-- `new(big.Int).SetBytes(b)` (math/big): big-endian value. -/
def beNat (b : Bytes) : Nat := b.foldl (fun acc x => acc * 256 + x.toNat) 0

/-- little-endian value of a byte string. -/
def leNat : Bytes → Nat
  | [] => 0
  | x :: xs => x.toNat + 256 * leNat xs

/-- worker for `natBytes`; `fuel` bounds the number of digits. -/
def natBytesAux : Nat → Nat → Bytes → Bytes
  | 0, _, acc => acc
  | f + 1, n, acc => if n = 0 then acc else natBytesAux f (n / 256) (UInt8.ofNat n :: acc)

/-- `x.Bytes()` (math/big): minimal big-endian representation. -/
def natBytes (n : Nat) : Bytes := natBytesAux (n.log2 + 1) n []

/-- left padding with zero bytes up to length `n` (longer strings are unchanged). -/
def padLeft (n : Nat) (b : Bytes) : Bytes := List.replicate (n - b.length) 0 ++ b

/-- 32-byte big-endian encoding as produced by `Bytes()` and the padding loop. -/
def be32 (n : Nat) : Bytes := padLeft 32 (natBytes n)

theorem beNat_foldl (b : Bytes) (a : Nat) :
    b.foldl (fun acc x => acc * 256 + x.toNat) a = a * 256 ^ b.length + beNat b := by
  unfold beNat
  induction b generalizing a with
  | nil => simp
  | cons x xs ih =>
    simp only [List.foldl_cons, List.length_cons]
    rw [ih, ih (0 * 256 + x.toNat)]
    have : 256 ^ (xs.length + 1) = 256 * 256 ^ xs.length := by rw [Nat.pow_succ, Nat.mul_comm]
    rw [this, Nat.zero_mul, Nat.zero_add, Nat.add_mul, Nat.mul_assoc, Nat.add_assoc]

@[simp] theorem beNat_nil : beNat [] = 0 := rfl

theorem beNat_cons (x : UInt8) (xs : Bytes) :
    beNat (x :: xs) = x.toNat * 256 ^ xs.length + beNat xs := by
  show xs.foldl _ (0 * 256 + x.toNat) = _
  rw [beNat_foldl, Nat.zero_mul, Nat.zero_add]

theorem beNat_append (a b : Bytes) : beNat (a ++ b) = beNat a * 256 ^ b.length + beNat b := by
  show (a ++ b).foldl _ 0 = _
  rw [List.foldl_append, beNat_foldl]; rfl

theorem beNat_replicate_zero (n : Nat) : beNat (List.replicate n 0) = 0 := by
  induction n with
  | zero => rfl
  | succ n ih => rw [List.replicate_succ, beNat_cons, ih]; simp

theorem beNat_padLeft (n : Nat) (b : Bytes) : beNat (padLeft n b) = beNat b := by
  rw [padLeft, beNat_append, beNat_replicate_zero]; simp

theorem beNat_lt (b : Bytes) : beNat b < 256 ^ b.length := by
  induction b with
  | nil => simp
  | cons x xs ih =>
    rw [beNat_cons, List.length_cons, Nat.pow_succ]
    have hx : x.toNat < 256 := x.toNat_lt
    have : x.toNat * 256 ^ xs.length + 256 ^ xs.length ≤ 256 ^ xs.length * 256 := by
      rw [Nat.mul_comm (256 ^ xs.length) 256]
      calc x.toNat * 256 ^ xs.length + 256 ^ xs.length = (x.toNat + 1) * 256 ^ xs.length := by
            rw [Nat.add_mul, Nat.one_mul]
        _ ≤ 256 * 256 ^ xs.length := Nat.mul_le_mul_right _ hx
    omega

theorem beNat_inj_of_length {a b : Bytes} (h : a.length = b.length) (hv : beNat a = beNat b) :
    a = b := by
  induction a generalizing b with
  | nil => cases b with
    | nil => rfl
    | cons _ _ => simp at h
  | cons x xs ih => cases b with
    | nil => simp at h
    | cons y ys =>
      have hl : xs.length = ys.length := by simpa using h
      rw [beNat_cons, beNat_cons, hl] at hv
      have h1 := beNat_lt xs
      have h2 := beNat_lt ys
      rw [hl] at h1
      have hpos : 0 < 256 ^ ys.length := Nat.pow_pos (by decide)
      have hxy : x.toNat = y.toNat := by
        have e1 : (x.toNat * 256 ^ ys.length + beNat xs) / 256 ^ ys.length = x.toNat := by
          rw [Nat.mul_comm, Nat.mul_add_div hpos, Nat.div_eq_of_lt h1, Nat.add_zero]
        have e2 : (y.toNat * 256 ^ ys.length + beNat ys) / 256 ^ ys.length = y.toNat := by
          rw [Nat.mul_comm, Nat.mul_add_div hpos, Nat.div_eq_of_lt h2, Nat.add_zero]
        rw [← e1, ← e2, hv]
      have hx : x = y := UInt8.toNat_inj.mp hxy
      rw [hxy] at hv
      have := ih hl (Nat.add_left_cancel hv)
      rw [hx, this]

theorem beNat_natBytesAux (f n : Nat) (acc : Bytes) (h : n < 256 ^ f) :
    beNat (natBytesAux f n acc) = n * 256 ^ acc.length + beNat acc := by
  induction f generalizing n acc with
  | zero => have : n = 0 := by simpa using h
            subst this; simp [natBytesAux]
  | succ f ih =>
    unfold natBytesAux
    split
    · rename_i h0; subst h0; simp
    · rw [ih]
      · rw [beNat_cons, List.length_cons, Nat.pow_succ]
        have hm : (UInt8.ofNat n).toNat = n % 256 := by simp
        rw [hm]
        have hd := Nat.div_add_mod n 256
        calc n / 256 * (256 ^ acc.length * 256) + (n % 256 * 256 ^ acc.length + beNat acc)
            = (256 * (n / 256) + n % 256) * 256 ^ acc.length + beNat acc := by
              rw [Nat.add_mul, Nat.mul_comm (256 ^ acc.length) 256, ← Nat.mul_assoc,
                Nat.mul_comm (n / 256) 256, Nat.add_assoc]
          _ = _ := by rw [hd]
      · rw [Nat.pow_succ] at h; exact Nat.div_lt_of_lt_mul (by rw [Nat.mul_comm]; exact h)

theorem lt_256_pow_log2 (n : Nat) : n < 256 ^ (n.log2 + 1) := by
  calc n < 2 ^ (n.log2 + 1) := Nat.lt_log2_self
    _ ≤ 256 ^ (n.log2 + 1) := Nat.pow_le_pow_left (by decide) _

@[simp] theorem beNat_natBytes (n : Nat) : beNat (natBytes n) = n := by
  rw [natBytes, beNat_natBytesAux _ _ _ (lt_256_pow_log2 n)]; simp

theorem natBytesAux_length (f n k : Nat) (acc : Bytes) (h : n < 256 ^ k) :
    (natBytesAux f n acc).length ≤ k + acc.length := by
  induction f generalizing n acc k with
  | zero => simp [natBytesAux]
  | succ f ih =>
    unfold natBytesAux
    split
    · omega
    · cases k with
      | zero => have : n = 0 := by simpa using h
                contradiction
      | succ k =>
        have := ih (n / 256) k (UInt8.ofNat n :: acc)
          (Nat.div_lt_of_lt_mul (by rw [Nat.mul_comm, ← Nat.pow_succ]; exact h))
        simp only [List.length_cons] at this; omega

theorem natBytes_length_le {n k : Nat} (h : n < 256 ^ k) : (natBytes n).length ≤ k := by
  simpa [natBytes] using natBytesAux_length (n.log2 + 1) n k [] h

theorem padLeft_length {n : Nat} {b : Bytes} (h : b.length ≤ n) : (padLeft n b).length = n := by
  simp [padLeft]; omega

theorem be32_length {n : Nat} (h : n < 256 ^ 32) : (be32 n).length = 32 :=
  padLeft_length (natBytes_length_le h)

@[simp] theorem beNat_be32 (n : Nat) : beNat (be32 n) = n := by
  rw [be32, beNat_padLeft, beNat_natBytes]

/-- a 32-byte string is recovered from its value. -/
theorem be32_beNat {b : Bytes} (h : b.length = 32) : be32 (beNat b) = b := by
  apply beNat_inj_of_length
  · rw [be32_length (h ▸ beNat_lt b), h]
  · simp

theorem be32_inj {m n : Nat} (h : be32 m = be32 n) : m = n := by
  have := congrArg beNat h; simpa using this

theorem leNat_append (a b : Bytes) : leNat (a ++ b) = leNat a + 256 ^ a.length * leNat b := by
  induction a with
  | nil => simp [leNat]
  | cons x xs ih =>
    simp only [List.cons_append, leNat, ih, List.length_cons, Nat.pow_succ, Nat.mul_add]
    rw [Nat.mul_comm (256 ^ xs.length) 256, Nat.mul_assoc, Nat.add_assoc]

theorem leNat_reverse (b : Bytes) : leNat b.reverse = beNat b := by
  induction b with
  | nil => rfl
  | cons x xs ih =>
    rw [List.reverse_cons, leNat_append, ih, beNat_cons]
    simp [leNat, Nat.mul_comm, Nat.add_comm]

theorem beNat_reverse (b : Bytes) : beNat b.reverse = leNat b := by
  rw [← leNat_reverse, List.reverse_reverse]

theorem leNat_lt (b : Bytes) : leNat b < 256 ^ b.length := by
  rw [← beNat_reverse]; simpa using beNat_lt b.reverse

theorem leNat_inj_of_length {a b : Bytes} (h : a.length = b.length) (hv : leNat a = leNat b) :
    a = b := by
  rw [← beNat_reverse, ← beNat_reverse] at hv
  have := beNat_inj_of_length (by simpa using h) hv
  simpa using this

end Verif
