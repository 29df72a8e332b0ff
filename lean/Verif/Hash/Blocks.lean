import Verif.Bytes
import Mathlib.Tactic.Conv

/-! # Processing a byte string block by block, and machine words -/

namespace Verif.Hash

/-- the loop `for len(msg) >= n { f(msg[:n]); msg = msg[n:] }`, as `k` passes. -/
def runBlocks {S : Type} (n : Nat) (f : S → Bytes → S) : Nat → S → Bytes → S
  | 0, s, _ => s
  | k + 1, s, m => runBlocks n f k (f s (m.take n)) (m.drop n)

section
variable {S : Type} (n : Nat) (f : S → Bytes → S)

theorem runBlocks_add (j k : Nat) (s : S) (m : Bytes) :
    runBlocks n f (j + k) s m = runBlocks n f k (runBlocks n f j s m) (m.drop (n * j)) := by
  induction j generalizing s m with
  | zero => simp [runBlocks]
  | succ j ih =>
    rw [show j + 1 + k = (j + k) + 1 by omega, runBlocks, ih, runBlocks, List.drop_drop]
    congr 2
    rw [Nat.mul_succ]; omega

theorem runBlocks_append (k : Nat) (s : S) (a b : Bytes) (h : n * k ≤ a.length) :
    runBlocks n f k s (a ++ b) = runBlocks n f k s a := by
  induction k generalizing s a with
  | zero => rfl
  | succ k ih =>
    rw [Nat.mul_succ] at h
    rw [runBlocks, runBlocks, List.take_append_of_le_length (by omega), List.drop_append_of_le_length (by omega)]
    exact ih _ _ (by rw [List.length_drop]; omega)

theorem runBlocks_take (k : Nat) (s : S) (a : Bytes) (h : n * k ≤ a.length) :
    runBlocks n f k s (a.take (n * k)) = runBlocks n f k s a := by
  conv_rhs => rw [← List.take_append_drop (n * k) a]
  rw [runBlocks_append]
  rw [List.length_take]; omega

/-- all full blocks of a message. -/
def fullBlocks (s : S) (m : Bytes) : S := runBlocks n f (m.length / n) s m

/-- the bytes after the last full block. -/
def rest (m : Bytes) : Bytes := m.drop (n * (m.length / n))

/-- processing the full blocks of `a`, keeping the rest, and going on with `b` is processing `a ++ b`. -/
theorem fullBlocks_append (hn : 0 < n) (s : S) (a b : Bytes) :
    fullBlocks n f (fullBlocks n f s a) (rest n a ++ b) = fullBlocks n f s (a ++ b) ∧
    rest n (rest n a ++ b) = rest n (a ++ b) := by
  have hle : n * (a.length / n) ≤ a.length := Nat.mul_div_le _ _
  have hl : (rest n a ++ b).length = a.length - n * (a.length / n) + b.length := by simp [rest]
  have hd : (a ++ b).length / n = a.length / n + (rest n a ++ b).length / n := by
    rw [hl, List.length_append]
    conv_lhs => rw [show a.length + b.length = (a.length - n * (a.length / n) + b.length) + n * (a.length / n) by omega,
      Nat.add_mul_div_left _ _ hn]
    omega
  have hdrop : (a ++ b).drop (n * (a.length / n)) = rest n a ++ b := by
    rw [List.drop_append_of_le_length hle]; rfl
  constructor
  · unfold fullBlocks
    rw [hd, runBlocks_add, hdrop, runBlocks_append _ _ _ _ _ _ hle]
  · conv_rhs => unfold rest
    rw [hd, Nat.mul_add, ← List.drop_drop, hdrop]
    rfl

theorem rest_length (m : Bytes) : (rest n m).length = m.length % n := by
  rw [rest, List.length_drop, Nat.mod_eq_sub]

theorem short_block (s : S) (m : Bytes) (h : m.length < n) : fullBlocks n f s m = s ∧ rest n m = m := by
  unfold fullBlocks rest
  rw [Nat.div_eq_of_lt h]
  exact ⟨rfl, by simp⟩

theorem one_block (hn : 0 < n) (s : S) (m : Bytes) (h : m.length = n) : fullBlocks n f s m = f s m ∧ rest n m = [] := by
  unfold fullBlocks rest
  rw [h, Nat.div_self hn, Nat.mul_one]
  exact ⟨by simp [runBlocks, ← h], by simp [← h]⟩

end

/-- `binary.BigEndian.Uint32`. -/
def word32 (b : Bytes) : BitVec 32 := BitVec.ofNat 32 (beNat (b.take 4))
/-- `binary.BigEndian.PutUint32`. -/
def bytes32 (x : BitVec 32) : Bytes :=
  [UInt8.ofNat (x.toNat / 16777216), UInt8.ofNat (x.toNat / 65536), UInt8.ofNat (x.toNat / 256), UInt8.ofNat x.toNat]
/-- `binary.BigEndian.Uint64`. -/
def word64 (b : Bytes) : BitVec 64 := BitVec.ofNat 64 (beNat (b.take 8))
/-- the eight big-endian bytes of a 64-bit number. -/
def bytes64 (x : Nat) : Bytes :=
  [UInt8.ofNat (x / 2 ^ 56), UInt8.ofNat (x / 2 ^ 48), UInt8.ofNat (x / 2 ^ 40), UInt8.ofNat (x / 2 ^ 32),
   UInt8.ofNat (x / 2 ^ 24), UInt8.ofNat (x / 2 ^ 16), UInt8.ofNat (x / 2 ^ 8), UInt8.ofNat x]

theorem bytes32_length (x : BitVec 32) : (bytes32 x).length = 4 := rfl
theorem bytes64_length (x : Nat) : (bytes64 x).length = 8 := rfl

theorem bytes32_eq (x : BitVec 32) : bytes32 x = padLeft 4 (natBytes x.toNat) := by
  have hx : x.toNat < 4294967296 := x.isLt
  have hl := natBytes_length_le (n := x.toNat) (k := 4) (by omega)
  apply beNat_inj_of_length
  · rw [padLeft_length hl]; rfl
  · rw [beNat_padLeft, beNat_natBytes]
    simp only [bytes32, beNat_cons, beNat_nil, List.length_cons, List.length_nil, UInt8.toNat_ofNat']
    omega

theorem bytes64_eq (x : Nat) (hx : x < 2 ^ 64) : bytes64 x = padLeft 8 (natBytes x) := by
  have hl := natBytes_length_le (n := x) (k := 8) (by omega)
  apply beNat_inj_of_length
  · rw [padLeft_length hl]; rfl
  · rw [beNat_padLeft, beNat_natBytes]
    simp only [bytes64, beNat_cons, beNat_nil, List.length_cons, List.length_nil, UInt8.toNat_ofNat']
    omega

end Verif.Hash
