import Verif.Bytes
import Mathlib.Data.Fin.VecNotation

/-!
# SM3 as in GB/T 32905-2016, independent of the model

Section numbers are those of the standard.
-/

namespace Verif.SM3.Spec

/-- section 4.1: the initial value. -/
def IV : Fin 8 → BitVec 32 :=
  ![0x7380166f, 0x4914b2b9, 0x172442d7, 0xda8a0600, 0xa96f30bc, 0x163138aa, 0xe38dee4d, 0xb0fb0e4e]

/-- section 4.2: the constants. -/
def T (j : ℕ) : BitVec 32 := if j ≤ 15 then 0x79cc4519 else 0x7a879d8a

/-- section 4.3. -/
def FF (j : ℕ) (X Y Z : BitVec 32) : BitVec 32 :=
  if j ≤ 15 then X ^^^ Y ^^^ Z else (X &&& Y) ||| (X &&& Z) ||| (Y &&& Z)
/-- section 4.3. -/
def GG (j : ℕ) (X Y Z : BitVec 32) : BitVec 32 :=
  if j ≤ 15 then X ^^^ Y ^^^ Z else (X &&& Y) ||| (~~~X &&& Z)

/-- section 4.4. -/
def P0 (X : BitVec 32) : BitVec 32 := X ^^^ X.rotateLeft 9 ^^^ X.rotateLeft 17
/-- section 4.4. -/
def P1 (X : BitVec 32) : BitVec 32 := X ^^^ X.rotateLeft 15 ^^^ X.rotateLeft 23

/-- section 5.2: a one bit, the least number of zero bits and the 64-bit length, on byte strings. -/
def pad (m : Bytes) : Bytes :=
  m ++ [0x80] ++ List.replicate ((119 - m.length % 64) % 64) 0x00 ++ padLeft 8 (natBytes (8 * m.length))

/-- section 5.3.2: the words `W_j` of the expanded block `B`. -/
def W (B : Bytes) (j : ℕ) : BitVec 32 :=
  if _h : j < 16 then BitVec.ofNat 32 (beNat ((B.drop (4 * j)).take 4))
  else P1 (W B (j - 16) ^^^ W B (j - 9) ^^^ (W B (j - 3)).rotateLeft 15) ^^^ (W B (j - 13)).rotateLeft 7 ^^^ W B (j - 6)
termination_by j

/-- section 5.3.2: the words `W'_j`. -/
def W' (B : Bytes) (j : ℕ) : BitVec 32 := W B j ^^^ W B (j + 4)

/-- section 5.3.3: the registers `A … H` after `j` steps of the compression of block `B` from the value `v`. -/
def regs (B : Bytes) (v : Fin 8 → BitVec 32) : ℕ → Fin 8 → BitVec 32
  | 0 => v
  | j + 1 =>
    let r := regs B v j
    let SS1 := ((r 0).rotateLeft 12 + r 4 + (T j).rotateLeft (j % 32)).rotateLeft 7
    let SS2 := SS1 ^^^ (r 0).rotateLeft 12
    let TT1 := FF j (r 0) (r 1) (r 2) + r 3 + SS2 + W' B j
    let TT2 := GG j (r 4) (r 5) (r 6) + r 7 + SS1 + W B j
    ![TT1, r 0, (r 1).rotateLeft 9, r 2, P0 TT2, r 4, (r 5).rotateLeft 19, r 6]

/-- section 5.3.3: the compression function. -/
def CF (v : Fin 8 → BitVec 32) (B : Bytes) : Fin 8 → BitVec 32 := fun i => regs B v 64 i ^^^ v i

/-- section 5.3.1: the iteration over the 64-byte blocks `B_0, …` of the padded message. -/
def iter (m : Bytes) : ℕ → Fin 8 → BitVec 32
  | 0 => IV
  | i + 1 => CF (iter m i) ((m.drop (64 * i)).take 64)

/-- section 5.4: the 256-bit hash value, as 32 big-endian bytes. -/
def hash (m : Bytes) : Bytes :=
  (List.ofFn fun i : Fin 8 => padLeft 4 (natBytes (iter (pad m) ((pad m).length / 64) i).toNat)).flatten

end Verif.SM3.Spec
