import Verif.Bytes
import Mathlib.Data.Fin.Basic
import Mathlib.Data.ZMod.Defs

/-!
# Keccak-p[1600, 24], the sponge and the SHA-3 functions as in FIPS 202, independent of the model

Section numbers are those of FIPS 202.  A lane is a 64-bit word, bit `z` of the lane being bit `z` of the word.
-/

namespace Verif.SHA3.Spec

/-- section 3.1: the state array, `A x y` being the lane at column `x` and row `y`. -/
abbrev State := Fin 5 → Fin 5 → BitVec 64

/-- section 3.2.1: θ, step 1. -/
def C (A : State) (x : Fin 5) : BitVec 64 := A x 0 ^^^ A x 1 ^^^ A x 2 ^^^ A x 3 ^^^ A x 4
/-- section 3.2.1: θ, step 2; bit `z - 1` of a lane moves to `z`. -/
def D (A : State) (x : Fin 5) : BitVec 64 := C A (x - 1) ^^^ (C A (x + 1)).rotateLeft 1
/-- section 3.2.1: θ. -/
def theta (A : State) : State := fun x y => A x y ^^^ D A x

/-- section 3.2.2, step 2 and 3b: the lane visited at step `t`. -/
def walk : ℕ → Fin 5 × Fin 5
  | 0 => (1, 0)
  | t + 1 => ((walk t).2, 2 * (walk t).1 + 3 * (walk t).2)

/-- section 3.2.2: the offset of lane `(x, y)`: `(t+1)(t+2)/2` for the step `t` that visits it, 0 for lane `(0, 0)`. -/
def offset (x y : Fin 5) : ℕ :=
  match (List.range 24).find? (fun t => walk t == (x, y)) with
  | some t => (t + 1) * (t + 2) / 2 % 64
  | none => 0

/-- section 3.2.2: ρ. -/
def rho (A : State) : State := fun x y => (A x y).rotateLeft (offset x y)

/-- section 3.2.3: π. -/
def pi (A : State) : State := fun x y => A (x + 3 * y) x

/-- section 3.2.4: χ. -/
def chi (A : State) : State := fun x y => A x y ^^^ (~~~(A (x + 1) y) &&& A (x + 2) y)

/-- section 3.2.5, algorithm 5: the register `R` after `t` steps; entry `i` is `R[i]`. -/
def lfsr : ℕ → List Bool
  | 0 => [true, false, false, false, false, false, false, false]
  | t + 1 =>
    let R := false :: lfsr t
    let b := R.getD 8 false
    [xor (R.getD 0 false) b, R.getD 1 false, R.getD 2 false, R.getD 3 false, xor (R.getD 4 false) b,
     xor (R.getD 5 false) b, xor (R.getD 6 false) b, R.getD 7 false]

/-- section 3.2.5, algorithm 5. -/
def rc (t : ℕ) : Bool := (lfsr (t % 255)).getD 0 false

/-- section 3.2.5, algorithm 6: the round constant, bit `2^j - 1` being `rc(j + 7 ir)` for `j = 0 … 6`. -/
def RC (ir : ℕ) : BitVec 64 :=
  (List.range 7).foldl (fun w j => if rc (j + 7 * ir) then w ||| BitVec.twoPow 64 (2 ^ j - 1) else w) 0

/-- section 3.2.5: ι, with the round constant `k`. -/
def iota (k : BitVec 64) (A : State) : State := fun x y => if x = 0 ∧ y = 0 then A x y ^^^ k else A x y

/-- section 3.3: one round. -/
def round (A : State) (k : BitVec 64) : State := iota k (chi (pi (rho (theta A))))

/-- section 3.3 and 3.4: Keccak-f[1600], 24 rounds. -/
def keccakF (A : State) : State := (List.range 24).foldl (fun A ir => round A (RC ir)) A

/-- section 3.1.2: byte string to state: lane `(x, y)` is the 8 bytes at `8 (5 y + x)`, the first byte lowest; a string
shorter than 200 bytes is filled with zeros. -/
def load (b : Bytes) : State := fun x y => BitVec.ofNat 64 (leNat ((b.drop (8 * (5 * y.val + x.val))).take 8))

/-- section 3.1.3: state to byte string: byte `i` of the 200. -/
def byteAt (A : State) (i : ℕ) : UInt8 :=
  UInt8.ofNat ((A (Fin.ofNat 5 (i / 8)) (Fin.ofNat 5 (i / 8 / 5))).toNat / 256 ^ (i % 8))

/-- bitwise exclusive or of states. -/
def xorState (A B : State) : State := fun x y => A x y ^^^ B x y

/-- section 5.1: pad10*1 after the domain bits.  `ds` holds the domain bits and the first bit of the padding (appendix B.2:
0x06 for SHA-3, 0x1f for SHAKE, 0x01 for the original Keccak). -/
def pad (rate : ℕ) (ds : UInt8) (m : Bytes) : Bytes :=
  let z := rate - m.length % rate
  m ++ (if z = 1 then [ds ^^^ 0x80] else [ds] ++ List.replicate (z - 2) 0 ++ [0x80])

/-- section 4, algorithm 8, step 6: absorbing the first `k` blocks of `rate` bytes. -/
def absorb (rate : ℕ) (P : Bytes) : ℕ → State
  | 0 => fun _ _ => 0
  | k + 1 => keccakF (xorState (absorb rate P k) (load ((P.drop (rate * k)).take rate)))

/-- section 4, algorithm 8, steps 7-10: byte `i` of the output stream: byte `i mod rate` of the state after `i / rate` more
permutations. -/
def streamByte (rate : ℕ) (S : State) (i : ℕ) : UInt8 := byteAt (keccakF^[i / rate] S) (i % rate)

/-- section 4, algorithm 8: the first `d` bytes of `SPONGE(m)`. -/
def sponge (rate : ℕ) (ds : UInt8) (m : Bytes) (d : ℕ) : Bytes :=
  (List.range d).map (streamByte rate (absorb rate (pad rate ds m) ((pad rate ds m).length / rate)))

/-- section 6.1. -/
def sha3_224 (m : Bytes) : Bytes := sponge 144 0x06 m 28
/-- section 6.1. -/
def sha3_256 (m : Bytes) : Bytes := sponge 136 0x06 m 32
/-- section 6.1. -/
def sha3_384 (m : Bytes) : Bytes := sponge 104 0x06 m 48
/-- section 6.1. -/
def sha3_512 (m : Bytes) : Bytes := sponge 72 0x06 m 64
/-- section 6.2. -/
def shake128 (m : Bytes) (d : ℕ) : Bytes := sponge 168 0x1f m d
/-- section 6.2. -/
def shake256 (m : Bytes) (d : ℕ) : Bytes := sponge 136 0x1f m d
/-- the original Keccak-256, without the domain bits of FIPS 202. -/
def keccak256 (m : Bytes) : Bytes := sponge 136 0x01 m 32
/-- the original Keccak-512. -/
def keccak512 (m : Bytes) : Bytes := sponge 72 0x01 m 64

end Verif.SHA3.Spec
