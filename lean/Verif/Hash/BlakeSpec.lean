import Verif.Hash.BlakeMixSpec

/-!
# BLAKE as in the SHA-3 proposal (version 1.3, section 2), independent of the model

The four functions differ in the word size `w` (32 or 64) and in the fields of `Variant`.  Everything is on byte strings.
-/

namespace Verif.Blake.Spec

/-- sections 2.1 and 2.2: the parameters of one of the four functions. -/
structure Variant (w : ℕ) where
  /-- rotation constants of `G` -/
  R : Fin 4 → ℕ
  /-- number of rounds -/
  rounds : ℕ
  /-- the constants `c_0 … c_15` -/
  c : Fin 16 → BitVec w
  /-- the initial value -/
  iv : Fin 8 → BitVec w
  /-- the bit before the length: 1 for the full-length functions, 0 for the truncated ones -/
  last : UInt8
  /-- number of output words -/
  outWords : ℕ

variable {w : ℕ}

/-- a block has 16 words. -/
def blockBytes (w : ℕ) : ℕ := 2 * w

/-- the constant `c_j`. -/
def Variant.cst (V : Variant w) (j : ℕ) : BitVec w := V.c (Fin.ofNat 16 j)

/-- sections 2.1.2 and 2.2.2: the compression function, with chaining value `h`, message words `m`, salt `s`, counter `t`. -/
def compress (V : Variant w) (h : Fin 8 → BitVec w) (m : ℕ → BitVec w) (s : Fin 4 → BitVec w) (t : ℕ) : Fin 8 → BitVec w :=
  let t0 := BitVec.ofNat w t
  let t1 := BitVec.ofNat w (t / 2 ^ w)
  let v : Fin 16 → BitVec w := ![h 0, h 1, h 2, h 3, h 4, h 5, h 6, h 7, s 0 ^^^ V.cst 0, s 1 ^^^ V.cst 1, s 2 ^^^ V.cst 2,
    s 3 ^^^ V.cst 3, t0 ^^^ V.cst 4, t0 ^^^ V.cst 5, t1 ^^^ V.cst 6, t1 ^^^ V.cst 7]
  let v := (List.range V.rounds).foldl (fun v r => round V.R
    (fun i => m (sig r (2 * i.val)) ^^^ V.cst (sig r (2 * i.val + 1)))
    (fun i => m (sig r (2 * i.val + 1)) ^^^ V.cst (sig r (2 * i.val))) v) v
  fun i => h i ^^^ s (Fin.ofNat 4 i.val) ^^^ v ⟨i.val, by omega⟩ ^^^ v ⟨i.val + 8, by omega⟩

/-- section 2.1.3: padding: a 1 bit, zero bits, the `last` bit, and the length in bits on `w/4` bytes. -/
def pad (V : Variant w) (m : Bytes) : Bytes :=
  let z := blockBytes w - (m.length + w / 4) % blockBytes w
  m ++ (if z = 1 then [0x80 ||| V.last] else [0x80] ++ List.replicate (z - 2) 0 ++ [V.last]) ++
    padLeft (w / 4) (natBytes (8 * m.length))

/-- section 2.1.3: the counter of block `i` of a message of `l` bits: the message bits in blocks 0 to `i`, and 0 for a block
without message bits. -/
def counter (w l i : ℕ) : ℕ := if l ≤ 8 * blockBytes w * i then 0 else min l (8 * blockBytes w * (i + 1))

/-- word `j` of block `i` of the padded message. -/
def msgWord (w : ℕ) (P : Bytes) (i j : ℕ) : BitVec w :=
  BitVec.ofNat w (beNat ((P.drop (blockBytes w * i + w / 8 * j)).take (w / 8)))

/-- section 2.1.3: the chaining value after `i` blocks of the padded message `P`, for a message of `l` bits. -/
def chain (V : Variant w) (s : Fin 4 → BitVec w) (P : Bytes) (l : ℕ) : ℕ → Fin 8 → BitVec w
  | 0 => V.iv
  | i + 1 => compress V (chain V s P l i) (msgWord w P i) s (counter w l i)

/-- section 2.1.3: the hash value. -/
def hash (V : Variant w) (s : Fin 4 → BitVec w) (m : Bytes) : Bytes :=
  ((List.ofFn (chain V s (pad V m) (8 * m.length) ((pad V m).length / blockBytes w))).take V.outWords).flatMap
    fun x => padLeft (w / 8) (natBytes x.toNat)

/-- the constants of BLAKE-256: the first digits of π. -/
def pi256 : Fin 16 → BitVec 32 :=
  ![0x243F6A88, 0x85A308D3, 0x13198A2E, 0x03707344, 0xA4093822, 0x299F31D0, 0x082EFA98, 0xEC4E6C89,
    0x452821E6, 0x38D01377, 0xBE5466CF, 0x34E90C6C, 0xC0AC29B7, 0xC97C50DD, 0x3F84D5B5, 0xB5470917]

/-- the constants of BLAKE-512: the first digits of π. -/
def pi512 : Fin 16 → BitVec 64 :=
  ![0x243F6A8885A308D3, 0x13198A2E03707344, 0xA4093822299F31D0, 0x082EFA98EC4E6C89, 0x452821E638D01377, 0xBE5466CF34E90C6C,
    0xC0AC29B7C97C50DD, 0x3F84D5B5B5470917, 0x9216D5D98979FB1B, 0xD1310BA698DFB5AC, 0x2FFD72DBD01ADFB7, 0xB8E1AFED6A267E96,
    0xBA7C9045F12C7F99, 0x24A19947B3916CF7, 0x0801F2E2858EFC16, 0x636920D871574E69]

/-- section 2.1: BLAKE-256 -/
def blake256 : Variant 32 where
  R := ![16, 12, 8, 7]
  rounds := 14
  c := pi256
  iv := ![0x6A09E667, 0xBB67AE85, 0x3C6EF372, 0xA54FF53A, 0x510E527F, 0x9B05688C, 0x1F83D9AB, 0x5BE0CD19]
  last := 1
  outWords := 8

/-- section 2.3: BLAKE-224 -/
def blake224 : Variant 32 where
  R := ![16, 12, 8, 7]
  rounds := 14
  c := pi256
  iv := ![0xC1059ED8, 0x367CD507, 0x3070DD17, 0xF70E5939, 0xFFC00B31, 0x68581511, 0x64F98FA7, 0xBEFA4FA4]
  last := 0
  outWords := 7

/-- section 2.2: BLAKE-512 -/
def blake512 : Variant 64 where
  R := ![32, 25, 16, 11]
  rounds := 16
  c := pi512
  iv := ![0x6A09E667F3BCC908, 0xBB67AE8584CAA73B, 0x3C6EF372FE94F82B, 0xA54FF53A5F1D36F1,
    0x510E527FADE682D1, 0x9B05688C2B3E6C1F, 0x1F83D9ABFB41BD6B, 0x5BE0CD19137E2179]
  last := 1
  outWords := 8

/-- section 2.4: BLAKE-384 -/
def blake384 : Variant 64 where
  R := ![32, 25, 16, 11]
  rounds := 16
  c := pi512
  iv := ![0xCBBB9D5DC1059ED8, 0x629A292A367CD507, 0x9159015A3070DD17, 0x152FECD8F70E5939,
    0x67332667FFC00B31, 0x8EB44A8768581511, 0xDB0C2E0D64F98FA7, 0x47B5481DBEFA4FA4]
  last := 0
  outWords := 6

end Verif.Blake.Spec
