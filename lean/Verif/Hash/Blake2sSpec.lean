import Verif.Hash.BlakeMixSpec

/-!
# BLAKE2s as in RFC 7693 (section 3), with the parameter block of the BLAKE2 paper (section 2.5), independent of the model
-/

namespace Verif.Blake2s.Spec

open Verif.Blake.Spec (round sig)

/-- RFC 7693, section 2.6: the initialization vector. -/
def IV : Fin 8 → BitVec 32 :=
  ![0x6A09E667, 0xBB67AE85, 0x3C6EF372, 0xA54FF53A, 0x510E527F, 0x9B05688C, 0x1F83D9AB, 0x5BE0CD19]

/-- the little-endian word at position `i` of a byte string. -/
def wordAt (b : Bytes) (i : ℕ) : BitVec 32 := BitVec.ofNat 32 (leNat ((b.drop i).take 4))

/-- `n` as `k` bytes, least significant first. -/
def le (k n : ℕ) : Bytes := (List.range k).map fun i => UInt8.ofNat (n / 256 ^ i)

/-- `b` followed by zeros, `n` bytes in all. -/
def zeroPad (n : ℕ) (b : Bytes) : Bytes := b ++ List.replicate (n - b.length) 0

/-- section 3.2: the compression function, with chaining value `h`, message words `m`, offset counter `t`, the flag `final` of
the last block, and the flag `lastNode` of the BLAKE2 paper for tree hashing. -/
def F (h : Fin 8 → BitVec 32) (m : ℕ → BitVec 32) (t : ℕ) (final lastNode : Bool) : Fin 8 → BitVec 32 :=
  let ones (b : Bool) : BitVec 32 := if b then 0xFFFFFFFF else 0
  let v : Fin 16 → BitVec 32 := ![h 0, h 1, h 2, h 3, h 4, h 5, h 6, h 7, IV 0, IV 1, IV 2, IV 3,
    IV 4 ^^^ BitVec.ofNat 32 t, IV 5 ^^^ BitVec.ofNat 32 (t / 2 ^ 32), IV 6 ^^^ ones final, IV 7 ^^^ ones lastNode]
  let v := (List.range 10).foldl (fun v r => round ![16, 12, 8, 7] (fun i => m (sig r (2 * i.val)))
    (fun i => m (sig r (2 * i.val + 1))) v) v
  fun i => h i ^^^ v ⟨i.val, by omega⟩ ^^^ v ⟨i.val + 8, by omega⟩

/-- the chaining value after `i` blocks of `D`, none of them the last: section 3.3. -/
def chain (h0 : Fin 8 → BitVec 32) (D : Bytes) : ℕ → Fin 8 → BitVec 32
  | 0 => h0
  | i + 1 => F (chain h0 D i) (fun j => wordAt D (64 * i + 4 * j)) (64 * (i + 1)) false false

/-- what a call fixes besides the data: BLAKE2 paper, section 2.5 (sequential mode of RFC 7693: fanout 1, depth 1, the rest 0). -/
structure Params where
  outLen : ℕ
  key : Bytes
  fanout : ℕ := 1
  depth : ℕ := 1
  leafLen : ℕ := 0
  nodeOffset : ℕ := 0
  nodeDepth : ℕ := 0
  innerLen : ℕ := 0
  salt : Bytes := []
  person : Bytes := []
  lastNode : Bool := false

/-- the parameter block, 32 bytes. -/
def Params.block (P : Params) : Bytes :=
  le 1 P.outLen ++ le 1 P.key.length ++ le 1 P.fanout ++ le 1 P.depth ++ le 4 P.leafLen ++ le 6 P.nodeOffset ++
    le 1 P.nodeDepth ++ le 1 P.innerLen ++ zeroPad 8 P.salt ++ zeroPad 8 P.person

/-- section 3.3: a key is a block of its own before the message. -/
def input (key msg : Bytes) : Bytes := (if key = [] then [] else zeroPad 64 key) ++ msg

/-- the number of blocks: at least one. -/
def blockCount (n : ℕ) : ℕ := max 1 ((n + 63) / 64)

/-- section 3.3: the hash of `msg`. -/
def hash (P : Params) (msg : Bytes) : Bytes :=
  let h0 : Fin 8 → BitVec 32 := fun i => IV i ^^^ wordAt P.block (4 * i.val)
  let D := input P.key msg
  let n := blockCount D.length
  let padded := zeroPad (64 * n) D
  let h := F (chain h0 padded (n - 1)) (fun j => wordAt padded (64 * (n - 1) + 4 * j)) D.length true P.lastNode
  ((List.ofFn h).flatMap fun x => le 4 x.toNat).take P.outLen

end Verif.Blake2s.Spec
