import Verif.Bytes

/-!
# RFC 9380, sections 4 and 5.3.1: `expand_message_xmd` with a hash of 32-byte output and 64-byte blocks
-/

namespace Verif.Bls.Spec

/-- `I2OSP(n, k)`: `n` as `k` big-endian bytes (`n < 256^k`). -/
def i2osp (n k : Nat) : Bytes := (List.range k).reverse.map fun i => UInt8.ofNat (n / 256 ^ i)

/-- `strxor` of two strings of the same length. -/
def strxor (a b : Bytes) : Bytes := List.zipWith (· ^^^ ·) a b

/-- steps 7–10: `b_(i+1)`. -/
def block (H : Bytes → Bytes) (b0 dstPrime : Bytes) : Nat → Bytes
  | 0 => H (b0 ++ i2osp 1 1 ++ dstPrime)
  | i + 1 => H (strxor b0 (block H b0 dstPrime i) ++ i2osp (i + 2) 1 ++ dstPrime)

/-- `expand_message_xmd(msg, DST, len_in_bytes)`; `none` is ABORT. -/
def expand (H : Bytes → Bytes) (msg dst : Bytes) (len : Nat) : Option Bytes :=
  let ell := (len + 31) / 32
  if ell > 255 ∨ len > 65535 ∨ dst.length > 255 then none
  else
    let dstPrime := dst ++ i2osp dst.length 1
    let b0 := H (List.replicate 64 0 ++ msg ++ i2osp len 2 ++ i2osp 0 1 ++ dstPrime)
    some (((List.range ell).flatMap (block H b0 dstPrime)).take len)

end Verif.Bls.Spec
