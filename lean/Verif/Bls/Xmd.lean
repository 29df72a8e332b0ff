import Verif.Bytes
import Verif.Go

/-!
# Package bls: model of bls12_381/bls/hash_to_field.go `expandMsgSHA256XMD`

`crypto/sha256` is a parameter `H`, a function from the written bytes to the digest; `h.Size()` is 32 and `h.BlockSize()` is 64.
-/

namespace Verif.Bls

/-- `copy(out[pos:], b)` for `pos ≤ len(out)`. -/
def copyAt (out : Bytes) (pos : Nat) (b : Bytes) : Bytes :=
  out.take pos ++ (b.take (out.length - pos) ++ out.drop (pos + (b.take (out.length - pos)).length))

/-- hash_to_field.go:54-57: `tmp[j] = b0[j] ^ bi[j]` for 32 bytes. -/
def xor32 (a b : Bytes) : Bytes := (List.range 32).map fun j => a.getD j 0 ^^^ b.getD j 0

/-- hash_to_field.go:51-66: the loop from `i` on, with `fuel = ell - i` steps left; returns the buffer and the last block. -/
def loop (H : Bytes → Bytes) (b0 domain : Bytes) (domainLen : UInt8) : Nat → Nat → Bytes → Bytes → Bytes × Bytes
  | 0, _, bi, out => (bi, out)
  | fuel + 1, i, bi, out =>
    let tmp := xor32 b0 bi
    let bi' := H (tmp ++ ([1 + UInt8.ofNat i] ++ (domain ++ [domainLen])))
    loop H b0 domain domainLen fuel (i + 1) bi' (copyAt out ((i - 1) * 32) bi)

/-- hash_to_field.go:23-70 `expandMsgSHA256XMD` for `outLen ≥ 0`.  `domainLen > 255` is never true of a `uint8`, so there is no error
branch; for `outLen = 0` the slice `out[-32:]` panics. -/
def expandMsg (H : Bytes → Bytes) (msg domain : Bytes) (outLen : Nat) : Go Bytes :=
  let domainLen := UInt8.ofNat domain.length
  let b0 := H (List.replicate 64 0 ++ (msg ++ ([UInt8.ofNat (outLen / 256), UInt8.ofNat outLen] ++ ([0] ++ (domain ++ [domainLen])))))
  let b1 := H (b0 ++ ([1] ++ (domain ++ [domainLen])))
  let ell := (outLen + 32 - 1) / 32
  let (bi, out) := loop H b0 domain domainLen (ell - 1) 1 b1 (List.replicate outLen 0)
  if ell = 0 then .panic
  else .ret ((copyAt out ((ell - 1) * 32) bi).take outLen)

end Verif.Bls
