import Verif.Hash.Obj

/-!
# What a user expects of a hash object that computes the function `H`
-/

namespace Verif.Hash

/-- the results of the `Sum` calls of a history, when `m` has been written before: each appends the digest of everything
written since the last `Reset` to its argument. -/
def expected (H : Bytes → Bytes) : Bytes → List Op → List Bytes
  | _, [] => []
  | m, .write p :: ops => expected H (m ++ p) ops
  | m, .sum b :: ops => (b ++ H m) :: expected H m ops
  | _, .reset :: ops => expected H [] ops

/-- the number of bytes written in a history. -/
def written : List Op → Nat
  | [] => 0
  | .write p :: ops => p.length + written ops
  | _ :: ops => written ops

/-- RFC 2104 with block length `n`: `H(K ⊕ opad ‖ H(K ⊕ ipad ‖ m))`, `K` being the key, hashed when longer than a block,
followed by zeros. -/
def hmacSpec (H : Bytes → Bytes) (n : Nat) (key m : Bytes) : Bytes :=
  let k := if key.length > n then H key else key
  let K := k ++ List.replicate (n - k.length) 0
  H (K.map (· ^^^ 0x5c) ++ H (K.map (· ^^^ 0x36) ++ m))

end Verif.Hash
