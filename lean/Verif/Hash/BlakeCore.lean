import Verif.Hash.Blocks

/-!
# The unrolled mixing code of blake256block.go, blake512block.go and blake2s/block.go

The three files consist of groups of seven statements

    va += m[i] ^ cstk      (blake2s: va += m[i])
    va += vb
    vd ^= va
    vd = vd<<(w-r1) | vd>>r1
    vc += vd
    vb ^= vc
    vb = vb<<(w-r2) | vb>>r2

A group is modelled by its indices and shifts (`Instr`), the file by the list of its groups in the order of the text, and
`exec` runs one group, statement by statement, on the sixteen local variables `v0 … v15`.
-/

namespace Verif.Blake

/-- the indices of one group of seven statements. -/
structure Instr where
  a : Nat
  b : Nat
  c : Nat
  d : Nat
  m : Nat
  k : Nat
  r1 : Nat
  r2 : Nat
  deriving DecidableEq

/-- the local variables `v0 … v15`. -/
abbrev Vars (w : Nat) := List (BitVec w)

/-- the seven statements; `x` is the value of the first right-hand side. -/
def exec {w : Nat} (x : Nat → Nat → BitVec w) (v : Vars w) (i : Instr) : Vars w :=
  let v := v.set i.a (v.getD i.a 0 + x i.m i.k)
  let v := v.set i.a (v.getD i.a 0 + v.getD i.b 0)
  let v := v.set i.d (v.getD i.d 0 ^^^ v.getD i.a 0)
  let v := v.set i.d (v.getD i.d 0 <<< (w - i.r1) ||| v.getD i.d 0 >>> i.r1)
  let v := v.set i.c (v.getD i.c 0 + v.getD i.d 0)
  let v := v.set i.b (v.getD i.b 0 ^^^ v.getD i.c 0)
  v.set i.b (v.getD i.b 0 <<< (w - i.r2) ||| v.getD i.b 0 >>> i.r2)

end Verif.Blake
