import Verif.Bls.Group
import Verif.X86.Spec
import Verif.X86.Code

/-!
# The group G1 of bls12_381/bls on amd64, with the assembly for the field operations

`Verif.Bls.g1 .amd64` takes the functions of arithmetic_fallback.go for the field operations.  `g1Asm code` takes the assembly
instead, `code` being the multiplication that `cfgArch` (arithmetic_decl.go:12-20) chooses: `mulADX` or `mulNoADX`.
-/

namespace Verif.X86

open Verif.Bls

/-- a memory with `a` at address 64 and `b` at address 128. -/
def memOf (a b : Fe) (p : UInt64) : UInt64 :=
  if p = 64 then a.l0 else if p = 72 then a.l1 else if p = 80 then a.l2 else if p = 88 then a.l3 else if p = 96 then a.l4
  else if p = 104 then a.l5 else if p = 128 then b.l0 else if p = 136 then b.l1 else if p = 144 then b.l2
  else if p = 152 then b.l3 else if p = 160 then b.l4 else if p = 168 then b.l5 else 0

/-- a state in which a function is called with pointers to `c` (address 0), `a` and `b`. -/
def entry (a b : Fe) : St := ⟨0, 0, 0, 0, 0, 0, 0, 0, 0, 0, 0, 0, 0, 0, 0, 0, 0, 0, 64, 128, false, false, memOf a b⟩

/-- what the call `f(c, a, b)` leaves in `c`. -/
def call (code : List Instr) (a b : Fe) : Fe := load (run code (entry a b)).mem 0

/-- arithmetic_decl.go:26-32 `neg`. -/
def callNeg (a : Fe) : Fe := if Fe.isZero a then a else call neg a a

/-- fp.go:10-21 `fromBytes`, with the multiplication `code`. -/
def fromBytesAsm (code : List Instr) (b : Bytes) : Option Fe :=
  if b.length ≠ 48 then none
  else
    let a := Fe.ofBytes b
    if !Fe.valid a then none else some (call code a r2)

/-- fp.go:75-79 `toBytes` with fp.go:130-132 `fromMont`, with the multiplication `code`. -/
def toBytesAsm (code : List Instr) (a : Fe) : Bytes := Fe.bytes (call code a (Fe.ofWord 1))

/-- fp.go:134-143 `exp`, with the multiplication `code`. -/
def expAsmLoop (code : List Instr) (a : Fe) (e : Nat) : Nat → Fe → Fe
  | 0, z => let z := call code z z
            if e.testBit 0 then call code z a else z
  | i + 1, z => let z := call code z z
                expAsmLoop code a e i (if e.testBit (i + 1) then call code z a else z)

/-- fp.go:207-212 `sqrt`, with the multiplication `code`. -/
def sqrtAsm (code : List Instr) (a : Fe) : Fe × Bool :=
  let c := expAsmLoop code a Fe.pPlus1Over4 (Fe.bitLen Fe.pPlus1Over4) r1
  (c, Fe.equal a (call code c c))

/-- field_element.go:146-151 `signBE`, with the multiplication `code`. -/
def signBEAsm (code : List Instr) (e : Fe) : Bool :=
  let z := call code e (Fe.ofWord 1)
  decide (Fe.cmp (callNeg z) z > -1)

/-- the operations g1.go uses, on amd64 with the multiplication `code`.  `inverse` does not multiply; its `ladd`, `lsubAssign`,
`double` are those of arithmetic_fallback.go, which compute the same words (C106). -/
def g1Asm (code : List Instr) : Ops Fe :=
  { g1 .amd64 with
    add := call add
    sub := call sub
    mul := call code
    double := fun a => call double a a
    neg := callNeg
    square := fun a => call code a a
    sqrt := sqrtAsm code
    signBE := signBEAsm code
    fromBytes := fromBytesAsm code
    toBytes := toBytesAsm code }

end Verif.X86
