import Verif.Bls.Fe

/-!
# The part of the amd64 instruction set used by bls12_381/bls/arithmetic_x86.s

The semantics follow the Intel manual for the eleven instructions of the file, in the operand order of the Go assembler
(source first, destination last).  Only the flags CF and OF are modelled: no instruction of the file reads another one.

Simplifications.  Memory is a map from addresses to words, which is exact as long as all accesses are to aligned words.
The stack frame (`0(SP)`, `8(SP)`, `16(SP)`) and the arguments (`x+n(FP)`) are separate from it, since no pointer argument
points into them.  `·modulus` and `·inp` (bls12_381.go:9-12) are constants: nothing in the package writes to them.
-/

namespace Verif.X86

/-- the general purpose registers of the file (all but BP, SP). -/
inductive Reg where
  | ax | bx | cx | dx | si | di | r8 | r9 | r10 | r11 | r12 | r13 | r14 | r15
deriving DecidableEq

/-- the machine: registers, the words `0(SP)`, `8(SP)`, `16(SP)` of the frame, the arguments `0(FP)`, `8(FP)`, `16(FP)`, the two
flags and the memory. -/
structure St where
  ax : UInt64
  bx : UInt64
  cx : UInt64
  dx : UInt64
  si : UInt64
  di : UInt64
  r8 : UInt64
  r9 : UInt64
  r10 : UInt64
  r11 : UInt64
  r12 : UInt64
  r13 : UInt64
  r14 : UInt64
  r15 : UInt64
  s0 : UInt64
  s1 : UInt64
  s2 : UInt64
  f0 : UInt64
  f1 : UInt64
  f2 : UInt64
  cf : Bool
  of : Bool
  mem : UInt64 → UInt64

/-- an operand: a register `R8`, a constant `$n`, a word of memory `n(DI)`, a word of the frame `8k(SP)`, an argument `x+8k(FP)`,
a word of the modulus `·modulus+8k(SB)`, or `·inp+0(SB)`. -/
inductive Opd where
  | reg (r : Reg)
  | imm (n : UInt64)
  | mem (b : Reg) (off : UInt64)
  | sp (k : Fin 3)
  | fp (k : Fin 3)
  | modulus (k : Fin 6)
  | inp
deriving DecidableEq

/-- the instructions of the file. -/
inductive Instr where
  /-- `MOVQ src, dst` -/
  | mov (src dst : Opd)
  /-- `XORQ src, dst` -/
  | xor (src dst : Opd)
  /-- `ADDQ src, dst` -/
  | add (src dst : Opd)
  /-- `ADCQ src, dst` -/
  | adc (src dst : Opd)
  /-- `SUBQ src, dst` -/
  | sub (src dst : Opd)
  /-- `SBBQ src, dst` -/
  | sbb (src dst : Opd)
  /-- `ADCXQ src, dst` -/
  | adcx (src dst : Opd)
  /-- `ADOXQ src, dst` -/
  | adox (src dst : Opd)
  /-- `MULXQ src, lo, hi` -/
  | mulx (src lo hi : Opd)
  /-- `MULQ src` -/
  | mul (src : Opd)
  /-- `CMOVQCC src, dst` -/
  | cmovcc (src dst : Opd)
deriving DecidableEq

def Reg.get : Reg → St → UInt64
  | .ax, s => s.ax | .bx, s => s.bx | .cx, s => s.cx | .dx, s => s.dx | .si, s => s.si | .di, s => s.di
  | .r8, s => s.r8 | .r9, s => s.r9 | .r10, s => s.r10 | .r11, s => s.r11 | .r12, s => s.r12 | .r13, s => s.r13
  | .r14, s => s.r14 | .r15, s => s.r15

def Reg.set : Reg → UInt64 → St → St
  | .ax, v, s => { s with ax := v } | .bx, v, s => { s with bx := v } | .cx, v, s => { s with cx := v }
  | .dx, v, s => { s with dx := v } | .si, v, s => { s with si := v } | .di, v, s => { s with di := v }
  | .r8, v, s => { s with r8 := v } | .r9, v, s => { s with r9 := v } | .r10, v, s => { s with r10 := v }
  | .r11, v, s => { s with r11 := v } | .r12, v, s => { s with r12 := v } | .r13, v, s => { s with r13 := v }
  | .r14, v, s => { s with r14 := v } | .r15, v, s => { s with r15 := v }

/-- the value of an operand. -/
def Opd.get : Opd → St → UInt64
  | .reg r, s => r.get s
  | .imm n, _ => n
  | .mem b off, s => s.mem (b.get s + off)
  | .sp 0, s => s.s0
  | .sp 1, s => s.s1
  | .sp 2, s => s.s2
  | .fp 0, s => s.f0
  | .fp 1, s => s.f1
  | .fp 2, s => s.f2
  | .modulus 0, _ => Bls.modulus.l0
  | .modulus 1, _ => Bls.modulus.l1
  | .modulus 2, _ => Bls.modulus.l2
  | .modulus 3, _ => Bls.modulus.l3
  | .modulus 4, _ => Bls.modulus.l4
  | .modulus 5, _ => Bls.modulus.l5
  | .inp, _ => Bls.inp

/-- writes to an operand (registers, memory and frame; the file writes to nothing else). -/
def Opd.set : Opd → UInt64 → St → St
  | .reg r, v, s => r.set v s
  | .mem b off, v, s => { s with mem := fun p => if p = b.get s + off then v else s.mem p }
  | .sp 0, v, s => { s with s0 := v }
  | .sp 1, v, s => { s with s1 := v }
  | .sp 2, v, s => { s with s2 := v }
  | _, _, s => s

/-- the word of `x + y + c`. -/
def addW (x y : UInt64) (c : Bool) : UInt64 := x + y + c.toUInt64

/-- the carry of `x + y + c`. -/
def addC (x y : UInt64) (c : Bool) : Bool := decide (2 ^ 64 ≤ x.toNat + y.toNat + c.toNat)

/-- the signed overflow of `x + y + c`: the summands have one sign, the sum has the other. -/
def addO (x y : UInt64) (c : Bool) : Bool :=
  decide (x < 2 ^ 63) == decide (y < 2 ^ 63) && decide (x < 2 ^ 63) != decide (addW x y c < 2 ^ 63)

/-- the word of `x - y - c`. -/
def subW (x y : UInt64) (c : Bool) : UInt64 := x - y - c.toUInt64

/-- the borrow of `x - y - c`. -/
def subC (x y : UInt64) (c : Bool) : Bool := decide (x.toNat < y.toNat + c.toNat)

/-- the signed overflow of `x - y - c`. -/
def subO (x y : UInt64) (c : Bool) : Bool :=
  decide (x < 2 ^ 63) != decide (y < 2 ^ 63) && decide (x < 2 ^ 63) != decide (subW x y c < 2 ^ 63)

/-- the lower word of a product. -/
def mulLo (x y : UInt64) : UInt64 := x * y

/-- the upper word of a product. -/
def mulHi (x y : UInt64) : UInt64 := UInt64.ofNat (x.toNat * y.toNat / 2 ^ 64)

/-- one instruction. -/
def step : Instr → St → St
  | .mov a b, s => b.set (a.get s) s
  | .xor a b, s => { b.set (b.get s ^^^ a.get s) s with cf := false, of := false }
  | .add a b, s => { b.set (addW (b.get s) (a.get s) false) s with
      cf := addC (b.get s) (a.get s) false, of := addO (b.get s) (a.get s) false }
  | .adc a b, s => { b.set (addW (b.get s) (a.get s) s.cf) s with
      cf := addC (b.get s) (a.get s) s.cf, of := addO (b.get s) (a.get s) s.cf }
  | .sub a b, s => { b.set (subW (b.get s) (a.get s) false) s with
      cf := subC (b.get s) (a.get s) false, of := subO (b.get s) (a.get s) false }
  | .sbb a b, s => { b.set (subW (b.get s) (a.get s) s.cf) s with
      cf := subC (b.get s) (a.get s) s.cf, of := subO (b.get s) (a.get s) s.cf }
  | .adcx a b, s => { b.set (addW (b.get s) (a.get s) s.cf) s with cf := addC (b.get s) (a.get s) s.cf }
  | .adox a b, s => { b.set (addW (b.get s) (a.get s) s.of) s with of := addC (b.get s) (a.get s) s.of }
  | .mulx a lo hi, s => hi.set (mulHi s.dx (a.get s)) (lo.set (mulLo s.dx (a.get s)) s)
  | .mul a, s => { s with ax := mulLo s.ax (a.get s), dx := mulHi s.ax (a.get s),
                          cf := mulHi s.ax (a.get s) != 0, of := mulHi s.ax (a.get s) != 0 }
  | .cmovcc a b, s => if s.cf then s else b.set (a.get s) s

/-- straight-line code, up to its `RET`. -/
def run : List Instr → St → St
  | [], s => s
  | i :: is, s => run is (step i s)

theorem run_append (p q : List Instr) (s : St) : run (p ++ q) s = run q (run p s) := by
  induction p generalizing s with
  | nil => rfl
  | cons i p ih => exact ih _

theorem toNat_decide (P : Prop) [Decidable P] : (decide P).toNat = if P then 1 else 0 := by
  by_cases h : P <;> simp [h]

theorem bit_toNat (c : Bool) : c.toUInt64.toNat = c.toNat ∧ c.toNat ≤ 1 := by cases c <;> decide

theorem addW_spec (x y : UInt64) (c : Bool) :
    (addW x y c).toNat + 18446744073709551616 * (addC x y c).toNat = x.toNat + y.toNat + c.toNat := by
  have hx := x.toNat_lt; have hy := y.toNat_lt
  have hc := bit_toNat c
  unfold addW addC
  rw [toNat_decide, UInt64.toNat_add, UInt64.toNat_add, hc.1]
  split <;> omega

theorem subW_spec (x y : UInt64) (c : Bool) :
    (subW x y c).toNat + y.toNat + c.toNat = x.toNat + 18446744073709551616 * (subC x y c).toNat := by
  have hx := x.toNat_lt; have hy := y.toNat_lt
  have hc := bit_toNat c
  unfold subW subC
  rw [toNat_decide, UInt64.toNat_sub, UInt64.toNat_sub, hc.1]
  split <;> omega

theorem mul_spec (x y : UInt64) : (mulLo x y).toNat + 18446744073709551616 * (mulHi x y).toNat = x.toNat * y.toNat := by
  have hx := x.toNat_lt; have hy := y.toNat_lt
  have : x.toNat * y.toNat < 2 ^ 64 * 2 ^ 64 := Nat.mul_lt_mul'' hx hy
  unfold mulLo mulHi
  rw [UInt64.toNat_mul, UInt64.toNat_ofNat', Nat.mod_eq_of_lt (a := _ / _) (by omega)]
  omega

end Verif.X86
