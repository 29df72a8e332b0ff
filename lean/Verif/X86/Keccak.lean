import Verif.Hash.KeccakF

/-!
# sha3/keccakf_amd64.s

The amd64 version of the permutation, instruction by instruction (operands in the order of the Go assembler: source first, destination last).

Simplifications.  The array that the argument points to (`_xy(DI)`, `DI` is loaded once and never written) and the frame of 200 bytes
(`_xy(SP)`) are two arrays of 25 words, since the argument does not point into the frame.  Flags are left out: no instruction of the file
reads one.
-/

namespace Verif.X86.Keccak

open Verif.SHA3

/-- a word. -/
abbrev W := BitVec 64

/-- keccakf_amd64.s:10-35: the offsets `_ba` (0*8), `_be` (1*8), … `_su` (24*8). -/
inductive Off where
  | ba | be | bi | bo | bu | ga | ge | gi | go | gu | ka | ke | ki | ko | ku | ma | me | mi | mo | mu | sa | se | si | so | su
deriving DecidableEq

/-- the registers of the file except DI and SP. -/
inductive Reg where
  | ax | bx | cx | dx | si | bp | r8 | r9 | r10 | r11 | r12 | r13 | r14 | r15
deriving DecidableEq

/-- registers, the array `*state` and the frame. -/
structure KSt where
  ax : W
  bx : W
  cx : W
  dx : W
  si : W
  bp : W
  r8 : W
  r9 : W
  r10 : W
  r11 : W
  r12 : W
  r13 : W
  r14 : W
  r15 : W
  st : Lanes
  sp : Lanes

/-- operands: a register, a constant, a word of the array, a word of the frame. -/
inductive Opd where
  | reg (r : Reg)
  | imm (n : W)
  | st (k : Off)
  | sp (k : Off)
deriving DecidableEq

/-- the instructions of the file. -/
inductive Instr where
  /-- `MOVQ src, dst` -/
  | mov (src dst : Opd)
  /-- `XORQ src, dst` -/
  | xor (src dst : Opd)
  /-- `ORQ src, dst` -/
  | or (src dst : Opd)
  /-- `ANDQ src, dst` -/
  | and (src dst : Opd)
  /-- `NOTQ dst` -/
  | not (dst : Opd)
  /-- `ROLQ $n, dst` -/
  | rol (n : Nat) (dst : Opd)
  /-- `NOP` -/
  | nop
deriving DecidableEq

def Reg.get : Reg → KSt → W
  | .ax, s => s.ax
  | .bx, s => s.bx
  | .cx, s => s.cx
  | .dx, s => s.dx
  | .si, s => s.si
  | .bp, s => s.bp
  | .r8, s => s.r8
  | .r9, s => s.r9
  | .r10, s => s.r10
  | .r11, s => s.r11
  | .r12, s => s.r12
  | .r13, s => s.r13
  | .r14, s => s.r14
  | .r15, s => s.r15

def Reg.set : Reg → W → KSt → KSt
  | .ax, v, s => { s with ax := v }
  | .bx, v, s => { s with bx := v }
  | .cx, v, s => { s with cx := v }
  | .dx, v, s => { s with dx := v }
  | .si, v, s => { s with si := v }
  | .bp, v, s => { s with bp := v }
  | .r8, v, s => { s with r8 := v }
  | .r9, v, s => { s with r9 := v }
  | .r10, v, s => { s with r10 := v }
  | .r11, v, s => { s with r11 := v }
  | .r12, v, s => { s with r12 := v }
  | .r13, v, s => { s with r13 := v }
  | .r14, v, s => { s with r14 := v }
  | .r15, v, s => { s with r15 := v }

/-- the word with an offset. -/
def word : Off → Lanes → W
  | .ba, l => l.a0
  | .be, l => l.a1
  | .bi, l => l.a2
  | .bo, l => l.a3
  | .bu, l => l.a4
  | .ga, l => l.a5
  | .ge, l => l.a6
  | .gi, l => l.a7
  | .go, l => l.a8
  | .gu, l => l.a9
  | .ka, l => l.a10
  | .ke, l => l.a11
  | .ki, l => l.a12
  | .ko, l => l.a13
  | .ku, l => l.a14
  | .ma, l => l.a15
  | .me, l => l.a16
  | .mi, l => l.a17
  | .mo, l => l.a18
  | .mu, l => l.a19
  | .sa, l => l.a20
  | .se, l => l.a21
  | .si, l => l.a22
  | .so, l => l.a23
  | .su, l => l.a24

/-- the word with an offset replaced. -/
def setWord : Off → W → Lanes → Lanes
  | .ba, v, l => { l with a0 := v }
  | .be, v, l => { l with a1 := v }
  | .bi, v, l => { l with a2 := v }
  | .bo, v, l => { l with a3 := v }
  | .bu, v, l => { l with a4 := v }
  | .ga, v, l => { l with a5 := v }
  | .ge, v, l => { l with a6 := v }
  | .gi, v, l => { l with a7 := v }
  | .go, v, l => { l with a8 := v }
  | .gu, v, l => { l with a9 := v }
  | .ka, v, l => { l with a10 := v }
  | .ke, v, l => { l with a11 := v }
  | .ki, v, l => { l with a12 := v }
  | .ko, v, l => { l with a13 := v }
  | .ku, v, l => { l with a14 := v }
  | .ma, v, l => { l with a15 := v }
  | .me, v, l => { l with a16 := v }
  | .mi, v, l => { l with a17 := v }
  | .mo, v, l => { l with a18 := v }
  | .mu, v, l => { l with a19 := v }
  | .sa, v, l => { l with a20 := v }
  | .se, v, l => { l with a21 := v }
  | .si, v, l => { l with a22 := v }
  | .so, v, l => { l with a23 := v }
  | .su, v, l => { l with a24 := v }

/-- the value of an operand. -/
def Opd.get : Opd → KSt → W
  | .reg r, s => r.get s
  | .imm n, _ => n
  | .st k, s => word k s.st
  | .sp k, s => word k s.sp

/-- writes to an operand (no instruction of the file writes to a constant). -/
def Opd.set : Opd → W → KSt → KSt
  | .reg r, v, s => r.set v s
  | .imm _, _, s => s
  | .st k, v, s => { s with st := setWord k v s.st }
  | .sp k, v, s => { s with sp := setWord k v s.sp }

/-- one instruction. -/
def step : Instr → KSt → KSt
  | .mov a b, s => b.set (a.get s) s
  | .xor a b, s => b.set (b.get s ^^^ a.get s) s
  | .or a b, s => b.set (b.get s ||| a.get s) s
  | .and a b, s => b.set (b.get s &&& a.get s) s
  | .not b, s => b.set (~~~b.get s) s
  | .rol n b, s => b.set ((b.get s).rotateLeft n) s
  | .nop, s => s

/-- straight-line code, up to its `RET`. -/
def run : List Instr → KSt → KSt
  | [], s => s
  | i :: is, s => run is (step i s)

theorem run_append (p q : List Instr) (s : KSt) : run (p ++ q) s = run q (run p s) := by
  induction p generalizing s with
  | nil => rfl
  | cons i p ih => exact ih _

/-- keccakf_amd64.s:62. -/
def MOVQ_RBI_RCE : Instr := .mov (.reg .r12) (.reg .bp)

/-- keccakf_amd64.s:63. -/
def XORQ_RT1_RCA : Instr := .xor (.reg .ax) (.reg .si)

/-- keccakf_amd64.s:64. -/
def XORQ_RT1_RCE : Instr := .xor (.reg .ax) (.reg .bp)

/-- keccakf_amd64.s:65. -/
def XORQ_RBA_RCU : Instr := .xor (.reg .r10) (.reg .r15)

/-- keccakf_amd64.s:66. -/
def XORQ_RBE_RCU : Instr := .xor (.reg .r11) (.reg .r15)

/-- keccakf_amd64.s:67. -/
def XORQ_RDU_RCU : Instr := .xor (.reg .r9) (.reg .r15)

/-- keccakf_amd64.s:68. -/
def XORQ_RDA_RCA : Instr := .xor (.reg .bx) (.reg .si)

/-- keccakf_amd64.s:69. -/
def XORQ_RDE_RCE : Instr := .xor (.reg .cx) (.reg .bp)

/-- keccakf_amd64.s:71-321 the macro `mKeccakRound`. -/
def mKeccakRound (iState oState : Off → Opd) (rc : W)
    (B_RBI_RCE G_RT1_RCA G_RT1_RCE G_RBA_RCU K_RT1_RCA K_RT1_RCE K_RBA_RCU M_RT1_RCA M_RT1_RCE M_RBE_RCU S_RDU_RCU S_RDA_RCA S_RDE_RCE : Instr) : List Instr :=
  [.mov (.reg .bp) (.reg .bx), .rol 1 (.reg .bx), .mov (iState .bi) (.reg .r12), .xor (iState .gi) (.reg .dx), .xor (.reg .r15) (.reg .bx),
   .xor (iState .ki) (.reg .r12), .xor (iState .mi) (.reg .dx), .xor (.reg .dx) (.reg .r12), .mov (.reg .r12) (.reg .cx), .rol 1 (.reg .cx),
   .mov (iState .bo) (.reg .r13), .xor (iState .go) (.reg .r8), .xor (.reg .si) (.reg .cx), .xor (iState .ko) (.reg .r13), .xor (iState .mo) (.reg .r8),
   .xor (.reg .r8) (.reg .r13), .mov (.reg .r13) (.reg .dx), .rol 1 (.reg .dx), .mov (.reg .r15) (.reg .r8), .xor (.reg .bp) (.reg .dx),
   .rol 1 (.reg .r8), .mov (.reg .si) (.reg .r9), .xor (.reg .r12) (.reg .r8), .rol 1 (.reg .r9), .mov (iState .ba) (.reg .r10),
   .mov (iState .ge) (.reg .r11), .xor (.reg .r13) (.reg .r9), .mov (iState .ki) (.reg .r12), .mov (iState .mo) (.reg .r13), .mov (iState .su) (.reg .r14),
   .xor (.reg .cx) (.reg .r11), .rol 44 (.reg .r11), .xor (.reg .dx) (.reg .r12), .xor (.reg .bx) (.reg .r10), .rol 43 (.reg .r12),
   .mov (.reg .r11) (.reg .si), .mov (.imm rc) (.reg .ax), .or (.reg .r12) (.reg .si), .xor (.reg .r10) (.reg .ax), .xor (.reg .ax) (.reg .si),
   .mov (.reg .si) (oState .ba), .xor (.reg .r9) (.reg .r14), .rol 14 (.reg .r14), .mov (.reg .r10) (.reg .r15), .and (.reg .r11) (.reg .r15),
   .xor (.reg .r14) (.reg .r15), .mov (.reg .r15) (oState .bu), .xor (.reg .r8) (.reg .r13), .rol 21 (.reg .r13), .mov (.reg .r13) (.reg .ax),
   .and (.reg .r14) (.reg .ax), .xor (.reg .r12) (.reg .ax), .mov (.reg .ax) (oState .bi), .not (.reg .r12), .or (.reg .r10) (.reg .r14),
   .or (.reg .r13) (.reg .r12), .xor (.reg .r13) (.reg .r14), .xor (.reg .r11) (.reg .r12), .mov (.reg .r14) (oState .bo), .mov (.reg .r12) (oState .be),
   B_RBI_RCE, .mov (iState .gu) (.reg .r11), .xor (.reg .r9) (.reg .r11), .mov (iState .ka) (.reg .r12), .rol 20 (.reg .r11),
   .xor (.reg .bx) (.reg .r12), .rol 3 (.reg .r12), .mov (iState .bo) (.reg .r10), .mov (.reg .r11) (.reg .ax), .or (.reg .r12) (.reg .ax),
   .xor (.reg .r8) (.reg .r10), .mov (iState .me) (.reg .r13), .mov (iState .si) (.reg .r14), .rol 28 (.reg .r10), .xor (.reg .r10) (.reg .ax),
   .mov (.reg .ax) (oState .ga), G_RT1_RCA, .xor (.reg .cx) (.reg .r13), .rol 45 (.reg .r13), .mov (.reg .r12) (.reg .ax),
   .and (.reg .r13) (.reg .ax), .xor (.reg .r11) (.reg .ax), .mov (.reg .ax) (oState .ge), G_RT1_RCE, .xor (.reg .dx) (.reg .r14),
   .rol 61 (.reg .r14), .mov (.reg .r14) (.reg .ax), .or (.reg .r10) (.reg .ax), .xor (.reg .r13) (.reg .ax), .mov (.reg .ax) (oState .go),
   .and (.reg .r11) (.reg .r10), .xor (.reg .r14) (.reg .r10), .mov (.reg .r10) (oState .gu), .not (.reg .r14), G_RBA_RCU,
   .or (.reg .r14) (.reg .r13), .xor (.reg .r12) (.reg .r13), .mov (.reg .r13) (oState .gi), .mov (iState .be) (.reg .r10), .mov (iState .gi) (.reg .r11),
   .mov (iState .ko) (.reg .r12), .mov (iState .mu) (.reg .r13), .mov (iState .sa) (.reg .r14), .xor (.reg .dx) (.reg .r11), .rol 6 (.reg .r11),
   .xor (.reg .r8) (.reg .r12), .rol 25 (.reg .r12), .mov (.reg .r11) (.reg .ax), .or (.reg .r12) (.reg .ax), .xor (.reg .cx) (.reg .r10),
   .rol 1 (.reg .r10), .xor (.reg .r10) (.reg .ax), .mov (.reg .ax) (oState .ka), K_RT1_RCA, .xor (.reg .r9) (.reg .r13),
   .rol 8 (.reg .r13), .mov (.reg .r12) (.reg .ax), .and (.reg .r13) (.reg .ax), .xor (.reg .r11) (.reg .ax), .mov (.reg .ax) (oState .ke),
   K_RT1_RCE, .xor (.reg .bx) (.reg .r14), .rol 18 (.reg .r14), .not (.reg .r13), .mov (.reg .r13) (.reg .ax),
   .and (.reg .r14) (.reg .ax), .xor (.reg .r12) (.reg .ax), .mov (.reg .ax) (oState .ki), .mov (.reg .r14) (.reg .ax), .or (.reg .r10) (.reg .ax),
   .xor (.reg .r13) (.reg .ax), .mov (.reg .ax) (oState .ko), .and (.reg .r11) (.reg .r10), .xor (.reg .r14) (.reg .r10), .mov (.reg .r10) (oState .ku),
   K_RBA_RCU, .mov (iState .ga) (.reg .r11), .xor (.reg .bx) (.reg .r11), .mov (iState .ke) (.reg .r12), .rol 36 (.reg .r11),
   .xor (.reg .cx) (.reg .r12), .mov (iState .bu) (.reg .r10), .rol 10 (.reg .r12), .mov (.reg .r11) (.reg .ax), .mov (iState .mi) (.reg .r13),
   .and (.reg .r12) (.reg .ax), .xor (.reg .r9) (.reg .r10), .mov (iState .so) (.reg .r14), .rol 27 (.reg .r10), .xor (.reg .r10) (.reg .ax),
   .mov (.reg .ax) (oState .ma), M_RT1_RCA, .xor (.reg .dx) (.reg .r13), .rol 15 (.reg .r13), .mov (.reg .r12) (.reg .ax),
   .or (.reg .r13) (.reg .ax), .xor (.reg .r11) (.reg .ax), .mov (.reg .ax) (oState .me), M_RT1_RCE, .xor (.reg .r8) (.reg .r14),
   .rol 56 (.reg .r14), .not (.reg .r13), .mov (.reg .r13) (.reg .ax), .or (.reg .r14) (.reg .ax), .xor (.reg .r12) (.reg .ax),
   .mov (.reg .ax) (oState .mi), .or (.reg .r10) (.reg .r11), .xor (.reg .r14) (.reg .r11), .mov (.reg .r11) (oState .mu), .and (.reg .r10) (.reg .r14),
   .xor (.reg .r13) (.reg .r14), .mov (.reg .r14) (oState .mo), M_RBE_RCU, .mov (iState .bi) (.reg .r10), .mov (iState .go) (.reg .r11),
   .mov (iState .ku) (.reg .r12), .xor (.reg .dx) (.reg .r10), .mov (iState .ma) (.reg .r13), .rol 62 (.reg .r10), .xor (.reg .r8) (.reg .r11),
   .mov (iState .se) (.reg .r14), .rol 55 (.reg .r11), .xor (.reg .r9) (.reg .r12), .mov (.reg .r10) (.reg .r9), .xor (.reg .cx) (.reg .r14),
   .rol 2 (.reg .r14), .and (.reg .r11) (.reg .r9), .xor (.reg .r14) (.reg .r9), .mov (.reg .r9) (oState .su), .rol 39 (.reg .r12),
   S_RDU_RCU, .not (.reg .r11), .xor (.reg .bx) (.reg .r13), .mov (.reg .r11) (.reg .bx), .and (.reg .r12) (.reg .bx),
   .xor (.reg .r10) (.reg .bx), .mov (.reg .bx) (oState .sa), S_RDA_RCA, .rol 41 (.reg .r13), .mov (.reg .r12) (.reg .cx),
   .or (.reg .r13) (.reg .cx), .xor (.reg .r11) (.reg .cx), .mov (.reg .cx) (oState .se), S_RDE_RCE, .mov (.reg .r13) (.reg .dx),
   .mov (.reg .r14) (.reg .r8), .and (.reg .r14) (.reg .dx), .or (.reg .r10) (.reg .r8), .xor (.reg .r12) (.reg .dx), .xor (.reg .r13) (.reg .r8),
   .mov (.reg .dx) (oState .si), .mov (.reg .r8) (oState .so)]

/-- the macro with the arguments that all rounds but the last one have (keccakf_amd64.s:357-379). -/
def mRound (iState oState : Off → Opd) (rc : W) : List Instr :=
  mKeccakRound iState oState rc MOVQ_RBI_RCE XORQ_RT1_RCA XORQ_RT1_RCE XORQ_RBA_RCU XORQ_RT1_RCA XORQ_RT1_RCE XORQ_RBA_RCU XORQ_RT1_RCA XORQ_RT1_RCE XORQ_RBE_RCU XORQ_RDU_RCU XORQ_RDA_RCA XORQ_RDE_RCE

/-- keccakf_amd64.s:327-332, 383-388: the exchange between the user state and the internal state. -/
def convert : List Instr :=
  [.not (.st .be), .not (.st .bi), .not (.st .go), .not (.st .ki), .not (.st .mi),
   .not (.st .sa)]

/-- keccakf_amd64.s:335-355: the first column sums. -/
def prepare : List Instr :=
  [.mov (.st .ba) (.reg .si), .mov (.st .be) (.reg .bp), .mov (.st .bu) (.reg .r15), .xor (.st .ga) (.reg .si), .xor (.st .ge) (.reg .bp),
   .xor (.st .gu) (.reg .r15), .xor (.st .ka) (.reg .si), .xor (.st .ke) (.reg .bp), .xor (.st .ku) (.reg .r15), .xor (.st .ma) (.reg .si),
   .xor (.st .me) (.reg .bp), .xor (.st .mu) (.reg .r15), .xor (.st .sa) (.reg .si), .xor (.st .se) (.reg .bp), .mov (.st .si) (.reg .dx),
   .mov (.st .so) (.reg .r8), .xor (.st .su) (.reg .r15)]

/-- keccakf_amd64.s:323-390 `keccakF1600`. -/
def keccakF1600 : List Instr :=
  convert ++ prepare ++
  mRound .st .sp 0x0000000000000001 ++
  mRound .sp .st 0x0000000000008082 ++
  mRound .st .sp 0x800000000000808a ++
  mRound .sp .st 0x8000000080008000 ++
  mRound .st .sp 0x000000000000808b ++
  mRound .sp .st 0x0000000080000001 ++
  mRound .st .sp 0x8000000080008081 ++
  mRound .sp .st 0x8000000000008009 ++
  mRound .st .sp 0x000000000000008a ++
  mRound .sp .st 0x0000000000000088 ++
  mRound .st .sp 0x0000000080008009 ++
  mRound .sp .st 0x000000008000000a ++
  mRound .st .sp 0x000000008000808b ++
  mRound .sp .st 0x800000000000008b ++
  mRound .st .sp 0x8000000000008089 ++
  mRound .sp .st 0x8000000000008003 ++
  mRound .st .sp 0x8000000000008002 ++
  mRound .sp .st 0x8000000000000080 ++
  mRound .st .sp 0x000000000000800a ++
  mRound .sp .st 0x800000008000000a ++
  mRound .st .sp 0x8000000080008081 ++
  mRound .sp .st 0x8000000000008080 ++
  mRound .st .sp 0x0000000080000001 ++
  mKeccakRound .sp .st 0x8000000080008008 .nop .nop .nop .nop .nop .nop .nop .nop .nop .nop .nop .nop .nop ++
  convert

end Verif.X86.Keccak
