import Verif.X86.Machine

/-!
# bls12_381/bls/arithmetic_x86.s

The fifteen functions of the file, instruction by instruction, each up to its `RET`.  `xAssign` of the multiplications has the
instructions of `x` except for the argument slots it reads its pointers from, so the two share their body; the citation
gives the lines of both.  (One thing is not visible here: `mulNoADX` and `mulAssignNoADX` declare a frame of 16 bytes,
lines 513, 1368, and write to the third word of it.)
-/

namespace Verif.X86

/-- arithmetic_x86.s:9-60 `addAssign`. -/
def addAssign : List Instr :=
  [.mov (.fp 0) (.reg .di), .mov (.fp 1) (.reg .si), .mov (.mem .di 0) (.reg .r8), .mov (.mem .di 8) (.reg .r9), .mov (.mem .di 16) (.reg .r10),
   .mov (.mem .di 24) (.reg .r11), .mov (.mem .di 32) (.reg .r12), .mov (.mem .di 40) (.reg .r13), .add (.mem .si 0) (.reg .r8),
   .adc (.mem .si 8) (.reg .r9), .adc (.mem .si 16) (.reg .r10), .adc (.mem .si 24) (.reg .r11), .adc (.mem .si 32) (.reg .r12),
   .adc (.mem .si 40) (.reg .r13), .mov (.reg .r8) (.reg .r14), .mov (.reg .r9) (.reg .r15), .mov (.reg .r10) (.reg .cx),
   .mov (.reg .r11) (.reg .dx), .mov (.reg .r12) (.reg .si), .mov (.reg .r13) (.reg .bx), .mov (.imm 0xb9feffffffffaaab) (.reg .ax),
   .sub (.reg .ax) (.reg .r14), .mov (.imm 0x1eabfffeb153ffff) (.reg .ax), .sbb (.reg .ax) (.reg .r15), .mov (.imm 0x6730d2a0f6b0f624) (.reg .ax),
   .sbb (.reg .ax) (.reg .cx), .mov (.imm 0x64774b84f38512bf) (.reg .ax), .sbb (.reg .ax) (.reg .dx), .mov (.imm 0x4b1ba7b6434bacd7) (.reg .ax),
   .sbb (.reg .ax) (.reg .si), .mov (.imm 0x1a0111ea397fe69a) (.reg .ax), .sbb (.reg .ax) (.reg .bx), .cmovcc (.reg .r14) (.reg .r8),
   .cmovcc (.reg .r15) (.reg .r9), .cmovcc (.reg .cx) (.reg .r10), .cmovcc (.reg .dx) (.reg .r11), .cmovcc (.reg .si) (.reg .r12),
   .cmovcc (.reg .bx) (.reg .r13), .mov (.reg .r8) (.mem .di 0), .mov (.reg .r9) (.mem .di 8), .mov (.reg .r10) (.mem .di 16),
   .mov (.reg .r11) (.mem .di 24), .mov (.reg .r12) (.mem .di 32), .mov (.reg .r13) (.mem .di 40)]

/-- arithmetic_x86.s:70-122 `add`. -/
def add : List Instr :=
  [.mov (.fp 1) (.reg .di), .mov (.fp 2) (.reg .si), .mov (.mem .di 0) (.reg .r8), .mov (.mem .di 8) (.reg .r9), .mov (.mem .di 16) (.reg .r10),
   .mov (.mem .di 24) (.reg .r11), .mov (.mem .di 32) (.reg .r12), .mov (.mem .di 40) (.reg .r13), .add (.mem .si 0) (.reg .r8),
   .adc (.mem .si 8) (.reg .r9), .adc (.mem .si 16) (.reg .r10), .adc (.mem .si 24) (.reg .r11), .adc (.mem .si 32) (.reg .r12),
   .adc (.mem .si 40) (.reg .r13), .mov (.reg .r8) (.reg .r14), .mov (.reg .r9) (.reg .r15), .mov (.reg .r10) (.reg .cx),
   .mov (.reg .r11) (.reg .dx), .mov (.reg .r12) (.reg .si), .mov (.reg .r13) (.reg .bx), .mov (.imm 0xb9feffffffffaaab) (.reg .di),
   .sub (.reg .di) (.reg .r14), .mov (.imm 0x1eabfffeb153ffff) (.reg .di), .sbb (.reg .di) (.reg .r15), .mov (.imm 0x6730d2a0f6b0f624) (.reg .di),
   .sbb (.reg .di) (.reg .cx), .mov (.imm 0x64774b84f38512bf) (.reg .di), .sbb (.reg .di) (.reg .dx), .mov (.imm 0x4b1ba7b6434bacd7) (.reg .di),
   .sbb (.reg .di) (.reg .si), .mov (.imm 0x1a0111ea397fe69a) (.reg .di), .sbb (.reg .di) (.reg .bx), .cmovcc (.reg .r14) (.reg .r8),
   .cmovcc (.reg .r15) (.reg .r9), .cmovcc (.reg .cx) (.reg .r10), .cmovcc (.reg .dx) (.reg .r11), .cmovcc (.reg .si) (.reg .r12),
   .cmovcc (.reg .bx) (.reg .r13), .mov (.fp 0) (.reg .di), .mov (.reg .r8) (.mem .di 0), .mov (.reg .r9) (.mem .di 8),
   .mov (.reg .r10) (.mem .di 16), .mov (.reg .r11) (.mem .di 24), .mov (.reg .r12) (.mem .di 32), .mov (.reg .r13) (.mem .di 40)]

/-- arithmetic_x86.s:131-157 `ladd`. -/
def ladd : List Instr :=
  [.mov (.fp 1) (.reg .di), .mov (.fp 2) (.reg .si), .mov (.mem .di 0) (.reg .r8), .mov (.mem .di 8) (.reg .r9), .mov (.mem .di 16) (.reg .r10),
   .mov (.mem .di 24) (.reg .r11), .mov (.mem .di 32) (.reg .r12), .mov (.mem .di 40) (.reg .r13), .add (.mem .si 0) (.reg .r8),
   .adc (.mem .si 8) (.reg .r9), .adc (.mem .si 16) (.reg .r10), .adc (.mem .si 24) (.reg .r11), .adc (.mem .si 32) (.reg .r12),
   .adc (.mem .si 40) (.reg .r13), .mov (.fp 0) (.reg .di), .mov (.reg .r8) (.mem .di 0), .mov (.reg .r9) (.mem .di 8),
   .mov (.reg .r10) (.mem .di 16), .mov (.reg .r11) (.mem .di 24), .mov (.reg .r12) (.mem .di 32), .mov (.reg .r13) (.mem .di 40)]

/-- arithmetic_x86.s:166-192 `laddAssign`. -/
def laddAssign : List Instr :=
  [.mov (.fp 0) (.reg .di), .mov (.fp 1) (.reg .si), .mov (.mem .di 0) (.reg .r8), .mov (.mem .di 8) (.reg .r9), .mov (.mem .di 16) (.reg .r10),
   .mov (.mem .di 24) (.reg .r11), .mov (.mem .di 32) (.reg .r12), .mov (.mem .di 40) (.reg .r13), .add (.mem .si 0) (.reg .r8),
   .adc (.mem .si 8) (.reg .r9), .adc (.mem .si 16) (.reg .r10), .adc (.mem .si 24) (.reg .r11), .adc (.mem .si 32) (.reg .r12),
   .adc (.mem .si 40) (.reg .r13), .mov (.fp 0) (.reg .di), .mov (.reg .r8) (.mem .di 0), .mov (.reg .r9) (.mem .di 8),
   .mov (.reg .r10) (.mem .di 16), .mov (.reg .r11) (.mem .di 24), .mov (.reg .r12) (.mem .di 32), .mov (.reg .r13) (.mem .di 40)]

/-- arithmetic_x86.s:201-246 `sub`. -/
def sub : List Instr :=
  [.mov (.fp 1) (.reg .di), .mov (.fp 2) (.reg .si), .xor (.reg .ax) (.reg .ax), .mov (.mem .di 0) (.reg .r8), .mov (.mem .di 8) (.reg .r9),
   .mov (.mem .di 16) (.reg .r10), .mov (.mem .di 24) (.reg .r11), .mov (.mem .di 32) (.reg .r12), .mov (.mem .di 40) (.reg .r13),
   .sub (.mem .si 0) (.reg .r8), .sbb (.mem .si 8) (.reg .r9), .sbb (.mem .si 16) (.reg .r10), .sbb (.mem .si 24) (.reg .r11),
   .sbb (.mem .si 32) (.reg .r12), .sbb (.mem .si 40) (.reg .r13), .mov (.imm 0xb9feffffffffaaab) (.reg .r14),
   .mov (.imm 0x1eabfffeb153ffff) (.reg .r15), .mov (.imm 0x6730d2a0f6b0f624) (.reg .cx), .mov (.imm 0x64774b84f38512bf) (.reg .dx),
   .mov (.imm 0x4b1ba7b6434bacd7) (.reg .si), .mov (.imm 0x1a0111ea397fe69a) (.reg .bx), .cmovcc (.reg .ax) (.reg .r14),
   .cmovcc (.reg .ax) (.reg .r15), .cmovcc (.reg .ax) (.reg .cx), .cmovcc (.reg .ax) (.reg .dx), .cmovcc (.reg .ax) (.reg .si),
   .cmovcc (.reg .ax) (.reg .bx), .add (.reg .r14) (.reg .r8), .adc (.reg .r15) (.reg .r9), .adc (.reg .cx) (.reg .r10),
   .adc (.reg .dx) (.reg .r11), .adc (.reg .si) (.reg .r12), .adc (.reg .bx) (.reg .r13), .mov (.fp 0) (.reg .di), .mov (.reg .r8) (.mem .di 0),
   .mov (.reg .r9) (.mem .di 8), .mov (.reg .r10) (.mem .di 16), .mov (.reg .r11) (.mem .di 24), .mov (.reg .r12) (.mem .di 32),
   .mov (.reg .r13) (.mem .di 40)]

/-- arithmetic_x86.s:255-300 `subAssign`. -/
def subAssign : List Instr :=
  [.mov (.fp 0) (.reg .di), .mov (.fp 1) (.reg .si), .xor (.reg .ax) (.reg .ax), .mov (.mem .di 0) (.reg .r8), .mov (.mem .di 8) (.reg .r9),
   .mov (.mem .di 16) (.reg .r10), .mov (.mem .di 24) (.reg .r11), .mov (.mem .di 32) (.reg .r12), .mov (.mem .di 40) (.reg .r13),
   .sub (.mem .si 0) (.reg .r8), .sbb (.mem .si 8) (.reg .r9), .sbb (.mem .si 16) (.reg .r10), .sbb (.mem .si 24) (.reg .r11),
   .sbb (.mem .si 32) (.reg .r12), .sbb (.mem .si 40) (.reg .r13), .mov (.imm 0xb9feffffffffaaab) (.reg .r14),
   .mov (.imm 0x1eabfffeb153ffff) (.reg .r15), .mov (.imm 0x6730d2a0f6b0f624) (.reg .cx), .mov (.imm 0x64774b84f38512bf) (.reg .dx),
   .mov (.imm 0x4b1ba7b6434bacd7) (.reg .si), .mov (.imm 0x1a0111ea397fe69a) (.reg .bx), .cmovcc (.reg .ax) (.reg .r14),
   .cmovcc (.reg .ax) (.reg .r15), .cmovcc (.reg .ax) (.reg .cx), .cmovcc (.reg .ax) (.reg .dx), .cmovcc (.reg .ax) (.reg .si),
   .cmovcc (.reg .ax) (.reg .bx), .add (.reg .r14) (.reg .r8), .adc (.reg .r15) (.reg .r9), .adc (.reg .cx) (.reg .r10),
   .adc (.reg .dx) (.reg .r11), .adc (.reg .si) (.reg .r12), .adc (.reg .bx) (.reg .r13), .mov (.fp 0) (.reg .di), .mov (.reg .r8) (.mem .di 0),
   .mov (.reg .r9) (.mem .di 8), .mov (.reg .r10) (.mem .di 16), .mov (.reg .r11) (.mem .di 24), .mov (.reg .r12) (.mem .di 32),
   .mov (.reg .r13) (.mem .di 40)]

/-- arithmetic_x86.s:309-333 `lsubAssign`. -/
def lsubAssign : List Instr :=
  [.mov (.fp 0) (.reg .di), .mov (.fp 1) (.reg .si), .mov (.mem .di 0) (.reg .r8), .mov (.mem .di 8) (.reg .r9), .mov (.mem .di 16) (.reg .r10),
   .mov (.mem .di 24) (.reg .r11), .mov (.mem .di 32) (.reg .r12), .mov (.mem .di 40) (.reg .r13), .sub (.mem .si 0) (.reg .r8),
   .sbb (.mem .si 8) (.reg .r9), .sbb (.mem .si 16) (.reg .r10), .sbb (.mem .si 24) (.reg .r11), .sbb (.mem .si 32) (.reg .r12),
   .sbb (.mem .si 40) (.reg .r13), .mov (.fp 0) (.reg .di), .mov (.reg .r8) (.mem .di 0), .mov (.reg .r9) (.mem .di 8),
   .mov (.reg .r10) (.mem .di 16), .mov (.reg .r11) (.mem .di 24), .mov (.reg .r12) (.mem .di 32), .mov (.reg .r13) (.mem .di 40)]

/-- arithmetic_x86.s:341-389 `double`. -/
def double : List Instr :=
  [.mov (.fp 1) (.reg .di), .mov (.mem .di 0) (.reg .r8), .mov (.mem .di 8) (.reg .r9), .mov (.mem .di 16) (.reg .r10),
   .mov (.mem .di 24) (.reg .r11), .mov (.mem .di 32) (.reg .r12), .mov (.mem .di 40) (.reg .r13), .add (.reg .r8) (.reg .r8),
   .adc (.reg .r9) (.reg .r9), .adc (.reg .r10) (.reg .r10), .adc (.reg .r11) (.reg .r11), .adc (.reg .r12) (.reg .r12),
   .adc (.reg .r13) (.reg .r13), .mov (.reg .r8) (.reg .r14), .mov (.reg .r9) (.reg .r15), .mov (.reg .r10) (.reg .cx),
   .mov (.reg .r11) (.reg .dx), .mov (.reg .r12) (.reg .si), .mov (.reg .r13) (.reg .bx), .mov (.imm 0xb9feffffffffaaab) (.reg .di),
   .sub (.reg .di) (.reg .r14), .mov (.imm 0x1eabfffeb153ffff) (.reg .di), .sbb (.reg .di) (.reg .r15), .mov (.imm 0x6730d2a0f6b0f624) (.reg .di),
   .sbb (.reg .di) (.reg .cx), .mov (.imm 0x64774b84f38512bf) (.reg .di), .sbb (.reg .di) (.reg .dx), .mov (.imm 0x4b1ba7b6434bacd7) (.reg .di),
   .sbb (.reg .di) (.reg .si), .mov (.imm 0x1a0111ea397fe69a) (.reg .di), .sbb (.reg .di) (.reg .bx), .cmovcc (.reg .r14) (.reg .r8),
   .cmovcc (.reg .r15) (.reg .r9), .cmovcc (.reg .cx) (.reg .r10), .cmovcc (.reg .dx) (.reg .r11), .cmovcc (.reg .si) (.reg .r12),
   .cmovcc (.reg .bx) (.reg .r13), .mov (.fp 0) (.reg .di), .mov (.reg .r8) (.mem .di 0), .mov (.reg .r9) (.mem .di 8),
   .mov (.reg .r10) (.mem .di 16), .mov (.reg .r11) (.mem .di 24), .mov (.reg .r12) (.mem .di 32), .mov (.reg .r13) (.mem .di 40)]

/-- arithmetic_x86.s:398-444 `doubleAssign`. -/
def doubleAssign : List Instr :=
  [.mov (.fp 0) (.reg .di), .mov (.mem .di 0) (.reg .r8), .mov (.mem .di 8) (.reg .r9), .mov (.mem .di 16) (.reg .r10),
   .mov (.mem .di 24) (.reg .r11), .mov (.mem .di 32) (.reg .r12), .mov (.mem .di 40) (.reg .r13), .add (.reg .r8) (.reg .r8),
   .adc (.reg .r9) (.reg .r9), .adc (.reg .r10) (.reg .r10), .adc (.reg .r11) (.reg .r11), .adc (.reg .r12) (.reg .r12),
   .adc (.reg .r13) (.reg .r13), .mov (.reg .r8) (.reg .r14), .mov (.reg .r9) (.reg .r15), .mov (.reg .r10) (.reg .cx),
   .mov (.reg .r11) (.reg .dx), .mov (.reg .r12) (.reg .si), .mov (.reg .r13) (.reg .bx), .mov (.imm 0xb9feffffffffaaab) (.reg .ax),
   .sub (.reg .ax) (.reg .r14), .mov (.imm 0x1eabfffeb153ffff) (.reg .ax), .sbb (.reg .ax) (.reg .r15), .mov (.imm 0x6730d2a0f6b0f624) (.reg .ax),
   .sbb (.reg .ax) (.reg .cx), .mov (.imm 0x64774b84f38512bf) (.reg .ax), .sbb (.reg .ax) (.reg .dx), .mov (.imm 0x4b1ba7b6434bacd7) (.reg .ax),
   .sbb (.reg .ax) (.reg .si), .mov (.imm 0x1a0111ea397fe69a) (.reg .ax), .sbb (.reg .ax) (.reg .bx), .cmovcc (.reg .r14) (.reg .r8),
   .cmovcc (.reg .r15) (.reg .r9), .cmovcc (.reg .cx) (.reg .r10), .cmovcc (.reg .dx) (.reg .r11), .cmovcc (.reg .si) (.reg .r12),
   .cmovcc (.reg .bx) (.reg .r13), .mov (.reg .r8) (.mem .di 0), .mov (.reg .r9) (.mem .di 8), .mov (.reg .r10) (.mem .di 16),
   .mov (.reg .r11) (.mem .di 24), .mov (.reg .r12) (.mem .di 32), .mov (.reg .r13) (.mem .di 40)]

/-- arithmetic_x86.s:453-477 `ldouble`. -/
def ldouble : List Instr :=
  [.mov (.fp 1) (.reg .di), .mov (.mem .di 0) (.reg .r8), .mov (.mem .di 8) (.reg .r9), .mov (.mem .di 16) (.reg .r10),
   .mov (.mem .di 24) (.reg .r11), .mov (.mem .di 32) (.reg .r12), .mov (.mem .di 40) (.reg .r13), .add (.reg .r8) (.reg .r8),
   .adc (.reg .r9) (.reg .r9), .adc (.reg .r10) (.reg .r10), .adc (.reg .r11) (.reg .r11), .adc (.reg .r12) (.reg .r12),
   .adc (.reg .r13) (.reg .r13), .mov (.fp 0) (.reg .di), .mov (.reg .r8) (.mem .di 0), .mov (.reg .r9) (.mem .di 8),
   .mov (.reg .r10) (.mem .di 16), .mov (.reg .r11) (.mem .di 24), .mov (.reg .r12) (.mem .di 32), .mov (.reg .r13) (.mem .di 40)]

/-- arithmetic_x86.s:485-508 `_neg`. -/
def neg : List Instr :=
  [.mov (.fp 1) (.reg .di), .mov (.imm 0xb9feffffffffaaab) (.reg .r8), .mov (.imm 0x1eabfffeb153ffff) (.reg .r9),
   .mov (.imm 0x6730d2a0f6b0f624) (.reg .r10), .mov (.imm 0x64774b84f38512bf) (.reg .r11), .mov (.imm 0x4b1ba7b6434bacd7) (.reg .r12),
   .mov (.imm 0x1a0111ea397fe69a) (.reg .r13), .sub (.mem .di 0) (.reg .r8), .sbb (.mem .di 8) (.reg .r9), .sbb (.mem .di 16) (.reg .r10),
   .sbb (.mem .di 24) (.reg .r11), .sbb (.mem .di 32) (.reg .r12), .sbb (.mem .di 40) (.reg .r13), .mov (.fp 0) (.reg .di),
   .mov (.reg .r8) (.mem .di 0), .mov (.reg .r9) (.mem .di 8), .mov (.reg .r10) (.mem .di 16), .mov (.reg .r11) (.mem .di 24),
   .mov (.reg .r12) (.mem .di 32), .mov (.reg .r13) (.mem .di 40)]

/-- arithmetic_x86.s:2239-2259 and 2705-2725, word 0 of `b` times `a`. -/
def adxRow0 : List Instr :=
  [.mov (.mem .si 0) (.reg .dx), .xor (.reg .ax) (.reg .ax), .mulx (.mem .di 0) (.reg .ax) (.reg .r8), .mov (.reg .ax) (.reg .cx),
   .mulx (.mem .di 8) (.reg .ax) (.reg .r9), .adcx (.reg .ax) (.reg .r8), .mulx (.mem .di 16) (.reg .ax) (.reg .r10), .adcx (.reg .ax) (.reg .r9),
   .mulx (.mem .di 24) (.reg .ax) (.reg .r11), .adcx (.reg .ax) (.reg .r10), .mulx (.mem .di 32) (.reg .ax) (.reg .r12),
   .adcx (.reg .ax) (.reg .r11), .mulx (.mem .di 40) (.reg .ax) (.reg .r13), .adcx (.reg .ax) (.reg .r12), .adc (.imm 0) (.reg .r13)]

/-- arithmetic_x86.s:2263-2290 and 2729-2756, word 1 of `b` times `a`. -/
def adxRow1 : List Instr :=
  [.mov (.mem .si 8) (.reg .dx), .xor (.reg .r14) (.reg .r14), .mulx (.mem .di 0) (.reg .ax) (.reg .bx), .adox (.reg .ax) (.reg .r8),
   .adcx (.reg .bx) (.reg .r9), .mov (.reg .r8) (.sp 0), .mulx (.mem .di 8) (.reg .ax) (.reg .bx), .adox (.reg .ax) (.reg .r9),
   .adcx (.reg .bx) (.reg .r10), .mulx (.mem .di 16) (.reg .ax) (.reg .bx), .adox (.reg .ax) (.reg .r10), .adcx (.reg .bx) (.reg .r11),
   .mulx (.mem .di 24) (.reg .ax) (.reg .bx), .adox (.reg .ax) (.reg .r11), .adcx (.reg .bx) (.reg .r12),
   .mulx (.mem .di 32) (.reg .ax) (.reg .bx), .adox (.reg .ax) (.reg .r12), .adcx (.reg .bx) (.reg .r13),
   .mulx (.mem .di 40) (.reg .ax) (.reg .bx), .adox (.reg .ax) (.reg .r13), .adox (.reg .r14) (.reg .r14), .adcx (.reg .bx) (.reg .r14)]

/-- arithmetic_x86.s:2294-2321 and 2760-2787, word 2 of `b` times `a`. -/
def adxRow2 : List Instr :=
  [.mov (.mem .si 16) (.reg .dx), .xor (.reg .r15) (.reg .r15), .mulx (.mem .di 0) (.reg .ax) (.reg .bx), .adox (.reg .ax) (.reg .r9),
   .adcx (.reg .bx) (.reg .r10), .mov (.reg .r9) (.sp 1), .mulx (.mem .di 8) (.reg .ax) (.reg .bx), .adox (.reg .ax) (.reg .r10),
   .adcx (.reg .bx) (.reg .r11), .mulx (.mem .di 16) (.reg .ax) (.reg .bx), .adox (.reg .ax) (.reg .r11), .adcx (.reg .bx) (.reg .r12),
   .mulx (.mem .di 24) (.reg .ax) (.reg .bx), .adox (.reg .ax) (.reg .r12), .adcx (.reg .bx) (.reg .r13),
   .mulx (.mem .di 32) (.reg .ax) (.reg .bx), .adox (.reg .ax) (.reg .r13), .adcx (.reg .bx) (.reg .r14),
   .mulx (.mem .di 40) (.reg .ax) (.reg .bx), .adox (.reg .ax) (.reg .r14), .adox (.reg .r15) (.reg .r15), .adcx (.reg .bx) (.reg .r15)]

/-- arithmetic_x86.s:2325-2351 and 2791-2817, word 3 of `b` times `a`. -/
def adxRow3 : List Instr :=
  [.mov (.mem .si 24) (.reg .dx), .xor (.reg .r8) (.reg .r8), .mulx (.mem .di 0) (.reg .ax) (.reg .bx), .adox (.reg .ax) (.reg .r10),
   .adcx (.reg .bx) (.reg .r11), .mulx (.mem .di 8) (.reg .ax) (.reg .bx), .adox (.reg .ax) (.reg .r11), .adcx (.reg .bx) (.reg .r12),
   .mulx (.mem .di 16) (.reg .ax) (.reg .bx), .adox (.reg .ax) (.reg .r12), .adcx (.reg .bx) (.reg .r13),
   .mulx (.mem .di 24) (.reg .ax) (.reg .bx), .adox (.reg .ax) (.reg .r13), .adcx (.reg .bx) (.reg .r14),
   .mulx (.mem .di 32) (.reg .ax) (.reg .bx), .adox (.reg .ax) (.reg .r14), .adcx (.reg .bx) (.reg .r15),
   .mulx (.mem .di 40) (.reg .ax) (.reg .bx), .adox (.reg .ax) (.reg .r15), .adox (.reg .r8) (.reg .r8), .adcx (.reg .bx) (.reg .r8)]

/-- arithmetic_x86.s:2355-2381 and 2821-2847, word 4 of `b` times `a`. -/
def adxRow4 : List Instr :=
  [.mov (.mem .si 32) (.reg .dx), .xor (.reg .r9) (.reg .r9), .mulx (.mem .di 0) (.reg .ax) (.reg .bx), .adox (.reg .ax) (.reg .r11),
   .adcx (.reg .bx) (.reg .r12), .mulx (.mem .di 8) (.reg .ax) (.reg .bx), .adox (.reg .ax) (.reg .r12), .adcx (.reg .bx) (.reg .r13),
   .mulx (.mem .di 16) (.reg .ax) (.reg .bx), .adox (.reg .ax) (.reg .r13), .adcx (.reg .bx) (.reg .r14),
   .mulx (.mem .di 24) (.reg .ax) (.reg .bx), .adox (.reg .ax) (.reg .r14), .adcx (.reg .bx) (.reg .r15),
   .mulx (.mem .di 32) (.reg .ax) (.reg .bx), .adox (.reg .ax) (.reg .r15), .adcx (.reg .bx) (.reg .r8), .mulx (.mem .di 40) (.reg .ax) (.reg .bx),
   .adox (.reg .ax) (.reg .r8), .adox (.reg .r9) (.reg .r9), .adcx (.reg .bx) (.reg .r9)]

/-- arithmetic_x86.s:2385-2410 and 2851-2876, word 5 of `b` times `a`. -/
def adxRow5 : List Instr :=
  [.mov (.mem .si 40) (.reg .dx), .xor (.reg .si) (.reg .si), .mulx (.mem .di 0) (.reg .ax) (.reg .bx), .adox (.reg .ax) (.reg .r12),
   .adcx (.reg .bx) (.reg .r13), .mulx (.mem .di 8) (.reg .ax) (.reg .bx), .adox (.reg .ax) (.reg .r13), .adcx (.reg .bx) (.reg .r14),
   .mulx (.mem .di 16) (.reg .ax) (.reg .bx), .adox (.reg .ax) (.reg .r14), .adcx (.reg .bx) (.reg .r15),
   .mulx (.mem .di 24) (.reg .ax) (.reg .bx), .adox (.reg .ax) (.reg .r15), .adcx (.reg .bx) (.reg .r8), .mulx (.mem .di 32) (.reg .ax) (.reg .bx),
   .adox (.reg .ax) (.reg .r8), .adcx (.reg .bx) (.reg .r9), .mulx (.mem .di 40) (.reg .ax) (.reg .bx), .adox (.reg .ax) (.reg .r9),
   .adox (.reg .bx) (.reg .si)]

/-- arithmetic_x86.s:2421-2424 and 2887-2890, the exchange of registers and stack words between the two phases. -/
def adxSwap : List Instr :=
  [.mov (.sp 0) (.reg .di), .mov (.sp 1) (.reg .bx), .mov (.reg .r9) (.sp 0), .mov (.reg .si) (.sp 1)]

/-- arithmetic_x86.s:2433-2461 and 2899-2927, Montgomery reduction, step 0. -/
def adxRed0 : List Instr :=
  [.mov .inp (.reg .dx), .mulx (.reg .cx) (.reg .dx) (.reg .r9), .xor (.reg .si) (.reg .si), .mulx (.modulus 0) (.reg .ax) (.reg .r9),
   .adox (.reg .ax) (.reg .cx), .adcx (.reg .r9) (.reg .di), .mulx (.modulus 1) (.reg .ax) (.reg .r9), .adox (.reg .ax) (.reg .di),
   .adcx (.reg .r9) (.reg .bx), .mulx (.modulus 2) (.reg .ax) (.reg .r9), .adox (.reg .ax) (.reg .bx), .adcx (.reg .r9) (.reg .r10),
   .mulx (.modulus 3) (.reg .ax) (.reg .r9), .adox (.reg .ax) (.reg .r10), .adcx (.reg .r9) (.reg .r11), .mulx (.modulus 4) (.reg .ax) (.reg .r9),
   .adox (.reg .ax) (.reg .r11), .adcx (.reg .r9) (.reg .r12), .mulx (.modulus 5) (.reg .ax) (.reg .r9), .adox (.reg .ax) (.reg .r12),
   .adcx (.reg .r9) (.reg .r13), .adox (.reg .si) (.reg .r13), .adcx (.reg .si) (.reg .si)]

/-- arithmetic_x86.s:2470-2498 and 2936-2964, Montgomery reduction, step 1. -/
def adxRed1 : List Instr :=
  [.xor (.reg .cx) (.reg .cx), .mov (.reg .di) (.reg .dx), .mulx .inp (.reg .dx) (.reg .r9), .mulx (.modulus 0) (.reg .ax) (.reg .r9),
   .adox (.reg .ax) (.reg .di), .adcx (.reg .r9) (.reg .bx), .mulx (.modulus 1) (.reg .ax) (.reg .r9), .adox (.reg .ax) (.reg .bx),
   .adcx (.reg .r9) (.reg .r10), .mulx (.modulus 2) (.reg .ax) (.reg .r9), .adox (.reg .ax) (.reg .r10), .adcx (.reg .r9) (.reg .r11),
   .mulx (.modulus 3) (.reg .ax) (.reg .r9), .adox (.reg .ax) (.reg .r11), .adcx (.reg .r9) (.reg .r12), .mulx (.modulus 4) (.reg .ax) (.reg .r9),
   .adox (.reg .ax) (.reg .r12), .adcx (.reg .r9) (.reg .r13), .mulx (.modulus 5) (.reg .ax) (.reg .r9), .adox (.reg .ax) (.reg .r13),
   .adcx (.reg .r9) (.reg .r14), .adox (.reg .si) (.reg .r14), .adcx (.reg .cx) (.reg .cx)]

/-- arithmetic_x86.s:2507-2535 and 2973-3001, Montgomery reduction, step 2. -/
def adxRed2 : List Instr :=
  [.xor (.reg .di) (.reg .di), .mov (.reg .bx) (.reg .dx), .mulx .inp (.reg .dx) (.reg .r9), .mulx (.modulus 0) (.reg .ax) (.reg .r9),
   .adox (.reg .ax) (.reg .bx), .adcx (.reg .r9) (.reg .r10), .mulx (.modulus 1) (.reg .ax) (.reg .r9), .adox (.reg .ax) (.reg .r10),
   .adcx (.reg .r9) (.reg .r11), .mulx (.modulus 2) (.reg .ax) (.reg .r9), .adox (.reg .ax) (.reg .r11), .adcx (.reg .r9) (.reg .r12),
   .mulx (.modulus 3) (.reg .ax) (.reg .r9), .adox (.reg .ax) (.reg .r12), .adcx (.reg .r9) (.reg .r13), .mulx (.modulus 4) (.reg .ax) (.reg .r9),
   .adox (.reg .ax) (.reg .r13), .adcx (.reg .r9) (.reg .r14), .mulx (.modulus 5) (.reg .ax) (.reg .r9), .adox (.reg .ax) (.reg .r14),
   .adcx (.reg .r9) (.reg .r15), .adox (.reg .cx) (.reg .r15), .adcx (.reg .di) (.reg .di)]

/-- arithmetic_x86.s:2544-2572 and 3010-3038, Montgomery reduction, step 3. -/
def adxRed3 : List Instr :=
  [.xor (.reg .cx) (.reg .cx), .mov (.reg .r10) (.reg .dx), .mulx .inp (.reg .dx) (.reg .bx), .mulx (.modulus 0) (.reg .ax) (.reg .bx),
   .adox (.reg .ax) (.reg .r10), .adcx (.reg .bx) (.reg .r11), .mulx (.modulus 1) (.reg .ax) (.reg .bx), .adox (.reg .ax) (.reg .r11),
   .adcx (.reg .bx) (.reg .r12), .mulx (.modulus 2) (.reg .ax) (.reg .bx), .adox (.reg .ax) (.reg .r12), .adcx (.reg .bx) (.reg .r13),
   .mulx (.modulus 3) (.reg .ax) (.reg .bx), .adox (.reg .ax) (.reg .r13), .adcx (.reg .bx) (.reg .r14), .mulx (.modulus 4) (.reg .ax) (.reg .bx),
   .adox (.reg .ax) (.reg .r14), .adcx (.reg .bx) (.reg .r15), .mulx (.modulus 5) (.reg .ax) (.reg .bx), .adox (.reg .ax) (.reg .r15),
   .adcx (.reg .bx) (.reg .r8), .adox (.reg .di) (.reg .r8), .adcx (.reg .cx) (.reg .cx)]

/-- arithmetic_x86.s:2576-2611 and 3042-3077, Montgomery reduction, step 4. -/
def adxRed4 : List Instr :=
  [.mov (.sp 0) (.reg .r9), .xor (.reg .di) (.reg .di), .mov (.reg .r11) (.reg .dx), .mulx .inp (.reg .dx) (.reg .bx),
   .mulx (.modulus 0) (.reg .ax) (.reg .bx), .adox (.reg .ax) (.reg .r11), .adcx (.reg .bx) (.reg .r12), .mulx (.modulus 1) (.reg .ax) (.reg .bx),
   .adox (.reg .ax) (.reg .r12), .adcx (.reg .bx) (.reg .r13), .mulx (.modulus 2) (.reg .ax) (.reg .bx), .adox (.reg .ax) (.reg .r13),
   .adcx (.reg .bx) (.reg .r14), .mulx (.modulus 3) (.reg .ax) (.reg .bx), .adox (.reg .ax) (.reg .r14), .adcx (.reg .bx) (.reg .r15),
   .mulx (.modulus 4) (.reg .ax) (.reg .bx), .adox (.reg .ax) (.reg .r15), .adcx (.reg .bx) (.reg .r8), .mulx (.modulus 5) (.reg .ax) (.reg .bx),
   .adox (.reg .ax) (.reg .r8), .adcx (.reg .bx) (.reg .r9), .adox (.reg .cx) (.reg .r9), .adcx (.reg .di) (.reg .di)]

/-- arithmetic_x86.s:2615-2649 and 3081-3115, Montgomery reduction, step 5. -/
def adxRed5 : List Instr :=
  [.mov (.sp 1) (.reg .r10), .xor (.reg .ax) (.reg .ax), .mov (.reg .r12) (.reg .dx), .mulx .inp (.reg .dx) (.reg .bx),
   .mulx (.modulus 0) (.reg .ax) (.reg .bx), .adox (.reg .ax) (.reg .r12), .adcx (.reg .bx) (.reg .r13), .mulx (.modulus 1) (.reg .ax) (.reg .bx),
   .adox (.reg .ax) (.reg .r13), .adcx (.reg .bx) (.reg .r14), .mulx (.modulus 2) (.reg .ax) (.reg .bx), .adox (.reg .ax) (.reg .r14),
   .adcx (.reg .bx) (.reg .r15), .mulx (.modulus 3) (.reg .ax) (.reg .bx), .adox (.reg .ax) (.reg .r15), .adcx (.reg .bx) (.reg .r8),
   .mulx (.modulus 4) (.reg .ax) (.reg .bx), .adox (.reg .ax) (.reg .r8), .adcx (.reg .bx) (.reg .r9), .mulx (.modulus 5) (.reg .ax) (.reg .bx),
   .adox (.reg .ax) (.reg .r9), .adcx (.reg .bx) (.reg .r10), .adox (.reg .di) (.reg .r10)]

/-- arithmetic_x86.s:2656-2673 and 3122-3139, the conditional subtraction of the modulus. -/
def adxFin : List Instr :=
  [.mov (.reg .r13) (.reg .ax), .mov (.reg .r14) (.reg .bx), .mov (.reg .r15) (.reg .cx), .mov (.reg .r8) (.reg .dx), .mov (.reg .r9) (.reg .r11),
   .mov (.reg .r10) (.reg .r12), .sub (.modulus 0) (.reg .ax), .sbb (.modulus 1) (.reg .bx), .sbb (.modulus 2) (.reg .cx),
   .sbb (.modulus 3) (.reg .dx), .sbb (.modulus 4) (.reg .r11), .sbb (.modulus 5) (.reg .r12), .cmovcc (.reg .ax) (.reg .r13),
   .cmovcc (.reg .bx) (.reg .r14), .cmovcc (.reg .cx) (.reg .r15), .cmovcc (.reg .dx) (.reg .r8), .cmovcc (.reg .r11) (.reg .r9),
   .cmovcc (.reg .r12) (.reg .r10)]

/-- what `mulADX` and `mulAssignADX` have in common. -/
def adxBody : List Instr :=
  adxRow0 ++ adxRow1 ++ adxRow2 ++ adxRow3 ++ adxRow4 ++ adxRow5 ++ adxSwap ++ adxRed0 ++ adxRed1 ++ adxRed2 ++ adxRed3 ++ adxRed4 ++ adxRed5 ++ adxFin

/-- arithmetic_x86.s:2227-2683 `mulADX`. -/
def mulADX : List Instr :=
  [.mov (.fp 1) (.reg .di), .mov (.fp 2) (.reg .si)] ++ adxBody ++
  [.mov (.fp 0) (.reg .si), .mov (.reg .r13) (.mem .si 0), .mov (.reg .r14) (.mem .si 8), .mov (.reg .r15) (.mem .si 16),
   .mov (.reg .r8) (.mem .si 24), .mov (.reg .r9) (.mem .si 32), .mov (.reg .r10) (.mem .si 40)]

/-- arithmetic_x86.s:2693-3149 `mulAssignADX`. -/
def mulAssignADX : List Instr :=
  [.mov (.fp 0) (.reg .di), .mov (.fp 1) (.reg .si)] ++ adxBody ++
  [.mov (.fp 0) (.reg .si), .mov (.reg .r13) (.mem .si 0), .mov (.reg .r14) (.mem .si 8), .mov (.reg .r15) (.mem .si 16),
   .mov (.reg .r8) (.mem .si 24), .mov (.reg .r9) (.mem .si 32), .mov (.reg .r10) (.mem .si 40)]

/-- arithmetic_x86.s:527-577 and 1382-1432, word 0 of `b` times `a`. -/
def noadxRow0 : List Instr :=
  [.mov (.imm 0) (.reg .r9), .mov (.imm 0) (.reg .r10), .mov (.imm 0) (.reg .r11), .mov (.imm 0) (.reg .r12), .mov (.imm 0) (.reg .r13),
   .mov (.imm 0) (.reg .bx), .mov (.mem .si 0) (.reg .cx), .mov (.mem .di 0) (.reg .ax), .mul (.reg .cx), .mov (.reg .ax) (.sp 0),
   .mov (.reg .dx) (.reg .r8), .mov (.mem .di 8) (.reg .ax), .mul (.reg .cx), .add (.reg .ax) (.reg .r8), .adc (.reg .dx) (.reg .r9),
   .mov (.mem .di 16) (.reg .ax), .mul (.reg .cx), .add (.reg .ax) (.reg .r9), .adc (.reg .dx) (.reg .r10), .mov (.mem .di 24) (.reg .ax),
   .mul (.reg .cx), .add (.reg .ax) (.reg .r10), .adc (.reg .dx) (.reg .r11), .mov (.mem .di 32) (.reg .ax), .mul (.reg .cx),
   .add (.reg .ax) (.reg .r11), .adc (.reg .dx) (.reg .r12), .mov (.mem .di 40) (.reg .ax), .mul (.reg .cx), .add (.reg .ax) (.reg .r12),
   .adc (.reg .dx) (.reg .r13)]

/-- arithmetic_x86.s:580-648 and 1435-1503, word 1 of `b` times `a`. -/
def noadxRow1 : List Instr :=
  [.mov (.mem .si 8) (.reg .cx), .mov (.mem .di 0) (.reg .ax), .mul (.reg .cx), .add (.reg .ax) (.reg .r8), .adc (.reg .dx) (.reg .r9),
   .adc (.imm 0) (.reg .r10), .adc (.imm 0) (.reg .bx), .mov (.reg .r8) (.sp 1), .mov (.mem .di 8) (.reg .ax), .mul (.reg .cx),
   .add (.reg .ax) (.reg .r9), .adc (.reg .dx) (.reg .r10), .adc (.reg .bx) (.reg .r11), .mov (.imm 0) (.reg .bx), .adc (.imm 0) (.reg .bx),
   .mov (.reg .r9) (.reg .r8), .mov (.mem .di 16) (.reg .ax), .mul (.reg .cx), .add (.reg .ax) (.reg .r10), .adc (.reg .dx) (.reg .r11),
   .adc (.reg .bx) (.reg .r12), .mov (.imm 0) (.reg .bx), .adc (.imm 0) (.reg .bx), .mov (.reg .r10) (.reg .r9), .mov (.mem .di 24) (.reg .ax),
   .mul (.reg .cx), .add (.reg .ax) (.reg .r11), .adc (.reg .dx) (.reg .r12), .adc (.reg .bx) (.reg .r13), .mov (.imm 0) (.reg .bx),
   .adc (.imm 0) (.reg .bx), .mov (.reg .r11) (.reg .r10), .mov (.mem .di 32) (.reg .ax), .mul (.reg .cx), .add (.reg .ax) (.reg .r12),
   .adc (.reg .dx) (.reg .r13), .adc (.imm 0) (.reg .bx), .mov (.reg .r12) (.reg .r11), .mov (.mem .di 40) (.reg .ax), .mul (.reg .cx),
   .add (.reg .ax) (.reg .r13), .adc (.reg .dx) (.reg .bx), .mov (.reg .r13) (.reg .r12), .mov (.reg .bx) (.reg .r13)]

/-- arithmetic_x86.s:651-720 and 1506-1575, word 2 of `b` times `a`. -/
def noadxRow2 : List Instr :=
  [.mov (.mem .si 16) (.reg .cx), .mov (.imm 0) (.reg .bx), .mov (.mem .di 0) (.reg .ax), .mul (.reg .cx), .add (.reg .ax) (.reg .r8),
   .adc (.reg .dx) (.reg .r9), .adc (.imm 0) (.reg .r10), .adc (.imm 0) (.reg .bx), .mov (.reg .r8) (.sp 2), .mov (.mem .di 8) (.reg .ax),
   .mul (.reg .cx), .add (.reg .ax) (.reg .r9), .adc (.reg .dx) (.reg .r10), .adc (.reg .bx) (.reg .r11), .mov (.imm 0) (.reg .bx),
   .adc (.imm 0) (.reg .bx), .mov (.reg .r9) (.reg .r8), .mov (.mem .di 16) (.reg .ax), .mul (.reg .cx), .add (.reg .ax) (.reg .r10),
   .adc (.reg .dx) (.reg .r11), .adc (.reg .bx) (.reg .r12), .mov (.imm 0) (.reg .bx), .adc (.imm 0) (.reg .bx), .mov (.reg .r10) (.reg .r9),
   .mov (.mem .di 24) (.reg .ax), .mul (.reg .cx), .add (.reg .ax) (.reg .r11), .adc (.reg .dx) (.reg .r12), .adc (.reg .bx) (.reg .r13),
   .mov (.imm 0) (.reg .bx), .adc (.imm 0) (.reg .bx), .mov (.reg .r11) (.reg .r10), .mov (.mem .di 32) (.reg .ax), .mul (.reg .cx),
   .add (.reg .ax) (.reg .r12), .adc (.reg .dx) (.reg .r13), .adc (.imm 0) (.reg .bx), .mov (.reg .r12) (.reg .r11), .mov (.mem .di 40) (.reg .ax),
   .mul (.reg .cx), .add (.reg .ax) (.reg .r13), .adc (.reg .dx) (.reg .bx), .mov (.reg .r13) (.reg .r12), .mov (.reg .bx) (.reg .r13)]

/-- arithmetic_x86.s:723-792 and 1578-1647, word 3 of `b` times `a`. -/
def noadxRow3 : List Instr :=
  [.mov (.mem .si 24) (.reg .cx), .mov (.imm 0) (.reg .bx), .mov (.mem .di 0) (.reg .ax), .mul (.reg .cx), .add (.reg .ax) (.reg .r8),
   .adc (.reg .dx) (.reg .r9), .adc (.imm 0) (.reg .r10), .adc (.imm 0) (.reg .bx), .mov (.reg .r8) (.reg .r14), .mov (.mem .di 8) (.reg .ax),
   .mul (.reg .cx), .add (.reg .ax) (.reg .r9), .adc (.reg .dx) (.reg .r10), .adc (.reg .bx) (.reg .r11), .mov (.imm 0) (.reg .bx),
   .adc (.imm 0) (.reg .bx), .mov (.reg .r9) (.reg .r8), .mov (.mem .di 16) (.reg .ax), .mul (.reg .cx), .add (.reg .ax) (.reg .r10),
   .adc (.reg .dx) (.reg .r11), .adc (.reg .bx) (.reg .r12), .mov (.imm 0) (.reg .bx), .adc (.imm 0) (.reg .bx), .mov (.reg .r10) (.reg .r9),
   .mov (.mem .di 24) (.reg .ax), .mul (.reg .cx), .add (.reg .ax) (.reg .r11), .adc (.reg .dx) (.reg .r12), .adc (.reg .bx) (.reg .r13),
   .mov (.imm 0) (.reg .bx), .adc (.imm 0) (.reg .bx), .mov (.reg .r11) (.reg .r10), .mov (.mem .di 32) (.reg .ax), .mul (.reg .cx),
   .add (.reg .ax) (.reg .r12), .adc (.reg .dx) (.reg .r13), .adc (.imm 0) (.reg .bx), .mov (.reg .r12) (.reg .r11), .mov (.mem .di 40) (.reg .ax),
   .mul (.reg .cx), .add (.reg .ax) (.reg .r13), .adc (.reg .dx) (.reg .bx), .mov (.reg .r13) (.reg .r12), .mov (.reg .bx) (.reg .r13)]

/-- arithmetic_x86.s:795-864 and 1650-1719, word 4 of `b` times `a`. -/
def noadxRow4 : List Instr :=
  [.mov (.mem .si 32) (.reg .cx), .mov (.imm 0) (.reg .bx), .mov (.mem .di 0) (.reg .ax), .mul (.reg .cx), .add (.reg .ax) (.reg .r8),
   .adc (.reg .dx) (.reg .r9), .adc (.imm 0) (.reg .r10), .adc (.imm 0) (.reg .bx), .mov (.reg .r8) (.reg .r15), .mov (.mem .di 8) (.reg .ax),
   .mul (.reg .cx), .add (.reg .ax) (.reg .r9), .adc (.reg .dx) (.reg .r10), .adc (.reg .bx) (.reg .r11), .mov (.imm 0) (.reg .bx),
   .adc (.imm 0) (.reg .bx), .mov (.reg .r9) (.reg .r8), .mov (.mem .di 16) (.reg .ax), .mul (.reg .cx), .add (.reg .ax) (.reg .r10),
   .adc (.reg .dx) (.reg .r11), .adc (.reg .bx) (.reg .r12), .mov (.imm 0) (.reg .bx), .adc (.imm 0) (.reg .bx), .mov (.reg .r10) (.reg .r9),
   .mov (.mem .di 24) (.reg .ax), .mul (.reg .cx), .add (.reg .ax) (.reg .r11), .adc (.reg .dx) (.reg .r12), .adc (.reg .bx) (.reg .r13),
   .mov (.imm 0) (.reg .bx), .adc (.imm 0) (.reg .bx), .mov (.reg .r11) (.reg .r10), .mov (.mem .di 32) (.reg .ax), .mul (.reg .cx),
   .add (.reg .ax) (.reg .r12), .adc (.reg .dx) (.reg .r13), .adc (.imm 0) (.reg .bx), .mov (.reg .r12) (.reg .r11), .mov (.mem .di 40) (.reg .ax),
   .mul (.reg .cx), .add (.reg .ax) (.reg .r13), .adc (.reg .dx) (.reg .bx), .mov (.reg .r13) (.reg .r12), .mov (.reg .bx) (.reg .r13)]

/-- arithmetic_x86.s:867-922 and 1722-1777, word 5 of `b` times `a`. -/
def noadxRow5 : List Instr :=
  [.mov (.mem .si 40) (.reg .cx), .mov (.imm 0) (.reg .bx), .mov (.mem .di 0) (.reg .ax), .mul (.reg .cx), .add (.reg .ax) (.reg .r8),
   .adc (.reg .dx) (.reg .r9), .adc (.imm 0) (.reg .r10), .adc (.imm 0) (.reg .bx), .mov (.mem .di 8) (.reg .ax), .mul (.reg .cx),
   .add (.reg .ax) (.reg .r9), .adc (.reg .dx) (.reg .r10), .adc (.reg .bx) (.reg .r11), .mov (.imm 0) (.reg .bx), .adc (.imm 0) (.reg .bx),
   .mov (.mem .di 16) (.reg .ax), .mul (.reg .cx), .add (.reg .ax) (.reg .r10), .adc (.reg .dx) (.reg .r11), .adc (.reg .bx) (.reg .r12),
   .mov (.imm 0) (.reg .bx), .adc (.imm 0) (.reg .bx), .mov (.mem .di 24) (.reg .ax), .mul (.reg .cx), .add (.reg .ax) (.reg .r11),
   .adc (.reg .dx) (.reg .r12), .adc (.reg .bx) (.reg .r13), .mov (.imm 0) (.reg .bx), .adc (.imm 0) (.reg .bx), .mov (.mem .di 32) (.reg .ax),
   .mul (.reg .cx), .add (.reg .ax) (.reg .r12), .adc (.reg .dx) (.reg .r13), .adc (.imm 0) (.reg .bx), .mov (.mem .di 40) (.reg .ax),
   .mul (.reg .cx), .add (.reg .ax) (.reg .r13), .adc (.reg .dx) (.reg .bx)]

/-- arithmetic_x86.s:935-939 and 1790-1794, the exchange of registers and stack words between the two phases. -/
def noadxSwap : List Instr :=
  [.mov (.sp 0) (.reg .si), .mov (.sp 1) (.reg .di), .mov (.sp 2) (.reg .cx), .mov (.reg .r13) (.sp 0), .mov (.reg .bx) (.sp 1)]

/-- arithmetic_x86.s:949-1005 and 1804-1860, Montgomery reduction, step 0. -/
def noadxRed0 : List Instr :=
  [.mov (.reg .si) (.reg .ax), .mul .inp, .mov (.reg .ax) (.reg .bx), .mov (.imm 0) (.reg .r13), .mov (.modulus 0) (.reg .ax), .mul (.reg .bx),
   .adc (.reg .dx) (.reg .r13), .mov (.modulus 1) (.reg .ax), .mul (.reg .bx), .add (.reg .ax) (.reg .di), .adc (.imm 0) (.reg .dx),
   .add (.reg .r13) (.reg .di), .mov (.imm 0) (.reg .r13), .adc (.reg .dx) (.reg .r13), .mov (.modulus 2) (.reg .ax), .mul (.reg .bx),
   .add (.reg .ax) (.reg .cx), .adc (.imm 0) (.reg .dx), .add (.reg .r13) (.reg .cx), .mov (.imm 0) (.reg .r13), .adc (.reg .dx) (.reg .r13),
   .mov (.modulus 3) (.reg .ax), .mul (.reg .bx), .add (.reg .ax) (.reg .r14), .adc (.imm 0) (.reg .dx), .add (.reg .r13) (.reg .r14),
   .mov (.imm 0) (.reg .r13), .adc (.reg .dx) (.reg .r13), .mov (.modulus 4) (.reg .ax), .mul (.reg .bx), .add (.reg .ax) (.reg .r15),
   .adc (.imm 0) (.reg .dx), .add (.reg .r13) (.reg .r15), .mov (.imm 0) (.reg .r13), .adc (.reg .dx) (.reg .r13), .mov (.modulus 5) (.reg .ax),
   .mul (.reg .bx), .add (.reg .ax) (.reg .r8), .adc (.imm 0) (.reg .dx), .add (.reg .r13) (.reg .r8), .adc (.reg .dx) (.reg .r9),
   .mov (.imm 0) (.reg .si), .adc (.imm 0) (.reg .si)]

/-- arithmetic_x86.s:1014-1072 and 1869-1927, Montgomery reduction, step 1. -/
def noadxRed1 : List Instr :=
  [.mov (.reg .di) (.reg .ax), .mul .inp, .mov (.reg .ax) (.reg .bx), .mov (.imm 0) (.reg .r13), .mov (.modulus 0) (.reg .ax), .mul (.reg .bx),
   .adc (.reg .dx) (.reg .r13), .mov (.modulus 1) (.reg .ax), .mul (.reg .bx), .add (.reg .ax) (.reg .cx), .adc (.imm 0) (.reg .dx),
   .add (.reg .r13) (.reg .cx), .mov (.imm 0) (.reg .r13), .adc (.reg .dx) (.reg .r13), .mov (.modulus 2) (.reg .ax), .mul (.reg .bx),
   .add (.reg .ax) (.reg .r14), .adc (.imm 0) (.reg .dx), .add (.reg .r13) (.reg .r14), .mov (.imm 0) (.reg .r13), .adc (.reg .dx) (.reg .r13),
   .mov (.modulus 3) (.reg .ax), .mul (.reg .bx), .add (.reg .ax) (.reg .r15), .adc (.imm 0) (.reg .dx), .add (.reg .r13) (.reg .r15),
   .mov (.imm 0) (.reg .r13), .adc (.reg .dx) (.reg .r13), .mov (.modulus 4) (.reg .ax), .mul (.reg .bx), .add (.reg .ax) (.reg .r8),
   .adc (.imm 0) (.reg .dx), .add (.reg .r13) (.reg .r8), .mov (.imm 0) (.reg .r13), .adc (.reg .dx) (.reg .r13), .mov (.modulus 5) (.reg .ax),
   .mul (.reg .bx), .add (.reg .ax) (.reg .r9), .adc (.reg .dx) (.reg .si), .add (.reg .r13) (.reg .r9), .adc (.reg .si) (.reg .r10),
   .mov (.imm 0) (.reg .si), .adc (.imm 0) (.reg .si)]

/-- arithmetic_x86.s:1081-1136 and 1936-1991, Montgomery reduction, step 2. -/
def noadxRed2 : List Instr :=
  [.mov (.reg .cx) (.reg .ax), .mul .inp, .mov (.reg .ax) (.reg .bx), .mov (.imm 0) (.reg .r13), .mov (.modulus 0) (.reg .ax), .mul (.reg .bx),
   .adc (.reg .dx) (.reg .r13), .mov (.modulus 1) (.reg .ax), .mul (.reg .bx), .add (.reg .ax) (.reg .r14), .adc (.imm 0) (.reg .dx),
   .add (.reg .r13) (.reg .r14), .mov (.imm 0) (.reg .r13), .adc (.reg .dx) (.reg .r13), .mov (.modulus 2) (.reg .ax), .mul (.reg .bx),
   .add (.reg .ax) (.reg .r15), .adc (.imm 0) (.reg .dx), .add (.reg .r13) (.reg .r15), .mov (.imm 0) (.reg .r13), .adc (.reg .dx) (.reg .r13),
   .mov (.modulus 3) (.reg .ax), .mul (.reg .bx), .add (.reg .ax) (.reg .r8), .adc (.imm 0) (.reg .dx), .add (.reg .r13) (.reg .r8),
   .mov (.imm 0) (.reg .r13), .adc (.reg .dx) (.reg .r13), .mov (.modulus 4) (.reg .ax), .mul (.reg .bx), .add (.reg .ax) (.reg .r9),
   .adc (.imm 0) (.reg .dx), .add (.reg .r13) (.reg .r9), .mov (.imm 0) (.reg .r13), .adc (.reg .dx) (.reg .r13), .mov (.modulus 5) (.reg .ax),
   .mul (.reg .bx), .add (.reg .ax) (.reg .r10), .adc (.reg .dx) (.reg .si), .add (.reg .r13) (.reg .r10), .adc (.reg .si) (.reg .r11),
   .mov (.imm 0) (.reg .si), .adc (.imm 0) (.reg .si)]

/-- arithmetic_x86.s:1145-1200 and 2000-2055, Montgomery reduction, step 3. -/
def noadxRed3 : List Instr :=
  [.mov (.reg .r14) (.reg .ax), .mul .inp, .mov (.reg .ax) (.reg .bx), .mov (.imm 0) (.reg .r13), .mov (.modulus 0) (.reg .ax), .mul (.reg .bx),
   .adc (.reg .dx) (.reg .r13), .mov (.modulus 1) (.reg .ax), .mul (.reg .bx), .add (.reg .ax) (.reg .r15), .adc (.imm 0) (.reg .dx),
   .add (.reg .r13) (.reg .r15), .mov (.imm 0) (.reg .r13), .adc (.reg .dx) (.reg .r13), .mov (.modulus 2) (.reg .ax), .mul (.reg .bx),
   .add (.reg .ax) (.reg .r8), .adc (.imm 0) (.reg .dx), .add (.reg .r13) (.reg .r8), .mov (.imm 0) (.reg .r13), .adc (.reg .dx) (.reg .r13),
   .mov (.modulus 3) (.reg .ax), .mul (.reg .bx), .add (.reg .ax) (.reg .r9), .adc (.imm 0) (.reg .dx), .add (.reg .r13) (.reg .r9),
   .mov (.imm 0) (.reg .r13), .adc (.reg .dx) (.reg .r13), .mov (.modulus 4) (.reg .ax), .mul (.reg .bx), .add (.reg .ax) (.reg .r10),
   .adc (.imm 0) (.reg .dx), .add (.reg .r13) (.reg .r10), .mov (.imm 0) (.reg .r13), .adc (.reg .dx) (.reg .r13), .mov (.modulus 5) (.reg .ax),
   .mul (.reg .bx), .add (.reg .ax) (.reg .r11), .adc (.reg .dx) (.reg .si), .add (.reg .r13) (.reg .r11), .adc (.reg .si) (.reg .r12),
   .mov (.imm 0) (.reg .si), .adc (.imm 0) (.reg .si)]

/-- arithmetic_x86.s:1209-1272 and 2064-2127, Montgomery reduction, step 4. -/
def noadxRed4 : List Instr :=
  [.mov (.reg .r15) (.reg .ax), .mul .inp, .mov (.reg .ax) (.reg .bx), .mov (.imm 0) (.reg .r13), .mov (.modulus 0) (.reg .ax), .mul (.reg .bx),
   .adc (.reg .dx) (.reg .r13), .mov (.modulus 1) (.reg .ax), .mul (.reg .bx), .add (.reg .ax) (.reg .r8), .adc (.imm 0) (.reg .dx),
   .add (.reg .r13) (.reg .r8), .mov (.imm 0) (.reg .r13), .adc (.reg .dx) (.reg .r13), .mov (.modulus 2) (.reg .ax), .mul (.reg .bx),
   .add (.reg .ax) (.reg .r9), .adc (.imm 0) (.reg .dx), .add (.reg .r13) (.reg .r9), .mov (.imm 0) (.reg .r13), .adc (.reg .dx) (.reg .r13),
   .mov (.modulus 3) (.reg .ax), .mul (.reg .bx), .add (.reg .ax) (.reg .r10), .adc (.imm 0) (.reg .dx), .add (.reg .r13) (.reg .r10),
   .mov (.imm 0) (.reg .r13), .adc (.reg .dx) (.reg .r13), .mov (.modulus 4) (.reg .ax), .mul (.reg .bx), .add (.reg .ax) (.reg .r11),
   .adc (.imm 0) (.reg .dx), .add (.reg .r13) (.reg .r11), .mov (.imm 0) (.reg .r13), .adc (.reg .dx) (.reg .r13), .mov (.modulus 5) (.reg .ax),
   .mul (.reg .bx), .add (.reg .ax) (.reg .r12), .adc (.reg .dx) (.reg .si), .add (.reg .r13) (.reg .r12), .mov (.sp 0) (.reg .cx),
   .mov (.sp 1) (.reg .r14), .adc (.reg .si) (.reg .cx), .adc (.imm 0) (.reg .r14)]

/-- arithmetic_x86.s:1281-1330 and 2136-2185, Montgomery reduction, step 5. -/
def noadxRed5 : List Instr :=
  [.mov (.reg .r8) (.reg .ax), .mul .inp, .mov (.reg .ax) (.reg .bx), .mov (.imm 0) (.reg .r13), .mov (.modulus 0) (.reg .ax), .mul (.reg .bx),
   .adc (.reg .dx) (.reg .r13), .mov (.modulus 1) (.reg .ax), .mul (.reg .bx), .add (.reg .ax) (.reg .r9), .adc (.imm 0) (.reg .dx),
   .add (.reg .r13) (.reg .r9), .mov (.imm 0) (.reg .r13), .adc (.reg .dx) (.reg .r13), .mov (.modulus 2) (.reg .ax), .mul (.reg .bx),
   .add (.reg .ax) (.reg .r10), .adc (.imm 0) (.reg .dx), .add (.reg .r13) (.reg .r10), .mov (.imm 0) (.reg .r13), .adc (.reg .dx) (.reg .r13),
   .mov (.modulus 3) (.reg .ax), .mul (.reg .bx), .add (.reg .ax) (.reg .r11), .adc (.imm 0) (.reg .dx), .add (.reg .r13) (.reg .r11),
   .mov (.imm 0) (.reg .r13), .adc (.reg .dx) (.reg .r13), .mov (.modulus 4) (.reg .ax), .mul (.reg .bx), .add (.reg .ax) (.reg .r12),
   .adc (.imm 0) (.reg .dx), .add (.reg .r13) (.reg .r12), .adc (.reg .dx) (.reg .cx), .adc (.imm 0) (.reg .r14), .mov (.modulus 5) (.reg .ax),
   .mul (.reg .bx), .add (.reg .ax) (.reg .cx), .adc (.reg .dx) (.reg .r14)]

/-- arithmetic_x86.s:1335-1352 and 2190-2207, the conditional subtraction of the modulus. -/
def noadxFin : List Instr :=
  [.mov (.reg .r9) (.reg .ax), .mov (.reg .r10) (.reg .bx), .mov (.reg .r11) (.reg .dx), .mov (.reg .r12) (.reg .r8), .mov (.reg .cx) (.reg .r15),
   .mov (.reg .r14) (.reg .r13), .sub (.modulus 0) (.reg .ax), .sbb (.modulus 1) (.reg .bx), .sbb (.modulus 2) (.reg .dx),
   .sbb (.modulus 3) (.reg .r8), .sbb (.modulus 4) (.reg .r15), .sbb (.modulus 5) (.reg .r13), .cmovcc (.reg .ax) (.reg .r9),
   .cmovcc (.reg .bx) (.reg .r10), .cmovcc (.reg .dx) (.reg .r11), .cmovcc (.reg .r8) (.reg .r12), .cmovcc (.reg .r15) (.reg .cx),
   .cmovcc (.reg .r13) (.reg .r14)]

/-- what `mulNoADX` and `mulAssignNoADX` have in common. -/
def noadxBody : List Instr :=
  noadxRow0 ++ noadxRow1 ++ noadxRow2 ++ noadxRow3 ++ noadxRow4 ++ noadxRow5 ++ noadxSwap ++ noadxRed0 ++ noadxRed1 ++ noadxRed2 ++ noadxRed3 ++ noadxRed4 ++ noadxRed5 ++ noadxFin

/-- arithmetic_x86.s:517-1362 `mulNoADX`. -/
def mulNoADX : List Instr :=
  [.mov (.fp 1) (.reg .di), .mov (.fp 2) (.reg .si)] ++ noadxBody ++
  [.mov (.fp 0) (.reg .si), .mov (.reg .r9) (.mem .si 0), .mov (.reg .r10) (.mem .si 8), .mov (.reg .r11) (.mem .si 16),
   .mov (.reg .r12) (.mem .si 24), .mov (.reg .cx) (.mem .si 32), .mov (.reg .r14) (.mem .si 40)]

/-- arithmetic_x86.s:1372-2217 `mulAssignNoADX`. -/
def mulAssignNoADX : List Instr :=
  [.mov (.fp 0) (.reg .di), .mov (.fp 1) (.reg .si)] ++ noadxBody ++
  [.mov (.fp 0) (.reg .si), .mov (.reg .r9) (.mem .si 0), .mov (.reg .r10) (.mem .si 8), .mov (.reg .r11) (.mem .si 16),
   .mov (.reg .r12) (.mem .si 24), .mov (.reg .cx) (.mem .si 32), .mov (.reg .r14) (.mem .si 40)]

end Verif.X86
