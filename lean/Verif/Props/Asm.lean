import Verif.X86.Calls
import Verif.X86.Build
import Verif.Props.Bls4

/-!
# The amd64 assembly of bls12_381/bls: C106–C109

Specification: `Verif/X86/Spec.lean` (`load m p`: the element a pointer points to; `Writes s s' p r`: the call has left `r` at `p` and has
changed no other word of memory) and `Fe.val`, the number that six words stand for.  The machine is `Verif/X86/Machine.lean`, the code
`Verif/X86/Code.lean`.  A theorem holds for all states, so for all registers, flags and memory contents on entry and for all
pointers, equal or overlapping ones included.
-/

set_option exponentiation.threshold 1000

namespace Verif.Props

open Verif.Bls Verif.X86

/-! ## C106: addition, subtraction, doubling, negation -/

theorem writes_of {s s' : St} {p : UInt64} {f : Fe} (h : Writes s s' p f) {v : ℕ} (hv : f.val = v) :
    ∃ r : Fe, Writes s s' p r ∧ r.val = v := ⟨f, h, hv⟩

theorem addVal {a b : Fe} (ha : a.val < Q) (hb : b.val < Q) : (Fe.add a b).val = (a.val + b.val) % Q := by
  have hQ : Q < 2 ^ 383 := by decide +kernel
  unfold Fe.add
  rw [reduce_all, Fe.ladd_val, Nat.mod_eq_of_lt (a := a.val + b.val) (b := 2 ^ 384) (by omega)]
  split
  · rw [Nat.mod_eq_of_lt (by assumption)]
  · rw [Nat.mod_eq_sub_mod (by omega), Nat.mod_eq_of_lt (by omega)]

theorem subVal {a b : Fe} (ha : a.val < Q) (hb : b.val < Q) : (Fe.sub a b).val = (a.val + Q - b.val) % Q := by
  have hQ : Q < 2 ^ 383 := by decide +kernel
  obtain ⟨g1, g2⟩ := Fe.subB_val a b
  have l1 := Fe.val_lt (Fe.subB a b).1
  have hz : ((Fe.subB a b).2 ≠ 0) ↔ (Fe.subB a b).2.toNat ≠ 0 := by
    rw [ne_eq, ne_eq, ← UInt64.toNat_inj]; rfl
  unfold Fe.sub
  simp only
  by_cases h : b.val ≤ a.val
  · rw [if_neg (by rw [hz]; omega), show a.val + Q - b.val = a.val - b.val + Q by omega, Nat.add_mod_right,
      Nat.mod_eq_of_lt (by omega)]
    omega
  · rw [if_pos (by rw [hz]; omega), Fe.ladd_val, Fe.modulus_val, Nat.mod_eq_of_lt (a := a.val + Q - b.val) (by omega)]
    omega

/-- C106, `add` and `addAssign`: for canonical operands the canonical sum modulo the prime. -/
theorem C106_add (s : St) :
    ((load s.mem s.f1).val < Q → (load s.mem s.f2).val < Q →
      ∃ r : Fe, Writes s (run add s) s.f0 r ∧ r.val = ((load s.mem s.f1).val + (load s.mem s.f2).val) % Q) ∧
    ((load s.mem s.f0).val < Q → (load s.mem s.f1).val < Q →
      ∃ r : Fe, Writes s (run addAssign s) s.f0 r ∧ r.val = ((load s.mem s.f0).val + (load s.mem s.f1).val) % Q) :=
  ⟨fun ha hb => writes_of (add_writes s) (addVal ha hb), fun ha hb => writes_of (addAssign_writes s) (addVal ha hb)⟩

/-- C106, `sub` and `subAssign`: for canonical operands the canonical difference modulo the prime. -/
theorem C106_sub (s : St) :
    ((load s.mem s.f1).val < Q → (load s.mem s.f2).val < Q →
      ∃ r : Fe, Writes s (run sub s) s.f0 r ∧ r.val = ((load s.mem s.f1).val + Q - (load s.mem s.f2).val) % Q) ∧
    ((load s.mem s.f0).val < Q → (load s.mem s.f1).val < Q →
      ∃ r : Fe, Writes s (run subAssign s) s.f0 r ∧ r.val = ((load s.mem s.f0).val + Q - (load s.mem s.f1).val) % Q) :=
  ⟨fun ha hb => writes_of (sub_writes s) (subVal ha hb), fun ha hb => writes_of (subAssign_writes s) (subVal ha hb)⟩

/-- C106, `double`, `doubleAssign` and `_neg` (which `neg` calls for operands other than zero). -/
theorem C106_double_neg (s : St) :
    ((load s.mem s.f1).val < Q →
      ∃ r : Fe, Writes s (run double s) s.f0 r ∧ r.val = 2 * (load s.mem s.f1).val % Q) ∧
    ((load s.mem s.f0).val < Q →
      ∃ r : Fe, Writes s (run doubleAssign s) s.f0 r ∧ r.val = 2 * (load s.mem s.f0).val % Q) ∧
    ((load s.mem s.f1).val ≤ Q →
      ∃ r : Fe, Writes s (run neg s) s.f0 r ∧ r.val = Q - (load s.mem s.f1).val) := by
  refine ⟨fun ha => writes_of (double_writes s) ?_, fun ha => writes_of (doubleAssign_writes s) ?_, fun ha => writes_of (neg_writes s) ?_⟩
  · rw [Nat.two_mul]; exact addVal ha ha
  · rw [Nat.two_mul]; exact addVal ha ha
  · rw [Fe.lsub_val (by rw [Fe.modulus_val]; exact ha), Fe.modulus_val]

/-- C106, the lazy forms `ladd`, `laddAssign`, `ldouble`, `lsubAssign`: arithmetic modulo `2^384`, for all words. -/
theorem C106_lazy (s : St) :
    (∃ r : Fe, Writes s (run ladd s) s.f0 r ∧ r.val = ((load s.mem s.f1).val + (load s.mem s.f2).val) % 2 ^ 384) ∧
    (∃ r : Fe, Writes s (run laddAssign s) s.f0 r ∧ r.val = ((load s.mem s.f0).val + (load s.mem s.f1).val) % 2 ^ 384) ∧
    (∃ r : Fe, Writes s (run ldouble s) s.f0 r ∧ r.val = 2 * (load s.mem s.f1).val % 2 ^ 384) ∧
    (∃ r : Fe, Writes s (run lsubAssign s) s.f0 r ∧
      r.val = ((load s.mem s.f0).val + 2 ^ 384 - (load s.mem s.f1).val) % 2 ^ 384) := by
  refine ⟨writes_of (ladd_writes s) (Fe.ladd_val _ _), writes_of (laddAssign_writes s) (Fe.ladd_val _ _),
    writes_of (ldouble_writes s) ?_, writes_of (lsubAssign_writes s) ?_⟩
  · rw [Nat.two_mul]; exact Fe.ladd_val _ _
  · generalize load s.mem s.f0 = a
    generalize load s.mem s.f1 = b
    obtain ⟨g1, g2⟩ := Fe.subB_val a b
    have l1 := Fe.val_lt (Fe.subB a b).1
    have l2 := Fe.val_lt a
    have l3 := Fe.val_lt b
    unfold Fe.lsub
    omega

theorem load_entry (a b : Fe) : load (entry a b).mem (entry a b).f1 = a ∧ load (entry a b).mem (entry a b).f2 = b :=
  ⟨rfl, rfl⟩

theorem call_eq {code : List Instr} {a b f : Fe} (h : Writes (entry a b) (run code (entry a b)) (entry a b).f0 f) :
    call code a b = f := h.1

/-- C106 for the record of operations: the assembly computes, word for word, what arithmetic_fallback.go does. -/
theorem C106_same (a b : Fe) : call add a b = Fe.add a b ∧ call sub a b = Fe.sub a b ∧ call double a a = Fe.double a ∧
    callNeg a = Fe.neg a ∧ call ladd a b = Fe.ladd a b ∧ call ldouble a a = Fe.ldouble a := by
  refine ⟨call_eq (add_writes _), call_eq (sub_writes _), call_eq (double_writes _), ?_, call_eq (ladd_writes _),
    call_eq (ldouble_writes _)⟩
  unfold callNeg Fe.neg
  by_cases h : Fe.isZero a
  · rw [if_pos h, if_pos h]
    have h0 : a.val = 0 := (Fe.isZero_iff a).mp h
    exact Fe.val_inj (h0.trans rfl)
  · rw [if_neg h, if_neg h]
    exact call_eq (neg_writes _)

/-- the operands 1 and Q - 1 meet the hypotheses of C106; and `c`, `a`, `b` one and the same pointer. -/
example : (load (entry (Fe.ofWord 1) (Fe.lsub modulus (Fe.ofWord 1))).mem 64).val < Q ∧
    (load (entry (Fe.ofWord 1) (Fe.lsub modulus (Fe.ofWord 1))).mem 128).val < Q ∧
    call add (Fe.ofWord 1) (Fe.lsub modulus (Fe.ofWord 1)) = Fe.zero ∧
    (let s := { entry (Fe.ofWord 21) Fe.zero with f0 := 64, f1 := 64, f2 := 64 }
     load (run add s).mem 64 = Fe.ofWord 42) := by decide +kernel

/-! ## C107: multiplication with ADX -/

theorem mulVal {a b : Fe} (ha : a.val < 2 * Q) (hb : b.val < 2 * Q) :
    (Fe.mul a b).val < Q ∧ 2 ^ 384 * (Fe.mul a b).val % Q = a.val * b.val % Q := by
  have hQ : Q < 2 ^ 381 := by decide +kernel
  have hxy : a.val * b.val ≤ 2 ^ 384 * Q := by
    calc a.val * b.val ≤ (2 * Q) * (2 * Q) := Nat.mul_le_mul ha.le hb.le
      _ = (4 * Q) * Q := by ring
      _ ≤ 2 ^ 384 * Q := Nat.mul_le_mul_right _ (by omega)
  exact Fe.mul_spec a b (by omega) hxy

/-- `r` is the Montgomery product of `a` and `b`: canonical, and `r * 2^384 = a * b` modulo the prime. -/
def IsMontProduct (r a b : Fe) : Prop := r.val < Q ∧ 2 ^ 384 * r.val % Q = a.val * b.val % Q

theorem montProduct_iff {r a b : Fe} (ha : a.val < 2 * Q) (hb : b.val < 2 * Q) : IsMontProduct r a b ↔ r = Fe.mul a b := by
  constructor
  · rintro ⟨h1, h2⟩
    obtain ⟨g1, g2⟩ := mulVal ha hb
    have hgcd : Nat.gcd Q (2 ^ 384) = 1 := by decide +kernel
    have e : 2 ^ 384 * r.val % Q = 2 ^ 384 * (Fe.mul a b).val % Q := h2.trans g2.symm
    have h := Nat.ModEq.cancel_left_of_coprime (c := 2 ^ 384) (a := r.val) (b := (Fe.mul a b).val) hgcd (by unfold Nat.ModEq; exact e)
    unfold Nat.ModEq at h
    rw [Nat.mod_eq_of_lt h1, Nat.mod_eq_of_lt g1] at h
    exact Fe.val_inj h
  · intro h
    rw [h]
    exact mulVal ha hb

/-- C107, when it is right: operands below `2 Q` (results of the lazy forms included) whose product loses no carry. -/
theorem C107_adx_partial (s : St) :
    ((load s.mem s.f1).val < 2 * Q → (load s.mem s.f2).val < 2 * Q →
      NoLostCarry ((load s.mem s.f1).val * (load s.mem s.f2).val) →
      ∃ r, Writes s (run mulADX s) s.f0 r ∧ IsMontProduct r (load s.mem s.f1) (load s.mem s.f2)) ∧
    ((load s.mem s.f0).val < 2 * Q → (load s.mem s.f1).val < 2 * Q →
      NoLostCarry ((load s.mem s.f0).val * (load s.mem s.f1).val) →
      ∃ r, Writes s (run mulAssignADX s) s.f0 r ∧ IsMontProduct r (load s.mem s.f0) (load s.mem s.f1)) :=
  ⟨fun ha hb h => ⟨_, mulADX_writes s ha hb h, mulVal ha hb⟩, fun ha hb h => ⟨_, mulAssignADX_writes s ha hb h, mulVal ha hb⟩⟩

/-- C107, exactly when it is right: six words are written and nothing else, and they are the product if and only if the overflow flag is clear
at the five places (the ends of the first five reduction steps) where the next instruction clears it. -/
theorem C107_adx_exact (s : St) :
    ((load s.mem s.f1).val < 2 * Q → (load s.mem s.f2).val < 2 * Q →
      ∃ r, Writes s (run mulADX s) s.f0 r ∧ (IsMontProduct r (load s.mem s.f1) (load s.mem s.f2) ↔
        ∀ n ∈ [150, 173, 196, 219, 243], (run (mulADX.take n) s).of = false)) ∧
    ((load s.mem s.f0).val < 2 * Q → (load s.mem s.f1).val < 2 * Q →
      ∃ r, Writes s (run mulAssignADX s) s.f0 r ∧ (IsMontProduct r (load s.mem s.f0) (load s.mem s.f1) ↔
        ∀ n ∈ [150, 173, 196, 219, 243], (run (mulAssignADX.take n) s).of = false)) := by
  refine ⟨fun ha hb => ?_, fun ha hb => ?_⟩
  · obtain ⟨r, h1, h2⟩ := mulADX_exact s ha hb
    exact ⟨r, h1, (montProduct_iff ha hb).trans h2⟩
  · obtain ⟨r, h1, h2⟩ := mulAssignADX_exact s ha hb
    exact ⟨r, h1, (montProduct_iff ha hb).trans h2⟩

/-- operands with full-size words that meet the hypotheses of C107: the generator's coordinates. -/
example : (g1 .amd64).genX.val < 2 * Q ∧ (g1 .amd64).genY.val < 2 * Q ∧
    NoLostCarry ((g1 .amd64).genX.val * (g1 .amd64).genY.val) ∧
    call mulADX (g1 .amd64).genX (g1 .amd64).genY = Fe.mul (g1 .amd64).genX (g1 .amd64).genY := by decide +kernel

/-- 0x4fdea65181d1c59e666d0563ff51e3ef9c67a3e9bd33a0a2100ed09420af3c7831176dcea9e5d313a9d51946c03be82. -/
def adxA : Fe := ⟨0x3a9d51946c03be82, 0x831176dcea9e5d31, 0x2100ed09420af3c7, 0xf9c67a3e9bd33a0a, 0xe666d0563ff51e3e, 0x04fdea65181d1c59⟩

/-- `1 + 2^192`. -/
def adxB : Fe := ⟨1, 0, 0, 1, 0, 0⟩

/-- C107 is false: two canonical operands whose product comes out wrong. -/
theorem C107_false : adxA.val < Q ∧ adxB.val < Q ∧ ¬ IsMontProduct (call mulADX adxA adxB) adxA adxB := by
  refine ⟨by decide +kernel, by decide +kernel, ?_⟩
  unfold IsMontProduct
  decide +kernel

/-- the bytes `x ‖ y` of a number each. -/
def xy (x y : ℕ) : Bytes := Fe.be48 x ++ Fe.be48 y

/-- the plain encoding of a point of the curve `y² = x³ + 4`. -/
def adxPoint : Bytes :=
  xy 0x1324b4bc5fc9a039113c4eb619893dee5d42c0b0a8d8943d63b63aabb9f4e35c9b1a3692df92b3da34f9f6ca8bf52b91
     0xa5d924fff32f93546eb1128ebf73fc59b1455ee82ff06aaa21dffc4f0d82f3099394926b87c3a181f8859034c7de832

/-- C107 is false, seen from the API: `G1.FromBytes` with the ADX multiplication rejects the encoding of a point of the curve
(which it accepts with a correct multiplication, C91). -/
theorem C107_false_point : (∃ P, adxPoint = plain1 P) ∧ (g1Asm mulADX).fromBytesPt adxPoint = none := by
  refine ⟨(C91_plain _).1.mp ⟨_, Option.eq_some_of_isSome (o := (g1 .amd64).fromBytesPt adxPoint) (by decide +kernel)⟩, by decide +kernel⟩

/-! ## C108: multiplication without ADX -/

/-- C108, exactly when it is right: six words are written and nothing else, and they are the product if and only if no word of the
Montgomery quotient is 1. -/
theorem C108_noadx_exact (s : St) :
    ((load s.mem s.f1).val < 2 * Q → (load s.mem s.f2).val < 2 * Q →
      ∃ r, Writes s (run mulNoADX s) s.f0 r ∧ (IsMontProduct r (load s.mem s.f1) (load s.mem s.f2) ↔
        NoUnitQuotient ((load s.mem s.f1).val * (load s.mem s.f2).val))) ∧
    ((load s.mem s.f0).val < 2 * Q → (load s.mem s.f1).val < 2 * Q →
      ∃ r, Writes s (run mulAssignNoADX s) s.f0 r ∧ (IsMontProduct r (load s.mem s.f0) (load s.mem s.f1) ↔
        NoUnitQuotient ((load s.mem s.f0).val * (load s.mem s.f1).val))) := by
  refine ⟨fun ha hb => ?_, fun ha hb => ?_⟩
  · obtain ⟨r, h1, h2⟩ := mulNoADX_exact s ha hb
    exact ⟨r, h1, (montProduct_iff ha hb).trans h2⟩
  · obtain ⟨r, h1, h2⟩ := mulAssignNoADX_exact s ha hb
    exact ⟨r, h1, (montProduct_iff ha hb).trans h2⟩

/-- C108 for `call`: the product is right for all canonical operands whose Montgomery quotient has no word 1. -/
theorem C108_noadx_partial (a b : Fe) (ha : a.val < Q) (hb : b.val < Q) (h : NoUnitQuotient (a.val * b.val)) :
    IsMontProduct (call mulNoADX a b) a b := by
  rw [montProduct_iff (by omega) (by omega)]
  exact call_eq (mulNoADX_writes (entry a b) (by show a.val < 2 * Q; omega) (by show b.val < 2 * Q; omega) h)

example : (g1 .amd64).genX.val < Q ∧ (g1 .amd64).genY.val < Q ∧
    NoUnitQuotient ((g1 .amd64).genX.val * (g1 .amd64).genY.val) := by decide +kernel

/-- C108 is false: the product of 0x4601000000005555 and 1 (`fromMont` of the first) comes out wrong. -/
theorem C108_false : ¬ IsMontProduct (call mulNoADX (Fe.ofWord 0x4601000000005555) (Fe.ofWord 1)) (Fe.ofWord 0x4601000000005555) (Fe.ofWord 1) := by
  unfold IsMontProduct
  decide +kernel

/-- the plain encoding of a point of the curve `y² = x³ + 4`. -/
def noadxPoint : Bytes :=
  xy 0x1579e6c1670f15538000000000000000
     0xb8b8e96c6e028db838d7e1a4227e590f11b8edf322542672f1293d828fdf5e84974656fce85bf258dc27ac1e01e4224

/-- C108 is false, seen from the API: `G1.FromBytes` with the other multiplication rejects the encoding of a point of the curve. -/
theorem C108_false_point : (∃ P, noadxPoint = plain1 P) ∧ (g1Asm mulNoADX).fromBytesPt noadxPoint = none := by
  refine ⟨(C91_plain _).1.mp ⟨_, Option.eq_some_of_isSome (o := (g1 .amd64).fromBytesPt noadxPoint) (by decide +kernel)⟩, by decide +kernel⟩

/-! ## C109: the caller's frame pointer -/

/-- the instruction does not write to `16(SP)`. -/
def keepsBP : Instr → Bool
  | .mov _ d | .xor _ d | .add _ d | .adc _ d | .sub _ d | .sbb _ d | .adcx _ d | .adox _ d | .cmovcc _ d => d != .sp 2
  | .mulx _ l h => l != .sp 2 && h != .sp 2
  | .mul _ => true

theorem set_s2 (d : Opd) (v : UInt64) (s : St) (h : (d != .sp 2) = true) : (d.set v s).s2 = s.s2 := by
  cases d with
  | reg r => cases r <;> rfl
  | sp k => fin_cases k <;> first | rfl | exact absurd h (by decide)
  | _ => rfl

theorem step_s2 (i : Instr) (s : St) (h : keepsBP i = true) : (step i s).s2 = s.s2 := by
  cases i with
  | mulx a l hh =>
    obtain ⟨h1, h2⟩ := Bool.and_eq_true_iff.mp h
    exact (set_s2 _ _ _ h2).trans (set_s2 _ _ _ h1)
  | mul a => rfl
  | cmovcc a d =>
    change (if s.cf then s else d.set (a.get s) s).s2 = s.s2
    split
    · rfl
    · exact set_s2 _ _ _ h
  | _ => exact set_s2 _ _ _ h

theorem run_s2 (c : List Instr) (h : c.all keepsBP = true) : ∀ s, (run c s).s2 = s.s2 := by
  induction c with
  | nil => exact fun _ => rfl
  | cons i c ih =>
    intro s
    rw [List.all_cons, Bool.and_eq_true] at h
    exact (ih h.2 _).trans (step_s2 i s h.1)

/-- C109: the functions without a frame and the ADX multiplications, whose frame is the two words `0(SP)` and `8(SP)`, leave the next word
alone, in which the assembler has saved the caller's frame pointer. -/
theorem C109_partial (s : St) :
    ∀ f ∈ [add, addAssign, ladd, laddAssign, sub, subAssign, lsubAssign, double, doubleAssign, ldouble, neg, mulADX, mulAssignADX],
      (run f s).s2 = s.s2 := by
  intro f hf
  refine run_s2 f ?_ s
  have : ∀ f ∈ [add, addAssign, ladd, laddAssign, sub, subAssign, lsubAssign, double, doubleAssign, ldouble, neg, mulADX, mulAssignADX],
      f.all keepsBP = true := by decide +kernel
  exact this f hf

/-- C109 is false for the other two: a call with the generator's coordinates returns to a caller whose frame pointer is another. -/
theorem C109_false : (run mulNoADX (entry (g1 .amd64).genX (g1 .amd64).genY)).s2 ≠ (entry (g1 .amd64).genX (g1 .amd64).genY).s2 ∧
    (run mulAssignNoADX { entry (g1 .amd64).genX (g1 .amd64).genY with f0 := 64, f1 := 128 }).s2 ≠
      (entry (g1 .amd64).genX (g1 .amd64).genY).s2 := by decide +kernel

end Verif.Props
