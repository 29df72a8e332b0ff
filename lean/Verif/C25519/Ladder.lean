import Verif.C25519.Pack
import Verif.C25519.Spec

/-!
# curve25519_sha256.go: the Montgomery ladder computes X25519
-/

set_option maxHeartbeats 2000000

namespace Verif.C25519

open Verif.Ed25519 (Fe fval ival F P inv_eq_pow P_eq)

theorem spec_p : Spec.p = P := P_eq.symm

theorem set_red {n : Int} (h0 : 0 ≤ n) (h1 : n < 2 ^ 26) : Red (set n) ∧ fval (set n) = (n : F) := by
  constructor
  · unfold set
    constructor <;> dsimp only <;> omega
  · unfold set fval ival
    norm_num

/-- the four coordinates are reduced. -/
structure LadRed (l : Lad) : Prop where
  x0 : Red l.x0
  z0 : Red l.z0
  x1 : Red l.x1
  z1 : Red l.z1

theorem montAdd_spec {t1 t2 t3 t4 dx : Fe} (h1 : Lo t1) (h2 : Lo t2) (h3 : Lo t3) (h4 : Lo t4) (hd : Lo dx) :
    Red (montAdd t1 t2 t3 t4 dx).1 ∧ Red (montAdd t1 t2 t3 t4 dx).2 ∧
    fval (montAdd t1 t2 t3 t4 dx).1 = (fval t2 * fval t3 + fval t1 * fval t4) ^ 2 ∧
    fval (montAdd t1 t2 t3 t4 dx).2 = (fval t2 * fval t3 - fval t1 * fval t4) ^ 2 * fval dx := by
  unfold montAdd
  dsimp only
  have a := mul_spec h2 h3
  have b := mul_spec h1 h4
  generalize mul t2 t3 = u at *
  generalize mul t1 t4 = v at *
  have c := add_spec a.1 b.1
  have d := sub_spec a.1 b.1
  generalize add u v = w at *
  generalize sub u v = r at *
  have e := sqr_spec c.1
  have f := sqr_spec d.1
  have g := mul_spec f.1.lo hd
  refine ⟨e.1, g.1, ?_, ?_⟩
  · rw [e.2, c.2, a.2, b.2]
  · rw [g.2, f.2, d.2, a.2, b.2]

theorem montDbl_spec {t3 t4 : Fe} (h3 : Lo t3) (h4 : Lo t4) :
    Red (montDbl t3 t4).1 ∧ Red (montDbl t3 t4).2 ∧
    fval (montDbl t3 t4).1 = fval t3 ^ 2 * fval t4 ^ 2 ∧
    fval (montDbl t3 t4).2 = (fval t3 ^ 2 + 121665 * (fval t3 ^ 2 - fval t4 ^ 2)) * (fval t3 ^ 2 - fval t4 ^ 2) := by
  unfold montDbl
  dsimp only
  have a := sqr_spec h3
  have b := sqr_spec h4
  generalize sqr t3 = u at *
  generalize sqr t4 = v at *
  have c := mul_spec a.1.lo b.1.lo
  have d := sub_spec a.1 b.1
  generalize sub u v = w at *
  have e := mulSmall_spec d.1 (n := 121665) (by norm_num) (by norm_num)
  generalize mulSmall w 121665 = r at *
  have f := add_spec a.1 e.1
  generalize add u r = q at *
  have g := mul_spec f.1 d.1
  refine ⟨c.1, g.1, ?_, ?_⟩
  · rw [c.2, a.2, b.2]
  · rw [g.2, f.2, e.2, d.2, a.2, b.2]; push_cast; ring

/-- the ladder formulas on field elements: the double of `b` and the sum of `a` and `b`, whose difference has the coordinate `u`. -/
def dblX (x z : F) : F := (x + z) ^ 2 * (x - z) ^ 2
def dblZ (x z : F) : F := ((x + z) ^ 2 + 121665 * ((x + z) ^ 2 - (x - z) ^ 2)) * ((x + z) ^ 2 - (x - z) ^ 2)
def addX (x z x' z' : F) : F := ((x - z) * (x' + z') + (x + z) * (x' - z')) ^ 2
def addZ (u x z x' z' : F) : F := ((x - z) * (x' + z') - (x + z) * (x' - z')) ^ 2 * u

theorem step_one {dx : Fe} (hd : Red dx) {s : Lad} (h : LadRed s) :
    LadRed (step dx 1 s) ∧
    fval (step dx 1 s).x1 = dblX (fval s.x1) (fval s.z1) ∧ fval (step dx 1 s).z1 = dblZ (fval s.x1) (fval s.z1) ∧
    fval (step dx 1 s).x0 = addX (fval s.x0) (fval s.z0) (fval s.x1) (fval s.z1) ∧
    fval (step dx 1 s).z0 = addZ (fval dx) (fval s.x0) (fval s.z0) (fval s.x1) (fval s.z1) := by
  unfold step
  simp only [if_true]
  have a := add_spec h.x0 h.z0
  have b := sub_spec h.x0 h.z0
  have c := add_spec h.x1 h.z1
  have d := sub_spec h.x1 h.z1
  have e := montAdd_spec a.1 b.1 c.1 d.1 hd.lo
  have f := montDbl_spec c.1 d.1
  refine ⟨⟨e.1, e.2.1, f.1, f.2.1⟩, ?_, ?_, ?_, ?_⟩
  · rw [f.2.2.1, c.2, d.2]; rfl
  · rw [f.2.2.2, c.2, d.2]; rfl
  · rw [e.2.2.1, a.2, b.2, c.2, d.2]; rfl
  · rw [e.2.2.2, a.2, b.2, c.2, d.2]; rfl

theorem step_zero {dx : Fe} (hd : Red dx) {s : Lad} (h : LadRed s) :
    LadRed (step dx 0 s) ∧
    fval (step dx 0 s).x0 = dblX (fval s.x0) (fval s.z0) ∧ fval (step dx 0 s).z0 = dblZ (fval s.x0) (fval s.z0) ∧
    fval (step dx 0 s).x1 = addX (fval s.x1) (fval s.z1) (fval s.x0) (fval s.z0) ∧
    fval (step dx 0 s).z1 = addZ (fval dx) (fval s.x1) (fval s.z1) (fval s.x0) (fval s.z0) := by
  unfold step
  simp only [Nat.zero_ne_one, if_false]
  have a := add_spec h.x1 h.z1
  have b := sub_spec h.x1 h.z1
  have c := add_spec h.x0 h.z0
  have d := sub_spec h.x0 h.z0
  have e := montAdd_spec a.1 b.1 c.1 d.1 hd.lo
  have f := montDbl_spec c.1 d.1
  refine ⟨⟨f.1, f.2.1, e.1, e.2.1⟩, ?_, ?_, ?_, ?_⟩
  · rw [f.2.2.1, c.2, d.2]; rfl
  · rw [f.2.2.2, c.2, d.2]; rfl
  · rw [e.2.2.1, a.2, b.2, c.2, d.2]; rfl
  · rw [e.2.2.2, a.2, b.2, c.2, d.2]; rfl

/-! ## The specification in the field -/

theorem modp (a : ℕ) : ((a % Spec.p : ℕ) : F) = a := by
  rw [spec_p]; exact ZMod.natCast_mod a P

theorem msub_cast (a b : ℕ) : ((Spec.msub a b : ℕ) : F) = a - b := by
  unfold Spec.msub
  have hle : b % Spec.p ≤ Spec.p := (Nat.mod_lt _ (by decide)).le
  rw [modp, Nat.cast_add, Nat.cast_sub hle, modp]
  have : ((Spec.p : ℕ) : F) = 0 := by rw [spec_p]; exact ZMod.natCast_self P
  rw [this]; ring

/-- the pairs of the specification, with the swap undone. -/
def un (s : Spec.St) : F × F × F × F :=
  if s.swap = 1 then (s.x3, s.z3, s.x2, s.z2) else (s.x2, s.z2, s.x3, s.z3)

theorem spec_step_swap (u k t : ℕ) (s : Spec.St) : (Spec.step u k s t).swap = k / 2 ^ t % 2 := rfl

theorem spec_step_un {u k t : ℕ} {s : Spec.St} (hs : s.swap < 2) :
    un (Spec.step u k s t) =
      if k / 2 ^ t % 2 = 1 then
        (addX (un s).1 (un s).2.1 (un s).2.2.1 (un s).2.2.2, addZ u (un s).1 (un s).2.1 (un s).2.2.1 (un s).2.2.2,
          dblX (un s).2.2.1 (un s).2.2.2, dblZ (un s).2.2.1 (un s).2.2.2)
      else
        (dblX (un s).1 (un s).2.1, dblZ (un s).1 (un s).2.1,
          addX (un s).2.2.1 (un s).2.2.2 (un s).1 (un s).2.1, addZ u (un s).2.2.1 (un s).2.2.2 (un s).1 (un s).2.1) := by
  obtain ⟨x2, z2, x3, z3, sw⟩ := s
  have hk : k / 2 ^ t % 2 < 2 := Nat.mod_lt _ (by norm_num)
  simp only at hs
  unfold un Spec.step
  generalize k / 2 ^ t % 2 = b at *
  dsimp only
  have x00 : 0 ^^^ 0 = 0 := rfl
  have x01 : 0 ^^^ 1 = 1 := rfl
  have x10 : 1 ^^^ 0 = 1 := rfl
  have x11 : 1 ^^^ 1 = 0 := rfl
  interval_cases sw <;> interval_cases b <;>
    simp only [x00, x01, x10, x11, Nat.zero_ne_one, if_false, if_true, modp, msub_cast, Nat.cast_add, Nat.cast_mul, Nat.cast_ofNat,
      addX, addZ, dblX, dblZ] <;>
    refine Prod.ext ?_ (Prod.ext ?_ (Prod.ext ?_ ?_)) <;> dsimp only <;> ring

/-- the state of the code is that of the specification, each pair up to a non-zero factor. -/
def Rel (l : Lad) (s : Spec.St) : Prop :=
  LadRed l ∧ s.swap < 2 ∧ ∃ a b : F, a ≠ 0 ∧ b ≠ 0 ∧ fval l.x0 = a * (un s).1 ∧ fval l.z0 = a * (un s).2.1 ∧
    fval l.x1 = b * (un s).2.2.1 ∧ fval l.z1 = b * (un s).2.2.2

theorem dblX_smul (a x z : F) : dblX (a * x) (a * z) = a ^ 4 * dblX x z := by unfold dblX; ring
theorem dblZ_smul (a x z : F) : dblZ (a * x) (a * z) = a ^ 4 * dblZ x z := by unfold dblZ; ring
theorem addX_smul (a b x z x' z' : F) : addX (a * x) (a * z) (b * x') (b * z') = (a ^ 2 * b ^ 2) * addX x z x' z' := by unfold addX; ring
theorem addZ_smul (u a b x z x' z' : F) : addZ u (a * x) (a * z) (b * x') (b * z') = (a ^ 2 * b ^ 2) * addZ u x z x' z' := by unfold addZ; ring

theorem rel_step {dx : Fe} (hd : Red dx) {u k t : ℕ} (hu : fval dx = u) {l : Lad} {s : Spec.St} (h : Rel l s) :
    Rel (step dx (k / 2 ^ t % 2) l) (Spec.step u k s t) := by
  obtain ⟨hl, hs, a, b, ha, hb, e1, e2, e3, e4⟩ := h
  have hk : k / 2 ^ t % 2 < 2 := Nat.mod_lt _ (by norm_num)
  have hun := spec_step_un (u := u) (k := k) (t := t) hs
  refine ⟨?_, by rw [spec_step_swap]; exact hk, ?_⟩
  · rcases (by omega : k / 2 ^ t % 2 = 0 ∨ k / 2 ^ t % 2 = 1) with e | e <;> rw [e]
    · exact (step_zero hd hl).1
    · exact (step_one hd hl).1
  · rw [hun]
    rcases (by omega : k / 2 ^ t % 2 = 0 ∨ k / 2 ^ t % 2 = 1) with e | e <;> rw [e]
    · obtain ⟨_, f1, f2, f3, f4⟩ := step_zero hd hl
      simp only [Nat.zero_ne_one, if_false]
      refine ⟨a ^ 4, b ^ 2 * a ^ 2, pow_ne_zero _ ha, mul_ne_zero (pow_ne_zero _ hb) (pow_ne_zero _ ha), ?_, ?_, ?_, ?_⟩
      · rw [f1, e1, e2, dblX_smul]
      · rw [f2, e1, e2, dblZ_smul]
      · rw [f3, e1, e2, e3, e4, addX_smul]
      · rw [f4, e1, e2, e3, e4, addZ_smul, hu]
    · obtain ⟨_, f1, f2, f3, f4⟩ := step_one hd hl
      simp only [if_true]
      refine ⟨a ^ 2 * b ^ 2, b ^ 4, mul_ne_zero (pow_ne_zero _ ha) (pow_ne_zero _ hb), pow_ne_zero _ hb, ?_, ?_, ?_, ?_⟩
      · rw [f3, e1, e2, e3, e4, addX_smul]
      · rw [f4, e1, e2, e3, e4, addZ_smul, hu]
      · rw [f1, e3, e4, dblX_smul]
      · rw [f2, e3, e4, dblZ_smul]

theorem rel_fold {dx : Fe} (hd : Red dx) {u k : ℕ} (hu : fval dx = u) (ts : List ℕ) {l : Lad} {s : Spec.St} (h : Rel l s) :
    Rel ((ts.map fun t => k / 2 ^ t % 2).foldl (fun s b => step dx b s) l) (ts.foldl (Spec.step u k) s) := by
  induction ts generalizing l s with
  | nil => exact h
  | cons t ts ih => exact ih (rel_step hd hu h)

/-! ## The bits of the scalar -/

theorem leNat_digit (k : Bytes) (i : ℕ) : leNat k / 256 ^ i % 256 = (k.getD i 0).toNat := by
  induction k generalizing i with
  | nil => simp [leNat]
  | cons b k ih =>
    have := b.toNat_lt
    cases i with
    | zero => simp only [leNat, pow_zero, Nat.div_one, List.getD_cons_zero]; omega
    | succ i =>
      rw [pow_succ', ← Nat.div_div_eq_div_mul, List.getD_cons_succ, ← ih i]
      congr 2
      simp only [leNat]; omega

theorem leNat_bit (k : Bytes) (i j : ℕ) (hj : j < 8) : leNat k / 2 ^ (8 * i + j) % 2 = (k.getD i 0).toNat / 2 ^ j % 2 := by
  rw [← leNat_digit, pow_add, pow_mul, ← Nat.div_div_eq_div_mul]
  norm_num
  generalize leNat k / 256 ^ i = a
  interval_cases j <;> norm_num <;> omega

theorem bits_eq (k : Bytes) : bits k = (List.range 256).reverse.map fun t => leNat k / 2 ^ t % 2 := by
  have e : (List.range 256).reverse = (List.range 32).reverse.flatMap fun i => (List.range 8).reverse.map fun j => 8 * i + j := by decide +kernel
  unfold bits
  rw [e, List.map_flatMap]
  congr 1
  funext i
  rw [List.map_map]
  apply List.map_congr_left
  intro j hj
  exact (leNat_bit k i j (by simpa using hj)).symm

theorem byte31 : ∀ b : UInt8, ((b &&& 0x7F) ||| 0x40).toNat = 64 + b.toNat % 64 := by
  intro b
  have h : ∀ n : Fin 256, ((UInt8.ofNat n &&& 0x7F) ||| 0x40).toNat = 64 + n.val % 64 := by decide +kernel
  have := h ⟨b.toNat, b.toNat_lt⟩
  simpa using this

theorem byte0 : ∀ b : UInt8, (b &&& 0xF8).toNat = 8 * (b.toNat / 8) := by
  intro b
  have h : ∀ n : Fin 256, (UInt8.ofNat n &&& 0xF8).toNat = 8 * (n.val / 8) := by decide +kernel
  have := h ⟨b.toNat, b.toNat_lt⟩
  simpa using this

theorem split32 {k : Bytes} (h : k.length = 32) : ∃ (b : UInt8) (m : Bytes) (c : UInt8), k = b :: (m ++ [c]) ∧ m.length = 30 := by
  cases k with
  | nil => simp at h
  | cons b k =>
    rcases List.eq_nil_or_concat k with e | ⟨m, c, e⟩
    · subst e; simp at h
    · exact ⟨b, m, c, by rw [e, List.concat_eq_append], by subst e; simpa using h⟩

theorem clamp_eq {b c : UInt8} {m : Bytes} (h : m.length = 30) :
    clamp (b :: (m ++ [c])) = (b &&& 0xF8) :: (m ++ [(c &&& 0x7F) ||| 0x40]) := by
  unfold clamp
  simp [h]

theorem clamp_leNat {k : Bytes} (h : k.length = 32) : leNat (clamp k) = Spec.decodeScalar k := by
  obtain ⟨b, m, c, rfl, hm⟩ := split32 h
  rw [clamp_eq hm]
  unfold Spec.decodeScalar
  have hml := leNat_lt m
  have hb := b.toNat_lt
  have hc := c.toNat_lt
  simp only [leNat, leNat_append, hm, byte31, byte0] at *
  generalize leNat m = M at *
  norm_num at hml ⊢
  omega

theorem clamp_length (k : Bytes) : (clamp k).length = k.length := by
  unfold clamp; simp

/-! ## The ladder -/

theorem rel_init : Rel (step (set 9) 0 ⟨set 1, set 0, set 9, set 1⟩) ⟨1, 0, 9, 1, 0⟩ := by
  have s1 := set_red (n := 1) (by norm_num) (by norm_num)
  have s0 := set_red (n := 0) (by norm_num) (by norm_num)
  have s9 := set_red (n := 9) (by norm_num) (by norm_num)
  obtain ⟨hr, f1, f2, f3, f4⟩ := step_zero s9.1 (s := ⟨set 1, set 0, set 9, set 1⟩) ⟨s1.1, s0.1, s9.1, s1.1⟩
  dsimp only at f1 f2 f3 f4
  rw [s1.2, s0.2] at f1 f2
  rw [s1.2, s0.2, s9.2] at f3 f4
  have h36 : (36 : F) ≠ 0 := by
    have : ((36 : ℕ) : F) ≠ 0 := by
      rw [Ne, ZMod.natCast_eq_zero_iff]
      intro hd
      have := Nat.le_of_dvd (by norm_num) hd
      rw [P_eq] at this
      norm_num at this
    exact_mod_cast this
  refine ⟨hr, by decide, 1, 36, one_ne_zero, h36, ?_, ?_, ?_, ?_⟩
  · rw [f1]; simp only [un, dblX]; norm_num
  · rw [f2]; simp only [un, dblZ]; norm_num
  · rw [f3]; simp only [un, addX]; norm_num
  · rw [f4]; simp only [un, addZ]; norm_num

/-- the ladder of the code ends with the x-coordinate of the specification. -/
theorem core_spec {k : Bytes} (h : leNat k < 2 ^ 255) :
    Red (affine (ladder (set 9) k).x0 (ladder (set 9) k).z0) ∧
    fval (affine (ladder (set 9) k).x0 (ladder (set 9) k).z0) = (Spec.ladder (leNat k) 9 : ℕ) := by
  have s9 := set_red (n := 9) (by norm_num) (by norm_num)
  have e : bits k = 0 :: (List.range 255).reverse.map fun t => leNat k / 2 ^ t % 2 := by
    rw [bits_eq, show (256 : ℕ) = 255 + 1 from rfl, List.range_succ, List.reverse_append, List.reverse_singleton, List.singleton_append, List.map_cons]
    congr 1
    rw [Nat.div_eq_of_lt h]
  have hr : Rel (ladder (set 9) k) ((List.range 255).reverse.foldl (Spec.step 9 (leNat k)) ⟨1, 0, 9, 1, 0⟩) := by
    unfold ladder
    rw [e, List.foldl_cons]
    exact rel_fold s9.1 (by rw [s9.2]; norm_num) _ rel_init
  unfold Spec.ladder
  dsimp only
  generalize ladder (set 9) k = l at *
  generalize (List.range 255).reverse.foldl (Spec.step 9 (leNat k)) ⟨1, 0, 9, 1, 0⟩ = s at *
  obtain ⟨hl, hs, a, b, ha, hb, e1, e2, -, -⟩ := hr
  have r := recip_spec hl.z0.lo
  have m := mul_spec hl.x0.lo r.1.lo
  refine ⟨m.1, ?_⟩
  unfold affine
  rw [m.2, r.2, e1, e2, modp, Nat.cast_mul, spec_p, powMod_cast]
  rw [show (a * (un s).1) * (a * (un s).2.1)⁻¹ = (un s).1 * (un s).2.1⁻¹ by
    rw [mul_inv]; field_simp]
  rw [inv_eq_pow]
  unfold un
  by_cases hsw : s.swap = 1
  · simp only [hsw, if_true]
  · simp only [hsw, if_false]

theorem spec_ladder_lt (k u : ℕ) : Spec.ladder k u < P := by
  unfold Spec.ladder
  rw [← spec_p]
  exact Nat.mod_lt _ (by decide)

/-- the public key is X25519(k, 9), unless that is one of the nineteen largest field elements. -/
theorem corePx_spec {k : Bytes} (h : k.length = 32) (hv : Spec.x25519 k 9 < P - 19) :
    corePx (clamp k) = Spec.x25519Bytes k 9 := by
  have hlt : leNat (clamp k) < 2 ^ 255 := by rw [clamp_leNat h]; unfold Spec.decodeScalar; omega
  have hc := core_spec hlt
  rw [clamp_leNat h] at hc
  have hval : (fval (affine (ladder (set 9) (clamp k)).x0 (ladder (set 9) (clamp k)).z0)).val = Spec.x25519 k 9 := by
    rw [hc.2, ZMod.val_natCast, Nat.mod_eq_of_lt (spec_ladder_lt _ _)]; rfl
  have hp := pack_spec hc.1 (by rw [hval]; exact hv)
  have h256 : Spec.x25519 k 9 < 256 ^ 32 := by
    have := spec_ladder_lt (Spec.decodeScalar k) 9
    rw [P_eq] at this
    exact lt_of_lt_of_le this (by norm_num)
  have hlen : (Spec.x25519Bytes k 9).length = 32 := by
    unfold Spec.x25519Bytes; rw [List.length_reverse]; exact be32_length h256
  apply leNat_inj_of_length
  · rw [hlen]; rfl
  · show leNat (pack _) = _
    rw [hp, hval]
    unfold Spec.x25519Bytes
    rw [leNat_reverse, beNat_be32]

end Verif.C25519
