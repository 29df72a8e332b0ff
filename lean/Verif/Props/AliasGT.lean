import Verif.Bls.GTSched
import Verif.Props.Bls6

/-!
# C115, C116: target group objects named twice, goroutines

`Verif/Bls/AliasSpec.lean` (`CallT`, `assignsT`) is the specification; the model of the calls on memory is `Verif/Bls/TowerMem.lean` and
`Verif/Bls/GTMem.lean`.  `readT m (.arg n)` is the element in object `n`.
-/

namespace Verif.Props

open Verif.Bls Verif.Bls.Spec Verif.Bls.Mem

theorem is_calls (m : LocT → Fe) (σ : Nat → Fq12) (h' : ∀ n, Fe12.Is (readT m (.arg n)) (σ n)) (cs : List (Nat × CallT))
    (hl : LegalT r σ (cs.map Prod.snd)) (n : Nat) :
    Fe12.Is (readT (ex (callsT .amd64 cs) m) (.arg n)) (assignsT σ (cs.map Prod.snd) n) := by
  induction cs generalizing m σ with
  | nil => exact h' n
  | cons c cs ih =>
    obtain ⟨h1, h2⟩ := callT_eq .amd64 c.1 c.2 m
    rw [callsT, ex_append]
    refine ih _ (c.2.assign σ) (fun k => ?_) hl.2
    by_cases e : k = c.2.dest
    · subst e
      rw [h1, CallT.assign, Function.update_self]
      have hl := hl.1
      generalize c.2 = d at hl ⊢
      cases d with
      | copy c a => exact h' a
      | add c a b => exact (h' a).addF (h' b)
      | sub c a b => exact (h' a).subF (h' b)
      | mul c a b => exact (h' a).mul (h' b)
      | square c a =>
        show Fe12.Is (GT.square (readT m (.arg a))) (σ a ^ 2)
        rw [pow_two]
        exact Fe12.Is.cyclotomicSquare (h' a) (cy_of_pow hl)
      | exp c a s => exact (h' a).cyclotomicExp (cy_of_pow hl) s
      | inverse c a => exact (h' a).inverse
    · rw [h2 k e, CallT.assign, Function.update_of_ne e]
      exact h' k

/-- C115: after any calls, whichever objects they name and however often, by whichever GT objects, every object holds what the assignments
give, if `Square` and `Exp` are called on elements of order dividing `r` only. -/
theorem C115_gt (m : LocT → Fe) (σ : Nat → Fq12) (h : ∀ n, ReadsAs (readT m (.arg n)) (σ n)) (cs : List (Nat × CallT))
    (hl : LegalT r σ (cs.map Prod.snd)) (n : Nat) :
    EncodesGT (OwGT.marshal (readT (ex (callsT .amd64 cs) m) (.arg n))) (assignsT σ (cs.map Prod.snd) n) :=
  (is_calls m σ (fun n => (h n).is) cs hl n).encodes

/-- C115 for any words, reduced or not, and both builds: a call writes to its destination the value the function has on the elements read
before the call, and changes no other object. -/
theorem C115_values (bd : Build) (T : Nat) (m : LocT → Fe) (a b c s : Nat) :
    let after := fun k : CallT => readT (ex (callT bd T k) m)
    let only := fun k : CallT => ∀ n, n ≠ c → after k (.arg n) = readT m (.arg n)
    let x := readT m (.arg a)
    let y := readT m (.arg b)
    (after (.add c a b) (.arg c) = GT.add x y ∧ only (.add c a b)) ∧
    (after (.sub c a b) (.arg c) = GT.sub x y ∧ only (.sub c a b)) ∧
    (after (.mul c a b) (.arg c) = GT.mul x y ∧ only (.mul c a b)) ∧
    (after (.square c a) (.arg c) = GT.square x ∧ only (.square c a)) ∧
    (after (.exp c a s) (.arg c) = GT.exp x s ∧ only (.exp c a s)) ∧
    (after (.inverse c a) (.arg c) = GT.inverse bd x ∧ only (.inverse c a)) :=
  ⟨callT_eq bd T (.add c a b) m, callT_eq bd T (.sub c a b) m, callT_eq bd T (.mul c a b) m, callT_eq bd T (.square c a) m,
    callT_eq bd T (.exp c a s) m, callT_eq bd T (.inverse c a) m⟩

/-- there is a memory for every choice of elements. -/
theorem readT_exists (p : Nat → Fe12) : ∃ m, ∀ n, readT m (.arg n) = p n := by
  refine ⟨fun
    | .part (.part (.part (.arg n) 0) 0) 0 => (p n).c0.c0.c0
    | .part (.part (.part (.arg n) 0) 0) _ => (p n).c0.c0.c1
    | .part (.part (.part (.arg n) 0) 1) 0 => (p n).c0.c1.c0
    | .part (.part (.part (.arg n) 0) 1) _ => (p n).c0.c1.c1
    | .part (.part (.part (.arg n) 0) _) 0 => (p n).c0.c2.c0
    | .part (.part (.part (.arg n) 0) _) _ => (p n).c0.c2.c1
    | .part (.part (.part (.arg n) _) 0) 0 => (p n).c1.c0.c0
    | .part (.part (.part (.arg n) _) 0) _ => (p n).c1.c0.c1
    | .part (.part (.part (.arg n) _) 1) 0 => (p n).c1.c1.c0
    | .part (.part (.part (.arg n) _) 1) _ => (p n).c1.c1.c1
    | .part (.part (.part (.arg n) _) _) 0 => (p n).c1.c2.c0
    | .part (.part (.part (.arg n) _) _) _ => (p n).c1.c2.c1
    | _ => Fe.zero, fun n => rfl⟩

/-- C115 applied: with the pairing of the generators in every object, `Mul(0,0,0); Inverse(1,1); Exp(0,0,7); Mul(0,1,0); Square(0,0)` leaves its
26th power in object 0. -/
example : ∃ m, (∀ n, ReadsAs (readT m (.arg n)) (pairing gen1 gen2)) ∧
    EncodesGT (OwGT.marshal (readT (ex (callsT .amd64
      [(0, .mul 0 0 0), (0, .inverse 1 1), (1, .exp 0 0 7), (0, .mul 0 1 0), (0, .square 0 0)]) m) (.arg 0))) (pairing gen1 gen2 ^ 26) := by
  obtain ⟨a, ha⟩ := readsAs_exists (pairing gen1 gen2)
  obtain ⟨m, hm⟩ := readT_exists fun _ => a
  have hr : pairing gen1 gen2 ^ r = 1 := pairing_pow_r _ _
  have h0 : pairing gen1 gen2 ≠ 0 := fun e => by
    rw [e, zero_pow prime_r.ne_zero] at hr; exact zero_ne_one hr
  have e : (pairing gen1 gen2)⁻¹ * (pairing gen1 gen2 * pairing gen1 gen2) ^ 7 = pairing gen1 gen2 ^ 13 := by
    field_simp
  refine ⟨m, fun n => (hm n).symm ▸ ha, ?_⟩
  have := C115_gt m (fun _ => pairing gen1 gen2) (fun n => (hm n).symm ▸ ha)
    [(0, .mul 0 0 0), (0, .inverse 1 1), (1, .exp 0 0 7), (0, .mul 0 1 0), (0, .square 0 0)] (by
      simp only [List.map_cons, List.map_nil, LegalT, CallT.assign, CallT.dest, CallT.value, Function.update_self, true_and, and_true]
      constructor
      · simp only [Function.update_of_ne (show (0 : Nat) ≠ 1 by decide), Function.update_self]
        rw [mul_pow, hr, one_mul]
      · simp only [Function.update_of_ne (show (1 : Nat) ≠ 0 by decide), Function.update_of_ne (show (0 : Nat) ≠ 1 by decide), Function.update_self]
        rw [e, ← pow_mul, mul_comm, pow_mul, hr, one_pow]) 0
  have e2 : assignsT (fun _ => pairing gen1 gen2) [.mul 0 0 0, .inverse 1 1, .exp 0 0 7, .mul 0 1 0, .square 0 0] 0 = pairing gen1 gen2 ^ 26 := by
    simp only [assignsT, List.foldl_cons, List.foldl_nil, CallT.assign, CallT.dest, CallT.value, Function.update_self,
      Function.update_of_ne (show (1 : Nat) ≠ 0 by decide), Function.update_of_ne (show (0 : Nat) ≠ 1 by decide)]
    rw [e, ← pow_mul]
  rw [← e2]
  exact this

/-! ## C116 -/

/-- goroutines that do not interfere: each has its own GT object, and no goroutine is given an object that another one writes. -/
def ApartT {ι : Type} (T : ι → Nat) (th : ι → List CallT) : Prop :=
  ∀ i j, i ≠ j → T i ≠ T j ∧ ∀ c ∈ th i, ∀ d ∈ th j, c.dest ∉ d.args

/-- C116: after any history `pre` of calls, goroutines that do not interfere run under any schedule of their base field operations.  A goroutine
that has had enough turns has finished, whatever the others have done, and every object it was given holds what its own calls assign; an object
nobody writes keeps its value at all times. -/
theorem C116_partial {ι : Type} [DecidableEq ι] (T : ι → Nat) (th : ι → List CallT) (h : ApartT T th) :
    (∀ i, ∃ N, ∀ (m : LocT → Fe) (σ : Nat → Fq12), (∀ n, ReadsAs (readT m (.arg n)) (σ n)) → ∀ pre : List (Nat × CallT),
      LegalT r σ (pre.map Prod.snd) → LegalT r (assignsT σ (pre.map Prod.snd)) (th i) → ∀ s : List ι, N ≤ s.count i →
        let out := sched s (fun i => threadT .amd64 (T i) (th i)) (ex (callsT .amd64 pre) m)
        out.1 i = .done ∧ ∀ n, (∃ c ∈ th i, n ∈ c.args) →
          EncodesGT (OwGT.marshal (readT out.2 (.arg n))) (assignsT (assignsT σ (pre.map Prod.snd)) (th i) n)) ∧
    ∀ (m : LocT → Fe) (s : List ι) n, (∀ i, ∀ c ∈ th i, n ≠ c.dest) →
      readT (sched s (fun i => threadT .amd64 (T i) (th i)) m).2 (.arg n) = readT m (.arg n) := by
  refine ⟨fun i => ⟨(threadT .amd64 (T i) (th i)).size, fun m σ hm pre hl hl' s hs => ?_⟩, fun m s n hn => ?_⟩
  · obtain ⟨h1, h2⟩ := sched_done (within_apart h) (fun i => threadT .amd64 (T i) (th i)) (ex (callsT .amd64 pre) m)
      (fun i => threadT_within .amd64 (T i) (th i)) s i hs
    refine ⟨h1, fun n hn => ?_⟩
    have e : readT (sched s (fun i => threadT .amd64 (T i) (th i)) (ex (callsT .amd64 pre) m)).2 (.arg n) =
        readT (ex (callsT .amd64 ((th i).map (T i, ·))) (ex (callsT .amd64 pre) m)) (.arg n) := by
      have : ∀ a b c, (sched s (fun i => threadT .amd64 (T i) (th i)) (ex (callsT .amd64 pre) m)).2 (.part (.part (.part (.arg n) a) b) c) =
          ex (callsT .amd64 ((th i).map (T i, ·))) (ex (callsT .amd64 pre) m) (.part (.part (.part (.arg n) a) b) c) := fun a b c => by
        rw [← threadT_run]; exact h2 _ hn
      simp [readT, v12, v6, v2, this]
    have hs : ((th i).map (T i, ·)).map Prod.snd = th i := by rw [List.map_map]; exact List.map_id _
    have := is_calls (ex (callsT .amd64 pre) m) (assignsT σ (pre.map Prod.snd)) (is_calls m σ (fun n => (hm n).is) pre hl)
      ((th i).map (T i, ·)) (by rw [hs]; exact hl') n
    rw [hs] at this
    rw [e]
    exact this.encodes
  · have : ∀ a b c, (sched s (fun i => threadT .amd64 (T i) (th i)) m).2 (.part (.part (.part (.arg n) a) b) c) =
        m (.part (.part (.part (.arg n) a) b) c) := fun a b c =>
      sched_other _ m (fun i => threadT_within .amd64 (T i) (th i)) s _ fun i h => by
        obtain ⟨c, hc, e⟩ := h
        exact hn i c hc e
    simp [readT, v12, v6, v2, this]

/-- the hypotheses are met: three goroutines that share the input objects 0 and 1, with the pairing of the generators in every object. -/
example : ApartT (ι := Fin 3) (fun i => i.1) ![[.mul 2 0 1, .square 2 2], [.exp 3 0 7, .sub 3 3 3], [.inverse 4 1, .copy 4 4]] ∧
    ∃ m, (∀ n, ReadsAs (readT m (.arg n)) (pairing gen1 gen2)) ∧
      LegalT r (fun _ => pairing gen1 gen2) [.mul 2 0 1, .square 2 2] := by
  constructor
  · intro i j hij
    refine ⟨fun e => hij (Fin.ext e), ?_⟩
    fin_cases i <;> fin_cases j <;> simp_all [CallT.dest, CallT.args]
  · obtain ⟨a, ha⟩ := readsAs_exists (pairing gen1 gen2)
    obtain ⟨m, hm⟩ := readT_exists fun _ => a
    refine ⟨m, fun n => (hm n).symm ▸ ha, trivial, ?_, trivial⟩
    show (CallT.assign _ (.mul 2 0 1) 2 : Fq12) ^ r = 1
    simp only [CallT.assign, CallT.dest, CallT.value, Function.update_self]
    rw [mul_pow, pairing_pow_r, one_mul]

/-- an element with the first half of `z` and the second half of its inverse is the inverse. -/
theorem is_mixed {a b : Fe12} {z : Fq12} (ha : Fe12.Is a z) (hb : Fe12.Is b z⁻¹) (h : phi 6 z = z⁻¹) : Fe12.Is ⟨a.c0, b.c1⟩ z⁻¹ := by
  obtain ⟨x0, x1, h0, h1, e, -⟩ := ha.conjugate
  obtain ⟨y0, y1, k0, k1, f, -⟩ := hb.conjugate
  have e' : z⁻¹ = x0 - x1 * w := by
    rw [← h, e, map_add, map_mul, phi_six_w, h0.phi_six, h1.phi_six]; ring
  have f' : z = y0 - y1 * w := by
    have : phi 6 z⁻¹ = z := by rw [map_inv₀, h, inv_inv]
    rw [← this, f, map_add, map_mul, phi_six_w, k0.phi_six, k1.phi_six]; ring
  have : x0 = y0 := by
    have h2 : (2 : Fq12) * x0 = 2 * y0 := by
      linear_combination f + f' - e - e'
    exact mul_left_cancel₀ Fq12_two_ne h2
  exact Fe12.Is.mk h0 k1 (by rw [this, f])

/-- C116 is false for goroutines that share a GT object: for elements `x` and `y` of order dividing `r` with a product other than 1, in objects
1 and 2, with their inverses in objects 4 and 5, the multiplications into object 0 and into object 3 have a schedule under which both finish and
object 0 holds the inverse of the product. -/
theorem C116_false_shared (m : LocT → Fe) (σ : Nat → Fq12) (h : ∀ n, ReadsAs (readT m (.arg n)) (σ n)) (h1 : σ 1 ^ r = 1) (h2 : σ 2 ^ r = 1)
    (h0 : σ 1 * σ 2 ≠ 1) (T : Nat) :
    ∃ s : List Bool,
      let th : Bool → List CallT := fun b => if b then [.mul 3 4 5] else [.mul 0 1 2]
      let out := sched s (fun b => threadT .amd64 T (th b)) (ex (callsT .amd64 [(T, .inverse 4 1), (T, .inverse 5 2)]) m)
      (∀ b, out.1 b = .done) ∧ EncodesGT (OwGT.marshal (readT out.2 (.arg 0))) (σ 1 * σ 2)⁻¹ ∧
        ¬ EncodesGT (OwGT.marshal (readT out.2 (.arg 0))) (σ 1 * σ 2) := by
  have hm := is_calls m σ (fun n => (h n).is) [(T, .inverse 4 1), (T, .inverse 5 2)] ⟨trivial, trivial, trivial⟩
  obtain ⟨m', hm'⟩ : ∃ m', ex (callsT .amd64 [(T, .inverse 4 1), (T, .inverse 5 2)]) m = m' := ⟨_, rfl⟩
  rw [hm'] at hm
  have i1 : Fe12.Is (readT m' (.arg 1)) (σ 1) := hm 1
  have i2 : Fe12.Is (readT m' (.arg 2)) (σ 2) := hm 2
  have i4 : Fe12.Is (readT m' (.arg 4)) (σ 1)⁻¹ := hm 4
  have i5 : Fe12.Is (readT m' (.arg 5)) (σ 2)⁻¹ := hm 5
  have hz : (σ 1 * σ 2) ^ r = 1 := by rw [mul_pow, h1, h2, one_mul]
  have hz0 : σ 1 * σ 2 ≠ 0 := fun e => by rw [e, zero_pow prime_r.ne_zero] at hz; exact zero_ne_one hz
  obtain ⟨k1, k2⟩ := raceT .amd64 T m'
  have ep : (fun b => threadT .amd64 T (if b then [.mul 3 4 5] else [.mul 0 1 2])) = racePT .amd64 T := by
    funext b; cases b <;> rfl
  have hi : Fe12.Is (readT (sched (raceOrderT .amd64 T) (racePT .amd64 T) m').2 (.arg 0)) (σ 1 * σ 2)⁻¹ := by
    rw [k2]
    exact is_mixed (i1.mul i2) ((i4.mul i5).cast (mul_inv _ _).symm) (Cy.inv (cy_of_pow hz) hz0)
  refine ⟨raceOrderT .amd64 T, ?_⟩
  simp only [hm', ep]
  refine ⟨k1, hi.encodes, fun e => h0 ?_⟩
  have e := hi.encodes.inj e
  have sq : (σ 1 * σ 2) ^ 2 = 1 := by rw [pow_two]; nth_rw 1 [← e]; exact inv_mul_cancel₀ hz0
  have d := Nat.dvd_gcd (orderOf_dvd_of_pow_eq_one sq) (orderOf_dvd_of_pow_eq_one hz)
  rw [show Nat.gcd 2 r = 1 by decide +kernel] at d
  exact orderOf_eq_one_iff.mp (Nat.dvd_one.mp d)

/-- the refutation applies to the pairing of the generators. -/
example : ∃ m, (∀ n, ReadsAs (readT m (.arg n)) (pairing gen1 gen2)) ∧ pairing gen1 gen2 * pairing gen1 gen2 ≠ 1 := by
  obtain ⟨a, ha⟩ := readsAs_exists (pairing gen1 gen2)
  obtain ⟨m, hm⟩ := readT_exists fun _ => a
  exact ⟨m, fun n => (hm n).symm ▸ ha, fun h => e_sq (by rw [← mul_inv, h, inv_one])⟩

end Verif.Props
