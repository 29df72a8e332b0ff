import Verif.Ed25519.Scalar
import Verif.Ed25519.FieldBytes

/-!
# The scalar functions of Ed25519 compute modulo the group order

The value of the limbs is preserved modulo `L` by every group of lines, as long as no `int64` overflows; interval arithmetic, run by
the kernel over the whole body, shows that none does.  The last groups leave the canonical representative.
-/

namespace Verif.Ed25519

/-- the order of the base point, `2^252 + 27742317777372353535851937790883648493`. -/
def L : ℕ := 0x1000000000000000000000000000000014def9dea2f79cd65812631a5cf5d3ed

theorem L_eq : L = 2 ^ 252 + 27742317777372353535851937790883648493 := by unfold L; norm_num

instance : Fact (Nat.Prime L) := ⟨prime_ed25519L⟩

theorem intCast_L : ((L : ℕ) : Int) = 2 ^ 252 + 27742317777372353535851937790883648493 := by rw [L_eq]; norm_num

/-- the integer that the limbs stand for. -/
def sval : List Int → Int
  | [] => 0
  | x :: xs => x + 2 ^ 21 * sval xs

theorem sval_set {s : List Int} {i : ℕ} (h : i < s.length) (v : Int) : sval (s.set i v) = sval s + (2 ^ 21) ^ i * (v - lget s i) := by
  induction s generalizing i with
  | nil => simp at h
  | cons x xs ih =>
    cases i with
    | zero => simp [sval, lget]; ring
    | succ i =>
      have := ih (i := i) (by simpa using h)
      simp only [List.set_cons_succ, sval, lget, List.getD_cons_succ] at *
      rw [this]; ring

/-! ## Intervals -/

abbrev Iv := List (Int × Int)

def aget (iv : Iv) (i : ℕ) : Int × Int := iv.getD i (0, 0)

/-- the limbs lie in the intervals. -/
def In (iv : Iv) (s : List Int) : Prop := iv.length = s.length ∧ ∀ i, (aget iv i).1 ≤ lget s i ∧ lget s i ≤ (aget iv i).2

def aadd (iv : Iv) (i : ℕ) (lo hi : Int) : Option Iv :=
  if i < iv.length ∧ -2 ^ 63 ≤ (aget iv i).1 + lo ∧ (aget iv i).2 + hi < 2 ^ 63 then
    some (iv.set i ((aget iv i).1 + lo, (aget iv i).2 + hi)) else none

def aop (iv : Iv) : Op → Option Iv
  | .red k => do
    if 12 ≤ k ∧ k < iv.length then
      let (lo, hi) := aget iv k
      let iv ← aadd iv (k - 12) (lo * 666643) (hi * 666643)
      let iv ← aadd iv (k - 11) (lo * 470296) (hi * 470296)
      let iv ← aadd iv (k - 10) (lo * 654183) (hi * 654183)
      let iv ← aadd iv (k - 9) (-(hi * 997805)) (-(lo * 997805))
      let iv ← aadd iv (k - 8) (lo * 136657) (hi * 136657)
      let iv ← aadd iv (k - 7) (-(hi * 683901)) (-(lo * 683901))
      pure (iv.set k (0, 0))
    else none
  | .rc i => do
    let (lo, hi) := aget iv i
    if i < iv.length ∧ -2 ^ 63 ≤ lo + 2 ^ 20 ∧ hi + 2 ^ 20 < 2 ^ 63 then
      let iv ← aadd iv (i + 1) ((lo + 2 ^ 20) / 2 ^ 21) ((hi + 2 ^ 20) / 2 ^ 21)
      pure (iv.set i (-2 ^ 20, 2 ^ 20 - 1))
    else none
  | .fc i => do
    let (lo, hi) := aget iv i
    if i < iv.length then
      let iv ← aadd iv (i + 1) (lo / 2 ^ 21) (hi / 2 ^ 21)
      pure (iv.set i (0, 2 ^ 21 - 1))
    else none

theorem lget_set_ne {s : List Int} {i k : ℕ} (h : i ≠ k) (v : Int) : lget (s.set i v) k = lget s k := by
  simp [lget, List.getD_eq_getElem?_getD, List.getElem?_set_ne h]

theorem lget_set_self {s : List Int} {i : ℕ} (h : i < s.length) (v : Int) : lget (s.set i v) i = v := by
  simp [lget, List.getD_eq_getElem?_getD, List.getElem?_set_self h]

theorem aget_set_ne {s : Iv} {i k : ℕ} (h : i ≠ k) (v : Int × Int) : aget (s.set i v) k = aget s k := by
  simp [aget, List.getD_eq_getElem?_getD, List.getElem?_set_ne h]

theorem aget_set_self {s : Iv} {i : ℕ} (h : i < s.length) (v : Int × Int) : aget (s.set i v) i = v := by
  simp [aget, List.getD_eq_getElem?_getD, List.getElem?_set_self h]

theorem In.set {iv : Iv} {s : List Int} (h : In iv s) {i : ℕ} (hi : i < iv.length) {v lo hi' : Int} (h1 : lo ≤ v) (h2 : v ≤ hi') :
    In (iv.set i (lo, hi')) (s.set i v) := by
  refine ⟨by rw [List.length_set, List.length_set, h.1], fun k => ?_⟩
  by_cases e : i = k
  · subst e
    rw [aget_set_self hi, lget_set_self (h.1 ▸ hi)]
    exact ⟨h1, h2⟩
  · rw [aget_set_ne e, lget_set_ne e]
    exact h.2 k

theorem aadd_sound {iv iv' : Iv} {s : List Int} {i : ℕ} {x lo hi : Int} (h : In iv s) (h1 : lo ≤ x) (h2 : x ≤ hi)
    (e : aadd iv i lo hi = some iv') :
    In iv' (ladd s i x) ∧ sval (ladd s i x) = sval s + (2 ^ 21) ^ i * x ∧ (∀ k, i ≠ k → lget (ladd s i x) k = lget s k) ∧
      (∀ k, i ≠ k → aget iv' k = aget iv k) ∧ iv'.length = iv.length ∧ (ladd s i x).length = s.length ∧
      lget (ladd s i x) i = lget s i + x := by
  unfold aadd at e
  split at e
  · rename_i c
    obtain ⟨c1, c2, c3⟩ := c
    obtain ⟨d1, d2⟩ := h.2 i
    cases e
    have e64 : i64 (lget s i + x) = lget s i + x := i64_eq (by omega) (by omega)
    unfold ladd
    rw [e64]
    refine ⟨h.set c1 (by omega) (by omega), ?_, fun k hk => lget_set_ne hk _, fun k hk => aget_set_ne hk _, List.length_set, List.length_set, ?_⟩
    · rw [sval_set (h.1 ▸ c1)]; ring
    · exact lget_set_self (h.1 ▸ c1) _
  · cases e

theorem mul_mono_bounds {x lo hi c : Int} (hc : 0 ≤ c) (h1 : lo ≤ x) (h2 : x ≤ hi) :
    (lo * c ≤ x * c ∧ x * c ≤ hi * c) ∧ (-(hi * c) ≤ -(x * c) ∧ -(x * c) ≤ -(lo * c)) :=
  ⟨⟨mul_le_mul_of_nonneg_right h1 hc, mul_le_mul_of_nonneg_right h2 hc⟩,
   ⟨neg_le_neg (mul_le_mul_of_nonneg_right h2 hc), neg_le_neg (mul_le_mul_of_nonneg_right h1 hc)⟩⟩

theorem red_sound {iv iv' : Iv} {s : List Int} {k : ℕ} (h : In iv s) (e : aop iv (.red k) = some iv') :
    In iv' (Op.run s (.red k)) ∧ sval (Op.run s (.red k)) = sval s - lget s k * (2 ^ 21) ^ (k - 12) * L := by
  unfold aop at e
  simp only [Option.pure_def, Option.bind_eq_bind] at e
  split at e
  rotate_left
  · cases e
  rename_i c
  obtain ⟨b1, b2⟩ := h.2 k
  generalize hA : aget iv k = A at *
  obtain ⟨lo, hi⟩ := A
  dsimp only at *
  simp only [Option.bind_eq_some_iff] at e
  obtain ⟨i1, e1, i2, e2, i3, e3, i4, e4, i5, e5, i6, e6, e7⟩ := e
  unfold Op.run
  dsimp only
  generalize hx : lget s k = x at *
  have f1 := aadd_sound h (mul_mono_bounds (by norm_num) b1 b2).1.1 (mul_mono_bounds (by norm_num) b1 b2).1.2 e1
  have f2 := aadd_sound f1.1 (mul_mono_bounds (by norm_num) b1 b2).1.1 (mul_mono_bounds (by norm_num) b1 b2).1.2 e2
  have f3 := aadd_sound f2.1 (mul_mono_bounds (by norm_num) b1 b2).1.1 (mul_mono_bounds (by norm_num) b1 b2).1.2 e3
  have f4 := aadd_sound f3.1 (mul_mono_bounds (by norm_num) b1 b2).2.1 (mul_mono_bounds (by norm_num) b1 b2).2.2 e4
  have f5 := aadd_sound f4.1 (mul_mono_bounds (by norm_num) b1 b2).1.1 (mul_mono_bounds (by norm_num) b1 b2).1.2 e5
  have f6 := aadd_sound f5.1 (mul_mono_bounds (by norm_num) b1 b2).2.1 (mul_mono_bounds (by norm_num) b1 b2).2.2 e6
  obtain ⟨g1, v1, l1, -, -, n1, -⟩ := f1
  obtain ⟨g2, v2, l2, -, -, n2, -⟩ := f2
  obtain ⟨g3, v3, l3, -, -, n3, -⟩ := f3
  obtain ⟨g4, v4, l4, -, -, n4, -⟩ := f4
  obtain ⟨g5, v5, l5, -, -, n5, -⟩ := f5
  obtain ⟨g6, v6, l6, -, m6, n6, -⟩ := f6
  generalize ladd s (k - 12) (x * 666643) = s1 at *
  generalize ladd s1 (k - 11) (x * 470296) = s2 at *
  generalize ladd s2 (k - 10) (x * 654183) = s3 at *
  generalize ladd s3 (k - 9) (-(x * 997805)) = s4 at *
  generalize ladd s4 (k - 8) (x * 136657) = s5 at *
  generalize ladd s5 (k - 7) (-(x * 683901)) = s6 at *
  have hk : k < s.length := h.1 ▸ c.2
  have hk6 : k < i6.length := by rw [g6.1, n6, n5, n4, n3, n2, n1]; exact hk
  have hl : lget s6 k = x := by
    rw [l6 k (by omega), l5 k (by omega), l4 k (by omega), l3 k (by omega), l2 k (by omega), l1 k (by omega), hx]
  cases e7
  refine ⟨g6.set hk6 le_rfl le_rfl, ?_⟩
  rw [sval_set (g6.1 ▸ hk6), hl, v6, v5, v4, v3, v2, v1, intCast_L]
  obtain ⟨j, rfl⟩ : ∃ j, k = j + 12 := ⟨k - 12, by omega⟩
  rw [show j + 12 - 12 = j from by omega, show j + 12 - 11 = j + 1 from by omega, show j + 12 - 10 = j + 2 from by omega,
    show j + 12 - 9 = j + 3 from by omega, show j + 12 - 8 = j + 4 from by omega, show j + 12 - 7 = j + 5 from by omega]
  simp only [pow_add]
  ring

theorem ediv_mono {a b c : Int} (hc : 0 < c) (h : a ≤ b) : a / c ≤ b / c := Int.ediv_le_ediv hc h

theorem rc_sound {iv iv' : Iv} {s : List Int} {i : ℕ} (h : In iv s) (e : aop iv (.rc i) = some iv') :
    In iv' (Op.run s (.rc i)) ∧ sval (Op.run s (.rc i)) = sval s := by
  unfold aop at e
  simp only [Option.pure_def, Option.bind_eq_bind] at e
  obtain ⟨b1, b2⟩ := h.2 i
  generalize hA : aget iv i = A at *
  obtain ⟨lo, hi⟩ := A
  dsimp only at *
  split at e
  rotate_left
  · cases e
  rename_i c
  obtain ⟨c1, c2, c3⟩ := c
  simp only [Option.bind_eq_some_iff] at e
  obtain ⟨i1, e1, e7⟩ := e
  unfold Op.run
  dsimp only
  generalize hx : lget s i = x at *
  rw [i64_eq (x := x + 2 ^ 20) (by omega) (by omega)]
  obtain ⟨g1, v1, l1, -, m1, n1, -⟩ := aadd_sound (x := (x + 2 ^ 20) / 2 ^ 21) h (ediv_mono (by norm_num) (by omega)) (ediv_mono (by norm_num) (by omega)) e1
  have hl := l1 i (by omega)
  generalize ladd s (i + 1) ((x + 2 ^ 20) / 2 ^ 21) = s1 at *
  cases e7
  unfold ladd
  rw [hl, hx, i64_eq (by omega) (by omega)]
  refine ⟨g1.set (m1 ▸ c1) (by omega) (by omega), ?_⟩
  rw [sval_set (by rw [n1, ← h.1]; exact c1), hl, hx, v1, pow_succ]
  ring

theorem fc_sound {iv iv' : Iv} {s : List Int} {i : ℕ} (h : In iv s) (e : aop iv (.fc i) = some iv') :
    In iv' (Op.run s (.fc i)) ∧ sval (Op.run s (.fc i)) = sval s := by
  unfold aop at e
  simp only [Option.pure_def, Option.bind_eq_bind] at e
  obtain ⟨b1, b2⟩ := h.2 i
  generalize hA : aget iv i = A at *
  obtain ⟨lo, hi⟩ := A
  dsimp only at *
  split at e
  rotate_left
  · cases e
  rename_i c1
  simp only [Option.bind_eq_some_iff] at e
  obtain ⟨i1, e1, e7⟩ := e
  unfold Op.run
  dsimp only
  generalize hx : lget s i = x at *
  obtain ⟨g1, v1, l1, -, m1, n1, -⟩ := aadd_sound (x := x / 2 ^ 21) h (ediv_mono (by norm_num) (by omega)) (ediv_mono (by norm_num) (by omega)) e1
  have hl := l1 i (by omega)
  generalize ladd s (i + 1) (x / 2 ^ 21) = s1 at *
  cases e7
  unfold ladd
  rw [hl, hx, i64_eq (by omega) (by omega)]
  refine ⟨g1.set (m1 ▸ c1) (by omega) (by omega), ?_⟩
  rw [sval_set (by rw [n1, ← h.1]; exact c1), hl, hx, v1, pow_succ]
  ring

def aops (p : List Op) (iv : Iv) : Option Iv := p.foldlM aop iv

theorem op_sound {iv iv' : Iv} {s : List Int} {p : Op} (h : In iv s) (e : aop iv p = some iv') :
    In iv' (Op.run s p) ∧ sval (Op.run s p) % L = sval s % L := by
  cases p with
  | red k =>
    obtain ⟨a, b⟩ := red_sound h e
    exact ⟨a, by rw [b, Int.sub_mul_emod_self_right]⟩
  | rc i => obtain ⟨a, b⟩ := rc_sound h e; exact ⟨a, by rw [b]⟩
  | fc i => obtain ⟨a, b⟩ := fc_sound h e; exact ⟨a, by rw [b]⟩

theorem ops_sound {p : List Op} {iv iv' : Iv} {s : List Int} (h : In iv s) (e : aops p iv = some iv') :
    In iv' (runOps p s) ∧ sval (runOps p s) % L = sval s % L := by
  induction p generalizing iv s with
  | nil => cases e; exact ⟨h, rfl⟩
  | cons a p ih =>
    simp only [aops, List.foldlM_cons, Option.bind_eq_bind, Option.bind_eq_some_iff] at e
    obtain ⟨i1, e1, e2⟩ := e
    obtain ⟨h1, v1⟩ := op_sound h e1
    obtain ⟨h2, v2⟩ := ih h1 e2
    exact ⟨h2, v2.trans v1⟩

def isFc : Op → Bool
  | .fc _ => true
  | _ => false

theorem fcs_sound {p : List Op} {iv iv' : Iv} {s : List Int} (hp : p.all isFc = true) (h : In iv s) (e : aops p iv = some iv') :
    In iv' (runOps p s) ∧ sval (runOps p s) = sval s := by
  induction p generalizing iv s with
  | nil => cases e; exact ⟨h, rfl⟩
  | cons a p ih =>
    rw [List.all_cons, Bool.and_eq_true] at hp
    simp only [aops, List.foldlM_cons, Option.bind_eq_bind, Option.bind_eq_some_iff] at e
    obtain ⟨i1, e1, e2⟩ := e
    cases a with
    | red k => simp [isFc] at hp
    | rc i => simp [isFc] at hp
    | fc i =>
      obtain ⟨h1, v1⟩ := fc_sound h e1
      obtain ⟨h2, v2⟩ := ih hp.2 h1 e2
      exact ⟨h2, v2.trans v1⟩

theorem runOps_append (p q : List Op) (s : List Int) : runOps (p ++ q) s = runOps q (runOps p s) := by
  unfold runOps; rw [List.foldl_append]

/-- what the intervals say about the value. -/
theorem sval_bounds {iv : Iv} {s : List Int} (h : In iv s) : sval (iv.map Prod.fst) ≤ sval s ∧ sval s ≤ sval (iv.map Prod.snd) := by
  induction s generalizing iv with
  | nil =>
    obtain rfl : iv = [] := List.eq_nil_of_length_eq_zero h.1
    exact ⟨le_rfl, le_rfl⟩
  | cons x xs ih =>
    cases iv with
    | nil => have := h.1; simp at this
    | cons a iv =>
      have h0 := h.2 0
      have ht : In iv xs := ⟨by have := h.1; simpa using this, fun i => by have := h.2 (i + 1); simpa [aget, lget] using this⟩
      obtain ⟨r1, r2⟩ := ih ht
      simp only [aget, lget, List.getD_cons_zero] at h0
      simp only [List.map_cons, sval]
      constructor <;> linarith [h0.1, h0.2]

theorem sval_append (a b : List Int) : sval (a ++ b) = sval a + (2 ^ 21) ^ a.length * sval b := by
  induction a with
  | nil => simp [sval]
  | cons x xs ih => simp only [List.cons_append, sval, ih, List.length_cons, pow_succ]; ring

theorem In.take {iv : Iv} {s : List Int} (h : In iv s) (n : ℕ) : In (iv.take n) (s.take n) := by
  refine ⟨by rw [List.length_take, List.length_take, h.1], fun i => ?_⟩
  by_cases hi : i < n
  · have := h.2 i
    simpa [aget, lget, List.getD_eq_getElem?_getD, List.getElem?_take_of_lt hi] using this
  · have e1 : (iv.take n)[i]? = none := by simp [List.getElem?_eq_none_iff, List.length_take]; omega
    have e2 : (s.take n)[i]? = none := by simp [List.getElem?_eq_none_iff, List.length_take]; omega
    simp [aget, lget, List.getD_eq_getElem?_getD, e1, e2]

theorem In.drop {iv : Iv} {s : List Int} (h : In iv s) (n : ℕ) : In (iv.drop n) (s.drop n) := by
  refine ⟨by rw [List.length_drop, List.length_drop, h.1], fun i => ?_⟩
  have := h.2 (n + i)
  simpa [aget, lget, List.getD_eq_getElem?_getD, List.getElem?_drop] using this

/-! ## The tail: from limbs `s0 … s11` to the canonical representative -/

def tail1 : List Op := [.fc 0, .fc 1, .fc 2, .fc 3, .fc 4, .fc 5, .fc 6, .fc 7, .fc 8, .fc 9, .fc 10, .fc 11]
def tail2 : List Op := [.fc 0, .fc 1, .fc 2, .fc 3, .fc 4, .fc 5, .fc 6, .fc 7, .fc 8, .fc 9, .fc 10]

/-- the intervals after `tail1`. -/
def mid12 : Iv := List.replicate 12 (0, 2 ^ 21 - 1) ++ [(-1, 0)] ++ List.replicate 11 (0, 0)

/-- every limb `s0 … s10` has 21 bits. -/
structure Done (s : List Int) : Prop where
  l0 : 0 ≤ lget s 0
  u0 : lget s 0 < 2 ^ 21
  l1 : 0 ≤ lget s 1
  u1 : lget s 1 < 2 ^ 21
  l2 : 0 ≤ lget s 2
  u2 : lget s 2 < 2 ^ 21
  l3 : 0 ≤ lget s 3
  u3 : lget s 3 < 2 ^ 21
  l4 : 0 ≤ lget s 4
  u4 : lget s 4 < 2 ^ 21
  l5 : 0 ≤ lget s 5
  u5 : lget s 5 < 2 ^ 21
  l6 : 0 ≤ lget s 6
  u6 : lget s 6 < 2 ^ 21
  l7 : 0 ≤ lget s 7
  u7 : lget s 7 < 2 ^ 21
  l8 : 0 ≤ lget s 8
  u8 : lget s 8 < 2 ^ 21
  l9 : 0 ≤ lget s 9
  u9 : lget s 9 < 2 ^ 21
  l10 : 0 ≤ lget s 10
  u10 : lget s 10 < 2 ^ 21
  l11 : 0 ≤ lget s 11
  u11 : lget s 11 < 2 ^ 22
  val : sval s = lget s 0 + 2 ^ 21 * lget s 1 + 2 ^ 42 * lget s 2 + 2 ^ 63 * lget s 3 + 2 ^ 84 * lget s 4 + 2 ^ 105 * lget s 5 + 2 ^ 126 * lget s 6 + 2 ^ 147 * lget s 7 + 2 ^ 168 * lget s 8 + 2 ^ 189 * lget s 9 + 2 ^ 210 * lget s 10 + 2 ^ 231 * lget s 11

/-- the intervals after the last groups. -/
def fin12 : Option Iv := (aop mid12 (.red 12)).bind (aops tail2)

theorem fin12_eq : fin12 = some (List.replicate 11 (0, 2 ^ 21 - 1) ++ [(-1, 2 ^ 21)] ++ List.replicate 12 (0, 0)) := by
  decide +kernel

theorem sval_zeros (n : ℕ) : sval (List.replicate n 0) = 0 := by
  induction n with
  | zero => rfl
  | succ n ih => rw [List.replicate_succ, sval, ih]; rfl

theorem tail_spec {iv : Iv} {s : List Int} (h : In iv s) (h1 : aops tail1 iv = some mid12) :
    Done (runOps scTail s) ∧ sval (runOps scTail s) = sval s % L := by
  rw [show scTail = tail1 ++ ([.red 12] ++ tail2) from rfl, runOps_append, runOps_append]
  obtain ⟨i1, v1⟩ := fcs_sound (by rfl) h h1
  generalize runOps tail1 s = s1 at *
  have hf := fin12_eq
  unfold fin12 at hf
  simp only [Option.bind_eq_some_iff] at hf
  obtain ⟨iv2, e2, e3⟩ := hf
  obtain ⟨i2, v2⟩ := red_sound i1 e2
  rw [show runOps [Op.red 12] s1 = Op.run s1 (.red 12) from rfl]
  generalize Op.run s1 (.red 12) = s2 at *
  obtain ⟨i3, v3⟩ := fcs_sound (by rfl) i2 e3
  generalize runOps tail2 s2 = s3 at *
  -- the value after the reduction is canonical
  have t12 : -1 ≤ lget s1 12 ∧ lget s1 12 ≤ 0 := i1.2 12
  have low : 0 ≤ sval (s1.take 12) ∧ sval (s1.take 12) < 2 ^ 252 := by
    obtain ⟨a, b⟩ := sval_bounds (i1.take 12)
    have ha : sval ((mid12.take 12).map Prod.fst) = 0 := by decide +kernel
    have hb : sval ((mid12.take 12).map Prod.snd) = 2 ^ 252 - 1 := by decide +kernel
    rw [ha] at a; rw [hb] at b
    exact ⟨a, by omega⟩
  have high : sval (s1.drop 12) = lget s1 12 := by
    have hl : s1.length = 24 := by rw [← i1.1]; rfl
    obtain ⟨a, b⟩ := sval_bounds (i1.drop 13)
    have ha : sval ((mid12.drop 13).map Prod.fst) = 0 := by decide +kernel
    have hb : sval ((mid12.drop 13).map Prod.snd) = 0 := by decide +kernel
    rw [ha] at a; rw [hb] at b
    rw [List.drop_eq_getElem_cons (show 12 < s1.length by omega), sval, le_antisymm b a]
    simp [lget, List.getD_eq_getElem?_getD, List.getElem?_eq_getElem (show 12 < s1.length by omega)]
  have full : sval s1 = sval (s1.take 12) + 2 ^ 252 * lget s1 12 := by
    have hl : s1.length = 24 := by rw [← i1.1]; rfl
    conv_lhs => rw [← List.take_append_drop 12 s1, sval_append, high, List.length_take, hl]
    norm_num
  have canon : 0 ≤ sval s3 ∧ sval s3 < L := by
    rw [v3, v2, full, intCast_L]
    rcases (by omega : lget s1 12 = -1 ∨ lget s1 12 = 0) with e | e <;> rw [e] <;> norm_num <;> constructor <;> omega
  have modv : sval s3 = sval s % L := by
    rw [← Int.emod_eq_of_lt canon.1 canon.2, v3, v2, Int.sub_mul_emod_self_right, v1]
  refine ⟨?_, modv⟩
  have hl3 : s3.length = 24 := by rw [← i3.1]; rfl
  have val3 : sval s3 = lget s3 0 + 2 ^ 21 * lget s3 1 + 2 ^ 42 * lget s3 2 + 2 ^ 63 * lget s3 3 + 2 ^ 84 * lget s3 4 + 2 ^ 105 * lget s3 5 + 2 ^ 126 * lget s3 6 + 2 ^ 147 * lget s3 7 + 2 ^ 168 * lget s3 8 + 2 ^ 189 * lget s3 9 + 2 ^ 210 * lget s3 10 + 2 ^ 231 * lget s3 11 := by
    obtain ⟨a, b⟩ := sval_bounds (i3.drop 12)
    have a : 0 ≤ sval (s3.drop 12) := a
    have b : sval (s3.drop 12) ≤ 0 := b
    have z : sval (s3.drop 12) = 0 := le_antisymm b a
    match s3, hl3 with
    | [x0, x1, x2, x3, x4, x5, x6, x7, x8, x9, x10, x11, x12, x13, x14, x15, x16, x17, x18, x19, x20, x21, x22, x23], _ =>
      simp only [List.drop_succ_cons, List.drop_zero] at z
      rw [show ([x0, x1, x2, x3, x4, x5, x6, x7, x8, x9, x10, x11, x12, x13, x14, x15, x16, x17, x18, x19, x20, x21, x22, x23] : List Int) = [x0, x1, x2, x3, x4, x5, x6, x7, x8, x9, x10, x11] ++ [x12, x13, x14, x15, x16, x17, x18, x19, x20, x21, x22, x23] from rfl, sval_append, z]
      simp only [sval, lget, List.cons_append, List.getD_cons_zero, List.getD_cons_succ]
      ring
  have b0 : 0 ≤ lget s3 0 ∧ lget s3 0 ≤ 2 ^ 21 - 1 := i3.2 0
  have b1 : 0 ≤ lget s3 1 ∧ lget s3 1 ≤ 2 ^ 21 - 1 := i3.2 1
  have b2 : 0 ≤ lget s3 2 ∧ lget s3 2 ≤ 2 ^ 21 - 1 := i3.2 2
  have b3 : 0 ≤ lget s3 3 ∧ lget s3 3 ≤ 2 ^ 21 - 1 := i3.2 3
  have b4 : 0 ≤ lget s3 4 ∧ lget s3 4 ≤ 2 ^ 21 - 1 := i3.2 4
  have b5 : 0 ≤ lget s3 5 ∧ lget s3 5 ≤ 2 ^ 21 - 1 := i3.2 5
  have b6 : 0 ≤ lget s3 6 ∧ lget s3 6 ≤ 2 ^ 21 - 1 := i3.2 6
  have b7 : 0 ≤ lget s3 7 ∧ lget s3 7 ≤ 2 ^ 21 - 1 := i3.2 7
  have b8 : 0 ≤ lget s3 8 ∧ lget s3 8 ≤ 2 ^ 21 - 1 := i3.2 8
  have b9 : 0 ≤ lget s3 9 ∧ lget s3 9 ≤ 2 ^ 21 - 1 := i3.2 9
  have b10 : 0 ≤ lget s3 10 ∧ lget s3 10 ≤ 2 ^ 21 - 1 := i3.2 10
  have b11 : -1 ≤ lget s3 11 ∧ lget s3 11 ≤ 2 ^ 21 := i3.2 11
  have n11 : 0 ≤ lget s3 11 := by
    have := canon.1; rw [val3] at this; omega
  exact ⟨b0.1, by omega, b1.1, by omega, b2.1, by omega, b3.1, by omega, b4.1, by omega, b5.1, by omega, b6.1, by omega, b7.1, by omega, b8.1, by omega, b9.1, by omega, b10.1, by omega, n11, by omega, val3⟩

theorem scBytes_length (s : List Int) : (scBytes s).length = 32 := rfl

set_option maxHeartbeats 2000000 in
theorem scBytes_leNat {s : List Int} (h : Done s) : (leNat (scBytes s) : Int) = sval s := by
  obtain ⟨l0, u0, l1, u1, l2, u2, l3, u3, l4, u4, l5, u5, l6, u6, l7, u7, l8, u8, l9, u9, l10, u10, l11, u11, hv⟩ := h
  rw [hv]
  clear hv
  unfold scBytes
  generalize lget s 0 = a0 at *
  generalize lget s 1 = a1 at *
  generalize lget s 2 = a2 at *
  generalize lget s 3 = a3 at *
  generalize lget s 4 = a4 at *
  generalize lget s 5 = a5 at *
  generalize lget s 6 = a6 at *
  generalize lget s 7 = a7 at *
  generalize lget s 8 = a8 at *
  generalize lget s 9 = a9 at *
  generalize lget s 10 = a10 at *
  generalize lget s 11 = a11 at *
  simp only [leNat, Nat.cast_add, Nat.cast_mul, Nat.cast_ofNat, Nat.cast_zero, toByte_toNat]
  rw [orByte_toNat (a := a0 / 2 ^ 16) (b := a1) 5 (by norm_num) (by omega) (by omega)]
  rw [orByte_toNat (a := a1 / 2 ^ 19) (b := a2) 2 (by norm_num) (by omega) (by omega)]
  rw [orByte_toNat (a := a2 / 2 ^ 14) (b := a3) 7 (by norm_num) (by omega) (by omega)]
  rw [orByte_toNat (a := a3 / 2 ^ 17) (b := a4) 4 (by norm_num) (by omega) (by omega)]
  rw [orByte_toNat (a := a4 / 2 ^ 20) (b := a5) 1 (by norm_num) (by omega) (by omega)]
  rw [orByte_toNat (a := a5 / 2 ^ 15) (b := a6) 6 (by norm_num) (by omega) (by omega)]
  rw [orByte_toNat (a := a6 / 2 ^ 18) (b := a7) 3 (by norm_num) (by omega) (by omega)]
  rw [orByte_toNat (a := a8 / 2 ^ 16) (b := a9) 5 (by norm_num) (by omega) (by omega)]
  rw [orByte_toNat (a := a9 / 2 ^ 19) (b := a10) 2 (by norm_num) (by omega) (by omega)]
  rw [orByte_toNat (a := a10 / 2 ^ 14) (b := a11) 7 (by norm_num) (by omega) (by omega)]
  have z0 : 2 ^ 0 * (a0 / 2 ^ 0 % 256) + 2 ^ 8 * (a0 / 2 ^ 8 % 256) + 2 ^ 16 * (a0 / 2 ^ 16) = 2 ^ 0 * a0 := by clear l1 u1 l2 u2 l3 u3 l4 u4 l5 u5 l6 u6 l7 u7 l8 u8 l9 u9 l10 u10 l11 u11; omega
  have z1 : (a1 * 2 ^ 5 % 256) + 2 ^ 8 * (a1 / 2 ^ 3 % 256) + 2 ^ 16 * (a1 / 2 ^ 11 % 256) + 2 ^ 24 * (a1 / 2 ^ 19) = 2 ^ 5 * a1 := by clear l0 u0 l2 u2 l3 u3 l4 u4 l5 u5 l6 u6 l7 u7 l8 u8 l9 u9 l10 u10 l11 u11; omega
  have z2 : (a2 * 2 ^ 2 % 256) + 2 ^ 8 * (a2 / 2 ^ 6 % 256) + 2 ^ 16 * (a2 / 2 ^ 14) = 2 ^ 2 * a2 := by clear l0 u0 l1 u1 l3 u3 l4 u4 l5 u5 l6 u6 l7 u7 l8 u8 l9 u9 l10 u10 l11 u11; omega
  have z3 : (a3 * 2 ^ 7 % 256) + 2 ^ 8 * (a3 / 2 ^ 1 % 256) + 2 ^ 16 * (a3 / 2 ^ 9 % 256) + 2 ^ 24 * (a3 / 2 ^ 17) = 2 ^ 7 * a3 := by clear l0 u0 l1 u1 l2 u2 l4 u4 l5 u5 l6 u6 l7 u7 l8 u8 l9 u9 l10 u10 l11 u11; omega
  have z4 : (a4 * 2 ^ 4 % 256) + 2 ^ 8 * (a4 / 2 ^ 4 % 256) + 2 ^ 16 * (a4 / 2 ^ 12 % 256) + 2 ^ 24 * (a4 / 2 ^ 20) = 2 ^ 4 * a4 := by clear l0 u0 l1 u1 l2 u2 l3 u3 l5 u5 l6 u6 l7 u7 l8 u8 l9 u9 l10 u10 l11 u11; omega
  have z5 : (a5 * 2 ^ 1 % 256) + 2 ^ 8 * (a5 / 2 ^ 7 % 256) + 2 ^ 16 * (a5 / 2 ^ 15) = 2 ^ 1 * a5 := by clear l0 u0 l1 u1 l2 u2 l3 u3 l4 u4 l6 u6 l7 u7 l8 u8 l9 u9 l10 u10 l11 u11; omega
  have z6 : (a6 * 2 ^ 6 % 256) + 2 ^ 8 * (a6 / 2 ^ 2 % 256) + 2 ^ 16 * (a6 / 2 ^ 10 % 256) + 2 ^ 24 * (a6 / 2 ^ 18) = 2 ^ 6 * a6 := by clear l0 u0 l1 u1 l2 u2 l3 u3 l4 u4 l5 u5 l7 u7 l8 u8 l9 u9 l10 u10 l11 u11; omega
  have z7 : (a7 * 2 ^ 3 % 256) + 2 ^ 8 * (a7 / 2 ^ 5 % 256) + 2 ^ 16 * (a7 / 2 ^ 13 % 256) = 2 ^ 3 * a7 := by clear l0 u0 l1 u1 l2 u2 l3 u3 l4 u4 l5 u5 l6 u6 l8 u8 l9 u9 l10 u10 l11 u11; omega
  have z8 : 2 ^ 0 * (a8 / 2 ^ 0 % 256) + 2 ^ 8 * (a8 / 2 ^ 8 % 256) + 2 ^ 16 * (a8 / 2 ^ 16) = 2 ^ 0 * a8 := by clear l0 u0 l1 u1 l2 u2 l3 u3 l4 u4 l5 u5 l6 u6 l7 u7 l9 u9 l10 u10 l11 u11; omega
  have z9 : (a9 * 2 ^ 5 % 256) + 2 ^ 8 * (a9 / 2 ^ 3 % 256) + 2 ^ 16 * (a9 / 2 ^ 11 % 256) + 2 ^ 24 * (a9 / 2 ^ 19) = 2 ^ 5 * a9 := by clear l0 u0 l1 u1 l2 u2 l3 u3 l4 u4 l5 u5 l6 u6 l7 u7 l8 u8 l10 u10 l11 u11; omega
  have z10 : (a10 * 2 ^ 2 % 256) + 2 ^ 8 * (a10 / 2 ^ 6 % 256) + 2 ^ 16 * (a10 / 2 ^ 14) = 2 ^ 2 * a10 := by clear l0 u0 l1 u1 l2 u2 l3 u3 l4 u4 l5 u5 l6 u6 l7 u7 l8 u8 l9 u9 l11 u11; omega
  have z11 : (a11 * 2 ^ 7 % 256) + 2 ^ 8 * (a11 / 2 ^ 1 % 256) + 2 ^ 16 * (a11 / 2 ^ 9 % 256) + 2 ^ 24 * (a11 / 2 ^ 17 % 256) = 2 ^ 7 * a11 := by clear l0 u0 l1 u1 l2 u2 l3 u3 l4 u4 l5 u5 l6 u6 l7 u7 l8 u8 l9 u9 l10 u10; omega
  linear_combination 2 ^ 0 * z0 + 2 ^ 16 * z1 + 2 ^ 40 * z2 + 2 ^ 56 * z3 + 2 ^ 80 * z4 + 2 ^ 104 * z5 + 2 ^ 120 * z6 + 2 ^ 144 * z7 + 2 ^ 168 * z8 + 2 ^ 184 * z9 + 2 ^ 208 * z10 + 2 ^ 224 * z11

/-! ## Loading the limbs -/

theorem load_digit (s : Bytes) (i n k w : ℕ) (h : i + n ≤ s.length) (hw : k + w ≤ 8 * n) :
    (leNat ((s.drop i).take n) : Int) / 2 ^ k % 2 ^ w = (leNat s : Int) / 2 ^ (8 * i + k) % 2 ^ w := by
  have e1 := leNat_take_drop s i (by omega)
  have e2 := leNat_step s i n h
  have hlt : leNat (s.take i) < 256 ^ i := by
    have := leNat_lt (s.take i)
    rwa [List.length_take, Nat.min_eq_left (by omega)] at this
  have hdiv : leNat s / 2 ^ (8 * i) = leNat (s.drop i) := by
    rw [pow_mul, show 2 ^ 8 = 256 from rfl, e1, Nat.add_mul_div_left _ _ (by positivity), Nat.div_eq_of_lt hlt, Nat.zero_add]
  have : leNat ((s.drop i).take n) / 2 ^ k % 2 ^ w = leNat s / 2 ^ (8 * i + k) % 2 ^ w := by
    rw [pow_add, ← Nat.div_div_eq_div_mul, hdiv, e2]
    obtain ⟨r, hr⟩ : ∃ r, 256 ^ n = 2 ^ k * (2 ^ w * 2 ^ r) := ⟨8 * n - k - w, by rw [← pow_add, ← pow_add, show 256 = 2 ^ 8 from rfl, ← pow_mul]; congr 1; omega⟩
    rw [hr, Nat.mul_assoc, Nat.add_mul_div_left _ _ (by positivity), Nat.mul_assoc, Nat.add_mul_mod_self_left]
  exact_mod_cast this

theorem load_top (s : Bytes) (i n k : ℕ) (h : i + n = s.length) :
    (leNat ((s.drop i).take n) : Int) / 2 ^ k = (leNat s : Int) / 2 ^ (8 * i + k) := by
  have e1 := leNat_take_drop s i (by omega)
  have hlt : leNat (s.take i) < 256 ^ i := by
    have := leNat_lt (s.take i)
    rwa [List.length_take, Nat.min_eq_left (by omega)] at this
  have hdiv : leNat s / 2 ^ (8 * i) = leNat (s.drop i) := by
    rw [pow_mul, show 2 ^ 8 = 256 from rfl, e1, Nat.add_mul_div_left _ _ (by positivity), Nat.div_eq_of_lt hlt, Nat.zero_add]
  rw [List.take_of_length_le (by rw [List.length_drop]; omega)]
  have : leNat (s.drop i) / 2 ^ k = leNat s / 2 ^ (8 * i + k) := by
    rw [pow_add, ← Nat.div_div_eq_div_mul, hdiv]
  exact_mod_cast this

/-- the `n` digits of 21 bits of `N`, and what is left. -/
def digits : ℕ → Int → List Int
  | 0, N => [N]
  | n + 1, N => N % 2 ^ 21 :: digits n (N / 2 ^ 21)

theorem sval_digits (n : ℕ) (N : Int) : sval (digits n N) = N := by
  induction n generalizing N with
  | zero => simp [digits, sval]
  | succ n ih => rw [digits, sval, ih]; exact Int.emod_add_mul_ediv N _

set_option maxHeartbeats 2000000 in
theorem reduce_limbs {s : Bytes} (h : s.length = 64) :
    [load3 s 0 % 2 ^ 21, load4 s 2 / 2 ^ 5 % 2 ^ 21, load3 s 5 / 2 ^ 2 % 2 ^ 21, load4 s 7 / 2 ^ 7 % 2 ^ 21,
     load4 s 10 / 2 ^ 4 % 2 ^ 21, load3 s 13 / 2 ^ 1 % 2 ^ 21, load4 s 15 / 2 ^ 6 % 2 ^ 21, load3 s 18 / 2 ^ 3 % 2 ^ 21,
     load3 s 21 % 2 ^ 21, load4 s 23 / 2 ^ 5 % 2 ^ 21, load3 s 26 / 2 ^ 2 % 2 ^ 21, load4 s 28 / 2 ^ 7 % 2 ^ 21,
     load4 s 31 / 2 ^ 4 % 2 ^ 21, load3 s 34 / 2 ^ 1 % 2 ^ 21, load4 s 36 / 2 ^ 6 % 2 ^ 21, load3 s 39 / 2 ^ 3 % 2 ^ 21,
     load3 s 42 % 2 ^ 21, load4 s 44 / 2 ^ 5 % 2 ^ 21, load3 s 47 / 2 ^ 2 % 2 ^ 21, load4 s 49 / 2 ^ 7 % 2 ^ 21,
     load4 s 52 / 2 ^ 4 % 2 ^ 21, load3 s 55 / 2 ^ 1 % 2 ^ 21, load4 s 57 / 2 ^ 6 % 2 ^ 21, load4 s 60 / 2 ^ 3] = digits 23 (leNat s) := by
  have D : ∀ i j k : ℕ, i + j = k → (leNat s : Int) / 2 ^ i / 2 ^ j = (leNat s : Int) / 2 ^ k := by
    rintro i j k rfl; rw [Int.ediv_ediv_of_nonneg (by positivity), pow_add]
  simp only [digits, D 21 21 42 rfl, D 42 21 63 rfl, D 63 21 84 rfl, D 84 21 105 rfl, D 105 21 126 rfl, D 126 21 147 rfl, D 147 21 168 rfl, D 168 21 189 rfl, D 189 21 210 rfl, D 210 21 231 rfl, D 231 21 252 rfl, D 252 21 273 rfl, D 273 21 294 rfl, D 294 21 315 rfl, D 315 21 336 rfl, D 336 21 357 rfl, D 357 21 378 rfl, D 378 21 399 rfl, D 399 21 420 rfl, D 420 21 441 rfl, D 441 21 462 rfl, D 462 21 483 rfl]
  have e0 : load3 s 0 % 2 ^ 21 = (leNat s : Int) % 2 ^ 21 := by
    have := load_digit s 0 3 0 21 (by omega) (by norm_num)
    rw [show 8 * 0 + 0 = 0 from rfl, pow_zero, Int.ediv_one, Int.ediv_one] at this
    exact this
  have e1 : load4 s 2 / 2 ^ 5 % 2 ^ 21 = (leNat s : Int) / 2 ^ 21 % 2 ^ 21 := load_digit s 2 4 5 21 (by omega) (by norm_num)
  have e2 : load3 s 5 / 2 ^ 2 % 2 ^ 21 = (leNat s : Int) / 2 ^ 42 % 2 ^ 21 := load_digit s 5 3 2 21 (by omega) (by norm_num)
  have e3 : load4 s 7 / 2 ^ 7 % 2 ^ 21 = (leNat s : Int) / 2 ^ 63 % 2 ^ 21 := load_digit s 7 4 7 21 (by omega) (by norm_num)
  have e4 : load4 s 10 / 2 ^ 4 % 2 ^ 21 = (leNat s : Int) / 2 ^ 84 % 2 ^ 21 := load_digit s 10 4 4 21 (by omega) (by norm_num)
  have e5 : load3 s 13 / 2 ^ 1 % 2 ^ 21 = (leNat s : Int) / 2 ^ 105 % 2 ^ 21 := load_digit s 13 3 1 21 (by omega) (by norm_num)
  have e6 : load4 s 15 / 2 ^ 6 % 2 ^ 21 = (leNat s : Int) / 2 ^ 126 % 2 ^ 21 := load_digit s 15 4 6 21 (by omega) (by norm_num)
  have e7 : load3 s 18 / 2 ^ 3 % 2 ^ 21 = (leNat s : Int) / 2 ^ 147 % 2 ^ 21 := load_digit s 18 3 3 21 (by omega) (by norm_num)
  have e8 : load3 s 21 % 2 ^ 21 = (leNat s : Int) / 2 ^ 168 % 2 ^ 21 := by
    have := load_digit s 21 3 0 21 (by omega) (by norm_num)
    rw [pow_zero, Int.ediv_one] at this
    exact this
  have e9 : load4 s 23 / 2 ^ 5 % 2 ^ 21 = (leNat s : Int) / 2 ^ 189 % 2 ^ 21 := load_digit s 23 4 5 21 (by omega) (by norm_num)
  have e10 : load3 s 26 / 2 ^ 2 % 2 ^ 21 = (leNat s : Int) / 2 ^ 210 % 2 ^ 21 := load_digit s 26 3 2 21 (by omega) (by norm_num)
  have e11 : load4 s 28 / 2 ^ 7 % 2 ^ 21 = (leNat s : Int) / 2 ^ 231 % 2 ^ 21 := load_digit s 28 4 7 21 (by omega) (by norm_num)
  have e12 : load4 s 31 / 2 ^ 4 % 2 ^ 21 = (leNat s : Int) / 2 ^ 252 % 2 ^ 21 := load_digit s 31 4 4 21 (by omega) (by norm_num)
  have e13 : load3 s 34 / 2 ^ 1 % 2 ^ 21 = (leNat s : Int) / 2 ^ 273 % 2 ^ 21 := load_digit s 34 3 1 21 (by omega) (by norm_num)
  have e14 : load4 s 36 / 2 ^ 6 % 2 ^ 21 = (leNat s : Int) / 2 ^ 294 % 2 ^ 21 := load_digit s 36 4 6 21 (by omega) (by norm_num)
  have e15 : load3 s 39 / 2 ^ 3 % 2 ^ 21 = (leNat s : Int) / 2 ^ 315 % 2 ^ 21 := load_digit s 39 3 3 21 (by omega) (by norm_num)
  have e16 : load3 s 42 % 2 ^ 21 = (leNat s : Int) / 2 ^ 336 % 2 ^ 21 := by
    have := load_digit s 42 3 0 21 (by omega) (by norm_num)
    rw [pow_zero, Int.ediv_one] at this
    exact this
  have e17 : load4 s 44 / 2 ^ 5 % 2 ^ 21 = (leNat s : Int) / 2 ^ 357 % 2 ^ 21 := load_digit s 44 4 5 21 (by omega) (by norm_num)
  have e18 : load3 s 47 / 2 ^ 2 % 2 ^ 21 = (leNat s : Int) / 2 ^ 378 % 2 ^ 21 := load_digit s 47 3 2 21 (by omega) (by norm_num)
  have e19 : load4 s 49 / 2 ^ 7 % 2 ^ 21 = (leNat s : Int) / 2 ^ 399 % 2 ^ 21 := load_digit s 49 4 7 21 (by omega) (by norm_num)
  have e20 : load4 s 52 / 2 ^ 4 % 2 ^ 21 = (leNat s : Int) / 2 ^ 420 % 2 ^ 21 := load_digit s 52 4 4 21 (by omega) (by norm_num)
  have e21 : load3 s 55 / 2 ^ 1 % 2 ^ 21 = (leNat s : Int) / 2 ^ 441 % 2 ^ 21 := load_digit s 55 3 1 21 (by omega) (by norm_num)
  have e22 : load4 s 57 / 2 ^ 6 % 2 ^ 21 = (leNat s : Int) / 2 ^ 462 % 2 ^ 21 := load_digit s 57 4 6 21 (by omega) (by norm_num)
  have e23 : load4 s 60 / 2 ^ 3 = (leNat s : Int) / 2 ^ 483 := load_top s 60 4 3 (by omega)
  rw [e0, e1, e2, e3, e4, e5, e6, e7, e8, e9, e10, e11, e12, e13, e14, e15, e16, e17, e18, e19, e20, e21, e22, e23]

set_option maxHeartbeats 2000000 in
theorem scalar_limbs {a : Bytes} (h : a.length = 32) :
    [load3 a 0 % 2 ^ 21, load4 a 2 / 2 ^ 5 % 2 ^ 21, load3 a 5 / 2 ^ 2 % 2 ^ 21, load4 a 7 / 2 ^ 7 % 2 ^ 21,
     load4 a 10 / 2 ^ 4 % 2 ^ 21, load3 a 13 / 2 ^ 1 % 2 ^ 21, load4 a 15 / 2 ^ 6 % 2 ^ 21, load3 a 18 / 2 ^ 3 % 2 ^ 21,
     load3 a 21 % 2 ^ 21, load4 a 23 / 2 ^ 5 % 2 ^ 21, load3 a 26 / 2 ^ 2 % 2 ^ 21, load4 a 28 / 2 ^ 7] = digits 11 (leNat a) := by
  have D : ∀ i j k : ℕ, i + j = k → (leNat a : Int) / 2 ^ i / 2 ^ j = (leNat a : Int) / 2 ^ k := by
    rintro i j k rfl; rw [Int.ediv_ediv_of_nonneg (by positivity), pow_add]
  simp only [digits, D 21 21 42 rfl, D 42 21 63 rfl, D 63 21 84 rfl, D 84 21 105 rfl, D 105 21 126 rfl, D 126 21 147 rfl, D 147 21 168 rfl, D 168 21 189 rfl, D 189 21 210 rfl, D 210 21 231 rfl]
  have e0 : load3 a 0 % 2 ^ 21 = (leNat a : Int) % 2 ^ 21 := by
    have := load_digit a 0 3 0 21 (by omega) (by norm_num)
    rw [show 8 * 0 + 0 = 0 from rfl, pow_zero, Int.ediv_one, Int.ediv_one] at this
    exact this
  have e1 : load4 a 2 / 2 ^ 5 % 2 ^ 21 = (leNat a : Int) / 2 ^ 21 % 2 ^ 21 := load_digit a 2 4 5 21 (by omega) (by norm_num)
  have e2 : load3 a 5 / 2 ^ 2 % 2 ^ 21 = (leNat a : Int) / 2 ^ 42 % 2 ^ 21 := load_digit a 5 3 2 21 (by omega) (by norm_num)
  have e3 : load4 a 7 / 2 ^ 7 % 2 ^ 21 = (leNat a : Int) / 2 ^ 63 % 2 ^ 21 := load_digit a 7 4 7 21 (by omega) (by norm_num)
  have e4 : load4 a 10 / 2 ^ 4 % 2 ^ 21 = (leNat a : Int) / 2 ^ 84 % 2 ^ 21 := load_digit a 10 4 4 21 (by omega) (by norm_num)
  have e5 : load3 a 13 / 2 ^ 1 % 2 ^ 21 = (leNat a : Int) / 2 ^ 105 % 2 ^ 21 := load_digit a 13 3 1 21 (by omega) (by norm_num)
  have e6 : load4 a 15 / 2 ^ 6 % 2 ^ 21 = (leNat a : Int) / 2 ^ 126 % 2 ^ 21 := load_digit a 15 4 6 21 (by omega) (by norm_num)
  have e7 : load3 a 18 / 2 ^ 3 % 2 ^ 21 = (leNat a : Int) / 2 ^ 147 % 2 ^ 21 := load_digit a 18 3 3 21 (by omega) (by norm_num)
  have e8 : load3 a 21 % 2 ^ 21 = (leNat a : Int) / 2 ^ 168 % 2 ^ 21 := by
    have := load_digit a 21 3 0 21 (by omega) (by norm_num)
    rw [pow_zero, Int.ediv_one] at this
    exact this
  have e9 : load4 a 23 / 2 ^ 5 % 2 ^ 21 = (leNat a : Int) / 2 ^ 189 % 2 ^ 21 := load_digit a 23 4 5 21 (by omega) (by norm_num)
  have e10 : load3 a 26 / 2 ^ 2 % 2 ^ 21 = (leNat a : Int) / 2 ^ 210 % 2 ^ 21 := load_digit a 26 3 2 21 (by omega) (by norm_num)
  have e11 : load4 a 28 / 2 ^ 7 = (leNat a : Int) / 2 ^ 231 := load_top a 28 4 7 (by omega)
  rw [e0, e1, e2, e3, e4, e5, e6, e7, e8, e9, e10, e11]

/-- the intervals of the limbs that `ScReduce` loads. -/
def inReduce : Iv := List.replicate 23 (0, 2 ^ 21 - 1) ++ [(0, 2 ^ 29 - 1)]

/-- the intervals of the limbs that `ScMulAdd` starts from. -/
def inMulAdd : Iv := List.replicate 23 (0, 2 ^ 53) ++ [(0, 0)]

theorem reduce_check : (aops scReduceHead inReduce).bind (aops tail1) = some mid12 := by decide +kernel
theorem mulAdd_check : (aops scMulAddHead inMulAdd).bind (aops tail1) = some mid12 := by decide +kernel

theorem In_cons {a : Int × Int} {iv : Iv} {x : Int} {s : List Int} (h : a.1 ≤ x ∧ x ≤ a.2) (ht : In iv s) : In (a :: iv) (x :: s) := by
  refine ⟨by simp [ht.1], fun i => ?_⟩
  cases i with
  | zero => simpa [aget, lget] using h
  | succ i => simpa [aget, lget] using ht.2 i

theorem In_nil : In [] [] := ⟨rfl, fun i => by simp [aget, lget]⟩

theorem In_digits (n : ℕ) {N : Int} {B : Int} (h : 0 ≤ N) (h' : N / (2 ^ 21) ^ n ≤ B) :
    In (List.replicate n (0, 2 ^ 21 - 1) ++ [(0, B)]) (digits n N) := by
  induction n generalizing N with
  | zero => exact In_cons ⟨h, by simpa using h'⟩ In_nil
  | succ n ih =>
    refine In_cons ⟨?_, ?_⟩ (ih (by omega) ?_)
    · show 0 ≤ N % 2 ^ 21; omega
    · show N % 2 ^ 21 ≤ 2 ^ 21 - 1; omega
    · rw [Int.ediv_ediv_of_nonneg (by norm_num), ← pow_succ']; exact h'

theorem scReduce_length (s : Bytes) : (scReduce s).length = 32 := rfl

/-- `ScReduce` returns the canonical representative modulo the group order. -/
theorem scReduce_spec {s : Bytes} (h : s.length = 64) : leNat (scReduce s) = leNat s % L := by
  unfold scReduce
  dsimp only
  rw [reduce_limbs h]
  have hN : leNat s < 256 ^ 64 := h ▸ leNat_lt s
  have hin : In inReduce (digits 23 (leNat s)) := In_digits 23 (by omega) (by norm_num at hN ⊢; omega)
  have hc := reduce_check
  simp only [Option.bind_eq_some_iff] at hc
  obtain ⟨iv, e1, e2⟩ := hc
  obtain ⟨i1, v1⟩ := ops_sound hin e1
  obtain ⟨d, v2⟩ := tail_spec i1 e2
  have := scBytes_leNat d
  rw [v2, v1, sval_digits] at this
  exact_mod_cast this

theorem scMulAdd_length (a b c : Bytes) : (scMulAdd a b c).length = 32 := rfl

theorem row0 {a0 b0 c0 : Int} (ha0 : 0 ≤ a0 ∧ a0 ≤ 2097151) (hb0 : 0 ≤ b0 ∧ b0 ≤ 2097151) (hc0 : 0 ≤ c0 ∧ c0 ≤ 2097151) : 0 ≤ c0 + a0 * b0 ∧ c0 + a0 * b0 ≤ 2 ^ 53 := by
  have p0 := mul_nonneg ha0.1 hb0.1
  have q0 := mul_le_mul ha0.2 hb0.2 hb0.1 (by norm_num)
  norm_num at *
  constructor <;> linarith

theorem row1 {a0 a1 b0 b1 c1 : Int} (ha0 : 0 ≤ a0 ∧ a0 ≤ 2097151) (ha1 : 0 ≤ a1 ∧ a1 ≤ 2097151) (hb0 : 0 ≤ b0 ∧ b0 ≤ 2097151) (hb1 : 0 ≤ b1 ∧ b1 ≤ 2097151) (hc1 : 0 ≤ c1 ∧ c1 ≤ 2097151) : 0 ≤ c1 + a0 * b1 + a1 * b0 ∧ c1 + a0 * b1 + a1 * b0 ≤ 2 ^ 53 := by
  have p0 := mul_nonneg ha0.1 hb1.1
  have q0 := mul_le_mul ha0.2 hb1.2 hb1.1 (by norm_num)
  have p1 := mul_nonneg ha1.1 hb0.1
  have q1 := mul_le_mul ha1.2 hb0.2 hb0.1 (by norm_num)
  norm_num at *
  constructor <;> linarith

theorem row2 {a0 a1 a2 b0 b1 b2 c2 : Int} (ha0 : 0 ≤ a0 ∧ a0 ≤ 2097151) (ha1 : 0 ≤ a1 ∧ a1 ≤ 2097151) (ha2 : 0 ≤ a2 ∧ a2 ≤ 2097151) (hb0 : 0 ≤ b0 ∧ b0 ≤ 2097151) (hb1 : 0 ≤ b1 ∧ b1 ≤ 2097151) (hb2 : 0 ≤ b2 ∧ b2 ≤ 2097151) (hc2 : 0 ≤ c2 ∧ c2 ≤ 2097151) : 0 ≤ c2 + a0 * b2 + a1 * b1 + a2 * b0 ∧ c2 + a0 * b2 + a1 * b1 + a2 * b0 ≤ 2 ^ 53 := by
  have p0 := mul_nonneg ha0.1 hb2.1
  have q0 := mul_le_mul ha0.2 hb2.2 hb2.1 (by norm_num)
  have p1 := mul_nonneg ha1.1 hb1.1
  have q1 := mul_le_mul ha1.2 hb1.2 hb1.1 (by norm_num)
  have p2 := mul_nonneg ha2.1 hb0.1
  have q2 := mul_le_mul ha2.2 hb0.2 hb0.1 (by norm_num)
  norm_num at *
  constructor <;> linarith

theorem row3 {a0 a1 a2 a3 b0 b1 b2 b3 c3 : Int} (ha0 : 0 ≤ a0 ∧ a0 ≤ 2097151) (ha1 : 0 ≤ a1 ∧ a1 ≤ 2097151) (ha2 : 0 ≤ a2 ∧ a2 ≤ 2097151) (ha3 : 0 ≤ a3 ∧ a3 ≤ 2097151) (hb0 : 0 ≤ b0 ∧ b0 ≤ 2097151) (hb1 : 0 ≤ b1 ∧ b1 ≤ 2097151) (hb2 : 0 ≤ b2 ∧ b2 ≤ 2097151) (hb3 : 0 ≤ b3 ∧ b3 ≤ 2097151) (hc3 : 0 ≤ c3 ∧ c3 ≤ 2097151) : 0 ≤ c3 + a0 * b3 + a1 * b2 + a2 * b1 + a3 * b0 ∧ c3 + a0 * b3 + a1 * b2 + a2 * b1 + a3 * b0 ≤ 2 ^ 53 := by
  have p0 := mul_nonneg ha0.1 hb3.1
  have q0 := mul_le_mul ha0.2 hb3.2 hb3.1 (by norm_num)
  have p1 := mul_nonneg ha1.1 hb2.1
  have q1 := mul_le_mul ha1.2 hb2.2 hb2.1 (by norm_num)
  have p2 := mul_nonneg ha2.1 hb1.1
  have q2 := mul_le_mul ha2.2 hb1.2 hb1.1 (by norm_num)
  have p3 := mul_nonneg ha3.1 hb0.1
  have q3 := mul_le_mul ha3.2 hb0.2 hb0.1 (by norm_num)
  norm_num at *
  constructor <;> linarith

theorem row4 {a0 a1 a2 a3 a4 b0 b1 b2 b3 b4 c4 : Int} (ha0 : 0 ≤ a0 ∧ a0 ≤ 2097151) (ha1 : 0 ≤ a1 ∧ a1 ≤ 2097151) (ha2 : 0 ≤ a2 ∧ a2 ≤ 2097151) (ha3 : 0 ≤ a3 ∧ a3 ≤ 2097151) (ha4 : 0 ≤ a4 ∧ a4 ≤ 2097151) (hb0 : 0 ≤ b0 ∧ b0 ≤ 2097151) (hb1 : 0 ≤ b1 ∧ b1 ≤ 2097151) (hb2 : 0 ≤ b2 ∧ b2 ≤ 2097151) (hb3 : 0 ≤ b3 ∧ b3 ≤ 2097151) (hb4 : 0 ≤ b4 ∧ b4 ≤ 2097151) (hc4 : 0 ≤ c4 ∧ c4 ≤ 2097151) : 0 ≤ c4 + a0 * b4 + a1 * b3 + a2 * b2 + a3 * b1 + a4 * b0 ∧ c4 + a0 * b4 + a1 * b3 + a2 * b2 + a3 * b1 + a4 * b0 ≤ 2 ^ 53 := by
  have p0 := mul_nonneg ha0.1 hb4.1
  have q0 := mul_le_mul ha0.2 hb4.2 hb4.1 (by norm_num)
  have p1 := mul_nonneg ha1.1 hb3.1
  have q1 := mul_le_mul ha1.2 hb3.2 hb3.1 (by norm_num)
  have p2 := mul_nonneg ha2.1 hb2.1
  have q2 := mul_le_mul ha2.2 hb2.2 hb2.1 (by norm_num)
  have p3 := mul_nonneg ha3.1 hb1.1
  have q3 := mul_le_mul ha3.2 hb1.2 hb1.1 (by norm_num)
  have p4 := mul_nonneg ha4.1 hb0.1
  have q4 := mul_le_mul ha4.2 hb0.2 hb0.1 (by norm_num)
  norm_num at *
  constructor <;> linarith

theorem row5 {a0 a1 a2 a3 a4 a5 b0 b1 b2 b3 b4 b5 c5 : Int} (ha0 : 0 ≤ a0 ∧ a0 ≤ 2097151) (ha1 : 0 ≤ a1 ∧ a1 ≤ 2097151) (ha2 : 0 ≤ a2 ∧ a2 ≤ 2097151) (ha3 : 0 ≤ a3 ∧ a3 ≤ 2097151) (ha4 : 0 ≤ a4 ∧ a4 ≤ 2097151) (ha5 : 0 ≤ a5 ∧ a5 ≤ 2097151) (hb0 : 0 ≤ b0 ∧ b0 ≤ 2097151) (hb1 : 0 ≤ b1 ∧ b1 ≤ 2097151) (hb2 : 0 ≤ b2 ∧ b2 ≤ 2097151) (hb3 : 0 ≤ b3 ∧ b3 ≤ 2097151) (hb4 : 0 ≤ b4 ∧ b4 ≤ 2097151) (hb5 : 0 ≤ b5 ∧ b5 ≤ 2097151) (hc5 : 0 ≤ c5 ∧ c5 ≤ 2097151) : 0 ≤ c5 + a0 * b5 + a1 * b4 + a2 * b3 + a3 * b2 + a4 * b1 + a5 * b0 ∧ c5 + a0 * b5 + a1 * b4 + a2 * b3 + a3 * b2 + a4 * b1 + a5 * b0 ≤ 2 ^ 53 := by
  have p0 := mul_nonneg ha0.1 hb5.1
  have q0 := mul_le_mul ha0.2 hb5.2 hb5.1 (by norm_num)
  have p1 := mul_nonneg ha1.1 hb4.1
  have q1 := mul_le_mul ha1.2 hb4.2 hb4.1 (by norm_num)
  have p2 := mul_nonneg ha2.1 hb3.1
  have q2 := mul_le_mul ha2.2 hb3.2 hb3.1 (by norm_num)
  have p3 := mul_nonneg ha3.1 hb2.1
  have q3 := mul_le_mul ha3.2 hb2.2 hb2.1 (by norm_num)
  have p4 := mul_nonneg ha4.1 hb1.1
  have q4 := mul_le_mul ha4.2 hb1.2 hb1.1 (by norm_num)
  have p5 := mul_nonneg ha5.1 hb0.1
  have q5 := mul_le_mul ha5.2 hb0.2 hb0.1 (by norm_num)
  norm_num at *
  constructor <;> linarith

theorem row6 {a0 a1 a2 a3 a4 a5 a6 b0 b1 b2 b3 b4 b5 b6 c6 : Int} (ha0 : 0 ≤ a0 ∧ a0 ≤ 2097151) (ha1 : 0 ≤ a1 ∧ a1 ≤ 2097151) (ha2 : 0 ≤ a2 ∧ a2 ≤ 2097151) (ha3 : 0 ≤ a3 ∧ a3 ≤ 2097151) (ha4 : 0 ≤ a4 ∧ a4 ≤ 2097151) (ha5 : 0 ≤ a5 ∧ a5 ≤ 2097151) (ha6 : 0 ≤ a6 ∧ a6 ≤ 2097151) (hb0 : 0 ≤ b0 ∧ b0 ≤ 2097151) (hb1 : 0 ≤ b1 ∧ b1 ≤ 2097151) (hb2 : 0 ≤ b2 ∧ b2 ≤ 2097151) (hb3 : 0 ≤ b3 ∧ b3 ≤ 2097151) (hb4 : 0 ≤ b4 ∧ b4 ≤ 2097151) (hb5 : 0 ≤ b5 ∧ b5 ≤ 2097151) (hb6 : 0 ≤ b6 ∧ b6 ≤ 2097151) (hc6 : 0 ≤ c6 ∧ c6 ≤ 2097151) : 0 ≤ c6 + a0 * b6 + a1 * b5 + a2 * b4 + a3 * b3 + a4 * b2 + a5 * b1 + a6 * b0 ∧ c6 + a0 * b6 + a1 * b5 + a2 * b4 + a3 * b3 + a4 * b2 + a5 * b1 + a6 * b0 ≤ 2 ^ 53 := by
  have p0 := mul_nonneg ha0.1 hb6.1
  have q0 := mul_le_mul ha0.2 hb6.2 hb6.1 (by norm_num)
  have p1 := mul_nonneg ha1.1 hb5.1
  have q1 := mul_le_mul ha1.2 hb5.2 hb5.1 (by norm_num)
  have p2 := mul_nonneg ha2.1 hb4.1
  have q2 := mul_le_mul ha2.2 hb4.2 hb4.1 (by norm_num)
  have p3 := mul_nonneg ha3.1 hb3.1
  have q3 := mul_le_mul ha3.2 hb3.2 hb3.1 (by norm_num)
  have p4 := mul_nonneg ha4.1 hb2.1
  have q4 := mul_le_mul ha4.2 hb2.2 hb2.1 (by norm_num)
  have p5 := mul_nonneg ha5.1 hb1.1
  have q5 := mul_le_mul ha5.2 hb1.2 hb1.1 (by norm_num)
  have p6 := mul_nonneg ha6.1 hb0.1
  have q6 := mul_le_mul ha6.2 hb0.2 hb0.1 (by norm_num)
  norm_num at *
  constructor <;> linarith

theorem row7 {a0 a1 a2 a3 a4 a5 a6 a7 b0 b1 b2 b3 b4 b5 b6 b7 c7 : Int} (ha0 : 0 ≤ a0 ∧ a0 ≤ 2097151) (ha1 : 0 ≤ a1 ∧ a1 ≤ 2097151) (ha2 : 0 ≤ a2 ∧ a2 ≤ 2097151) (ha3 : 0 ≤ a3 ∧ a3 ≤ 2097151) (ha4 : 0 ≤ a4 ∧ a4 ≤ 2097151) (ha5 : 0 ≤ a5 ∧ a5 ≤ 2097151) (ha6 : 0 ≤ a6 ∧ a6 ≤ 2097151) (ha7 : 0 ≤ a7 ∧ a7 ≤ 2097151) (hb0 : 0 ≤ b0 ∧ b0 ≤ 2097151) (hb1 : 0 ≤ b1 ∧ b1 ≤ 2097151) (hb2 : 0 ≤ b2 ∧ b2 ≤ 2097151) (hb3 : 0 ≤ b3 ∧ b3 ≤ 2097151) (hb4 : 0 ≤ b4 ∧ b4 ≤ 2097151) (hb5 : 0 ≤ b5 ∧ b5 ≤ 2097151) (hb6 : 0 ≤ b6 ∧ b6 ≤ 2097151) (hb7 : 0 ≤ b7 ∧ b7 ≤ 2097151) (hc7 : 0 ≤ c7 ∧ c7 ≤ 2097151) : 0 ≤ c7 + a0 * b7 + a1 * b6 + a2 * b5 + a3 * b4 + a4 * b3 + a5 * b2 + a6 * b1 + a7 * b0 ∧ c7 + a0 * b7 + a1 * b6 + a2 * b5 + a3 * b4 + a4 * b3 + a5 * b2 + a6 * b1 + a7 * b0 ≤ 2 ^ 53 := by
  have p0 := mul_nonneg ha0.1 hb7.1
  have q0 := mul_le_mul ha0.2 hb7.2 hb7.1 (by norm_num)
  have p1 := mul_nonneg ha1.1 hb6.1
  have q1 := mul_le_mul ha1.2 hb6.2 hb6.1 (by norm_num)
  have p2 := mul_nonneg ha2.1 hb5.1
  have q2 := mul_le_mul ha2.2 hb5.2 hb5.1 (by norm_num)
  have p3 := mul_nonneg ha3.1 hb4.1
  have q3 := mul_le_mul ha3.2 hb4.2 hb4.1 (by norm_num)
  have p4 := mul_nonneg ha4.1 hb3.1
  have q4 := mul_le_mul ha4.2 hb3.2 hb3.1 (by norm_num)
  have p5 := mul_nonneg ha5.1 hb2.1
  have q5 := mul_le_mul ha5.2 hb2.2 hb2.1 (by norm_num)
  have p6 := mul_nonneg ha6.1 hb1.1
  have q6 := mul_le_mul ha6.2 hb1.2 hb1.1 (by norm_num)
  have p7 := mul_nonneg ha7.1 hb0.1
  have q7 := mul_le_mul ha7.2 hb0.2 hb0.1 (by norm_num)
  norm_num at *
  constructor <;> linarith

theorem row8 {a0 a1 a2 a3 a4 a5 a6 a7 a8 b0 b1 b2 b3 b4 b5 b6 b7 b8 c8 : Int} (ha0 : 0 ≤ a0 ∧ a0 ≤ 2097151) (ha1 : 0 ≤ a1 ∧ a1 ≤ 2097151) (ha2 : 0 ≤ a2 ∧ a2 ≤ 2097151) (ha3 : 0 ≤ a3 ∧ a3 ≤ 2097151) (ha4 : 0 ≤ a4 ∧ a4 ≤ 2097151) (ha5 : 0 ≤ a5 ∧ a5 ≤ 2097151) (ha6 : 0 ≤ a6 ∧ a6 ≤ 2097151) (ha7 : 0 ≤ a7 ∧ a7 ≤ 2097151) (ha8 : 0 ≤ a8 ∧ a8 ≤ 2097151) (hb0 : 0 ≤ b0 ∧ b0 ≤ 2097151) (hb1 : 0 ≤ b1 ∧ b1 ≤ 2097151) (hb2 : 0 ≤ b2 ∧ b2 ≤ 2097151) (hb3 : 0 ≤ b3 ∧ b3 ≤ 2097151) (hb4 : 0 ≤ b4 ∧ b4 ≤ 2097151) (hb5 : 0 ≤ b5 ∧ b5 ≤ 2097151) (hb6 : 0 ≤ b6 ∧ b6 ≤ 2097151) (hb7 : 0 ≤ b7 ∧ b7 ≤ 2097151) (hb8 : 0 ≤ b8 ∧ b8 ≤ 2097151) (hc8 : 0 ≤ c8 ∧ c8 ≤ 2097151) : 0 ≤ c8 + a0 * b8 + a1 * b7 + a2 * b6 + a3 * b5 + a4 * b4 + a5 * b3 + a6 * b2 + a7 * b1 + a8 * b0 ∧ c8 + a0 * b8 + a1 * b7 + a2 * b6 + a3 * b5 + a4 * b4 + a5 * b3 + a6 * b2 + a7 * b1 + a8 * b0 ≤ 2 ^ 53 := by
  have p0 := mul_nonneg ha0.1 hb8.1
  have q0 := mul_le_mul ha0.2 hb8.2 hb8.1 (by norm_num)
  have p1 := mul_nonneg ha1.1 hb7.1
  have q1 := mul_le_mul ha1.2 hb7.2 hb7.1 (by norm_num)
  have p2 := mul_nonneg ha2.1 hb6.1
  have q2 := mul_le_mul ha2.2 hb6.2 hb6.1 (by norm_num)
  have p3 := mul_nonneg ha3.1 hb5.1
  have q3 := mul_le_mul ha3.2 hb5.2 hb5.1 (by norm_num)
  have p4 := mul_nonneg ha4.1 hb4.1
  have q4 := mul_le_mul ha4.2 hb4.2 hb4.1 (by norm_num)
  have p5 := mul_nonneg ha5.1 hb3.1
  have q5 := mul_le_mul ha5.2 hb3.2 hb3.1 (by norm_num)
  have p6 := mul_nonneg ha6.1 hb2.1
  have q6 := mul_le_mul ha6.2 hb2.2 hb2.1 (by norm_num)
  have p7 := mul_nonneg ha7.1 hb1.1
  have q7 := mul_le_mul ha7.2 hb1.2 hb1.1 (by norm_num)
  have p8 := mul_nonneg ha8.1 hb0.1
  have q8 := mul_le_mul ha8.2 hb0.2 hb0.1 (by norm_num)
  norm_num at *
  constructor <;> linarith

theorem row9 {a0 a1 a2 a3 a4 a5 a6 a7 a8 a9 b0 b1 b2 b3 b4 b5 b6 b7 b8 b9 c9 : Int} (ha0 : 0 ≤ a0 ∧ a0 ≤ 2097151) (ha1 : 0 ≤ a1 ∧ a1 ≤ 2097151) (ha2 : 0 ≤ a2 ∧ a2 ≤ 2097151) (ha3 : 0 ≤ a3 ∧ a3 ≤ 2097151) (ha4 : 0 ≤ a4 ∧ a4 ≤ 2097151) (ha5 : 0 ≤ a5 ∧ a5 ≤ 2097151) (ha6 : 0 ≤ a6 ∧ a6 ≤ 2097151) (ha7 : 0 ≤ a7 ∧ a7 ≤ 2097151) (ha8 : 0 ≤ a8 ∧ a8 ≤ 2097151) (ha9 : 0 ≤ a9 ∧ a9 ≤ 2097151) (hb0 : 0 ≤ b0 ∧ b0 ≤ 2097151) (hb1 : 0 ≤ b1 ∧ b1 ≤ 2097151) (hb2 : 0 ≤ b2 ∧ b2 ≤ 2097151) (hb3 : 0 ≤ b3 ∧ b3 ≤ 2097151) (hb4 : 0 ≤ b4 ∧ b4 ≤ 2097151) (hb5 : 0 ≤ b5 ∧ b5 ≤ 2097151) (hb6 : 0 ≤ b6 ∧ b6 ≤ 2097151) (hb7 : 0 ≤ b7 ∧ b7 ≤ 2097151) (hb8 : 0 ≤ b8 ∧ b8 ≤ 2097151) (hb9 : 0 ≤ b9 ∧ b9 ≤ 2097151) (hc9 : 0 ≤ c9 ∧ c9 ≤ 2097151) : 0 ≤ c9 + a0 * b9 + a1 * b8 + a2 * b7 + a3 * b6 + a4 * b5 + a5 * b4 + a6 * b3 + a7 * b2 + a8 * b1 + a9 * b0 ∧ c9 + a0 * b9 + a1 * b8 + a2 * b7 + a3 * b6 + a4 * b5 + a5 * b4 + a6 * b3 + a7 * b2 + a8 * b1 + a9 * b0 ≤ 2 ^ 53 := by
  have p0 := mul_nonneg ha0.1 hb9.1
  have q0 := mul_le_mul ha0.2 hb9.2 hb9.1 (by norm_num)
  have p1 := mul_nonneg ha1.1 hb8.1
  have q1 := mul_le_mul ha1.2 hb8.2 hb8.1 (by norm_num)
  have p2 := mul_nonneg ha2.1 hb7.1
  have q2 := mul_le_mul ha2.2 hb7.2 hb7.1 (by norm_num)
  have p3 := mul_nonneg ha3.1 hb6.1
  have q3 := mul_le_mul ha3.2 hb6.2 hb6.1 (by norm_num)
  have p4 := mul_nonneg ha4.1 hb5.1
  have q4 := mul_le_mul ha4.2 hb5.2 hb5.1 (by norm_num)
  have p5 := mul_nonneg ha5.1 hb4.1
  have q5 := mul_le_mul ha5.2 hb4.2 hb4.1 (by norm_num)
  have p6 := mul_nonneg ha6.1 hb3.1
  have q6 := mul_le_mul ha6.2 hb3.2 hb3.1 (by norm_num)
  have p7 := mul_nonneg ha7.1 hb2.1
  have q7 := mul_le_mul ha7.2 hb2.2 hb2.1 (by norm_num)
  have p8 := mul_nonneg ha8.1 hb1.1
  have q8 := mul_le_mul ha8.2 hb1.2 hb1.1 (by norm_num)
  have p9 := mul_nonneg ha9.1 hb0.1
  have q9 := mul_le_mul ha9.2 hb0.2 hb0.1 (by norm_num)
  norm_num at *
  constructor <;> linarith

theorem row10 {a0 a1 a10 a2 a3 a4 a5 a6 a7 a8 a9 b0 b1 b10 b2 b3 b4 b5 b6 b7 b8 b9 c10 : Int} (ha0 : 0 ≤ a0 ∧ a0 ≤ 2097151) (ha1 : 0 ≤ a1 ∧ a1 ≤ 2097151) (ha10 : 0 ≤ a10 ∧ a10 ≤ 2097151) (ha2 : 0 ≤ a2 ∧ a2 ≤ 2097151) (ha3 : 0 ≤ a3 ∧ a3 ≤ 2097151) (ha4 : 0 ≤ a4 ∧ a4 ≤ 2097151) (ha5 : 0 ≤ a5 ∧ a5 ≤ 2097151) (ha6 : 0 ≤ a6 ∧ a6 ≤ 2097151) (ha7 : 0 ≤ a7 ∧ a7 ≤ 2097151) (ha8 : 0 ≤ a8 ∧ a8 ≤ 2097151) (ha9 : 0 ≤ a9 ∧ a9 ≤ 2097151) (hb0 : 0 ≤ b0 ∧ b0 ≤ 2097151) (hb1 : 0 ≤ b1 ∧ b1 ≤ 2097151) (hb10 : 0 ≤ b10 ∧ b10 ≤ 2097151) (hb2 : 0 ≤ b2 ∧ b2 ≤ 2097151) (hb3 : 0 ≤ b3 ∧ b3 ≤ 2097151) (hb4 : 0 ≤ b4 ∧ b4 ≤ 2097151) (hb5 : 0 ≤ b5 ∧ b5 ≤ 2097151) (hb6 : 0 ≤ b6 ∧ b6 ≤ 2097151) (hb7 : 0 ≤ b7 ∧ b7 ≤ 2097151) (hb8 : 0 ≤ b8 ∧ b8 ≤ 2097151) (hb9 : 0 ≤ b9 ∧ b9 ≤ 2097151) (hc10 : 0 ≤ c10 ∧ c10 ≤ 2097151) : 0 ≤ c10 + a0 * b10 + a1 * b9 + a2 * b8 + a3 * b7 + a4 * b6 + a5 * b5 + a6 * b4 + a7 * b3 + a8 * b2 + a9 * b1 + a10 * b0 ∧ c10 + a0 * b10 + a1 * b9 + a2 * b8 + a3 * b7 + a4 * b6 + a5 * b5 + a6 * b4 + a7 * b3 + a8 * b2 + a9 * b1 + a10 * b0 ≤ 2 ^ 53 := by
  have p0 := mul_nonneg ha0.1 hb10.1
  have q0 := mul_le_mul ha0.2 hb10.2 hb10.1 (by norm_num)
  have p1 := mul_nonneg ha1.1 hb9.1
  have q1 := mul_le_mul ha1.2 hb9.2 hb9.1 (by norm_num)
  have p2 := mul_nonneg ha2.1 hb8.1
  have q2 := mul_le_mul ha2.2 hb8.2 hb8.1 (by norm_num)
  have p3 := mul_nonneg ha3.1 hb7.1
  have q3 := mul_le_mul ha3.2 hb7.2 hb7.1 (by norm_num)
  have p4 := mul_nonneg ha4.1 hb6.1
  have q4 := mul_le_mul ha4.2 hb6.2 hb6.1 (by norm_num)
  have p5 := mul_nonneg ha5.1 hb5.1
  have q5 := mul_le_mul ha5.2 hb5.2 hb5.1 (by norm_num)
  have p6 := mul_nonneg ha6.1 hb4.1
  have q6 := mul_le_mul ha6.2 hb4.2 hb4.1 (by norm_num)
  have p7 := mul_nonneg ha7.1 hb3.1
  have q7 := mul_le_mul ha7.2 hb3.2 hb3.1 (by norm_num)
  have p8 := mul_nonneg ha8.1 hb2.1
  have q8 := mul_le_mul ha8.2 hb2.2 hb2.1 (by norm_num)
  have p9 := mul_nonneg ha9.1 hb1.1
  have q9 := mul_le_mul ha9.2 hb1.2 hb1.1 (by norm_num)
  have p10 := mul_nonneg ha10.1 hb0.1
  have q10 := mul_le_mul ha10.2 hb0.2 hb0.1 (by norm_num)
  norm_num at *
  constructor <;> linarith

theorem row11 {a0 a1 a10 a11 a2 a3 a4 a5 a6 a7 a8 a9 b0 b1 b10 b11 b2 b3 b4 b5 b6 b7 b8 b9 c11 : Int} (ha0 : 0 ≤ a0 ∧ a0 ≤ 2097151) (ha1 : 0 ≤ a1 ∧ a1 ≤ 2097151) (ha10 : 0 ≤ a10 ∧ a10 ≤ 2097151) (ha11 : 0 ≤ a11 ∧ a11 ≤ 33554431) (ha2 : 0 ≤ a2 ∧ a2 ≤ 2097151) (ha3 : 0 ≤ a3 ∧ a3 ≤ 2097151) (ha4 : 0 ≤ a4 ∧ a4 ≤ 2097151) (ha5 : 0 ≤ a5 ∧ a5 ≤ 2097151) (ha6 : 0 ≤ a6 ∧ a6 ≤ 2097151) (ha7 : 0 ≤ a7 ∧ a7 ≤ 2097151) (ha8 : 0 ≤ a8 ∧ a8 ≤ 2097151) (ha9 : 0 ≤ a9 ∧ a9 ≤ 2097151) (hb0 : 0 ≤ b0 ∧ b0 ≤ 2097151) (hb1 : 0 ≤ b1 ∧ b1 ≤ 2097151) (hb10 : 0 ≤ b10 ∧ b10 ≤ 2097151) (hb11 : 0 ≤ b11 ∧ b11 ≤ 33554431) (hb2 : 0 ≤ b2 ∧ b2 ≤ 2097151) (hb3 : 0 ≤ b3 ∧ b3 ≤ 2097151) (hb4 : 0 ≤ b4 ∧ b4 ≤ 2097151) (hb5 : 0 ≤ b5 ∧ b5 ≤ 2097151) (hb6 : 0 ≤ b6 ∧ b6 ≤ 2097151) (hb7 : 0 ≤ b7 ∧ b7 ≤ 2097151) (hb8 : 0 ≤ b8 ∧ b8 ≤ 2097151) (hb9 : 0 ≤ b9 ∧ b9 ≤ 2097151) (hc11 : 0 ≤ c11 ∧ c11 ≤ 33554431) : 0 ≤ c11 + a0 * b11 + a1 * b10 + a2 * b9 + a3 * b8 + a4 * b7 + a5 * b6 + a6 * b5 + a7 * b4 + a8 * b3 + a9 * b2 + a10 * b1 + a11 * b0 ∧ c11 + a0 * b11 + a1 * b10 + a2 * b9 + a3 * b8 + a4 * b7 + a5 * b6 + a6 * b5 + a7 * b4 + a8 * b3 + a9 * b2 + a10 * b1 + a11 * b0 ≤ 2 ^ 53 := by
  have p0 := mul_nonneg ha0.1 hb11.1
  have q0 := mul_le_mul ha0.2 hb11.2 hb11.1 (by norm_num)
  have p1 := mul_nonneg ha1.1 hb10.1
  have q1 := mul_le_mul ha1.2 hb10.2 hb10.1 (by norm_num)
  have p2 := mul_nonneg ha2.1 hb9.1
  have q2 := mul_le_mul ha2.2 hb9.2 hb9.1 (by norm_num)
  have p3 := mul_nonneg ha3.1 hb8.1
  have q3 := mul_le_mul ha3.2 hb8.2 hb8.1 (by norm_num)
  have p4 := mul_nonneg ha4.1 hb7.1
  have q4 := mul_le_mul ha4.2 hb7.2 hb7.1 (by norm_num)
  have p5 := mul_nonneg ha5.1 hb6.1
  have q5 := mul_le_mul ha5.2 hb6.2 hb6.1 (by norm_num)
  have p6 := mul_nonneg ha6.1 hb5.1
  have q6 := mul_le_mul ha6.2 hb5.2 hb5.1 (by norm_num)
  have p7 := mul_nonneg ha7.1 hb4.1
  have q7 := mul_le_mul ha7.2 hb4.2 hb4.1 (by norm_num)
  have p8 := mul_nonneg ha8.1 hb3.1
  have q8 := mul_le_mul ha8.2 hb3.2 hb3.1 (by norm_num)
  have p9 := mul_nonneg ha9.1 hb2.1
  have q9 := mul_le_mul ha9.2 hb2.2 hb2.1 (by norm_num)
  have p10 := mul_nonneg ha10.1 hb1.1
  have q10 := mul_le_mul ha10.2 hb1.2 hb1.1 (by norm_num)
  have p11 := mul_nonneg ha11.1 hb0.1
  have q11 := mul_le_mul ha11.2 hb0.2 hb0.1 (by norm_num)
  norm_num at *
  constructor <;> linarith

theorem row12 {a1 a10 a11 a2 a3 a4 a5 a6 a7 a8 a9 b1 b10 b11 b2 b3 b4 b5 b6 b7 b8 b9 : Int} (ha1 : 0 ≤ a1 ∧ a1 ≤ 2097151) (ha10 : 0 ≤ a10 ∧ a10 ≤ 2097151) (ha11 : 0 ≤ a11 ∧ a11 ≤ 33554431) (ha2 : 0 ≤ a2 ∧ a2 ≤ 2097151) (ha3 : 0 ≤ a3 ∧ a3 ≤ 2097151) (ha4 : 0 ≤ a4 ∧ a4 ≤ 2097151) (ha5 : 0 ≤ a5 ∧ a5 ≤ 2097151) (ha6 : 0 ≤ a6 ∧ a6 ≤ 2097151) (ha7 : 0 ≤ a7 ∧ a7 ≤ 2097151) (ha8 : 0 ≤ a8 ∧ a8 ≤ 2097151) (ha9 : 0 ≤ a9 ∧ a9 ≤ 2097151) (hb1 : 0 ≤ b1 ∧ b1 ≤ 2097151) (hb10 : 0 ≤ b10 ∧ b10 ≤ 2097151) (hb11 : 0 ≤ b11 ∧ b11 ≤ 33554431) (hb2 : 0 ≤ b2 ∧ b2 ≤ 2097151) (hb3 : 0 ≤ b3 ∧ b3 ≤ 2097151) (hb4 : 0 ≤ b4 ∧ b4 ≤ 2097151) (hb5 : 0 ≤ b5 ∧ b5 ≤ 2097151) (hb6 : 0 ≤ b6 ∧ b6 ≤ 2097151) (hb7 : 0 ≤ b7 ∧ b7 ≤ 2097151) (hb8 : 0 ≤ b8 ∧ b8 ≤ 2097151) (hb9 : 0 ≤ b9 ∧ b9 ≤ 2097151) : 0 ≤ a1 * b11 + a2 * b10 + a3 * b9 + a4 * b8 + a5 * b7 + a6 * b6 + a7 * b5 + a8 * b4 + a9 * b3 + a10 * b2 + a11 * b1 ∧ a1 * b11 + a2 * b10 + a3 * b9 + a4 * b8 + a5 * b7 + a6 * b6 + a7 * b5 + a8 * b4 + a9 * b3 + a10 * b2 + a11 * b1 ≤ 2 ^ 53 := by
  have p1 := mul_nonneg ha1.1 hb11.1
  have q1 := mul_le_mul ha1.2 hb11.2 hb11.1 (by norm_num)
  have p2 := mul_nonneg ha2.1 hb10.1
  have q2 := mul_le_mul ha2.2 hb10.2 hb10.1 (by norm_num)
  have p3 := mul_nonneg ha3.1 hb9.1
  have q3 := mul_le_mul ha3.2 hb9.2 hb9.1 (by norm_num)
  have p4 := mul_nonneg ha4.1 hb8.1
  have q4 := mul_le_mul ha4.2 hb8.2 hb8.1 (by norm_num)
  have p5 := mul_nonneg ha5.1 hb7.1
  have q5 := mul_le_mul ha5.2 hb7.2 hb7.1 (by norm_num)
  have p6 := mul_nonneg ha6.1 hb6.1
  have q6 := mul_le_mul ha6.2 hb6.2 hb6.1 (by norm_num)
  have p7 := mul_nonneg ha7.1 hb5.1
  have q7 := mul_le_mul ha7.2 hb5.2 hb5.1 (by norm_num)
  have p8 := mul_nonneg ha8.1 hb4.1
  have q8 := mul_le_mul ha8.2 hb4.2 hb4.1 (by norm_num)
  have p9 := mul_nonneg ha9.1 hb3.1
  have q9 := mul_le_mul ha9.2 hb3.2 hb3.1 (by norm_num)
  have p10 := mul_nonneg ha10.1 hb2.1
  have q10 := mul_le_mul ha10.2 hb2.2 hb2.1 (by norm_num)
  have p11 := mul_nonneg ha11.1 hb1.1
  have q11 := mul_le_mul ha11.2 hb1.2 hb1.1 (by norm_num)
  norm_num at *
  constructor <;> linarith

theorem row13 {a10 a11 a2 a3 a4 a5 a6 a7 a8 a9 b10 b11 b2 b3 b4 b5 b6 b7 b8 b9 : Int} (ha10 : 0 ≤ a10 ∧ a10 ≤ 2097151) (ha11 : 0 ≤ a11 ∧ a11 ≤ 33554431) (ha2 : 0 ≤ a2 ∧ a2 ≤ 2097151) (ha3 : 0 ≤ a3 ∧ a3 ≤ 2097151) (ha4 : 0 ≤ a4 ∧ a4 ≤ 2097151) (ha5 : 0 ≤ a5 ∧ a5 ≤ 2097151) (ha6 : 0 ≤ a6 ∧ a6 ≤ 2097151) (ha7 : 0 ≤ a7 ∧ a7 ≤ 2097151) (ha8 : 0 ≤ a8 ∧ a8 ≤ 2097151) (ha9 : 0 ≤ a9 ∧ a9 ≤ 2097151) (hb10 : 0 ≤ b10 ∧ b10 ≤ 2097151) (hb11 : 0 ≤ b11 ∧ b11 ≤ 33554431) (hb2 : 0 ≤ b2 ∧ b2 ≤ 2097151) (hb3 : 0 ≤ b3 ∧ b3 ≤ 2097151) (hb4 : 0 ≤ b4 ∧ b4 ≤ 2097151) (hb5 : 0 ≤ b5 ∧ b5 ≤ 2097151) (hb6 : 0 ≤ b6 ∧ b6 ≤ 2097151) (hb7 : 0 ≤ b7 ∧ b7 ≤ 2097151) (hb8 : 0 ≤ b8 ∧ b8 ≤ 2097151) (hb9 : 0 ≤ b9 ∧ b9 ≤ 2097151) : 0 ≤ a2 * b11 + a3 * b10 + a4 * b9 + a5 * b8 + a6 * b7 + a7 * b6 + a8 * b5 + a9 * b4 + a10 * b3 + a11 * b2 ∧ a2 * b11 + a3 * b10 + a4 * b9 + a5 * b8 + a6 * b7 + a7 * b6 + a8 * b5 + a9 * b4 + a10 * b3 + a11 * b2 ≤ 2 ^ 53 := by
  have p2 := mul_nonneg ha2.1 hb11.1
  have q2 := mul_le_mul ha2.2 hb11.2 hb11.1 (by norm_num)
  have p3 := mul_nonneg ha3.1 hb10.1
  have q3 := mul_le_mul ha3.2 hb10.2 hb10.1 (by norm_num)
  have p4 := mul_nonneg ha4.1 hb9.1
  have q4 := mul_le_mul ha4.2 hb9.2 hb9.1 (by norm_num)
  have p5 := mul_nonneg ha5.1 hb8.1
  have q5 := mul_le_mul ha5.2 hb8.2 hb8.1 (by norm_num)
  have p6 := mul_nonneg ha6.1 hb7.1
  have q6 := mul_le_mul ha6.2 hb7.2 hb7.1 (by norm_num)
  have p7 := mul_nonneg ha7.1 hb6.1
  have q7 := mul_le_mul ha7.2 hb6.2 hb6.1 (by norm_num)
  have p8 := mul_nonneg ha8.1 hb5.1
  have q8 := mul_le_mul ha8.2 hb5.2 hb5.1 (by norm_num)
  have p9 := mul_nonneg ha9.1 hb4.1
  have q9 := mul_le_mul ha9.2 hb4.2 hb4.1 (by norm_num)
  have p10 := mul_nonneg ha10.1 hb3.1
  have q10 := mul_le_mul ha10.2 hb3.2 hb3.1 (by norm_num)
  have p11 := mul_nonneg ha11.1 hb2.1
  have q11 := mul_le_mul ha11.2 hb2.2 hb2.1 (by norm_num)
  norm_num at *
  constructor <;> linarith

theorem row14 {a10 a11 a3 a4 a5 a6 a7 a8 a9 b10 b11 b3 b4 b5 b6 b7 b8 b9 : Int} (ha10 : 0 ≤ a10 ∧ a10 ≤ 2097151) (ha11 : 0 ≤ a11 ∧ a11 ≤ 33554431) (ha3 : 0 ≤ a3 ∧ a3 ≤ 2097151) (ha4 : 0 ≤ a4 ∧ a4 ≤ 2097151) (ha5 : 0 ≤ a5 ∧ a5 ≤ 2097151) (ha6 : 0 ≤ a6 ∧ a6 ≤ 2097151) (ha7 : 0 ≤ a7 ∧ a7 ≤ 2097151) (ha8 : 0 ≤ a8 ∧ a8 ≤ 2097151) (ha9 : 0 ≤ a9 ∧ a9 ≤ 2097151) (hb10 : 0 ≤ b10 ∧ b10 ≤ 2097151) (hb11 : 0 ≤ b11 ∧ b11 ≤ 33554431) (hb3 : 0 ≤ b3 ∧ b3 ≤ 2097151) (hb4 : 0 ≤ b4 ∧ b4 ≤ 2097151) (hb5 : 0 ≤ b5 ∧ b5 ≤ 2097151) (hb6 : 0 ≤ b6 ∧ b6 ≤ 2097151) (hb7 : 0 ≤ b7 ∧ b7 ≤ 2097151) (hb8 : 0 ≤ b8 ∧ b8 ≤ 2097151) (hb9 : 0 ≤ b9 ∧ b9 ≤ 2097151) : 0 ≤ a3 * b11 + a4 * b10 + a5 * b9 + a6 * b8 + a7 * b7 + a8 * b6 + a9 * b5 + a10 * b4 + a11 * b3 ∧ a3 * b11 + a4 * b10 + a5 * b9 + a6 * b8 + a7 * b7 + a8 * b6 + a9 * b5 + a10 * b4 + a11 * b3 ≤ 2 ^ 53 := by
  have p3 := mul_nonneg ha3.1 hb11.1
  have q3 := mul_le_mul ha3.2 hb11.2 hb11.1 (by norm_num)
  have p4 := mul_nonneg ha4.1 hb10.1
  have q4 := mul_le_mul ha4.2 hb10.2 hb10.1 (by norm_num)
  have p5 := mul_nonneg ha5.1 hb9.1
  have q5 := mul_le_mul ha5.2 hb9.2 hb9.1 (by norm_num)
  have p6 := mul_nonneg ha6.1 hb8.1
  have q6 := mul_le_mul ha6.2 hb8.2 hb8.1 (by norm_num)
  have p7 := mul_nonneg ha7.1 hb7.1
  have q7 := mul_le_mul ha7.2 hb7.2 hb7.1 (by norm_num)
  have p8 := mul_nonneg ha8.1 hb6.1
  have q8 := mul_le_mul ha8.2 hb6.2 hb6.1 (by norm_num)
  have p9 := mul_nonneg ha9.1 hb5.1
  have q9 := mul_le_mul ha9.2 hb5.2 hb5.1 (by norm_num)
  have p10 := mul_nonneg ha10.1 hb4.1
  have q10 := mul_le_mul ha10.2 hb4.2 hb4.1 (by norm_num)
  have p11 := mul_nonneg ha11.1 hb3.1
  have q11 := mul_le_mul ha11.2 hb3.2 hb3.1 (by norm_num)
  norm_num at *
  constructor <;> linarith

theorem row15 {a10 a11 a4 a5 a6 a7 a8 a9 b10 b11 b4 b5 b6 b7 b8 b9 : Int} (ha10 : 0 ≤ a10 ∧ a10 ≤ 2097151) (ha11 : 0 ≤ a11 ∧ a11 ≤ 33554431) (ha4 : 0 ≤ a4 ∧ a4 ≤ 2097151) (ha5 : 0 ≤ a5 ∧ a5 ≤ 2097151) (ha6 : 0 ≤ a6 ∧ a6 ≤ 2097151) (ha7 : 0 ≤ a7 ∧ a7 ≤ 2097151) (ha8 : 0 ≤ a8 ∧ a8 ≤ 2097151) (ha9 : 0 ≤ a9 ∧ a9 ≤ 2097151) (hb10 : 0 ≤ b10 ∧ b10 ≤ 2097151) (hb11 : 0 ≤ b11 ∧ b11 ≤ 33554431) (hb4 : 0 ≤ b4 ∧ b4 ≤ 2097151) (hb5 : 0 ≤ b5 ∧ b5 ≤ 2097151) (hb6 : 0 ≤ b6 ∧ b6 ≤ 2097151) (hb7 : 0 ≤ b7 ∧ b7 ≤ 2097151) (hb8 : 0 ≤ b8 ∧ b8 ≤ 2097151) (hb9 : 0 ≤ b9 ∧ b9 ≤ 2097151) : 0 ≤ a4 * b11 + a5 * b10 + a6 * b9 + a7 * b8 + a8 * b7 + a9 * b6 + a10 * b5 + a11 * b4 ∧ a4 * b11 + a5 * b10 + a6 * b9 + a7 * b8 + a8 * b7 + a9 * b6 + a10 * b5 + a11 * b4 ≤ 2 ^ 53 := by
  have p4 := mul_nonneg ha4.1 hb11.1
  have q4 := mul_le_mul ha4.2 hb11.2 hb11.1 (by norm_num)
  have p5 := mul_nonneg ha5.1 hb10.1
  have q5 := mul_le_mul ha5.2 hb10.2 hb10.1 (by norm_num)
  have p6 := mul_nonneg ha6.1 hb9.1
  have q6 := mul_le_mul ha6.2 hb9.2 hb9.1 (by norm_num)
  have p7 := mul_nonneg ha7.1 hb8.1
  have q7 := mul_le_mul ha7.2 hb8.2 hb8.1 (by norm_num)
  have p8 := mul_nonneg ha8.1 hb7.1
  have q8 := mul_le_mul ha8.2 hb7.2 hb7.1 (by norm_num)
  have p9 := mul_nonneg ha9.1 hb6.1
  have q9 := mul_le_mul ha9.2 hb6.2 hb6.1 (by norm_num)
  have p10 := mul_nonneg ha10.1 hb5.1
  have q10 := mul_le_mul ha10.2 hb5.2 hb5.1 (by norm_num)
  have p11 := mul_nonneg ha11.1 hb4.1
  have q11 := mul_le_mul ha11.2 hb4.2 hb4.1 (by norm_num)
  norm_num at *
  constructor <;> linarith

theorem row16 {a10 a11 a5 a6 a7 a8 a9 b10 b11 b5 b6 b7 b8 b9 : Int} (ha10 : 0 ≤ a10 ∧ a10 ≤ 2097151) (ha11 : 0 ≤ a11 ∧ a11 ≤ 33554431) (ha5 : 0 ≤ a5 ∧ a5 ≤ 2097151) (ha6 : 0 ≤ a6 ∧ a6 ≤ 2097151) (ha7 : 0 ≤ a7 ∧ a7 ≤ 2097151) (ha8 : 0 ≤ a8 ∧ a8 ≤ 2097151) (ha9 : 0 ≤ a9 ∧ a9 ≤ 2097151) (hb10 : 0 ≤ b10 ∧ b10 ≤ 2097151) (hb11 : 0 ≤ b11 ∧ b11 ≤ 33554431) (hb5 : 0 ≤ b5 ∧ b5 ≤ 2097151) (hb6 : 0 ≤ b6 ∧ b6 ≤ 2097151) (hb7 : 0 ≤ b7 ∧ b7 ≤ 2097151) (hb8 : 0 ≤ b8 ∧ b8 ≤ 2097151) (hb9 : 0 ≤ b9 ∧ b9 ≤ 2097151) : 0 ≤ a5 * b11 + a6 * b10 + a7 * b9 + a8 * b8 + a9 * b7 + a10 * b6 + a11 * b5 ∧ a5 * b11 + a6 * b10 + a7 * b9 + a8 * b8 + a9 * b7 + a10 * b6 + a11 * b5 ≤ 2 ^ 53 := by
  have p5 := mul_nonneg ha5.1 hb11.1
  have q5 := mul_le_mul ha5.2 hb11.2 hb11.1 (by norm_num)
  have p6 := mul_nonneg ha6.1 hb10.1
  have q6 := mul_le_mul ha6.2 hb10.2 hb10.1 (by norm_num)
  have p7 := mul_nonneg ha7.1 hb9.1
  have q7 := mul_le_mul ha7.2 hb9.2 hb9.1 (by norm_num)
  have p8 := mul_nonneg ha8.1 hb8.1
  have q8 := mul_le_mul ha8.2 hb8.2 hb8.1 (by norm_num)
  have p9 := mul_nonneg ha9.1 hb7.1
  have q9 := mul_le_mul ha9.2 hb7.2 hb7.1 (by norm_num)
  have p10 := mul_nonneg ha10.1 hb6.1
  have q10 := mul_le_mul ha10.2 hb6.2 hb6.1 (by norm_num)
  have p11 := mul_nonneg ha11.1 hb5.1
  have q11 := mul_le_mul ha11.2 hb5.2 hb5.1 (by norm_num)
  norm_num at *
  constructor <;> linarith

theorem row17 {a10 a11 a6 a7 a8 a9 b10 b11 b6 b7 b8 b9 : Int} (ha10 : 0 ≤ a10 ∧ a10 ≤ 2097151) (ha11 : 0 ≤ a11 ∧ a11 ≤ 33554431) (ha6 : 0 ≤ a6 ∧ a6 ≤ 2097151) (ha7 : 0 ≤ a7 ∧ a7 ≤ 2097151) (ha8 : 0 ≤ a8 ∧ a8 ≤ 2097151) (ha9 : 0 ≤ a9 ∧ a9 ≤ 2097151) (hb10 : 0 ≤ b10 ∧ b10 ≤ 2097151) (hb11 : 0 ≤ b11 ∧ b11 ≤ 33554431) (hb6 : 0 ≤ b6 ∧ b6 ≤ 2097151) (hb7 : 0 ≤ b7 ∧ b7 ≤ 2097151) (hb8 : 0 ≤ b8 ∧ b8 ≤ 2097151) (hb9 : 0 ≤ b9 ∧ b9 ≤ 2097151) : 0 ≤ a6 * b11 + a7 * b10 + a8 * b9 + a9 * b8 + a10 * b7 + a11 * b6 ∧ a6 * b11 + a7 * b10 + a8 * b9 + a9 * b8 + a10 * b7 + a11 * b6 ≤ 2 ^ 53 := by
  have p6 := mul_nonneg ha6.1 hb11.1
  have q6 := mul_le_mul ha6.2 hb11.2 hb11.1 (by norm_num)
  have p7 := mul_nonneg ha7.1 hb10.1
  have q7 := mul_le_mul ha7.2 hb10.2 hb10.1 (by norm_num)
  have p8 := mul_nonneg ha8.1 hb9.1
  have q8 := mul_le_mul ha8.2 hb9.2 hb9.1 (by norm_num)
  have p9 := mul_nonneg ha9.1 hb8.1
  have q9 := mul_le_mul ha9.2 hb8.2 hb8.1 (by norm_num)
  have p10 := mul_nonneg ha10.1 hb7.1
  have q10 := mul_le_mul ha10.2 hb7.2 hb7.1 (by norm_num)
  have p11 := mul_nonneg ha11.1 hb6.1
  have q11 := mul_le_mul ha11.2 hb6.2 hb6.1 (by norm_num)
  norm_num at *
  constructor <;> linarith

theorem row18 {a10 a11 a7 a8 a9 b10 b11 b7 b8 b9 : Int} (ha10 : 0 ≤ a10 ∧ a10 ≤ 2097151) (ha11 : 0 ≤ a11 ∧ a11 ≤ 33554431) (ha7 : 0 ≤ a7 ∧ a7 ≤ 2097151) (ha8 : 0 ≤ a8 ∧ a8 ≤ 2097151) (ha9 : 0 ≤ a9 ∧ a9 ≤ 2097151) (hb10 : 0 ≤ b10 ∧ b10 ≤ 2097151) (hb11 : 0 ≤ b11 ∧ b11 ≤ 33554431) (hb7 : 0 ≤ b7 ∧ b7 ≤ 2097151) (hb8 : 0 ≤ b8 ∧ b8 ≤ 2097151) (hb9 : 0 ≤ b9 ∧ b9 ≤ 2097151) : 0 ≤ a7 * b11 + a8 * b10 + a9 * b9 + a10 * b8 + a11 * b7 ∧ a7 * b11 + a8 * b10 + a9 * b9 + a10 * b8 + a11 * b7 ≤ 2 ^ 53 := by
  have p7 := mul_nonneg ha7.1 hb11.1
  have q7 := mul_le_mul ha7.2 hb11.2 hb11.1 (by norm_num)
  have p8 := mul_nonneg ha8.1 hb10.1
  have q8 := mul_le_mul ha8.2 hb10.2 hb10.1 (by norm_num)
  have p9 := mul_nonneg ha9.1 hb9.1
  have q9 := mul_le_mul ha9.2 hb9.2 hb9.1 (by norm_num)
  have p10 := mul_nonneg ha10.1 hb8.1
  have q10 := mul_le_mul ha10.2 hb8.2 hb8.1 (by norm_num)
  have p11 := mul_nonneg ha11.1 hb7.1
  have q11 := mul_le_mul ha11.2 hb7.2 hb7.1 (by norm_num)
  norm_num at *
  constructor <;> linarith

theorem row19 {a10 a11 a8 a9 b10 b11 b8 b9 : Int} (ha10 : 0 ≤ a10 ∧ a10 ≤ 2097151) (ha11 : 0 ≤ a11 ∧ a11 ≤ 33554431) (ha8 : 0 ≤ a8 ∧ a8 ≤ 2097151) (ha9 : 0 ≤ a9 ∧ a9 ≤ 2097151) (hb10 : 0 ≤ b10 ∧ b10 ≤ 2097151) (hb11 : 0 ≤ b11 ∧ b11 ≤ 33554431) (hb8 : 0 ≤ b8 ∧ b8 ≤ 2097151) (hb9 : 0 ≤ b9 ∧ b9 ≤ 2097151) : 0 ≤ a8 * b11 + a9 * b10 + a10 * b9 + a11 * b8 ∧ a8 * b11 + a9 * b10 + a10 * b9 + a11 * b8 ≤ 2 ^ 53 := by
  have p8 := mul_nonneg ha8.1 hb11.1
  have q8 := mul_le_mul ha8.2 hb11.2 hb11.1 (by norm_num)
  have p9 := mul_nonneg ha9.1 hb10.1
  have q9 := mul_le_mul ha9.2 hb10.2 hb10.1 (by norm_num)
  have p10 := mul_nonneg ha10.1 hb9.1
  have q10 := mul_le_mul ha10.2 hb9.2 hb9.1 (by norm_num)
  have p11 := mul_nonneg ha11.1 hb8.1
  have q11 := mul_le_mul ha11.2 hb8.2 hb8.1 (by norm_num)
  norm_num at *
  constructor <;> linarith

theorem row20 {a10 a11 a9 b10 b11 b9 : Int} (ha10 : 0 ≤ a10 ∧ a10 ≤ 2097151) (ha11 : 0 ≤ a11 ∧ a11 ≤ 33554431) (ha9 : 0 ≤ a9 ∧ a9 ≤ 2097151) (hb10 : 0 ≤ b10 ∧ b10 ≤ 2097151) (hb11 : 0 ≤ b11 ∧ b11 ≤ 33554431) (hb9 : 0 ≤ b9 ∧ b9 ≤ 2097151) : 0 ≤ a9 * b11 + a10 * b10 + a11 * b9 ∧ a9 * b11 + a10 * b10 + a11 * b9 ≤ 2 ^ 53 := by
  have p9 := mul_nonneg ha9.1 hb11.1
  have q9 := mul_le_mul ha9.2 hb11.2 hb11.1 (by norm_num)
  have p10 := mul_nonneg ha10.1 hb10.1
  have q10 := mul_le_mul ha10.2 hb10.2 hb10.1 (by norm_num)
  have p11 := mul_nonneg ha11.1 hb9.1
  have q11 := mul_le_mul ha11.2 hb9.2 hb9.1 (by norm_num)
  norm_num at *
  constructor <;> linarith

theorem row21 {a10 a11 b10 b11 : Int} (ha10 : 0 ≤ a10 ∧ a10 ≤ 2097151) (ha11 : 0 ≤ a11 ∧ a11 ≤ 33554431) (hb10 : 0 ≤ b10 ∧ b10 ≤ 2097151) (hb11 : 0 ≤ b11 ∧ b11 ≤ 33554431) : 0 ≤ a10 * b11 + a11 * b10 ∧ a10 * b11 + a11 * b10 ≤ 2 ^ 53 := by
  have p10 := mul_nonneg ha10.1 hb11.1
  have q10 := mul_le_mul ha10.2 hb11.2 hb11.1 (by norm_num)
  have p11 := mul_nonneg ha11.1 hb10.1
  have q11 := mul_le_mul ha11.2 hb10.2 hb10.1 (by norm_num)
  norm_num at *
  constructor <;> linarith

theorem row22 {a11 b11 : Int} (ha11 : 0 ≤ a11 ∧ a11 ≤ 33554431) (hb11 : 0 ≤ b11 ∧ b11 ≤ 33554431) : 0 ≤ a11 * b11 ∧ a11 * b11 ≤ 2 ^ 53 := by
  have p11 := mul_nonneg ha11.1 hb11.1
  have q11 := mul_le_mul ha11.2 hb11.2 hb11.1 (by norm_num)
  norm_num at *
  constructor <;> linarith

theorem lim12 {a : Bytes} (h : a.length = 32) : ∃ x0 x1 x2 x3 x4 x5 x6 x7 x8 x9 x10 x11 : Int,
    digits 11 (leNat a) = [x0, x1, x2, x3, x4, x5, x6, x7, x8, x9, x10, x11] ∧ (0 ≤ x0 ∧ x0 ≤ 2097151) ∧ (0 ≤ x1 ∧ x1 ≤ 2097151) ∧ (0 ≤ x2 ∧ x2 ≤ 2097151) ∧ (0 ≤ x3 ∧ x3 ≤ 2097151) ∧ (0 ≤ x4 ∧ x4 ≤ 2097151) ∧ (0 ≤ x5 ∧ x5 ≤ 2097151) ∧ (0 ≤ x6 ∧ x6 ≤ 2097151) ∧ (0 ≤ x7 ∧ x7 ≤ 2097151) ∧ (0 ≤ x8 ∧ x8 ≤ 2097151) ∧ (0 ≤ x9 ∧ x9 ≤ 2097151) ∧ (0 ≤ x10 ∧ x10 ≤ 2097151) ∧ (0 ≤ x11 ∧ x11 ≤ 33554431) := by
  have hN : leNat a < 256 ^ 32 := h ▸ leNat_lt a
  refine ⟨_, _, _, _, _, _, _, _, _, _, _, _, rfl, ⟨by omega, by omega⟩, ⟨by omega, by omega⟩, ⟨by omega, by omega⟩, ⟨by omega, by omega⟩, ⟨by omega, by omega⟩, ⟨by omega, by omega⟩, ⟨by omega, by omega⟩, ⟨by omega, by omega⟩, ⟨by omega, by omega⟩, ⟨by omega, by omega⟩, ⟨by omega, by omega⟩, ?_⟩
  have D : ∀ i j k : ℕ, i + j = k → (leNat a : Int) / 2 ^ i / 2 ^ j = (leNat a : Int) / 2 ^ k := by
    rintro i j k rfl; rw [Int.ediv_ediv_of_nonneg (by positivity), pow_add]
  rw [D 21 21 42 rfl, D 42 21 63 rfl, D 63 21 84 rfl, D 84 21 105 rfl, D 105 21 126 rfl, D 126 21 147 rfl, D 147 21 168 rfl, D 168 21 189 rfl, D 189 21 210 rfl, D 210 21 231 rfl]
  norm_num at hN ⊢
  omega

set_option maxHeartbeats 2000000 in
/-- `ScMulAdd` returns the canonical representative of `a * b + c` modulo the group order. -/
theorem scMulAdd_spec {a b c : Bytes} (ha : a.length = 32) (hb : b.length = 32) (hc : c.length = 32) :
    leNat (scMulAdd a b c) = (leNat a * leNat b + leNat c) % L := by
  obtain ⟨a0, a1, a2, a3, a4, a5, a6, a7, a8, a9, a10, a11, ea, ha0, ha1, ha2, ha3, ha4, ha5, ha6, ha7, ha8, ha9, ha10, ha11⟩ := lim12 ha
  have sa := sval_digits 11 (leNat a)
  have la := scalar_limbs ha
  rw [ea] at sa la
  simp only [List.cons.injEq, and_true] at la
  obtain ⟨la0, la1, la2, la3, la4, la5, la6, la7, la8, la9, la10, la11⟩ := la
  obtain ⟨b0, b1, b2, b3, b4, b5, b6, b7, b8, b9, b10, b11, eb, hb0, hb1, hb2, hb3, hb4, hb5, hb6, hb7, hb8, hb9, hb10, hb11⟩ := lim12 hb
  have sb := sval_digits 11 (leNat b)
  have lb := scalar_limbs hb
  rw [eb] at sb lb
  simp only [List.cons.injEq, and_true] at lb
  obtain ⟨lb0, lb1, lb2, lb3, lb4, lb5, lb6, lb7, lb8, lb9, lb10, lb11⟩ := lb
  obtain ⟨c0, c1, c2, c3, c4, c5, c6, c7, c8, c9, c10, c11, ec, hc0, hc1, hc2, hc3, hc4, hc5, hc6, hc7, hc8, hc9, hc10, hc11⟩ := lim12 hc
  have sc := sval_digits 11 (leNat c)
  have lc := scalar_limbs hc
  rw [ec] at sc lc
  simp only [List.cons.injEq, and_true] at lc
  obtain ⟨lc0, lc1, lc2, lc3, lc4, lc5, lc6, lc7, lc8, lc9, lc10, lc11⟩ := lc
  unfold scMulAdd
  dsimp only
  rw [la0, la1, la2, la3, la4, la5, la6, la7, la8, la9, la10, la11]
  clear la0 la1 la2 la3 la4 la5 la6 la7 la8 la9 la10 la11 ea
  rw [lb0, lb1, lb2, lb3, lb4, lb5, lb6, lb7, lb8, lb9, lb10, lb11]
  clear lb0 lb1 lb2 lb3 lb4 lb5 lb6 lb7 lb8 lb9 lb10 lb11 eb
  rw [lc0, lc1, lc2, lc3, lc4, lc5, lc6, lc7, lc8, lc9, lc10, lc11]
  clear lc0 lc1 lc2 lc3 lc4 lc5 lc6 lc7 lc8 lc9 lc10 lc11 ec
  have r0 := row0 ha0 hb0 hc0
  generalize t0 : c0 + a0 * b0 = s0 at *
  rw [i64_eq (x := s0) (by omega) (by omega)]
  have r1 := row1 ha0 ha1 hb0 hb1 hc1
  generalize t1 : c1 + a0 * b1 + a1 * b0 = s1 at *
  rw [i64_eq (x := s1) (by omega) (by omega)]
  have r2 := row2 ha0 ha1 ha2 hb0 hb1 hb2 hc2
  generalize t2 : c2 + a0 * b2 + a1 * b1 + a2 * b0 = s2 at *
  rw [i64_eq (x := s2) (by omega) (by omega)]
  have r3 := row3 ha0 ha1 ha2 ha3 hb0 hb1 hb2 hb3 hc3
  generalize t3 : c3 + a0 * b3 + a1 * b2 + a2 * b1 + a3 * b0 = s3 at *
  rw [i64_eq (x := s3) (by omega) (by omega)]
  have r4 := row4 ha0 ha1 ha2 ha3 ha4 hb0 hb1 hb2 hb3 hb4 hc4
  generalize t4 : c4 + a0 * b4 + a1 * b3 + a2 * b2 + a3 * b1 + a4 * b0 = s4 at *
  rw [i64_eq (x := s4) (by omega) (by omega)]
  have r5 := row5 ha0 ha1 ha2 ha3 ha4 ha5 hb0 hb1 hb2 hb3 hb4 hb5 hc5
  generalize t5 : c5 + a0 * b5 + a1 * b4 + a2 * b3 + a3 * b2 + a4 * b1 + a5 * b0 = s5 at *
  rw [i64_eq (x := s5) (by omega) (by omega)]
  have r6 := row6 ha0 ha1 ha2 ha3 ha4 ha5 ha6 hb0 hb1 hb2 hb3 hb4 hb5 hb6 hc6
  generalize t6 : c6 + a0 * b6 + a1 * b5 + a2 * b4 + a3 * b3 + a4 * b2 + a5 * b1 + a6 * b0 = s6 at *
  rw [i64_eq (x := s6) (by omega) (by omega)]
  have r7 := row7 ha0 ha1 ha2 ha3 ha4 ha5 ha6 ha7 hb0 hb1 hb2 hb3 hb4 hb5 hb6 hb7 hc7
  generalize t7 : c7 + a0 * b7 + a1 * b6 + a2 * b5 + a3 * b4 + a4 * b3 + a5 * b2 + a6 * b1 + a7 * b0 = s7 at *
  rw [i64_eq (x := s7) (by omega) (by omega)]
  have r8 := row8 ha0 ha1 ha2 ha3 ha4 ha5 ha6 ha7 ha8 hb0 hb1 hb2 hb3 hb4 hb5 hb6 hb7 hb8 hc8
  generalize t8 : c8 + a0 * b8 + a1 * b7 + a2 * b6 + a3 * b5 + a4 * b4 + a5 * b3 + a6 * b2 + a7 * b1 + a8 * b0 = s8 at *
  rw [i64_eq (x := s8) (by omega) (by omega)]
  have r9 := row9 ha0 ha1 ha2 ha3 ha4 ha5 ha6 ha7 ha8 ha9 hb0 hb1 hb2 hb3 hb4 hb5 hb6 hb7 hb8 hb9 hc9
  generalize t9 : c9 + a0 * b9 + a1 * b8 + a2 * b7 + a3 * b6 + a4 * b5 + a5 * b4 + a6 * b3 + a7 * b2 + a8 * b1 + a9 * b0 = s9 at *
  rw [i64_eq (x := s9) (by omega) (by omega)]
  have r10 := row10 ha0 ha1 ha10 ha2 ha3 ha4 ha5 ha6 ha7 ha8 ha9 hb0 hb1 hb10 hb2 hb3 hb4 hb5 hb6 hb7 hb8 hb9 hc10
  generalize t10 : c10 + a0 * b10 + a1 * b9 + a2 * b8 + a3 * b7 + a4 * b6 + a5 * b5 + a6 * b4 + a7 * b3 + a8 * b2 + a9 * b1 + a10 * b0 = s10 at *
  rw [i64_eq (x := s10) (by omega) (by omega)]
  have r11 := row11 ha0 ha1 ha10 ha11 ha2 ha3 ha4 ha5 ha6 ha7 ha8 ha9 hb0 hb1 hb10 hb11 hb2 hb3 hb4 hb5 hb6 hb7 hb8 hb9 hc11
  generalize t11 : c11 + a0 * b11 + a1 * b10 + a2 * b9 + a3 * b8 + a4 * b7 + a5 * b6 + a6 * b5 + a7 * b4 + a8 * b3 + a9 * b2 + a10 * b1 + a11 * b0 = s11 at *
  rw [i64_eq (x := s11) (by omega) (by omega)]
  have r12 := row12 ha1 ha10 ha11 ha2 ha3 ha4 ha5 ha6 ha7 ha8 ha9 hb1 hb10 hb11 hb2 hb3 hb4 hb5 hb6 hb7 hb8 hb9
  generalize t12 : a1 * b11 + a2 * b10 + a3 * b9 + a4 * b8 + a5 * b7 + a6 * b6 + a7 * b5 + a8 * b4 + a9 * b3 + a10 * b2 + a11 * b1 = s12 at *
  rw [i64_eq (x := s12) (by omega) (by omega)]
  have r13 := row13 ha10 ha11 ha2 ha3 ha4 ha5 ha6 ha7 ha8 ha9 hb10 hb11 hb2 hb3 hb4 hb5 hb6 hb7 hb8 hb9
  generalize t13 : a2 * b11 + a3 * b10 + a4 * b9 + a5 * b8 + a6 * b7 + a7 * b6 + a8 * b5 + a9 * b4 + a10 * b3 + a11 * b2 = s13 at *
  rw [i64_eq (x := s13) (by omega) (by omega)]
  have r14 := row14 ha10 ha11 ha3 ha4 ha5 ha6 ha7 ha8 ha9 hb10 hb11 hb3 hb4 hb5 hb6 hb7 hb8 hb9
  generalize t14 : a3 * b11 + a4 * b10 + a5 * b9 + a6 * b8 + a7 * b7 + a8 * b6 + a9 * b5 + a10 * b4 + a11 * b3 = s14 at *
  rw [i64_eq (x := s14) (by omega) (by omega)]
  have r15 := row15 ha10 ha11 ha4 ha5 ha6 ha7 ha8 ha9 hb10 hb11 hb4 hb5 hb6 hb7 hb8 hb9
  generalize t15 : a4 * b11 + a5 * b10 + a6 * b9 + a7 * b8 + a8 * b7 + a9 * b6 + a10 * b5 + a11 * b4 = s15 at *
  rw [i64_eq (x := s15) (by omega) (by omega)]
  have r16 := row16 ha10 ha11 ha5 ha6 ha7 ha8 ha9 hb10 hb11 hb5 hb6 hb7 hb8 hb9
  generalize t16 : a5 * b11 + a6 * b10 + a7 * b9 + a8 * b8 + a9 * b7 + a10 * b6 + a11 * b5 = s16 at *
  rw [i64_eq (x := s16) (by omega) (by omega)]
  have r17 := row17 ha10 ha11 ha6 ha7 ha8 ha9 hb10 hb11 hb6 hb7 hb8 hb9
  generalize t17 : a6 * b11 + a7 * b10 + a8 * b9 + a9 * b8 + a10 * b7 + a11 * b6 = s17 at *
  rw [i64_eq (x := s17) (by omega) (by omega)]
  have r18 := row18 ha10 ha11 ha7 ha8 ha9 hb10 hb11 hb7 hb8 hb9
  generalize t18 : a7 * b11 + a8 * b10 + a9 * b9 + a10 * b8 + a11 * b7 = s18 at *
  rw [i64_eq (x := s18) (by omega) (by omega)]
  have r19 := row19 ha10 ha11 ha8 ha9 hb10 hb11 hb8 hb9
  generalize t19 : a8 * b11 + a9 * b10 + a10 * b9 + a11 * b8 = s19 at *
  rw [i64_eq (x := s19) (by omega) (by omega)]
  have r20 := row20 ha10 ha11 ha9 hb10 hb11 hb9
  generalize t20 : a9 * b11 + a10 * b10 + a11 * b9 = s20 at *
  rw [i64_eq (x := s20) (by omega) (by omega)]
  have r21 := row21 ha10 ha11 hb10 hb11
  generalize t21 : a10 * b11 + a11 * b10 = s21 at *
  rw [i64_eq (x := s21) (by omega) (by omega)]
  have r22 := row22 ha11 hb11
  generalize t22 : a11 * b11 = s22 at *
  rw [i64_eq (x := s22) (by omega) (by omega)]
  have hin : In inMulAdd [s0, s1, s2, s3, s4, s5, s6, s7, s8, s9, s10, s11, s12, s13, s14, s15, s16, s17, s18, s19, s20, s21, s22, 0] :=
    In_cons r0 <| In_cons r1 <| In_cons r2 <| In_cons r3 <| In_cons r4 <| In_cons r5 <| In_cons r6 <| In_cons r7 <| In_cons r8 <| In_cons r9 <| In_cons r10 <| In_cons r11 <| In_cons r12 <| In_cons r13 <| In_cons r14 <| In_cons r15 <| In_cons r16 <| In_cons r17 <| In_cons r18 <| In_cons r19 <| In_cons r20 <| In_cons r21 <| In_cons r22 <| In_cons ⟨le_rfl, le_rfl⟩ In_nil
  have hc := mulAdd_check
  simp only [Option.bind_eq_some_iff] at hc
  obtain ⟨iv, e1, e2⟩ := hc
  obtain ⟨i1, v1⟩ := ops_sound hin e1
  obtain ⟨d, v2⟩ := tail_spec i1 e2
  have := scBytes_leNat d
  rw [v2, v1] at this
  have hs : sval [s0, s1, s2, s3, s4, s5, s6, s7, s8, s9, s10, s11, s12, s13, s14, s15, s16, s17, s18, s19, s20, s21, s22, 0] = (leNat a : Int) * leNat b + leNat c := by
    rw [← sa, ← sb, ← sc]
    clear this v1 v2 d i1 hin
    subst t0 t1 t2 t3 t4 t5 t6 t7 t8 t9 t10 t11 t12 t13 t14 t15 t16 t17 t18 t19 t20 t21 t22
    simp only [sval]
    ring
  rw [hs] at this
  exact_mod_cast this

end Verif.Ed25519
