import Verif.Ed25519.GroupLemmas

/-!
# The tables of const.go hold the multiples of the base point

A projective addition on natural numbers, used to check the tables and the order of the base point in the kernel.
-/

namespace Verif.Ed25519

open Edwards

/-- a projective point modulo `P`. -/
structure PT where
  X : ℕ
  Y : ℕ
  Z : ℕ

/-- the complete projective addition. -/
def padd (p q : PT) : PT :=
  let a := p.Z * q.Z % P
  let b := a * a % P
  let c := p.X * q.X % P
  let d := p.Y * q.Y % P
  let e := dNat * (c * d % P) % P
  let f := (b + (P - e)) % P
  let g := (b + e) % P
  ⟨a * f % P * ((p.X * q.Y + p.Y * q.X) % P) % P, a * g % P * ((d + c) % P) % P, f * g % P⟩

structure PRep (p : PT) (A : Pt) : Prop where
  z0 : (p.Z : F) ≠ 0
  x : (p.X : F) = A.x * p.Z
  y : (p.Y : F) = A.y * p.Z

theorem castMod (a : ℕ) : ((a % P : ℕ) : F) = a := ZMod.natCast_mod a P

theorem padd_rep {p q : PT} {A B : Pt} (hp : PRep p A) (hq : PRep q B) : PRep (padd p q) (A + B) := by
  have dp := den_plus A B
  have dm := den_minus A B
  have hsub : ∀ e : ℕ, ((P - e % P : ℕ) : F) = -(e : F) := by
    intro e
    rw [Nat.cast_sub (Nat.mod_lt _ (by decide)).le, castMod, ZMod.natCast_self, zero_sub]
  have vZ : ((padd p q).Z : F) = (1 - D * A.x * B.x * A.y * B.y) * (1 + D * A.x * B.x * A.y * B.y) * ((p.Z : F) * q.Z) ^ 4 := by
    simp only [padd, castMod, Nat.cast_mul, Nat.cast_add, hsub, hp.x, hp.y, hq.x, hq.y, dNat_eq]
    ring
  have hw := mul_ne_zero hp.z0 hq.z0
  refine ⟨?_, ?_, ?_⟩
  · rw [vZ]; exact mul_ne_zero (mul_ne_zero dm dp) (pow_ne_zero 4 hw)
  · rw [vZ, add_x, show ∀ n a b c : F, n / a * (b * a * c) = n / a * a * (b * c) from fun _ _ _ _ => by ring, div_mul_cancel₀ _ dp]
    simp only [padd, castMod, Nat.cast_mul, Nat.cast_add, hsub, hp.x, hp.y, hq.x, hq.y, dNat_eq]
    ring
  · rw [vZ, add_y, show ∀ n a b c : F, n / b * (b * a * c) = n / b * b * (a * c) from fun _ _ _ _ => by ring, div_mul_cancel₀ _ dm]
    simp only [padd, castMod, Nat.cast_mul, Nat.cast_add, hsub, hp.x, hp.y, hq.x, hq.y, dNat_eq]
    ring

/-- the base point. -/
def pbase : PT := ⟨baseX, baseY, 1⟩

theorem pbase_rep : PRep pbase base := by
  refine ⟨?_, ?_, ?_⟩ <;> simp [pbase, base]

/-- multiplication by doubling and adding, least significant bit first. -/
def pmul : ℕ → ℕ → PT → PT → PT
  | 0, _, _, acc => acc
  | f + 1, n, p, acc => pmul f (n / 2) (padd p p) (if n % 2 = 1 then padd acc p else acc)

theorem pmul_rep (f n : ℕ) {p acc : PT} {A B : Pt} (hn : n < 2 ^ f) (hp : PRep p A) (ha : PRep acc B) :
    PRep (pmul f n p acc) (B + n • A) := by
  induction f generalizing n p acc A B with
  | zero =>
    have : n = 0 := by simpa using hn
    subst this
    simpa [pmul] using ha
  | succ f ih =>
    have h2 : n / 2 < 2 ^ f := by rw [pow_succ] at hn; omega
    have hd := Nat.div_add_mod n 2
    simp only [pmul]
    split
    · rename_i h1
      have := ih (n / 2) h2 (padd_rep hp hp) (padd_rep ha hp)
      convert this using 1
      conv_lhs => rw [← hd, h1]
      rw [add_nsmul, mul_comm 2, mul_nsmul', two_nsmul, one_nsmul]
      abel
    · have h1 : n % 2 = 0 := by omega
      have := ih (n / 2) h2 (padd_rep hp hp) ha
      convert this using 1
      conv_lhs => rw [← hd, h1]
      rw [add_zero, mul_comm 2, mul_nsmul', two_nsmul]

theorem PRep.eq_zero {p : PT} {A : Pt} (h : PRep p A) (hx : p.X % P = 0) (hy : p.Y % P = p.Z % P) : A = 0 := by
  have ex : (p.X : F) = 0 := by rw [← castMod, hx, Nat.cast_zero]
  have ey : (p.Y : F) = p.Z := natCast_eq hy
  have z := h.z0
  refine Point.ext ?_ ?_
  · rw [zero_x]
    have := h.x
    rw [ex] at this
    exact (mul_eq_zero.mp this.symm).resolve_right z
  · rw [zero_y]
    have := h.y
    rw [ey] at this
    have : (A.y - 1) * (p.Z : F) = 0 := by linear_combination -this
    exact sub_eq_zero.mp ((mul_eq_zero.mp this).resolve_right z)

def pzero : PT := ⟨0, 1, 1⟩

theorem pzero_rep : PRep pzero 0 := by
  refine ⟨?_, ?_, ?_⟩ <;> simp [pzero, zero_x, zero_y]

/-- the base point has order `L`. -/
theorem L_base : L • base = 0 := by
  have h := pmul_rep 253 L (by decide) pbase_rep pzero_rep
  rw [zero_add] at h
  have hc : (pmul 253 L pbase pzero).X % P = 0 ∧ (pmul 253 L pbase pzero).Y % P = (pmul 253 L pbase pzero).Z % P := by decide +kernel
  exact h.eq_zero hc.1 hc.2

theorem base_ne_zero : base ≠ 0 := by
  intro h
  have := congrArg Point.x h
  rw [zero_x] at this
  have h2 := natCast_ne (a := baseX) (b := 0) (by decide)
  exact h2 (by rw [Nat.cast_zero]; exact this)

/-! ## The tables -/

def tightB (f : Fe) : Bool :=
  let e (x : Int) : Bool := decide (-33889976 ≤ x) && decide (x ≤ 33889976)
  let o (x : Int) : Bool := decide (-16944988 ≤ x) && decide (x ≤ 16944988)
  e f.a0 && o f.a1 && e f.a2 && o f.a3 && e f.a4 && o f.a5 && e f.a6 && o f.a7 && e f.a8 && o f.a9

theorem tightB_spec {f : Fe} (h : tightB f = true) : Tight f := by
  simp only [tightB, Bool.and_eq_true, decide_eq_true_eq] at h
  obtain ⟨⟨⟨⟨⟨⟨⟨⟨⟨⟨l0, u0⟩, l1, u1⟩, l2, u2⟩, l3, u3⟩, l4, u4⟩, l5, u5⟩, l6, u6⟩, l7, u7⟩, l8, u8⟩, l9, u9⟩ := h
  exact ⟨l0, u0, l1, u1, l2, u2, l3, u3, l4, u4, l5, u5, l6, u6, l7, u7, l8, u8, l9, u9⟩

/-- the residue of a limb vector. -/
def resid (f : Fe) : ℕ := (ival f % (P : Int)).toNat

theorem resid_val (f : Fe) : (resid f : F) = fval f := by
  rw [fval, ← Int.cast_natCast (R := F), fcast_iff, resid, Int.toNat_of_nonneg (Int.emod_nonneg _ (by decide)), Int.emod_emod_of_dvd]
  exact dvd_refl _

/-- does a table entry hold this point? -/
def entryOk (p : PT) (e : PreC) : Bool :=
  tightB e.yPlusX && tightB e.yMinusX && tightB e.xy2d &&
  (resid e.yPlusX * p.Z % P == (p.Y + p.X) % P) &&
  ((resid e.yMinusX * p.Z + p.X) % P == p.Y % P) &&
  (resid e.xy2d * p.Z % P * p.Z % P == 2 * dNat * p.X % P * p.Y % P)

theorem entryOk_spec {p : PT} {A : Pt} {e : PreC} (h : PRep p A) (hc : entryOk p e = true) : RepPre e A := by
  simp only [entryOk, Bool.and_eq_true, beq_iff_eq] at hc
  obtain ⟨⟨⟨⟨⟨h1, h2⟩, h3⟩, h4⟩, h5⟩, h6⟩ := hc
  have e4 := natCast_eq h4
  have e5 := natCast_eq h5
  have e6 := natCast_eq h6
  simp only [castMod, Nat.cast_mul, Nat.cast_add, resid_val, h.x, h.y, dNat_eq] at e4 e5 e6
  refine ⟨tightB_spec h1, tightB_spec h2, tightB_spec h3, mul_right_cancel₀ h.z0 ?_, mul_right_cancel₀ h.z0 ?_,
    mul_right_cancel₀ (pow_ne_zero 2 h.z0) ?_⟩
  · linear_combination e4
  · linear_combination e5
  · push_cast at e6
    linear_combination e6

/-- the entries of a row are `t`, `t + s`, `t + 2s`, … -/
def rowOk (s : PT) : PT → List PreC → Bool
  | _, [] => true
  | t, e :: es => entryOk t e && rowOk s (padd t s) es

theorem rowOk_spec {s t : PT} {S T : Pt} (hs : PRep s S) (ht : PRep t T) {l : List PreC} (hc : rowOk s t l = true) (j : ℕ)
    (hj : j < l.length) (d : PreC) : RepPre (l.getD j d) (T + j • S) := by
  induction l generalizing t T j with
  | nil => simp at hj
  | cons e es ih =>
    simp only [rowOk, Bool.and_eq_true] at hc
    cases j with
    | zero => simpa using entryOk_spec ht hc.1
    | succ j =>
      have := ih (padd_rep ht hs) hc.2 j (by simpa using hj)
      rw [List.getD_cons_succ]
      convert this using 1
      rw [succ_nsmul]; abel

def pdbl8 (p : PT) : PT :=
  let d (p : PT) := padd p p
  d (d (d (d (d (d (d (d p)))))))

theorem pdbl8_rep {p : PT} {A : Pt} (h : PRep p A) : PRep (pdbl8 p) (256 • A) := by
  have d : ∀ {p : PT} {A : Pt}, PRep p A → PRep (padd p p) (2 • A) := fun h => by rw [two_nsmul]; exact padd_rep h h
  have := d (d (d (d (d (d (d (d h)))))))
  simp only [← mul_nsmul] at this
  exact this

/-- the rows belong to `b`, `256 b`, `256² b`, … -/
def tabOk : PT → List (List PreC) → Bool
  | _, [] => true
  | b, r :: rs => r.length == 8 && rowOk b b r && tabOk (pdbl8 b) rs

theorem tabOk_spec {b : PT} {B : Pt} (hb : PRep b B) {l : List (List PreC)} (hc : tabOk b l = true) (i : ℕ) (hi : i < l.length) (j : ℕ)
    (hj : j < 8) (d : PreC) : RepPre ((l.getD i []).getD j d) ((j + 1) • 256 ^ i • B) := by
  induction l generalizing b B i with
  | nil => simp at hi
  | cons r rs ih =>
    simp only [tabOk, Bool.and_eq_true, beq_iff_eq] at hc
    cases i with
    | zero =>
      have := rowOk_spec hb hb hc.1.2 j (by rw [hc.1.1]; exact hj) d
      simp only [List.getD_cons_zero, pow_zero, one_nsmul]
      convert this using 1
      rw [succ_nsmul]; abel
    | succ i =>
      have := ih (pdbl8_rep hb) hc.2 i (by simpa using hi)
      rw [List.getD_cons_succ]
      convert this using 2
      rw [pow_succ, mul_comm, mul_nsmul]

theorem baseT_ok : tabOk pbase baseT = true := by decide +kernel

theorem biT_ok : rowOk (padd pbase pbase) pbase biT = true := by decide +kernel

theorem baseT_spec (i j : ℕ) (hi : i < 32) (hj : j < 8) (d : PreC) : RepPre ((baseT.getD i []).getD j d) ((j + 1) • 256 ^ i • base) :=
  tabOk_spec pbase_rep baseT_ok i hi j hj d

theorem biT_spec (j : ℕ) (hj : j < 8) (d : PreC) : RepPre (biT.getD j d) ((2 * j + 1) • base) := by
  have := rowOk_spec (padd_rep pbase_rep pbase_rep) pbase_rep biT_ok j hj d
  convert this using 1
  rw [add_nsmul, one_nsmul, mul_comm, mul_nsmul', two_nsmul, add_comm]

end Verif.Ed25519
