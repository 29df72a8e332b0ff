import Verif.C25519.Ladder
import Verif.C25519.Mont
import Verif.C25519.Sign

/-!
# curve25519_sha256.go: the formulas on x-coordinates compute in the group of the curve; the joint chain of `Verify`
-/

set_option maxHeartbeats 1000000

namespace Verif.C25519

open Verif.Ed25519 (Fe fval ival F P P_eq)
open WeierstrassCurve

/-- curve25519: `y² = x³ + 486662·x² + x`. -/
abbrev E : Affine F := mont (486662 : F)

theorem small_ne {n : ℕ} (h0 : 0 < n) (h1 : n < 2 ^ 200) : ((n : ℕ) : F) ≠ 0 := by
  rw [Ne, ZMod.natCast_eq_zero_iff]
  intro hd
  have := Nat.le_of_dvd h0 hd
  rw [P_eq] at this
  omega

theorem two_ne : (2 : F) ≠ 0 := by
  have := small_ne (n := 2) (by norm_num) (by norm_num); exact_mod_cast this

theorem Ap_ne : (486662 : F) + 2 ≠ 0 := by
  have := small_ne (n := 486664) (by norm_num) (by norm_num)
  intro h; apply this; rw [← h]; push_cast; norm_num

theorem Am_ne : (486662 : F) - 2 ≠ 0 := by
  have := small_ne (n := 486660) (by norm_num) (by norm_num)
  intro h; apply this; rw [← h]; push_cast; norm_num

/-- two reduced field elements that stand for the x-coordinate of a point. -/
structure FRep (x z : Fe) (Q : E.Point) : Prop where
  rx : Red x
  rz : Red z
  rep : XRep (fval x) (fval z) Q

theorem fRep_dbl {x z : Fe} {Q : E.Point} (h : FRep x z Q) :
    FRep (montDbl (add x z) (sub x z)).1 (montDbl (add x z) (sub x z)).2 (Q + Q) := by
  have a := add_spec h.rx h.rz
  have b := sub_spec h.rx h.rz
  obtain ⟨c1, c2, c3, c4⟩ := montDbl_spec a.1 b.1
  have e := xRep_dbl two_ne Ap_ne Am_ne h.rep
  refine ⟨c1, c2, ?_⟩
  rw [c3, c4, a.2, b.2]
  convert e using 1 <;> ring

theorem fRep_add {x1 z1 x2 z2 dx : Fe} {Q1 Q2 : E.Point} (h1 : FRep x1 z1 Q1) (h2 : FRep x2 z2 Q2) (hdx : Red dx) {u y : F}
    (hu : fval dx = u) (hn : E.Nonsingular u y) (hD : Q1 - Q2 = Affine.Point.some u y hn ∨ Q2 - Q1 = Affine.Point.some u y hn) (h0 : u ≠ 0) :
    FRep (montAdd (add x1 z1) (sub x1 z1) (add x2 z2) (sub x2 z2) dx).1 (montAdd (add x1 z1) (sub x1 z1) (add x2 z2) (sub x2 z2) dx).2 (Q1 + Q2) := by
  have a := add_spec h1.rx h1.rz
  have b := sub_spec h1.rx h1.rz
  have c := add_spec h2.rx h2.rz
  have d := sub_spec h2.rx h2.rz
  obtain ⟨e1, e2, e3, e4⟩ := montAdd_spec a.1 b.1 c.1 d.1 hdx.lo
  have e := xRep_add two_ne hn hD h0 h1.rep h2.rep
  refine ⟨e1, e2, ?_⟩
  rw [e3, e4, a.2, b.2, c.2, d.2, hu]
  convert e using 1 <;> ring

/-! ## The chain of `Verify` -/

/-- the even one and the odd one of `n` and `n + 1`. -/
def ev (n : ℕ) : ℕ := n + n % 2
def od (n : ℕ) : ℕ := n + (n + 1) % 2

/-- the points of the chain. -/
structure Quad (p0 p1 s0 s1 : Fe) (Q G : E.Point) : Prop where
  r0 : Red p0
  r1 : Red p1
  r2 : Red s0
  r3 : Red s1
  g : ∃ y hn, G = Affine.Point.some (fval p0) y hn
  q : ∃ y hn, Q = Affine.Point.some (fval p1) y hn
  s : ∃ y hn, Q + G = Affine.Point.some (fval s0) y hn
  d : ∃ y hn, Q - G = Affine.Point.some (fval s1) y hn
  n0 : fval p0 ≠ 0
  n1 : fval p1 ≠ 0
  n2 : fval s0 ≠ 0
  n3 : fval s1 ≠ 0

/-- what the three pairs stand for after the bits of `v` and `h` down to `a` and `b`. -/
structure TriRep (Q G : E.Point) (a b δ : ℕ) (y : Tri) : Prop where
  y0 : FRep y.x0 y.z0 (ev a • Q + ev b • G)
  y1 : FRep y.x1 y.z1 (if δ = 0 then ev a • Q + od b • G else od a • Q + ev b • G)
  y2 : FRep y.x2 y.z2 (od a • Q + od b • G)

theorem tri_get0 (t : Tri) : t.get 0 = (t.x0, t.z0) := rfl
theorem tri_get1 (t : Tri) : t.get 1 = (t.x1, t.z1) := rfl
theorem tri_get2 (t : Tri) : t.get 2 = (t.x2, t.z2) := rfl

theorem par0 {n α : ℕ} (h : α < 2) (e : (n % 2 + α) % 2 = 0) : n + α = ev n := by unfold ev; omega
theorem par1 {n α : ℕ} (h : α < 2) (e : (n % 2 + α) % 2 = 1) : n + α = od n := by unfold od; omega
theorem ev_step {n α : ℕ} (h : α < 2) : ev (2 * n + α) = (n + α) + (n + α) := by unfold ev; omega
theorem od_step {n α : ℕ} (h : α < 2) : od (2 * n + α) = ev n + od n := by unfold ev od; omega
theorem od_ev {n : ℕ} (h : n % 2 = 0) : od n = ev n + 1 := by unfold ev od; omega
theorem ev_od {n : ℕ} (h : n % 2 = 1) : ev n = od n + 1 := by unfold ev od; omega

/-- the difference of two multiples whose numbers differ by one. -/
theorem diffG {Q G : E.Point} (m n : ℕ) :
    (m • Q + od n • G) - (m • Q + ev n • G) = G ∨ (m • Q + ev n • G) - (m • Q + od n • G) = G := by
  rcases (by omega : n % 2 = 0 ∨ n % 2 = 1) with h | h
  · left; rw [od_ev h, add_nsmul, one_nsmul]; abel
  · right; rw [ev_od h, add_nsmul, one_nsmul]; abel

theorem diffQ {Q G : E.Point} (m n : ℕ) :
    (od n • Q + m • G) - (ev n • Q + m • G) = Q ∨ (ev n • Q + m • G) - (od n • Q + m • G) = Q := by
  rcases (by omega : n % 2 = 0 ∨ n % 2 = 1) with h | h
  · left; rw [od_ev h, add_nsmul, one_nsmul]; abel
  · right; rw [ev_od h, add_nsmul, one_nsmul]; abel

theorem diffS {Q G : E.Point} {a b : ℕ} (h : a % 2 = b % 2) :
    (od a • Q + od b • G) - (ev a • Q + ev b • G) = Q + G ∨ (ev a • Q + ev b • G) - (od a • Q + od b • G) = Q + G := by
  rcases (by omega : a % 2 = 0 ∨ a % 2 = 1) with h' | h'
  · left; rw [od_ev h', od_ev (h ▸ h' : b % 2 = 0), add_nsmul, add_nsmul, one_nsmul, one_nsmul]; abel
  · right; rw [ev_od h', ev_od (h ▸ h' : b % 2 = 1), add_nsmul, add_nsmul, one_nsmul, one_nsmul]; abel

theorem diffD {Q G : E.Point} {a b : ℕ} (h : a % 2 ≠ b % 2) :
    (od a • Q + od b • G) - (ev a • Q + ev b • G) = Q - G ∨ (ev a • Q + ev b • G) - (od a • Q + od b • G) = Q - G := by
  rcases (by omega : a % 2 = 0 ∨ a % 2 = 1) with h' | h'
  · left; rw [od_ev h', ev_od (n := b) (by omega), add_nsmul, add_nsmul, one_nsmul, one_nsmul]; abel
  · right; rw [ev_od h', od_ev (n := b) (by omega), add_nsmul, add_nsmul, one_nsmul, one_nsmul]; abel

theorem sel_dbl {a0 α b0 β : ℕ} (h1 : a0 < 2) (h2 : α < 2) (h3 : b0 < 2) (h4 : β < 2) :
    ((2 * a0 + α) ^^^ (2 * a0 + α) / 2) % 2 + ((2 * b0 + β) ^^^ (2 * b0 + β) / 2) % 2 = (a0 + α) % 2 + (b0 + β) % 2 := by
  interval_cases a0 <;> interval_cases α <;> interval_cases b0 <;> interval_cases β <;> rfl

theorem sel_d {d e : ℕ} (h1 : d < 2) (h2 : e < 2) : ((2 * d + e) &&& 2) ^^^ ((2 * d + e) % 2) * 2 = if d = e then 0 else 2 := by
  interval_cases d <;> interval_cases e <;> rfl

theorem sel_s {a0 α b0 β : ℕ} (h1 : a0 < 2) (h2 : α < 2) (h3 : b0 < 2) (h4 : β < 2) :
    (((2 * a0 + α) ^^^ (2 * b0 + β)) &&& 2) / 2 = if a0 = b0 then 0 else 1 := by
  interval_cases a0 <;> interval_cases α <;> interval_cases b0 <;> interval_cases β <;> rfl

theorem triStep_spec {p0 p1 s0 s1 : Fe} {Q G : E.Point} (hq : Quad p0 p1 s0 s1 Q G) {a b α β δ δ' : ℕ} (hα : α < 2) (hβ : β < 2) (hδ : δ < 2)
    (hδ' : δ' < 2) (hr : δ = if δ' = 0 then (a % 2 + α) % 2 else 1 - (b % 2 + β) % 2) {y : Tri} (hy : TriRep Q G a b δ y) :
    TriRep Q G (2 * a + α) (2 * b + β) δ' (triStep p0 p1 s0 s1 (2 * (a % 2) + α) (2 * (b % 2) + β) (2 * δ + δ') y) := by
  obtain ⟨gy, gn, eg⟩ := hq.g
  obtain ⟨qy, qn, eq⟩ := hq.q
  obtain ⟨sy, sn, es⟩ := hq.s
  obtain ⟨dy, dn, ed⟩ := hq.d
  have ha2 : a % 2 < 2 := Nat.mod_lt _ (by norm_num)
  have hb2 : b % 2 < 2 := Nat.mod_lt _ (by norm_num)
  obtain ⟨h0, h1, h2⟩ := hy
  unfold triStep
  dsimp only
  rw [sel_dbl ha2 hα hb2 hβ, sel_d hδ hδ', sel_s ha2 hα hb2 hβ]
  have hdb : (2 * δ + δ') % 2 = δ' := by omega
  rw [hdb]
  refine ⟨?_, ?_, ?_⟩
  · -- the double
    rw [ev_step hα, ev_step hβ]
    have goal : ∀ {x z : Fe}, FRep x z ((a + α) • Q + (b + β) • G) →
        FRep (montDbl (add x z) (sub x z)).1 (montDbl (add x z) (sub x z)).2 ((a + α + (a + α)) • Q + (b + β + (b + β)) • G) := by
      intro x z h
      have := fRep_dbl h
      rwa [show ((a + α) • Q + (b + β) • G) + ((a + α) • Q + (b + β) • G) = (a + α + (a + α)) • Q + (b + β + (b + β)) • G by
        rw [add_nsmul Q (a + α), add_nsmul G (b + β)]; abel] at this
    rcases (by omega : (a % 2 + α) % 2 = 0 ∨ (a % 2 + α) % 2 = 1) with e | e <;>
      rcases (by omega : (b % 2 + β) % 2 = 0 ∨ (b % 2 + β) % 2 = 1) with f | f <;> rw [e, f]
    · refine goal (x := y.x0) (z := y.z0) ?_
      rw [par0 hα e, par0 hβ f]; exact h0
    · refine goal (x := y.x1) (z := y.z1) ?_
      rw [par0 hα e, par1 hβ f]
      rw [e, f] at hr
      rw [if_pos (by split at hr <;> omega)] at h1
      exact h1
    · refine goal (x := y.x1) (z := y.z1) ?_
      rw [par1 hα e, par0 hβ f]
      rw [e, f] at hr
      rw [if_neg (by split at hr <;> omega)] at h1
      exact h1
    · refine goal (x := y.x2) (z := y.z2) ?_
      rw [par1 hα e, par1 hβ f]; exact h2
  · rcases (by omega : δ' = 0 ∨ δ' = 1) with hd | hd
    · subst hd
      rw [if_pos rfl] at hr
      rw [if_pos rfl, if_pos rfl, ev_step hα, od_step hβ]
      rcases (by omega : (a % 2 + α) % 2 = 0 ∨ (a % 2 + α) % 2 = 1) with e | e
      · rw [e] at hr
        subst hr
        rw [if_pos rfl] at h1
        rw [if_pos rfl, par0 hα e]
        have := fRep_add (u := fval p0) h1 h0 hq.r0 rfl gn (eg ▸ diffG (ev a) b) hq.n0
        rw [show ev a • Q + od b • G + (ev a • Q + ev b • G) = (ev a + ev a) • Q + (ev b + od b) • G by
          rw [add_nsmul, add_nsmul]; abel] at this
        exact this
      · rw [e] at hr
        subst hr
        rw [if_neg one_ne_zero] at h1
        rw [if_neg one_ne_zero, par1 hα e]
        have := fRep_add (u := fval p0) h1 h2 hq.r0 rfl gn (eg ▸ (diffG (od a) b).symm) hq.n0
        rw [show od a • Q + ev b • G + (od a • Q + od b • G) = (od a + od a) • Q + (ev b + od b) • G by
          rw [add_nsmul, add_nsmul]; abel] at this
        exact this
    · subst hd
      rw [if_neg one_ne_zero] at hr
      rw [if_neg one_ne_zero, if_neg one_ne_zero, od_step hα, ev_step hβ]
      rcases (by omega : (b % 2 + β) % 2 = 0 ∨ (b % 2 + β) % 2 = 1) with f | f
      · rw [f] at hr
        replace hr : δ = 1 := hr
        subst hr
        rw [if_neg one_ne_zero] at h1
        rw [if_pos rfl, par0 hβ f]
        have := fRep_add (u := fval p1) h1 h0 hq.r1 rfl qn (eq ▸ diffQ (ev b) a) hq.n1
        rw [show od a • Q + ev b • G + (ev a • Q + ev b • G) = (ev a + od a) • Q + (ev b + ev b) • G by
          rw [add_nsmul, add_nsmul]; abel] at this
        exact this
      · rw [f] at hr
        replace hr : δ = 0 := hr
        subst hr
        rw [if_pos rfl] at h1
        rw [if_neg (by decide), par1 hβ f]
        have := fRep_add (u := fval p1) h1 h2 hq.r1 rfl qn (eq ▸ (diffQ (od b) a).symm) hq.n1
        rw [show ev a • Q + od b • G + (od a • Q + od b • G) = (ev a + od a) • Q + (od b + od b) • G by
          rw [add_nsmul, add_nsmul]; abel] at this
        exact this
  · rw [od_step hα, od_step hβ]
    by_cases hab : a % 2 = b % 2
    · rw [if_pos hab, if_pos rfl]
      have := fRep_add (u := fval s0) h2 h0 hq.r2 rfl sn (es ▸ diffS hab) hq.n2
      rw [show od a • Q + od b • G + (ev a • Q + ev b • G) = (ev a + od a) • Q + (ev b + od b) • G by
          rw [add_nsmul, add_nsmul]; abel] at this
      exact this
    · rw [if_neg hab, if_neg one_ne_zero]
      have := fRep_add (u := fval s1) h2 h0 hq.r3 rfl dn (ed ▸ diffD hab) hq.n3
      rw [show od a • Q + od b • G + (ev a • Q + ev b • G) = (ev a + od a) • Q + (ev b + od b) • G by
          rw [add_nsmul, add_nsmul]; abel] at this
      exact this

theorem two_split (n t : ℕ) : two n t = 2 * (n / 2 ^ (t + 1) % 2) + n / 2 ^ t % 2 := by
  unfold two
  rw [pow_succ, ← Nat.div_div_eq_div_mul]
  generalize n / 2 ^ t = x
  omega

theorem div_split (n t : ℕ) : n / 2 ^ t = 2 * (n / 2 ^ (t + 1)) + n / 2 ^ t % 2 := by
  rw [pow_succ, ← Nat.div_div_eq_div_mul]
  generalize n / 2 ^ t = x
  omega

/-- the bits of `d` for which the chain is right. -/
def GoodD (v h d : ℕ) : Prop := ∀ t < 256, d / 2 ^ (t + 1) % 2 =
  if d / 2 ^ t % 2 = 0 then (v / 2 ^ (t + 1) % 2 + v / 2 ^ t % 2) % 2 else 1 - (h / 2 ^ (t + 1) % 2 + h / 2 ^ t % 2) % 2

theorem triFold {p0 p1 s0 s1 : Fe} {Q G : E.Point} (hq : Quad p0 p1 s0 s1 Q G) {v h d : ℕ} (hd : GoodD v h d) (n : ℕ) (hn : n ≤ 256) {y : Tri}
    (hy : TriRep Q G (v / 2 ^ n) (h / 2 ^ n) (d / 2 ^ n % 2) y) :
    TriRep Q G v h (d % 2) ((List.range n).reverse.foldl (fun y t => triStep p0 p1 s0 s1 (two v t) (two h t) (two d t) y) y) := by
  induction n generalizing y with
  | zero => simpa using hy
  | succ n ih =>
    rw [List.range_succ, List.reverse_append, List.reverse_singleton, List.singleton_append, List.foldl_cons]
    apply ih (by omega)
    rw [div_split v n, div_split h n, two_split v, two_split h, two_split d]
    exact triStep_spec hq (Nat.mod_lt _ (by norm_num)) (Nat.mod_lt _ (by norm_num)) (Nat.mod_lt _ (by norm_num)) (Nat.mod_lt _ (by norm_num))
      (hd n (by omega)) hy

/-- the chain ends with the point `v·Q + h·G`. -/
theorem triLoop_spec {p0 p1 s0 s1 : Fe} {Q G : E.Point} (hq : Quad p0 p1 s0 s1 Q G) {v h d : ℕ} (hv : v < 2 ^ 256) (hh : h < 2 ^ 256)
    (hd : GoodD v h d) (hd0 : d % 2 = v % 2) (hdlt : d < 2 ^ 257) :
    let y := triLoop p0 p1 s0 s1 v h d ⟨set 1, set 0, if d / 2 ^ 256 = 0 then p0 else p1, set 1, s0, set 1⟩
    FRep (y.get (v % 2 + h % 2)).1 (y.get (v % 2 + h % 2)).2 (v • Q + h • G) := by
  intro y
  obtain ⟨gy, gn, eg⟩ := hq.g
  obtain ⟨qy, qn, eq⟩ := hq.q
  obtain ⟨sy, sn, es⟩ := hq.s
  have s1' := set_red (n := 1) (by norm_num) (by norm_num)
  have s0' := set_red (n := 0) (by norm_num) (by norm_num)
  have f1 : fval (set 1) = 1 := by rw [s1'.2]; norm_num
  have f0 : fval (set 0) = 0 := by rw [s0'.2]; norm_num
  have aff : ∀ {x : Fe} {yy : F} {hn : E.Nonsingular (fval x) yy}, Red x → FRep x (set 1) (Affine.Point.some (fval x) yy hn) := by
    intro x yy hn hx
    refine ⟨hx, s1'.1, ?_⟩
    rw [f1]
    exact ⟨one_ne_zero, by rw [mul_one]⟩
  have hinit : TriRep Q G (v / 2 ^ 256) (h / 2 ^ 256) (d / 2 ^ 256 % 2) ⟨set 1, set 0, if d / 2 ^ 256 = 0 then p0 else p1, set 1, s0, set 1⟩ := by
    rw [Nat.div_eq_of_lt hv, Nat.div_eq_of_lt hh]
    have e0 : ev 0 = 0 := rfl
    have e1 : od 0 = 1 := rfl
    refine ⟨?_, ?_, ?_⟩ <;> simp only [e0, e1, zero_nsmul, one_nsmul, add_zero, zero_add]
    · refine ⟨s1'.1, s0'.1, ?_⟩
      rw [f1, f0]
      exact xRep_zero.2 ⟨one_ne_zero, rfl⟩
    · have : d / 2 ^ 256 < 2 := by rw [Nat.div_lt_iff_lt_mul (by positivity)]; rw [pow_succ, Nat.mul_comm] at hdlt; exact hdlt
      rcases (by omega : d / 2 ^ 256 = 0 ∨ d / 2 ^ 256 = 1) with e | e
      · rw [e, if_pos rfl, if_pos rfl, eg]; exact aff hq.r0
      · rw [e, if_neg one_ne_zero, if_neg (by norm_num), eq]; exact aff hq.r1
    · rw [es]; exact aff hq.r2
  have hfin := triFold hq hd 256 (le_refl _) hinit
  have hy : y = (List.range 256).reverse.foldl (fun y t => triStep p0 p1 s0 s1 (two v t) (two h t) (two d t) y)
    ⟨set 1, set 0, if d / 2 ^ 256 = 0 then p0 else p1, set 1, s0, set 1⟩ := rfl
  rw [← hy] at hfin
  clear_value y
  obtain ⟨k0, k1, k2⟩ := hfin
  rcases (by omega : v % 2 = 0 ∨ v % 2 = 1) with e | e <;> rcases (by omega : h % 2 = 0 ∨ h % 2 = 1) with f | f <;> rw [e, f]
  · rw [show ev v = v by unfold ev; omega, show ev h = h by unfold ev; omega] at k0; exact k0
  · rw [hd0, e, if_pos rfl, show ev v = v by unfold ev; omega, show od h = h by unfold od; omega] at k1; exact k1
  · rw [hd0, e, if_neg one_ne_zero, show od v = v by unfold od; omega, show ev h = h by unfold ev; omega] at k1; exact k1
  · rw [show od v = v by unfold od; omega, show od h = h by unfold od; omega] at k2; exact k2

/-- the x-coordinate, 0 for the point at infinity. -/
def xc : E.Point → F
  | .zero => 0
  | .some x _ _ => x

theorem affine_xc {x z : Fe} {Q : E.Point} (h : FRep x z Q) : Red (affine x z) ∧ fval (affine x z) = xc Q := by
  have r := recip_spec h.rz.lo
  have m := mul_spec h.rx.lo r.1.lo
  refine ⟨m.1, ?_⟩
  unfold affine
  rw [m.2, r.2]
  have := h.rep
  cases Q with
  | zero => rw [this.2]; simp [xc]
  | some u y hn => rw [this.2, mul_assoc, mul_inv_cancel₀ this.1, mul_one]; rfl

end Verif.C25519
