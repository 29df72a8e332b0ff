import Verif.Bls.MultiExp
import Verif.Bls.GroupLemmas

/-!
# `MultiExp` computes the sum of the multiples
-/

namespace Verif.Bls

open Verif.EC WeierstrassCurve

section Group

variable {G : Type*} [AddCommGroup G]

/-- the weighted sum `1·b₀ + 2·b₁ + …` -/
def wsum : List G → G
  | [] => 0
  | x :: t => wsum t + (t.sum + x)

theorem sum_set (l : List G) (i : ℕ) (h : i < l.length) (p : G) : (l.set i (l[i] + p)).sum = l.sum + p := by
  induction l generalizing i with
  | nil => simp at h
  | cons x t ih =>
    cases i with
    | zero => simp only [List.set_cons_zero, List.sum_cons, List.getElem_cons_zero]; abel
    | succ i =>
      simp only [List.set_cons_succ, List.sum_cons, List.getElem_cons_succ]
      rw [ih i (by simpa using h)]; abel

theorem wsum_set (l : List G) (i : ℕ) (h : i < l.length) (p : G) : wsum (l.set i (l[i] + p)) = wsum l + (i + 1) • p := by
  induction l generalizing i with
  | nil => simp at h
  | cons x t ih =>
    cases i with
    | zero => simp only [List.set_cons_zero, wsum, List.getElem_cons_zero, zero_add, one_nsmul]; abel
    | succ i =>
      have h' : i < t.length := by simpa using h
      simp only [List.set_cons_succ, wsum, List.getElem_cons_succ]
      rw [ih i h', sum_set t i h', succ_nsmul p (i + 1)]; abel

theorem wsum_zero (n : ℕ) : wsum (List.replicate n (0 : G)) = 0 := by
  induction n with
  | zero => rfl
  | succ n ih => simp [List.replicate_succ, wsum, ih]

/-- `Σ f(eᵢ)·Pᵢ` -/
def lsum (f : ℕ → ℕ) (l : List (G × ℕ)) : G := (l.map fun x => f x.2 • x.1).sum

theorem lsum_nil (f : ℕ → ℕ) : lsum f ([] : List (G × ℕ)) = 0 := rfl

theorem lsum_cons (f : ℕ → ℕ) (x : G × ℕ) (l : List (G × ℕ)) : lsum f (x :: l) = f x.2 • x.1 + lsum f l := by
  simp [lsum]

theorem lsum_step (c m : ℕ) (l : List (G × ℕ)) :
    lsum (fun e => e % 2 ^ (c * (m + 1))) l = 2 ^ c • lsum (fun e => (e >>> c) % 2 ^ (c * m)) l + lsum (fun e => e % 2 ^ c) l := by
  induction l with
  | nil => simp [lsum]
  | cons x t ih =>
    simp only [lsum_cons]
    rw [ih, nsmul_add, ← mul_nsmul']
    have e : x.2 % 2 ^ (c * (m + 1)) = 2 ^ c * (x.2 >>> c % 2 ^ (c * m)) + x.2 % 2 ^ c := by
      rw [mul_add, mul_one, pow_add, mul_comm (2 ^ (c * m)), Nat.mod_mul, Nat.shiftRight_eq_div_pow]; ring
    rw [e, add_nsmul]; abel

end Group

theorem digit_eq {c : ℕ} (hc : c ≤ 64) (e : ℕ) : Ops.digit c e = e % 2 ^ c := by
  unfold Ops.digit
  rw [Nat.and_two_pow_sub_one_eq_mod]
  exact Nat.mod_mod_of_dvd _ (pow_dvd_pow 2 hc)

namespace Sem

variable {α : Type} {g : Ops α} {F : Type} [Field F] [DecidableEq F] {S : Sem g F}

/-- the points and scalars `ps` stand for `Ps`. -/
def RepL (S : Sem g F) (ps : List (P3 α × ℕ)) (Ps : List (S.W.Point × ℕ)) : Prop :=
  List.Forall₂ (fun x y => S.Rep x.1 y.1 ∧ x.2 = y.2) ps Ps

theorem rep_scatter {c : ℕ} (hc : c ≤ 64) {ps : List (P3 α × ℕ)} {Ps : List (S.W.Point × ℕ)} (h : RepL S ps Ps) :
    ∀ {b : List (P3 α)} {B : List S.W.Point}, List.Forall₂ S.Rep b B → b.length = 2 ^ c - 1 →
    ∃ b' B', g.scatter c ps b = some b' ∧ List.Forall₂ S.Rep b' B' ∧ wsum B' = wsum B + lsum (fun e => e % 2 ^ c) Ps := by
  induction h with
  | nil => intro b B hb _; exact ⟨b, B, rfl, hb, by simp [lsum]⟩
  | @cons x y ps Ps hxy _ ih =>
    intro b B hb hl
    obtain ⟨p, e⟩ := x
    obtain ⟨P, e'⟩ := y
    obtain ⟨hp, he⟩ := hxy
    simp only at hp he
    subst he
    have hd := digit_eq hc e
    have hlt : e % 2 ^ c < 2 ^ c := Nat.mod_lt _ (by positivity)
    simp only [Ops.scatter, lsum_cons]
    rw [hd]
    by_cases h0 : e % 2 ^ c = 0
    · rw [if_pos h0]
      obtain ⟨b', B', e1, e2, e3⟩ := ih hb hl
      exact ⟨b', B', e1, e2, by rw [e3, h0, zero_nsmul, zero_add]⟩
    · rw [if_neg h0]
      have hi : e % 2 ^ c - 1 < b.length := by omega
      have hi' : e % 2 ^ c - 1 < B.length := by rw [← hb.length_eq]; exact hi
      rw [dif_pos hi]
      have hset : List.Forall₂ S.Rep (b.set (e % 2 ^ c - 1) (g.addPt b[e % 2 ^ c - 1] p)) (B.set (e % 2 ^ c - 1) (B[e % 2 ^ c - 1] + P)) := by
        rw [List.forall₂_iff_get]
        rw [List.forall₂_iff_get] at hb
        refine ⟨by simp [hb.1], fun j h1 h2 => ?_⟩
        simp only [List.get_eq_getElem, List.getElem_set]
        simp only [List.length_set] at h1 h2
        split
        · exact rep_add (hb.2 _ hi hi') hp
        · exact hb.2 _ h1 h2
      obtain ⟨b', B', e1, e2, e3⟩ := ih hset (by rw [List.length_set]; exact hl)
      refine ⟨b', B', e1, e2, ?_⟩
      rw [e3, wsum_set, Nat.sub_add_cancel (by omega), add_assoc]

theorem rep_collect {b : List (P3 α)} {B : List S.W.Point} (h : List.Forall₂ S.Rep b B) :
    S.Rep (g.collect b).1 B.sum ∧ S.Rep (g.collect b).2 (wsum B) := by
  induction h with
  | nil => exact ⟨rep_infinity, rep_infinity⟩
  | @cons x X b B hx _ ih =>
    have e : g.collect (x :: b) = (g.addPt (g.collect b).1 x, g.addPt (g.collect b).2 (g.addPt (g.collect b).1 x)) := rfl
    rw [e]
    have h1 := rep_add ih.1 hx
    refine ⟨?_, rep_add ih.2 h1⟩
    rw [List.sum_cons, add_comm]
    exact h1

theorem rep_dblN (n : ℕ) : ∀ {p : P3 α} {P : S.W.Point}, S.Rep p P → S.Rep (g.dblN n p) (2 ^ n • P) := by
  induction n with
  | zero => intro p P h; rw [pow_zero, one_nsmul]; exact h
  | succ n ih =>
    intro p P h
    have := ih (rep_dbl h)
    rw [← two_nsmul, ← mul_nsmul', ← pow_succ] at this
    exact this

theorem repL_zip {ps : List (P3 α)} {Ps : List S.W.Point} (h : List.Forall₂ S.Rep ps Ps) (es : List ℕ) : RepL S (ps.zip es) (Ps.zip es) := by
  induction h generalizing es with
  | nil => exact List.Forall₂.nil
  | cons hx _ ih =>
    cases es with
    | nil => exact List.Forall₂.nil
    | cons e es => exact List.Forall₂.cons ⟨hx, rfl⟩ (ih es)

theorem lsum_shift {G : Type*} [AddCommGroup G] (c : ℕ) (f : ℕ → ℕ) (Ps : List G) : ∀ es : List ℕ,
    lsum f (Ps.zip (es.map (· >>> c))) = lsum (fun e => f (e >>> c)) (Ps.zip es) := by
  induction Ps with
  | nil => intro es; rfl
  | cons P Ps ih =>
    intro es
    cases es with
    | nil => rfl
    | cons e es => simp only [List.map_cons, List.zip_cons_cons, lsum_cons]; rw [ih]

/-- the windows of the loop that starts at bit `cur` and makes `m` more steps. -/
theorem rep_windows {c : ℕ} (hc : c ≤ 64) (hc0 : 0 < c) {ps : List (P3 α)} {Ps : List S.W.Point} (h : List.Forall₂ S.Rep ps Ps) :
    ∀ (m fuel cur : ℕ) (es : List ℕ), m ≤ fuel → 255 < cur + c * m → (0 < m → cur + c * (m - 1) ≤ 255) →
    ∃ ws, g.windowLoop c ps fuel cur es = some (ws, es.map (· >>> (c * m))) ∧ ws.length = m ∧
      S.Rep (g.horner c ws) (lsum (fun e => e % 2 ^ (c * m)) (Ps.zip es)) := by
  intro m
  induction m with
  | zero =>
    intro fuel cur es _ h1 _
    have hn : ¬ cur ≤ 255 := by omega
    have e0 : lsum (fun e => e % 2 ^ (c * 0)) (Ps.zip es) = 0 := by
      generalize Ps.zip es = l
      induction l with
      | nil => rfl
      | cons x t ih => rw [lsum_cons, ih, mul_zero, pow_zero, Nat.mod_one, zero_nsmul, zero_add]
    refine ⟨[], ?_, rfl, ?_⟩
    · have em : es.map (· >>> (c * 0)) = es := by simp
      rw [em]
      cases fuel with
      | zero => rfl
      | succ f => rw [Ops.windowLoop, if_neg hn]
    · rw [e0]; exact rep_infinity
  | succ m ih =>
    intro fuel cur es hf h1 h2
    obtain ⟨f, rfl⟩ : ∃ f, fuel = f + 1 := ⟨fuel - 1, by omega⟩
    have hcur : cur ≤ 255 := by have := h2 (by omega); omega
    obtain ⟨b', B', s1, s2, s3⟩ := rep_scatter hc (repL_zip h es) (b := List.replicate (2 ^ c - 1) g.infinity)
      (B := List.replicate (2 ^ c - 1) 0) (by
        rw [List.forall₂_iff_get]
        refine ⟨by simp, fun j _ _ => ?_⟩
        simp only [List.get_eq_getElem, List.getElem_replicate]
        exact rep_infinity) (by simp)
    rw [wsum_zero, zero_add] at s3
    obtain ⟨ws, w1, w2, w3⟩ := ih f (cur + c) (es.map (· >>> c)) (by omega) (by rw [mul_add, mul_one] at h1; omega) (by
      intro hm
      have := h2 (by omega)
      obtain ⟨k, rfl⟩ : ∃ k, m = k + 1 := ⟨m - 1, by omega⟩
      simp only [Nat.add_sub_cancel] at this ⊢
      rw [mul_add, mul_one] at this
      omega)
    refine ⟨(g.collect b').2 :: ws, ?_, by rw [List.length_cons, w2], ?_⟩
    · rw [Ops.windowLoop, if_pos hcur, s1]
      simp only [w1]
      rw [List.map_map]
      congr 2
      apply List.map_congr_left
      intro e _
      simp only [Function.comp]
      rw [← Nat.shiftRight_add, mul_add, mul_one, add_comm]
    · have e : g.horner c ((g.collect b').2 :: ws) = g.addPt (g.dblN c (g.horner c ws)) (g.collect b').2 := rfl
      rw [e, lsum_step]
      rw [lsum_shift] at w3
      have := rep_collect s2
      rw [s3] at this
      exact rep_add (rep_dblN c w3) this.2

/-- `MultiExp`: the sum of the multiples, each scalar taken modulo `2^(c·(255/c+1))`; the caller's scalars are shifted out. -/
theorem multiExp_rep {c : ℕ} (hc : c ≤ 64) (hc0 : 0 < c) {ps : List (P3 α)} {Ps : List S.W.Point} (h : List.Forall₂ S.Rep ps Ps)
    (es : List ℕ) (hl : ps.length = es.length) :
    ∃ q, g.multiExp c ps es = .ret (some q, es.map (· >>> (c * (255 / c + 1)))) ∧
      S.Rep q (lsum (fun e => e % 2 ^ (c * (255 / c + 1))) (Ps.zip es)) := by
  have hd := Nat.div_add_mod 255 c
  have hm := Nat.mod_lt 255 hc0
  have hle : 255 / c ≤ 255 := Nat.div_le_self _ _
  obtain ⟨ws, w1, w2, w3⟩ := rep_windows hc hc0 h (255 / c + 1) 256 0 es (by omega) (by rw [mul_add, mul_one]; omega)
    (fun _ => by rw [Nat.add_sub_cancel]; omega)
  refine ⟨g.horner c ws, ?_, w3⟩
  rw [Ops.multiExp, if_neg (by simpa using hl), if_neg (by omega), w1]
  simp only []
  rw [if_pos w2]

theorem multiExp_error (c : ℕ) (ps : List (P3 α)) (es : List ℕ) (hl : ps.length ≠ es.length) : g.multiExp c ps es = .ret (none, es) := by
  rw [Ops.multiExp, if_pos hl]

end Sem

end Verif.Bls
