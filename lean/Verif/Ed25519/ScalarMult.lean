import Verif.Ed25519.Slide

/-!
# The scalar multiplications of edwards25519.go
-/

namespace Verif.Ed25519

open Edwards

/-! ## Variable time, with `slide` -/

theorem oddMultiples_spec {A2 : Ext} {S : Pt} (h2 : RepE A2 S) (n : ℕ) {c : Cached} {T : Pt} (hc : RepCa c T) (j : ℕ) (hj : j ≤ n)
    (d : Cached) : RepCa ((oddMultiples A2 n c).getD j d) (T + j • S) := by
  induction n generalizing c T j with
  | zero =>
    have : j = 0 := by omega
    subst this
    simpa [oddMultiples] using hc
  | succ n ih =>
    simp only [oddMultiples]
    cases j with
    | zero => simpa using hc
    | succ j =>
      have := ih (extToCached_rep (complToExt_rep (geAdd_rep h2 hc))) j (by omega)
      rw [List.getD_cons_succ]
      convert this using 1
      rw [succ_nsmul]; abel

theorem cachedTable_spec {p : Ext} {A : Pt} (h : RepE p A) (j : ℕ) (hj : j < 8) (d : Cached) :
    RepCa ((cachedTable p).getD j d) ((2 * j + 1) • A) := by
  have := oddMultiples_spec (complToExt_rep (extDouble_rep h)) 7 (extToCached_rep h) j (by omega) d
  unfold cachedTable
  convert this using 1
  rw [add_nsmul, one_nsmul, mul_comm, mul_nsmul', two_nsmul, add_comm]

theorem Good.index {e : Int} (h : Good e) (hp : e > 0) : (e / 2).toNat < 8 ∧ ((2 * (e / 2).toNat + 1 : ℕ) : Int) = e := by
  rcases h with h | ⟨h1, h2, h3⟩
  · omega
  · push_cast
    omega

theorem Good.neg_index {e : Int} (h : Good e) (hp : e < 0) : (-e / 2).toNat < 8 ∧ ((2 * (-e / 2).toNat + 1 : ℕ) : Int) = -e := by
  rcases h with h | ⟨h1, h2, h3⟩
  · omega
  · push_cast
    omega

theorem addDigit_rep {p : Ext} {A R : Pt} {t : Compl} {e : Int} (h : RepE p A) (ht : RepC t R) (he : Good e) :
    RepC (addDigit (cachedTable p) t e) (R + e • A) := by
  unfold addDigit
  by_cases hp : e > 0
  · obtain ⟨h1, h2⟩ := he.index hp
    rw [if_pos hp]
    have := geAdd_rep (complToExt_rep ht) (cachedTable_spec h _ h1 cachedDflt)
    rwa [← natCast_zsmul, h2] at this
  · rw [if_neg hp]
    by_cases hn : e < 0
    · obtain ⟨h1, h2⟩ := he.neg_index hn
      rw [if_pos hn]
      have := geSub_rep (complToExt_rep ht) (cachedTable_spec h _ h1 cachedDflt)
      rwa [← natCast_zsmul, h2, neg_zsmul, sub_neg_eq_add] at this
    · rw [if_neg hn]
      have : e = 0 := by omega
      rw [this, zero_zsmul, add_zero]
      exact ht

theorem addBaseDigit_rep {R : Pt} {t : Compl} {e : Int} (ht : RepC t R) (he : Good e) :
    RepC (addBaseDigit t e) (R + e • base) := by
  unfold addBaseDigit
  by_cases hp : e > 0
  · obtain ⟨h1, h2⟩ := he.index hp
    rw [if_pos hp]
    have := geMixedAdd_rep (complToExt_rep ht) (biT_spec _ h1 preZero)
    rwa [← natCast_zsmul, h2] at this
  · rw [if_neg hp]
    by_cases hn : e < 0
    · obtain ⟨h1, h2⟩ := he.neg_index hn
      rw [if_pos hn]
      have := geMixedSub_rep (complToExt_rep ht) (biT_spec _ h1 preZero)
      rwa [← natCast_zsmul, h2, neg_zsmul, sub_neg_eq_add] at this
    · rw [if_neg hn]
      have : e = 0 := by omega
      rw [this, zero_zsmul, add_zero]
      exact ht

/-- one step on points. -/
def astep (A B : Pt) (R : Pt) (e : Int × Int) : Pt := R + R + e.1 • A + e.2 • B

theorem fold_rep {step : Proj → Int × Int → Proj} {A B : Pt}
    (hs : ∀ {r R e}, RepP r R → Good e.1 → Good e.2 → RepP (step r e) (astep A B R e)) (l : List (Int × Int))
    (hl : ∀ e ∈ l, Good e.1 ∧ Good e.2) {r : Proj} {R : Pt} (hr : RepP r R) : RepP (l.foldl step r) (l.foldl (astep A B) R) := by
  induction l generalizing r R with
  | nil => exact hr
  | cons e l ih =>
    simp only [List.foldl_cons]
    have he := hl e List.mem_cons_self
    exact ih (fun e he => hl e (List.mem_cons_of_mem _ he)) (hs hr he.1 he.2)

theorem astep_skip (A B : Pt) (l : List (Int × Int)) : (skipZeros l).foldl (astep A B) 0 = l.foldl (astep A B) 0 := by
  induction l with
  | nil => rfl
  | cons e l ih =>
    simp only [skipZeros, List.dropWhile_cons]
    split
    · rename_i h
      simp only [decide_eq_true_eq] at h
      have : astep A B 0 e = 0 := by simp [astep, h.1, h.2]
      rw [List.foldl_cons, this]
      exact ih
    · rfl

theorem astep_val (A B : Pt) (x y : List Int) (h : x.length = y.length) :
    (x.zip y).foldr (fun e R => astep A B R e) 0 = bval x • A + bval y • B := by
  induction x generalizing y with
  | nil =>
    have : y = [] := by cases y <;> simp_all
    subst this
    simp [bval]
  | cons a x ih =>
    match y, h with
    | b :: y, h =>
      simp only [List.zip_cons_cons, List.foldr_cons]
      rw [ih y (by simpa using h)]
      simp only [astep, bval, add_zsmul, mul_zsmul, two_zsmul]
      abel

theorem mem_skipZeros {l : List (Int × Int)} {e : Int × Int} (h : e ∈ skipZeros l) : e ∈ l := (List.dropWhile_sublist _).mem h

theorem slides_rep {step : Proj → Int × Int → Proj} {A B : Pt}
    (hs : ∀ {r R e}, RepP r R → Good e.1 → Good e.2 → RepP (step r e) (astep A B R e)) {a b : Bytes}
    (ha : a.length = 32) (ha' : leNat a < 2 ^ 253) (hb : b.length = 32) (hb' : leNat b < 2 ^ 253) :
    RepP ((skipZeros ((slide a).zip (slide b)).reverse).foldl step projZero) (leNat a • A + leNat b • B) := by
  obtain ⟨a1, a2, a3⟩ := slide_spec ha ha'
  obtain ⟨b1, b2, b3⟩ := slide_spec hb hb'
  have := fold_rep hs (skipZeros ((slide a).zip (slide b)).reverse) (fun e he => by
    have := List.mem_reverse.mp (mem_skipZeros he)
    have := List.of_mem_zip (a := e.1) (b := e.2) this
    exact ⟨a3 _ this.1, b3 _ this.2⟩) projZero_rep
  rw [astep_skip, List.foldl_reverse, astep_val _ _ _ _ (a2.trans b2.symm), a1, b1, natCast_zsmul, natCast_zsmul] at this
  exact this

/-- `GeDoubleScalarMultVartime` computes `a A + b B` for scalars below `2^253`. -/
theorem geDoubleScalarMult_rep {p : Ext} {A : Pt} (h : RepE p A) {a b : Bytes} (ha : a.length = 32) (ha' : leNat a < 2 ^ 253)
    (hb : b.length = 32) (hb' : leNat b < 2 ^ 253) : RepP (geDoubleScalarMult a p b) (leNat a • A + leNat b • base) := by
  refine slides_rep ?_ ha ha' hb hb'
  intro r R e hr h1 h2
  exact complToProj_rep (addBaseDigit_rep (addDigit_rep h (projDouble_rep hr) h1) h2)

/-- `GePointAddVarTime` computes `a A + b B` for scalars below `2^253`. -/
theorem gePointAdd_rep {p q : Ext} {A B : Pt} (h : RepE p A) (h' : RepE q B) {a b : Bytes} (ha : a.length = 32) (ha' : leNat a < 2 ^ 253)
    (hb : b.length = 32) (hb' : leNat b < 2 ^ 253) : RepP (gePointAdd a p b q) (leNat a • A + leNat b • B) := by
  refine slides_rep ?_ ha ha' hb hb'
  intro r R e hr h1 h2
  exact complToProj_rep (addDigit_rep h' (addDigit_rep h (projDouble_rep hr) h1) h2)

/-! ## Fixed base -/

theorem preCMove_true (t u : PreC) : preCMove t u true = u := rfl
theorem preCMove_false (t u : PreC) : preCMove t u false = t := rfl

theorem RepPre.neg {p : PreC} {A : Pt} (h : RepPre p A) : RepPre ⟨p.yMinusX, p.yPlusX, feNeg p.xy2d⟩ (-A) := by
  refine ⟨h.tM, h.tP, feNeg_bd h.tT, ?_, ?_, ?_⟩ <;> dsimp only
  · rw [h.m, neg_x, neg_y]; ring
  · rw [h.p, neg_x, neg_y]; ring
  · rw [feNeg_val h.tT, h.t, neg_x, neg_y]; ring

theorem select_fold (row : List PreC) (b : ℕ) (hb : b ≤ 8) :
    (List.range 8).foldl (fun (t : PreC) (i : ℕ) => preCMove t (row.getD i preZero) ((b : Int) == (i : Int) + 1)) preZero =
      if b = 0 then preZero else row.getD (b - 1) preZero := by
  rcases b with _ | _ | _ | _ | _ | _ | _ | _ | _ | b
  · rfl
  · rfl
  · rfl
  · rfl
  · rfl
  · rfl
  · rfl
  · rfl
  · rfl
  · omega

theorem selectPoint_rep {pos : ℕ} (hp : pos < 32) {b : Int} (h1 : -8 ≤ b) (h2 : b ≤ 8) :
    RepPre (selectPoint pos b) (b • 256 ^ pos • base) := by
  have key : ∀ n : ℕ, n ≤ 8 → RepPre (if n = 0 then preZero else (baseT.getD pos []).getD (n - 1) preZero) (n • 256 ^ pos • base) := by
    intro n hn
    split
    · rename_i h; rw [h, zero_nsmul]; exact preZero_rep
    · have := baseT_spec pos (n - 1) hp (by omega) preZero
      rwa [show n - 1 + 1 = n from by omega] at this
  unfold selectPoint
  by_cases hb : b < 0
  · obtain ⟨n, rfl⟩ : ∃ n : ℕ, b = -(n : Int) := ⟨(-b).toNat, by omega⟩
    have hn : n ≤ 8 := by omega
    simp only [hb, if_true, neg_neg, select_fold _ n hn, decide_true, preCMove_true]
    have := (key n hn).neg
    rwa [neg_zsmul, natCast_zsmul]
  · obtain ⟨n, rfl⟩ : ∃ n : ℕ, b = (n : Int) := ⟨b.toNat, by omega⟩
    have hn : n ≤ 8 := by omega
    simp only [hb, if_false, select_fold _ n hn, decide_false, preCMove_false]
    rw [natCast_zsmul]
    exact key n hn

/-- the value of digits to the base 256. -/
def v256 : List Int → Int
  | [] => 0
  | e :: es => e + 256 * v256 es

attribute [local irreducible] selectPoint geMixedAdd complToExt in
theorem addRows_cons (h : Ext) (pos : ℕ) (e : Int) (es : List Int) :
    addRows h pos (e :: es) = addRows (complToExt (geMixedAdd h (selectPoint pos e))) (pos + 1) es := rfl

theorem addRows_rep (l : List Int) {h : Ext} {H : Pt} (hh : RepE h H) (pos : ℕ) (hp : pos + l.length ≤ 32) (hl : ∀ e ∈ l, -8 ≤ e ∧ e ≤ 8) :
    RepE (addRows h pos l) (H + v256 l • 256 ^ pos • base) := by
  induction l generalizing h H pos with
  | nil =>
    rw [show v256 [] = 0 from rfl, zero_zsmul, add_zero]
    exact hh
  | cons e es ih =>
    rw [addRows_cons]
    simp only [List.length_cons] at hp
    have he := hl e List.mem_cons_self
    have := ih (complToExt_rep (geMixedAdd_rep hh (selectPoint_rep (pos := pos) (by omega) he.1 he.2))) (pos + 1) (by omega)
      (fun e he => hl e (List.mem_cons_of_mem _ he))
    convert this using 1
    rw [show v256 (e :: es) = e + 256 * v256 es from rfl, add_zsmul, pow_succ, mul_nsmul, mul_zsmul', ← natCast_zsmul (256 ^ pos • base) 256]
    push_cast
    abel

/-- the value of digits to the base 16. -/
def nval : List Int → Int
  | [] => 0
  | x :: xs => x + 16 * nval xs

theorem evens_val : (l : List Int) → nval l = v256 (evens l) + 16 * v256 (evens l.tail)
  | [] => rfl
  | [x] => by simp [nval, evens, v256]
  | x :: y :: xs => by
    have e := evens_val xs
    have h1 : nval (x :: y :: xs) = x + 16 * (y + 16 * nval xs) := rfl
    have h2 : v256 (evens (x :: y :: xs)) = x + 256 * v256 (evens xs) := rfl
    rw [h1, h2, e]
    rcases xs with _ | ⟨z, zs⟩
    · simp [evens, v256]
    · have h3 : v256 (evens (List.tail (x :: y :: z :: zs))) = y + 256 * v256 (evens zs) := rfl
      rw [h3, List.tail_cons]
      ring

theorem evens_length : (l : List Int) → (evens l).length = (l.length + 1) / 2
  | [] => rfl
  | [_] => by simp [evens]
  | _ :: _ :: xs => by simp [evens, evens_length xs]; omega

theorem mem_evens : (l : List Int) → ∀ e ∈ evens l, e ∈ l
  | [] => by simp [evens]
  | [x] => by simp [evens]
  | x :: y :: xs => by
    intro e he
    rcases List.mem_cons.mp he with rfl | he
    · exact List.mem_cons_self
    · exact List.mem_cons_of_mem _ (List.mem_cons_of_mem _ (mem_evens xs e he))

theorem recode_length (c : Int) (l : List Int) : (recode c l).length = l.length := by
  induction l generalizing c with
  | nil => rfl
  | cons x xs ih =>
    cases xs with
    | nil => rfl
    | cons y ys => simp only [recode, List.length_cons, ih]

theorem recode_spec (l : List Int) (hne : l ≠ []) (c : Int) (hc : c = 0 ∨ c = 1) (hl : ∀ x ∈ l, 0 ≤ x ∧ x ≤ 15)
    (hlast : l.getLast hne ≤ 7) : nval (recode c l) = c + nval l ∧ ∀ e ∈ recode c l, -8 ≤ e ∧ e ≤ 8 := by
  induction l generalizing c with
  | nil => exact absurd rfl hne
  | cons x xs ih =>
    have hx := hl x List.mem_cons_self
    cases xs with
    | nil =>
      have h7 : x ≤ 7 := hlast
      simp only [recode, nval]
      rw [i8_eq (by omega) (by omega)]
      refine ⟨by ring, ?_⟩
      intro e he
      rw [List.mem_singleton] at he
      omega
    | cons y ys =>
      simp only [recode]
      rw [i8_eq (x := x + c) (by omega) (by omega), i8_eq (x := x + c + 8) (by omega) (by omega),
        i8_eq (x := x + c - (x + c + 8) / 2 ^ 4 * 2 ^ 4) (by norm_num; omega) (by norm_num; omega)]
      have hc' : (x + c + 8) / 2 ^ 4 = 0 ∨ (x + c + 8) / 2 ^ 4 = 1 := by norm_num; omega
      obtain ⟨a1, a2⟩ := ih (by simp) ((x + c + 8) / 2 ^ 4) hc' (fun x hx => hl x (List.mem_cons_of_mem _ hx))
        (by simpa using hlast)
      refine ⟨?_, ?_⟩
      · rw [nval, a1, nval.eq_def (x :: y :: ys)]
        ring
      · intro e he
        rcases List.mem_cons.mp he with rfl | he
        · norm_num; omega
        · exact a2 e he

theorem nibbles_length (a : Bytes) : (nibbles a).length = 2 * a.length := by
  induction a with
  | nil => rfl
  | cons b a ih => simp [nibbles, ih]; omega

theorem nib_lo (b : UInt8) : (b &&& 15).toNat = b.toNat % 16 := by
  rw [UInt8.toNat_and]; exact Nat.and_two_pow_sub_one_eq_mod b.toNat 4

theorem nib_hi (b : UInt8) : ((b >>> 4) &&& 15).toNat = b.toNat / 16 := by
  rw [nib_lo, UInt8.toNat_shiftRight, show (4 : UInt8).toNat % 8 = 4 from rfl, Nat.shiftRight_eq_div_pow]
  have := UInt8.toNat_lt b
  norm_num
  omega

theorem nibbles_val (a : Bytes) : nval (nibbles a) = leNat a := by
  induction a with
  | nil => rfl
  | cons b a ih =>
    have h1 := nib_lo b
    have h2 := nib_hi b
    simp only [nibbles, nval, ih, leNat]
    push_cast
    omega

theorem nibbles_mem (a : Bytes) : ∀ x ∈ nibbles a, 0 ≤ x ∧ x ≤ 15 := by
  induction a with
  | nil => simp [nibbles]
  | cons b a ih =>
    intro x hx
    have hb := UInt8.toNat_lt b
    have h1 := nib_lo b
    have h2 := nib_hi b
    simp only [nibbles, List.mem_cons] at hx
    rcases hx with rfl | rfl | hx
    · omega
    · omega
    · exact ih x hx

theorem nval_append (a b : List Int) : nval (a ++ b) = nval a + 16 ^ a.length * nval b := by
  induction a with
  | nil => simp [nval]
  | cons x a ih => simp only [List.cons_append, nval, ih, List.length_cons, pow_succ]; ring

theorem nval_nonneg {l : List Int} (h : ∀ x ∈ l, 0 ≤ x ∧ x ≤ 15) : 0 ≤ nval l := by
  induction l with
  | nil => simp [nval]
  | cons x l ih =>
    have := ih (fun x hx => h x (List.mem_cons_of_mem _ hx))
    have hx := h x List.mem_cons_self
    simp only [nval]
    omega

/-- `GeScalarMultBase` computes `a B` for every scalar below `2^255`. -/
theorem geScalarMultBase_rep {a : Bytes} (h : a.length = 32) (hv : leNat a < 2 ^ 255) : RepE (geScalarMultBase a) (leNat a • base) := by
  have hlen : (nibbles a).length = 64 := by rw [nibbles_length, h]
  have hne : nibbles a ≠ [] := by intro h0; rw [h0] at hlen; simp at hlen
  have hlast : (nibbles a).getLast hne ≤ 7 := by
    have sp := List.dropLast_append_getLast hne
    have e := nibbles_val a
    rw [← sp, nval_append, List.length_dropLast, hlen] at e
    have nn := nval_nonneg (l := (nibbles a).dropLast) (fun x hx => nibbles_mem a x (List.mem_of_mem_dropLast hx))
    simp only [nval] at e
    have hv' : ((leNat a : ℕ) : Int) < 8 * 16 ^ 63 := by
      have : ((leNat a : ℕ) : Int) < ((2 ^ 255 : ℕ) : Int) := by exact_mod_cast hv
      have h2 : ((2 ^ 255 : ℕ) : Int) = 8 * 16 ^ 63 := by norm_num
      omega
    by_contra hc
    have : (16 : Int) ^ 63 * 8 ≤ 16 ^ 63 * (nibbles a).getLast hne := mul_le_mul_of_nonneg_left (by omega) (by positivity)
    norm_num at e this hv'
    omega
  obtain ⟨r1, r2⟩ := recode_spec (nibbles a) hne 0 (Or.inl rfl) (nibbles_mem a) hlast
  rw [zero_add, nibbles_val] at r1
  have rl := recode_length 0 (nibbles a)
  rw [hlen] at rl
  simp only [geScalarMultBase]
  generalize recode 0 (nibbles a) = e at *
  have h1 := addRows_rep (evens e.tail) extZero_rep 0 (by rw [evens_length, List.length_tail, rl])
    (fun x hx => r2 x (List.mem_of_mem_tail (mem_evens _ x hx)))
  have h2 := complToExt_rep (projDouble_rep (complToProj_rep (projDouble_rep (complToProj_rep (projDouble_rep
    (complToProj_rep (extDouble_rep h1)))))))
  have h3 := addRows_rep (evens e) h2 0 (by rw [evens_length, rl]) (fun x hx => r2 x (mem_evens _ x hx))
  convert h3 using 1
  rw [← natCast_zsmul, ← r1, evens_val]
  simp only [pow_zero, one_nsmul, zero_add, ← two_zsmul, ← mul_zsmul']
  rw [← add_zsmul]
  congr 1
  ring

end Verif.Ed25519
