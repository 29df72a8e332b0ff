import Verif.Pasta.JsonSpec
import Verif.Pasta.JsonLemmas
import Mathlib.Data.List.TakeWhile

/-!
# The reader of `Verif.Pasta.Json` accepts the texts of the grammar, and no others
-/

namespace Verif.Pasta

open JsonSpec

theorem isDigit_iff {c : UInt8} : isDigit c = true ↔ 48 ≤ c ∧ c ≤ 57 := by
  rw [isDigit, Bool.and_eq_true, decide_eq_true_iff, decide_eq_true_iff]

theorem isSpace_iff {c : UInt8} : isSpace c = true ↔ c = 32 ∨ c = 9 ∨ c = 10 ∨ c = 13 := by
  simp only [isSpace, Bool.or_eq_true, beq_iff_eq]
  tauto

theorem skip_ws {u : Bytes} (h : Ws u) (s : Bytes) : skip (u ++ s) = skip s := by
  rw [skip, skip, List.dropWhile_append_of_pos fun c hc => isSpace_iff.mpr (h c hc)]

theorem skip_split (s : Bytes) : ∃ u, Ws u ∧ s = u ++ skip s :=
  ⟨s.takeWhile isSpace, fun _ hc => isSpace_iff.mp (List.mem_takeWhile_imp hc), (List.takeWhile_append_dropWhile).symm⟩

theorem skip_idem (s : Bytes) : skip (skip s) = skip s := by
  obtain ⟨u, hu, e⟩ := skip_split s
  conv_rhs => rw [e, skip_ws hu]

theorem skip_ws_nil {u : Bytes} (h : Ws u) : skip u = [] := by
  have := skip_ws h []
  rwa [List.append_nil] at this

/-! ## numbers -/

theorem digits1_iff {s : Bytes} : digits1 s = true ↔ Digits s := by
  rw [digits1, Bool.and_eq_true, List.all_eq_true, Digits]
  simp only [Bool.not_eq_true', List.isEmpty_eq_false_iff, isDigit_iff]

theorem expOk_iff {s : Bytes} : expOk s = true ↔ Exp s := by
  cases s with
  | nil => simp [expOk, Exp]
  | cons c r =>
    rw [expOk.eq_def]
    dsimp only
    rw [Bool.and_eq_true, Bool.or_eq_true, beq_iff_eq, beq_iff_eq]
    constructor
    · rintro ⟨hc, h⟩
      right
      cases r with
      | nil => cases h
      | cons d r' =>
        dsimp only at h
        by_cases hd : (d == 43 || d == 45) = true
        · rw [if_pos hd, digits1_iff] at h
          rw [Bool.or_eq_true, beq_iff_eq, beq_iff_eq] at hd
          refine ⟨c, [d], r', hc, ?_, h, rfl⟩
          rcases hd with rfl | rfl <;> simp
        · rw [if_neg hd, digits1_iff] at h
          exact ⟨c, [], d :: r', hc, .inl rfl, h, rfl⟩
    · rintro (h | ⟨e, sg, d, he, hs, hd, h⟩)
      · cases h
      · injection h with h1 h2
        subst h1 h2
        refine ⟨he, ?_⟩
        rcases hs with rfl | rfl | rfl
        · obtain ⟨x, y, rfl⟩ := List.exists_cons_of_ne_nil hd.1
          have hx := isDigit_iff.mpr (hd.2 x (by simp))
          have h1 := digit_ne hx 43 (by decide)
          have h2 := digit_ne hx 45 (by decide)
          simp only [List.nil_append]
          rw [if_neg (by simp [h1, h2])]
          exact digits1_iff.mpr hd
        · exact digits1_iff.mpr hd
        · exact digits1_iff.mpr hd

theorem exp_head {e : Bytes} (h : Exp e) : ∀ c t, e = c :: t → isDigit c = false ∧ c ≠ 46 := by
  rintro c t rfl
  rcases h with h | ⟨x, sg, d, he, -, -, h⟩
  · cases h
  · injection h with h1 _
    subst h1
    rcases he with rfl | rfl <;> exact ⟨by decide, by decide⟩

theorem span_digits {d e : Bytes} (hd : ∀ c ∈ d, 48 ≤ c ∧ c ≤ 57) (he : ∀ c t, e = c :: t → isDigit c = false) :
    (d ++ e).span isDigit = (d, e) := by
  have h : ∀ c ∈ d, isDigit c = true := fun c hc => isDigit_iff.mpr (hd c hc)
  cases e with
  | nil => rw [List.append_nil, List.span_eq_takeWhile_dropWhile, dropWhile_all h, List.takeWhile_eq_self_iff.mpr h]
  | cons c t => exact span_stop (he c t rfl) h

theorem fracOk_iff {s : Bytes} : fracOk s = true ↔ ∃ f e, Frac f ∧ Exp e ∧ s = f ++ e := by
  constructor
  · intro h
    unfold fracOk at h
    split at h
    · rename_i r
      simp only [Bool.and_eq_true, Bool.not_eq_true', List.isEmpty_eq_false_iff, List.span_eq_takeWhile_dropWhile] at h
      refine ⟨46 :: r.takeWhile isDigit, r.dropWhile isDigit, .inr ⟨_, ⟨h.1, fun c hc => isDigit_iff.mp (List.mem_takeWhile_imp hc)⟩, rfl⟩,
        expOk_iff.mp h.2, ?_⟩
      rw [List.cons_append, List.takeWhile_append_dropWhile]
    · exact ⟨[], s, .inl rfl, expOk_iff.mp h, rfl⟩
  · rintro ⟨f, e, hf | ⟨d, hd, hf⟩, he, rfl⟩
    · subst hf
      rw [List.nil_append, fracOk]
      · exact expOk_iff.mpr he
      · rintro r rfl
        exact (exp_head he 46 r rfl).2 rfl
    · subst hf
      rw [List.cons_append, fracOk, span_digits hd.2 fun c t h => (exp_head he c t h).1]
      simp only [Bool.and_eq_true, Bool.not_eq_true', List.isEmpty_eq_false_iff]
      exact ⟨hd.1, expOk_iff.mpr he⟩

theorem frac_head {f e : Bytes} (hf : Frac f) (he : Exp e) : ∀ c t, f ++ e = c :: t → isDigit c = false := by
  rintro c t h
  rcases hf with rfl | ⟨d, -, rfl⟩
  · exact (exp_head he c t h).1
  · injection h with h1 _
    subst h1
    decide

theorem unsignedOk_iff {s : Bytes} : unsignedOk s = true ↔ ∃ i f e, Int i ∧ Frac f ∧ Exp e ∧ s = i ++ (f ++ e) := by
  constructor
  · intro h
    unfold unsignedOk at h
    split at h
    · rename_i r
      obtain ⟨f, e, hf, he, rfl⟩ := fracOk_iff.mp h
      exact ⟨[48], f, e, .inl rfl, hf, he, rfl⟩
    · rename_i c r hc
      rw [Bool.and_eq_true] at h
      obtain ⟨f, e, hf, he, h2⟩ := fracOk_iff.mp h.2
      refine ⟨c :: r.takeWhile isDigit, f, e, .inr ⟨⟨by simp, ?_⟩, ?_⟩, hf, he, ?_⟩
      · intro x hx
        rcases List.mem_cons.mp hx with rfl | hx
        · exact isDigit_iff.mp h.1
        · exact isDigit_iff.mp (List.mem_takeWhile_imp hx)
      · intro h'
        exact hc (by simpa using h')
      · rw [← h2, List.cons_append, List.takeWhile_append_dropWhile]
    · cases h
  · rintro ⟨i, f, e, hi, hf, he, rfl⟩
    rcases hi with rfl | ⟨hd, hi⟩
    · exact fracOk_iff.mpr ⟨f, e, hf, he, rfl⟩
    · obtain ⟨x, y, rfl⟩ := List.exists_cons_of_ne_nil hd.1
      have hx := isDigit_iff.mpr (hd.2 x (by simp))
      rw [List.cons_append, unsignedOk]
      · rw [Bool.and_eq_true]
        refine ⟨hx, fracOk_iff.mpr ⟨f, e, hf, he, ?_⟩⟩
        have := span_digits (d := y) (e := f ++ e) (fun c hc => hd.2 c (by simp [hc])) (frac_head hf he)
        rw [List.span_eq_takeWhile_dropWhile] at this
        exact (Prod.mk.inj this).2
      · rintro rfl
        exact hi rfl

theorem numberOk_iff {s : Bytes} : numberOk s = true ↔ Number s := by
  constructor
  · intro h
    unfold numberOk at h
    split at h
    · obtain ⟨i, f, e, hi, hf, he, rfl⟩ := unsignedOk_iff.mp h
      exact ⟨[45], i, f, e, .inr rfl, hi, hf, he, rfl⟩
    · obtain ⟨i, f, e, hi, hf, he, rfl⟩ := unsignedOk_iff.mp h
      exact ⟨[], i, f, e, .inl rfl, hi, hf, he, rfl⟩
  · rintro ⟨sg, i, f, e, hs, hi, hf, he, rfl⟩
    have h := unsignedOk_iff.mpr ⟨i, f, e, hi, hf, he, rfl⟩
    rcases hs with rfl | rfl
    · rw [List.nil_append, numberOk]
      · exact h
      · intro r hr
        rw [hr] at h
        rw [unsignedOk, Bool.and_eq_true] at h
        · exact absurd h.1 (by decide)
        · decide
    · exact h

theorem digit_num {c : UInt8} (h : 48 ≤ c ∧ c ≤ 57) : isNumByte c = true := by
  simp [isNumByte, isDigit_iff.mpr h]

theorem number_bytes {s : Bytes} (h : Number s) : ∀ c ∈ s, isNumByte c = true := by
  obtain ⟨sg, i, f, e, hs, hi, hf, he, rfl⟩ := h
  intro c hc
  simp only [List.mem_append] at hc
  rcases hc with hc | hc | hc | hc
  · rcases hs with rfl | rfl
    · cases hc
    · rw [List.mem_singleton.mp hc]; decide
  · rcases hi with rfl | ⟨hd, -⟩
    · rw [List.mem_singleton.mp hc]; decide
    · exact digit_num (hd.2 c hc)
  · rcases hf with rfl | ⟨d, hd, rfl⟩
    · cases hc
    · rcases List.mem_cons.mp hc with rfl | hc
      · decide
      · exact digit_num (hd.2 c hc)
  · rcases he with rfl | ⟨x, sg, d, hx, hs, hd, rfl⟩
    · cases hc
    · rcases List.mem_cons.mp hc with rfl | hc
      · rcases hx with rfl | rfl <;> decide
      · rcases List.mem_append.mp hc with hc | hc
        · rcases hs with rfl | rfl | rfl
          · cases hc
          · rw [List.mem_singleton.mp hc]; decide
          · rw [List.mem_singleton.mp hc]; decide
        · exact digit_num (hd.2 c hc)

theorem number_ne {s : Bytes} (h : Number s) : s ≠ [] := by
  obtain ⟨sg, i, f, e, -, hi, -, -, rfl⟩ := h
  rcases hi with rfl | ⟨hd, -⟩
  · simp
  · simp [hd.1]

/-! ## strings -/

theorem stringRest_some : ∀ {s x t : Bytes}, stringRest s = some (x, t) → Plain x ∧ s = x ++ 34 :: t
  | [], _, _, h => by cases h
  | c :: r, x, t, h => by
    rw [stringRest] at h
    by_cases h1 : c = 34
    · rw [if_pos h1] at h
      cases h
      exact ⟨by simp [Plain], by rw [h1]; rfl⟩
    · rw [if_neg h1] at h
      by_cases h2 : c < 32 ∨ c = 92 ∨ 128 ≤ c
      · rw [if_pos h2] at h; cases h
      · rw [if_neg h2] at h
        cases h3 : stringRest r with
        | none => rw [h3] at h; cases h
        | some p =>
          obtain ⟨y, t'⟩ := p
          rw [h3] at h
          cases h
          obtain ⟨a, b⟩ := stringRest_some h3
          push Not at h2
          refine ⟨?_, by rw [b]; rfl⟩
          intro d hd
          rcases List.mem_cons.mp hd with rfl | hd
          · exact ⟨UInt8.not_lt.mp h2.1, h1, h2.2.1, UInt8.not_le.mp h2.2.2⟩
          · exact a d hd

theorem stringRest_of : ∀ {x : Bytes} (t : Bytes), Plain x → stringRest (x ++ 34 :: t) = some (x, t)
  | [], _, _ => rfl
  | c :: x, t, h => by
    obtain ⟨a, b, d, e⟩ := h c (by simp)
    rw [List.cons_append, stringRest, if_neg b, if_neg (by push Not; exact ⟨UInt8.not_lt.mpr a, d, UInt8.not_le.mpr e⟩), stringRest_of t fun y hy => h y (by simp [hy])]

/-! ## the reader accepts only the grammar -/

theorem elems_ws {u x : Bytes} {l : List Json} (hu : Ws u) (h : Elems x l) : Elems (u ++ x) l := by
  have ap : ∀ {a b : Bytes}, Ws a → Ws b → Ws (a ++ b) := fun ha hb c hc => (List.mem_append.mp hc).elim (ha c) (hb c)
  cases h with
  | one u' s w v hu' hv hw => rw [← List.append_assoc]; exact .one _ _ _ _ (ap hu hu') hv hw
  | cons u' s w t v l hu' hv hw h => rw [← List.append_assoc]; exact .cons _ _ _ _ _ _ (ap hu hu') hv hw h

theorem members_ws {u x : Bytes} {l : List (Bytes × Json)} (hu : Ws u) (h : Members x l) : Members (u ++ x) l := by
  have ap : ∀ {a b : Bytes}, Ws a → Ws b → Ws (a ++ b) := fun ha hb c hc => (List.mem_append.mp hc).elim (ha c) (hb c)
  cases h with
  | one u' k w u2 s w' v hu' hk hw hu2 hv hw' => rw [← List.append_assoc]; exact .one _ _ _ _ _ _ _ (ap hu hu') hk hw hu2 hv hw'
  | cons u' k w u2 s w' t v l hu' hk hw hu2 hv hw' h => rw [← List.append_assoc]; exact .cons _ _ _ _ _ _ _ _ _ (ap hu hu') hk hw hu2 hv hw' h

theorem sound : ∀ n : ℕ,
    (∀ s v t, value n s = some (v, t) → ∃ u x, Ws u ∧ Val x v ∧ s = u ++ (x ++ t)) ∧
    (∀ s l t, elems n s = some (l, t) → ∃ x, Elems x l ∧ s = x ++ 93 :: t) ∧
    (∀ s l t, members n s = some (l, t) → ∃ x, Members x l ∧ s = x ++ 125 :: t)
  | 0 => by
    refine ⟨?_, ?_, ?_⟩
    · intro s v t h
      rw [value] at h; cases h
    · intro s v t h
      rw [elems] at h; cases h
    · intro s v t h
      rw [members] at h; cases h
  | n + 1 => by
    obtain ⟨iv, ie, im⟩ := sound n
    refine ⟨?_, ?_, ?_⟩
    · intro s v t h
      obtain ⟨u, hu, es⟩ := skip_split s
      rw [value] at h
      suffices ∃ x, Val x v ∧ skip s = x ++ t by
        obtain ⟨x, hx, e⟩ := this
        exact ⟨u, x, hu, hx, by rw [← e]; exact es⟩
      cases hs : skip s with
      | nil => rw [hs] at h; cases h
      | cons c r =>
        rw [hs] at h
        dsimp only at h
        obtain ⟨w, hw, er⟩ := skip_split r
        by_cases h1 : c = 123
        · rw [if_pos h1] at h
          cases hr : skip r with
          | nil => rw [hr] at h; cases h
          | cons d r' =>
            rw [hr] at h er
            dsimp only at h
            by_cases h2 : d = 125
            · rw [if_pos h2] at h
              cases h
              exact ⟨_, .obj0 w hw, by rw [er, h1, h2]; simp⟩
            · rw [if_neg h2] at h
              cases h3 : members n (d :: r') with
              | none => rw [h3] at h; cases h
              | some p =>
                obtain ⟨l, t'⟩ := p
                rw [h3] at h
                cases h
                obtain ⟨x, hx, e⟩ := im _ _ _ h3
                exact ⟨_, .obj _ _ (members_ws hw hx), by rw [er, h1, e]; simp⟩
        · rw [if_neg h1] at h
          by_cases h1' : c = 91
          · rw [if_pos h1'] at h
            cases hr : skip r with
            | nil => rw [hr] at h; cases h
            | cons d r' =>
              rw [hr] at h er
              dsimp only at h
              by_cases h2 : d = 93
              · rw [if_pos h2] at h
                cases h
                exact ⟨_, .arr0 w hw, by rw [er, h1', h2]; simp⟩
              · rw [if_neg h2] at h
                cases h3 : elems n (d :: r') with
                | none => rw [h3] at h; cases h
                | some p =>
                  obtain ⟨l, t'⟩ := p
                  rw [h3] at h
                  cases h
                  obtain ⟨x, hx, e⟩ := ie _ _ _ h3
                  exact ⟨_, .arr _ _ (elems_ws hw hx), by rw [er, h1', e]; simp⟩
          · rw [if_neg h1'] at h
            by_cases h4 : c = 34
            · rw [if_pos h4] at h
              cases h3 : stringRest r with
              | none => rw [h3] at h; cases h
              | some p =>
                obtain ⟨x, t'⟩ := p
                rw [h3] at h
                cases h
                obtain ⟨a, b⟩ := stringRest_some h3
                exact ⟨_, .str x a, by rw [b, h4]; simp⟩
            · rw [if_neg h4] at h
              by_cases h5 : c = 110
              · rw [if_pos h5] at h
                by_cases h6 : r.take 3 = [117, 108, 108]
                · rw [if_pos h6] at h
                  cases h
                  refine ⟨_, .null, ?_⟩
                  conv_lhs => rw [← List.take_append_drop 3 r, h6, h5]
                  rfl
                · rw [if_neg h6] at h; cases h
              · rw [if_neg h5] at h
                by_cases h5' : c = 116
                · rw [if_pos h5'] at h
                  by_cases h6 : r.take 3 = [114, 117, 101]
                  · rw [if_pos h6] at h
                    cases h
                    refine ⟨_, .tru, ?_⟩
                    conv_lhs => rw [← List.take_append_drop 3 r, h6, h5']
                    rfl
                  · rw [if_neg h6] at h; cases h
                · rw [if_neg h5'] at h
                  by_cases h7 : c = 102
                  · rw [if_pos h7] at h
                    by_cases h6 : r.take 4 = [97, 108, 115, 101]
                    · rw [if_pos h6] at h
                      cases h
                      refine ⟨_, .fls, ?_⟩
                      conv_lhs => rw [← List.take_append_drop 4 r, h6, h7]
                      rfl
                    · rw [if_neg h6] at h; cases h
                  · rw [if_neg h7] at h
                    rw [List.span_eq_takeWhile_dropWhile] at h
                    dsimp only at h
                    by_cases h8 : numberOk ((c :: r).takeWhile isNumByte) = true
                    · rw [if_pos h8] at h
                      cases h
                      exact ⟨_, .num _ (numberOk_iff.mp h8), (List.takeWhile_append_dropWhile).symm⟩
                    · rw [if_neg h8] at h; cases h
    · intro s l t h
      rw [elems] at h
      cases h1 : value n s with
      | none => rw [h1] at h; cases h
      | some p =>
        obtain ⟨v, t1⟩ := p
        rw [h1] at h
        dsimp only at h
        obtain ⟨u, x, hu, hx, e⟩ := iv _ _ _ h1
        obtain ⟨w, hw, e1⟩ := skip_split t1
        cases h2 : skip t1 with
        | nil => rw [h2] at h; cases h
        | cons c r =>
          rw [h2] at h e1
          dsimp only at h
          by_cases h3 : c = 93
          · rw [if_pos h3] at h
            cases h
            exact ⟨_, .one u x w v hu hx hw, by rw [e, e1, h3]; simp⟩
          · rw [if_neg h3] at h
            by_cases h4 : c = 44
            · rw [if_pos h4] at h
              cases h5 : elems n r with
              | none => rw [h5] at h; cases h
              | some p =>
                obtain ⟨l', t'⟩ := p
                rw [h5] at h
                cases h
                obtain ⟨y, hy, e2⟩ := ie _ _ _ h5
                exact ⟨_, .cons u x w y v l' hu hx hw hy, by rw [e, e1, h4, e2]; simp⟩
            · rw [if_neg h4] at h; cases h
    · intro s l t h
      rw [members] at h
      obtain ⟨u, hu, e⟩ := skip_split s
      cases h1 : skip s with
      | nil => rw [h1] at h; cases h
      | cons q r =>
        rw [h1] at h e
        dsimp only at h
        by_cases hq : q ≠ 34
        · rw [if_pos hq] at h; cases h
        rw [if_neg hq] at h
        rw [not_not] at hq
        cases h2 : stringRest r with
        | none => rw [h2] at h; cases h
        | some p =>
          obtain ⟨k, t1⟩ := p
          rw [h2] at h
          dsimp only at h
          obtain ⟨hk, e1⟩ := stringRest_some h2
          obtain ⟨w, hw, e2⟩ := skip_split t1
          cases h3 : skip t1 with
          | nil => rw [h3] at h; cases h
          | cons c r' =>
            rw [h3] at h e2
            dsimp only at h
            by_cases hc : c ≠ 58
            · rw [if_pos hc] at h; cases h
            rw [if_neg hc] at h
            rw [not_not] at hc
            cases h4 : value n r' with
            | none => rw [h4] at h; cases h
            | some p =>
              obtain ⟨v, t2⟩ := p
              rw [h4] at h
              dsimp only at h
              obtain ⟨u', x, hu', hx, e3⟩ := iv _ _ _ h4
              obtain ⟨w', hw', e4⟩ := skip_split t2
              cases h5 : skip t2 with
              | nil => rw [h5] at h; cases h
              | cons d r'' =>
                rw [h5] at h e4
                dsimp only at h
                by_cases h6 : d = 125
                · rw [if_pos h6] at h
                  cases h
                  exact ⟨_, .one u k w u' x w' v hu hk hw hu' hx hw', by rw [e, e1, e2, e3, e4, hq, hc, h6]; simp⟩
                · rw [if_neg h6] at h
                  by_cases h7 : d = 44
                  · rw [if_pos h7] at h
                    cases h8 : members n r'' with
                    | none => rw [h8] at h; cases h
                    | some p =>
                      obtain ⟨l', t'⟩ := p
                      rw [h8] at h
                      cases h
                      obtain ⟨y, hy, e5⟩ := im _ _ _ h8
                      exact ⟨_, .cons u k w u' x w' y v l' hu hk hw hu' hx hw' hy, by rw [e, e1, e2, e3, e4, e5, hq, hc, h7]; simp⟩
                  · rw [if_neg h7] at h; cases h

/-! ## the reader accepts every text of the grammar -/

theorem value_skip (n : ℕ) (s : Bytes) : value n (skip s) = value n s := by
  cases n with
  | zero => rw [value, value]
  | succ n => rw [value, value, skip_idem]

theorem elems_skip (n : ℕ) (s : Bytes) : elems n (skip s) = elems n s := by
  cases n with
  | zero => rw [elems, elems]
  | succ n => rw [elems, elems, value_skip]

theorem members_skip (n : ℕ) (s : Bytes) : members n (skip s) = members n s := by
  cases n with
  | zero => rw [members, members]
  | succ n => rw [members, members, skip_idem]

/-- what may follow a number. -/
def NoNum (t : Bytes) : Prop := ∀ c r, t = c :: r → isNumByte c = false

theorem noNum_ws {w : Bytes} (hw : Ws w) {c : UInt8} (hc : isNumByte c = false) (r : Bytes) : NoNum (w ++ c :: r) := by
  intro d r' h
  cases w with
  | nil => cases h; exact hc
  | cons x w =>
    cases h
    rcases hw d (by simp) with rfl | rfl | rfl | rfl <;> decide

theorem noNum_ws_nil {w : Bytes} (hw : Ws w) : NoNum w := by
  intro d r' h
  subst h
  rcases hw d (by simp) with rfl | rfl | rfl | rfl <;> decide

/-- the first byte of a value. -/
theorem val_head {x : Bytes} {v : Json} (h : Val x v) : ∃ c y, x = c :: y ∧ isSpace c = false ∧ c ≠ 93 := by
  cases h with
  | num s h =>
    obtain ⟨c, y, rfl⟩ := List.exists_cons_of_ne_nil (number_ne h)
    have hc := number_bytes h c (by simp)
    refine ⟨c, y, rfl, ?_, ?_⟩
    · by_contra h'
      rw [Bool.not_eq_false, isSpace_iff] at h'
      rcases h' with rfl | rfl | rfl | rfl <;> exact absurd hc (by decide)
    · rintro rfl
      exact absurd hc (by decide)
  | _ => exact ⟨_, _, rfl, by decide, by decide⟩

theorem skip_val {u x : Bytes} {v : Json} (hu : Ws u) (h : Val x v) (t : Bytes) : skip (u ++ (x ++ t)) = x ++ t := by
  obtain ⟨c, y, rfl, hc, -⟩ := val_head h
  rw [skip_ws hu, List.cons_append, skip_cons hc]

theorem elems_head {x : Bytes} {l : List Json} (h : Elems x l) (t : Bytes) : ∃ c y, skip (x ++ t) = c :: y ∧ c ≠ 93 := by
  cases h with
  | one u s w v hu hv hw =>
    obtain ⟨c, y, e, -, hc⟩ := val_head hv
    rw [List.append_assoc, List.append_assoc, skip_val hu hv, e]
    exact ⟨c, _, rfl, hc⟩
  | cons u s w t' v l hu hv hw h =>
    obtain ⟨c, y, e, -, hc⟩ := val_head hv
    rw [List.append_assoc, List.append_assoc, skip_val hu hv, e]
    exact ⟨c, _, rfl, hc⟩

theorem members_head {x : Bytes} {l : List (Bytes × Json)} (h : Members x l) (t : Bytes) : ∃ y, skip (x ++ t) = 34 :: y := by
  cases h with
  | one u k w u' s w' v hu =>
    rw [List.append_assoc, skip_ws hu, List.cons_append, skip_cons (by decide)]
    exact ⟨_, rfl⟩
  | cons u k w u' s w' t' v l hu =>
    rw [List.append_assoc, skip_ws hu, List.cons_append, skip_cons (by decide)]
    exact ⟨_, rfl⟩

/-- one member and the byte after it. -/
theorem members_one {u k w u' s w' : Bytes} {v : Json} (hu : Ws u) (hk : Plain k) (hw : Ws w) (hw' : Ws w') (n : ℕ) (c : UInt8) (t : Bytes)
    (hc : isSpace c = false) (hv : value n (u' ++ (s ++ (w' ++ c :: t))) = some (v, w' ++ c :: t)) :
    members (n + 1) (u ++ 34 :: (k ++ 34 :: (w ++ 58 :: (u' ++ (s ++ (w' ++ c :: t)))))) =
      if c = 125 then some ([(k, v)], t) else if c = 44 then match members n t with
        | none => none
        | some (l, x) => some ((k, v) :: l, x)
      else none := by
  rw [members, skip_ws hu, skip_cons (by decide)]
  dsimp only
  rw [if_neg (by simp), stringRest_of _ hk]
  dsimp only
  rw [skip_ws hw, skip_cons (by decide)]
  dsimp only
  rw [if_neg (by simp), hv]
  dsimp only
  rw [skip_ws hw', skip_cons hc]
  dsimp only
  cases members n t <;> rfl

mutual
theorem value_complete {x : Bytes} {v : Json} (h : Val x v) (n : ℕ) (u t : Bytes) (hu : Ws u) (hn : 2 * x.length + 1 ≤ n) (ht : NoNum t) :
    value n (u ++ (x ++ t)) = some (v, t) := by
  obtain ⟨n, rfl⟩ : ∃ k, n = k + 1 := ⟨n - 1, by omega⟩
  rw [value, skip_val hu h]
  match h with
  | .null => rfl
  | .tru => rfl
  | .fls => rfl
  | .num s h =>
    obtain ⟨c, y, e⟩ := List.exists_cons_of_ne_nil (number_ne h)
    have hc : isNumByte c = true := number_bytes h c (by rw [e]; simp)
    have ne : ∀ d, isNumByte d = false → c ≠ d := by
      rintro d hd rfl
      rw [hc] at hd
      cases hd
    have sp : (s ++ t).span isNumByte = (s, t) := by
      cases t with
      | nil => rw [List.append_nil, List.span_eq_takeWhile_dropWhile, dropWhile_all (number_bytes h),
          List.takeWhile_eq_self_iff.mpr (number_bytes h)]
      | cons d r => exact span_stop (ht d r rfl) (number_bytes h)
    have hk := numberOk_iff.mpr h
    rw [e] at sp hk ⊢
    rw [List.cons_append] at sp ⊢
    dsimp only
    rw [if_neg (ne 123 (by decide)), if_neg (ne 91 (by decide)), if_neg (ne 34 (by decide)), if_neg (ne 110 (by decide)),
      if_neg (ne 116 (by decide)), if_neg (ne 102 (by decide)), sp, if_pos hk]
  | .str s h =>
    rw [List.cons_append, List.append_assoc]
    dsimp only
    rw [if_neg (by decide), if_neg (by decide), if_pos rfl]
    rw [show s ++ ([34] ++ t) = s ++ 34 :: t from rfl, stringRest_of t h]
  | .arr0 u h =>
    rw [List.cons_append, List.append_assoc]
    dsimp only
    rw [if_neg (by decide), if_pos rfl, skip_ws h, show ([93] : Bytes) ++ t = 93 :: t from rfl, skip_cons (by decide)]
    rfl
  | .obj0 u h =>
    rw [List.cons_append, List.append_assoc]
    dsimp only
    rw [if_pos rfl, skip_ws h, show ([125] : Bytes) ++ t = 125 :: t from rfl, skip_cons (by decide)]
    rfl
  | .arr s l h =>
    have ih := elems_complete h n t (by simp at hn; omega)
    obtain ⟨c, y, e, hc⟩ := elems_head h (93 :: t)
    rw [← elems_skip, e] at ih
    rw [List.cons_append, List.append_assoc]
    dsimp only
    rw [if_neg (by decide), if_pos rfl, show s ++ ([93] ++ t) = s ++ 93 :: t from rfl, e]
    dsimp only
    rw [if_neg hc, ih]
  | .obj s l h =>
    have ih := members_complete h n t (by simp at hn; omega)
    obtain ⟨y, e⟩ := members_head h (125 :: t)
    rw [← members_skip, e] at ih
    rw [List.cons_append, List.append_assoc]
    dsimp only
    rw [if_pos rfl, show s ++ ([125] ++ t) = s ++ 125 :: t from rfl, e]
    dsimp only
    rw [if_neg (by decide), ih]

theorem elems_complete {x : Bytes} {l : List Json} (h : Elems x l) (n : ℕ) (t : Bytes) (hn : 2 * x.length + 2 ≤ n) :
    elems n (x ++ 93 :: t) = some (l, t) := by
  obtain ⟨n, rfl⟩ : ∃ k, n = k + 1 := ⟨n - 1, by omega⟩
  match h with
  | .one u s w v hu hv hw =>
    have ih := value_complete hv n u (w ++ 93 :: t) hu (by simp at hn; omega) (noNum_ws hw (by decide) t)
    rw [List.append_assoc, List.append_assoc, elems, ih]
    dsimp only
    rw [skip_ws hw, skip_cons (by decide)]
    rfl
  | .cons u s w t' v l hu hv hw h =>
    have ih := value_complete hv n u (w ++ 44 :: (t' ++ 93 :: t)) hu (by simp at hn; omega) (noNum_ws hw (by decide) _)
    have ih' := elems_complete h n t (by simp at hn; omega)
    rw [List.append_assoc, List.append_assoc, List.append_assoc, List.cons_append, elems, ih]
    dsimp only
    rw [skip_ws hw, skip_cons (by decide)]
    dsimp only
    rw [if_neg (by decide), if_pos rfl, ih']

theorem members_complete {x : Bytes} {l : List (Bytes × Json)} (h : Members x l) (n : ℕ) (t : Bytes) (hn : 2 * x.length + 2 ≤ n) :
    members n (x ++ 125 :: t) = some (l, t) := by
  obtain ⟨n, rfl⟩ : ∃ k, n = k + 1 := ⟨n - 1, by omega⟩
  match h with
  | .one u k w u' s w' v hu hk hw hu' hv hw' =>
    have ih := value_complete hv n u' (w' ++ 125 :: t) hu' (by simp at hn; omega) (noNum_ws hw' (by decide) t)
    have := members_one hu hk hw hw' n 125 t (by decide) ih
    simp only [List.append_assoc, List.cons_append] at this ⊢
    rw [this, if_pos trivial]
  | .cons u k w u' s w' t' v l hu hk hw hu' hv hw' h =>
    have ih := value_complete hv n u' (w' ++ 44 :: (t' ++ 125 :: t)) hu' (by simp at hn; omega) (noNum_ws hw' (by decide) _)
    have ih' := members_complete h n t (by simp at hn; omega)
    have := members_one hu hk hw hw' n 44 (t' ++ 125 :: t) (by decide) ih
    simp only [List.append_assoc, List.cons_append] at this ⊢
    rw [this, if_neg (by decide), if_pos trivial, ih']
end

/-- the reader accepts the texts of the grammar, and reads the value. -/
theorem jsonText_iff {t : Bytes} {v : Json} : jsonText t = some v ↔ Text t v := by
  rw [jsonText]
  constructor
  · intro h
    cases h1 : value (2 * t.length + 2) t with
    | none => rw [h1] at h; cases h
    | some p =>
      obtain ⟨v', r⟩ := p
      rw [h1] at h
      dsimp only at h
      by_cases h2 : skip r = []
      · rw [if_pos h2] at h
        cases h
        obtain ⟨u, x, hu, hx, e⟩ := (sound _).1 _ _ _ h1
        obtain ⟨w, hw, e'⟩ := skip_split r
        rw [h2, List.append_nil] at e'
        exact ⟨u, x, r, hu, hx, by rw [e']; exact hw, e⟩
      · rw [if_neg h2] at h; cases h
  · rintro ⟨u, s, w, hu, hv, hw, rfl⟩
    rw [value_complete hv _ u w hu (by simp; omega) (noNum_ws_nil hw)]
    dsimp only
    rw [if_pos (skip_ws_nil hw)]

end Verif.Pasta
