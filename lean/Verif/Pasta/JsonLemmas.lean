import Verif.Pasta.Json
import Mathlib.Tactic.Ring
import Mathlib.Tactic.NormNum

/-!
# Lemmas about the JSON form of a message
-/

namespace Verif.Pasta

theorem decVal_append (a : Bytes) (c : UInt8) : decVal (a ++ [c]) = decVal a * 10 + (c.toNat - 48) := by
  rw [decVal, List.foldl_append]; rfl

theorem ofDigit {d : ℕ} (h : d < 10) : (UInt8.ofNat (48 + d)).toNat = 48 + d := UInt8.toNat_ofNat_of_lt' (by show _ < 256; omega)

theorem isDigit_of {d : ℕ} (h : d < 10) : isDigit (UInt8.ofNat (48 + d)) = true := by
  rw [isDigit, Bool.and_eq_true, decide_eq_true_iff, decide_eq_true_iff, UInt8.le_iff_toNat_le, UInt8.le_iff_toNat_le, ofDigit h]
  show 48 ≤ _ ∧ _ ≤ 57
  omega

theorem decAux_spec : ∀ (f n : ℕ) (acc : Bytes), 0 < f → n < 10 ^ f →
    ∃ d ds, decAux f n acc = (d :: ds) ++ acc ∧ (∀ c ∈ d :: ds, isDigit c = true) ∧ (d = 48 → n = 0 ∧ ds = []) ∧ decVal (d :: ds) = n
  | 0, _, _, h, _ => absurd h (by omega)
  | f + 1, n, acc, _, hn => by
    rw [decAux]
    by_cases h : n < 10
    · rw [if_pos h]
      refine ⟨_, [], rfl, ?_, ?_, ?_⟩
      · intro c hc
        rw [List.mem_singleton] at hc
        rw [hc]
        exact isDigit_of h
      · intro hd
        have := congrArg UInt8.toNat hd
        rw [ofDigit h] at this
        exact ⟨by simpa using this, rfl⟩
      · rw [decVal, List.foldl_cons, List.foldl_nil, ofDigit h]; omega
    · rw [if_neg h]
      have hf : 0 < f := by
        rcases Nat.eq_zero_or_pos f with rfl | h'
        · simp at hn; omega
        · exact h'
      rw [pow_succ] at hn
      obtain ⟨d, ds, e, hd, hz, hv⟩ := decAux_spec f (n / 10) (UInt8.ofNat (48 + n % 10) :: acc) hf (by omega)
      refine ⟨d, ds ++ [UInt8.ofNat (48 + n % 10)], by rw [e]; simp, ?_, ?_, ?_⟩
      · intro c hc
        rw [← List.cons_append, List.mem_append, List.mem_singleton] at hc
        rcases hc with hc | rfl
        · exact hd c hc
        · exact isDigit_of (by omega)
      · intro h48
        have := (hz h48).1
        omega
      · rw [← List.cons_append, decVal_append, hv, ofDigit (by omega)]
        omega

theorem dec_spec (w : UInt64) : ∃ d ds, dec w = d :: ds ∧ (∀ c ∈ d :: ds, isDigit c = true) ∧ (d = 48 → ds = []) ∧ decVal (d :: ds) = w.toNat := by
  have hw : w.toNat < 2 ^ 64 := w.toNat_lt
  obtain ⟨d, ds, e, h1, h2, h3⟩ := decAux_spec 20 w.toNat [] (by omega) (by norm_num; omega)
  exact ⟨d, ds, by rw [dec, e, List.append_nil], h1, fun h => (h2 h).2, h3⟩

/-! ## the parser on what `Marshal` writes -/

/-- what follows a value inside an array or object. -/
def Stop (s : Bytes) : Prop := ∃ c t, s = c :: t ∧ (c = 44 ∨ c = 93 ∨ c = 125)

/-- the first byte is not white space and does not close an array. -/
def Starts (s : Bytes) : Prop := ∃ c t, s = c :: t ∧ isSpace c = false ∧ c ≠ 93

theorem skip_cons {c : UInt8} {t : Bytes} (h : isSpace c = false) : skip (c :: t) = c :: t := by
  rw [skip, List.dropWhile_cons, h]; rfl

theorem digit_ne {d : UInt8} (h : isDigit d = true) (c : UInt8) (hc : isDigit c = false) : d ≠ c := by
  rintro rfl
  rw [h] at hc
  cases hc

theorem digit_space {d : UInt8} (h : isDigit d = true) : isSpace d = false := by
  have h1 := digit_ne h 32 (by decide)
  have h2 := digit_ne h 9 (by decide)
  have h3 := digit_ne h 13 (by decide)
  have h4 := digit_ne h 10 (by decide)
  simp [isSpace, h1, h2, h3, h4]

theorem dropWhile_all {p : UInt8 → Bool} : ∀ {l : Bytes}, (∀ c ∈ l, p c = true) → l.dropWhile p = []
  | [], _ => rfl
  | c :: l, h => by
    rw [List.dropWhile_cons, h c (by simp)]
    exact dropWhile_all fun x hx => h x (by simp [hx])

theorem span_stop {p : UInt8 → Bool} {c : UInt8} {t : Bytes} (hc : p c = false) : ∀ {l : Bytes}, (∀ x ∈ l, p x = true) →
    (l ++ c :: t).span p = (l, c :: t) := by
  intro l h
  rw [List.span_eq_takeWhile_dropWhile, List.takeWhile_append_of_pos h, List.dropWhile_append_of_pos h, List.takeWhile_cons, List.dropWhile_cons,
    hc]
  simp

theorem numberOk_digits {d : UInt8} {ds : Bytes} (h : ∀ c ∈ d :: ds, isDigit c = true) (h0 : d = 48 → ds = []) : numberOk (d :: ds) = true := by
  have hd := h d (by simp)
  have e : numberOk (d :: ds) = unsignedOk (d :: ds) := by
    rw [numberOk]
    rintro r heq
    exact absurd (List.cons.inj heq).1 (digit_ne hd 45 (by decide))
  rw [e]
  by_cases h48 : d = 48
  · rw [h0 h48, h48]; rfl
  · rw [unsignedOk, hd, dropWhile_all (fun c hc => h c (by simp [hc]))]
    · rfl
    · exact h48

theorem value_dec (w : UInt64) (n : ℕ) (hn : 1 ≤ n) (rest : Bytes) (hs : Stop rest) : value n (dec w ++ rest) = some (.num (dec w), rest) := by
  obtain ⟨n, rfl⟩ : ∃ k, n = k + 1 := ⟨n - 1, by omega⟩
  obtain ⟨c, t, rfl, hc⟩ := hs
  obtain ⟨d, ds, e, h1, h2, -⟩ := dec_spec w
  have hd := h1 d (by simp)
  have hcn : isNumByte c = false := by rcases hc with rfl | rfl | rfl <;> decide
  rw [e, value, List.cons_append, skip_cons (digit_space hd)]
  dsimp only
  rw [if_neg (digit_ne hd _ (by decide)), if_neg (digit_ne hd _ (by decide)), if_neg (digit_ne hd _ (by decide)),
    if_neg (digit_ne hd _ (by decide)), if_neg (digit_ne hd _ (by decide)), if_neg (digit_ne hd _ (by decide)), ← List.cons_append,
    span_stop hcn (fun x hx => by rw [isNumByte, h1 x hx]; rfl)]
  dsimp only
  rw [if_pos (numberOk_digits h1 h2)]

theorem elems_items {α : Type} (r : α → Bytes) (j : α → Json) (k : ℕ)
    (h : ∀ x n rest, k ≤ n → Stop rest → value n (r x ++ rest) = some (j x, rest)) :
    ∀ (xs : List α) (n : ℕ) (rest : Bytes), xs ≠ [] → k + xs.length ≤ n → elems n (items (xs.map r) ++ rest) = some (xs.map j, rest)
  | [], _, _, h, _ => absurd rfl h
  | [x], n, rest, _, hn => by
    obtain ⟨n, rfl⟩ : ∃ k, n = k + 1 := ⟨n - 1, by simp at hn; omega⟩
    simp only [List.length_singleton] at hn
    simp only [List.map_cons, List.map_nil, items]
    rw [elems, List.append_assoc, List.singleton_append, h x n _ (by omega) ⟨93, rest, rfl, by simp⟩]
    dsimp only
    rw [skip_cons (by decide)]
    rfl
  | x :: y :: l, n, rest, _, hn => by
    obtain ⟨n, rfl⟩ : ∃ k, n = k + 1 := ⟨n - 1, by simp at hn; omega⟩
    simp only [List.length_cons] at hn
    have ih := elems_items r j k h (y :: l) n rest (by simp) (by simp only [List.length_cons]; omega)
    simp only [List.map_cons, items] at ih ⊢
    rw [elems, List.append_assoc, List.cons_append, h x n _ (by omega) ⟨44, _, rfl, by simp⟩]
    dsimp only
    rw [skip_cons (by decide)]
    dsimp only
    rw [if_neg (by decide), if_pos rfl, ih]

theorem value_array {α : Type} (r : α → Bytes) (j : α → Json) (k : ℕ)
    (h : ∀ x n rest, k ≤ n → Stop rest → value n (r x ++ rest) = some (j x, rest)) (hst : ∀ x, Starts (r x))
    (xs : List α) (n : ℕ) (rest : Bytes) (hn : k + xs.length + 1 ≤ n) :
    value n (array (xs.map r) ++ rest) = some (.arr (xs.map j), rest) := by
  obtain ⟨n, rfl⟩ : ∃ k, n = k + 1 := ⟨n - 1, by omega⟩
  rw [array, value, List.cons_append, skip_cons (by decide)]
  dsimp only
  rw [if_neg (by decide), if_pos rfl]
  cases xs with
  | nil =>
    simp only [List.map_nil, items]
    rw [List.singleton_append, skip_cons (by decide)]
    rfl
  | cons x l =>
    have ih := elems_items r j k h (x :: l) n rest (by simp) (by omega)
    obtain ⟨c, t, e, h1, h2⟩ := hst x
    obtain ⟨u, hu⟩ : ∃ u, items ((x :: l).map r) ++ rest = c :: u := by
      cases l with
      | nil => exact ⟨t ++ [93] ++ rest, by simp [items, e]⟩
      | cons y l => exact ⟨t ++ 44 :: items (r y :: l.map r) ++ rest, by simp [items, e]⟩
    rw [hu] at ih ⊢
    rw [skip_cons h1]
    dsimp only
    rw [if_neg h2, ih]

theorem dec_starts (w : UInt64) : Starts (dec w) := by
  obtain ⟨d, ds, e, h1, -, -⟩ := dec_spec w
  have hd := h1 d (by simp)
  exact ⟨d, ds, e, digit_space hd, digit_ne hd _ (by decide)⟩

def words (a : Limbs) : List UInt64 := [a.l0, a.l1, a.l2, a.l3]

def fieldJson (a : Limbs) : Json := .arr ((words a).map fun w => .num (dec w))

theorem value_field (a : Limbs) (n : ℕ) (rest : Bytes) (hn : 6 ≤ n) : value n (fieldText a ++ rest) = some (fieldJson a, rest) :=
  value_array dec (fun w => .num (dec w)) 1 (fun x n rest h hs => value_dec x n h rest hs) dec_starts (words a) n rest (by simp [words]; omega)

theorem field_starts (a : Limbs) : Starts (fieldText a) := ⟨91, _, rfl, by decide, by decide⟩

theorem value_fields (l : List Limbs) (n : ℕ) (rest : Bytes) (hn : l.length + 7 ≤ n) :
    value n (array (l.map fieldText) ++ rest) = some (.arr (l.map fieldJson), rest) :=
  value_array fieldText fieldJson 6 (fun x n rest h _ => value_field x n rest h) field_starts l n rest (by omega)

def sliceJson (isNil : Bool) (l : List Limbs) : Json := if isNil ∧ l = [] then .null else .arr (l.map fieldJson)

theorem value_slice (isNil : Bool) (l : List Limbs) (n : ℕ) (rest : Bytes) (hn : l.length + 7 ≤ n) :
    value n (sliceText isNil l ++ rest) = some (sliceJson isNil l, rest) := by
  rw [sliceText, sliceJson]
  by_cases h : isNil = true ∧ l = []
  · rw [if_pos h, if_pos h]
    obtain ⟨n, rfl⟩ : ∃ k, n = k + 1 := ⟨n - 1, by omega⟩
    rw [show ("null".toUTF8.toList : Bytes) = [110, 117, 108, 108] by decide +kernel, value]
    rfl
  · rw [if_neg h, if_neg h]
    exact value_fields l n rest hn

/-- a key without quotes, backslashes, control characters and bytes outside ASCII. -/
def plain (k : Bytes) : Bool := k.all fun c => !(c == 34 || c < 32 || c == 92 || 128 ≤ c)

theorem stringRest_plain : ∀ (k : Bytes) (t : Bytes), plain k = true → stringRest (k ++ 34 :: t) = some (k, t)
  | [], t, _ => by rw [List.nil_append, stringRest, if_pos rfl]
  | c :: k, t, h => by
    rw [plain, List.all_cons, Bool.and_eq_true] at h
    obtain ⟨h1, h2⟩ := h
    simp only [Bool.not_eq_true', Bool.or_eq_false_iff, beq_eq_false_iff_ne, decide_eq_false_iff_not] at h1
    rw [List.cons_append, stringRest, if_neg h1.1.1.1, if_neg (by tauto), stringRest_plain k t h2]

/-- one member of an object and the byte after it. -/
theorem members_step (k : Bytes) (hk : plain k = true) (v : Json) (n : ℕ) (txt t : Bytes) (c : UInt8) (hc : c = 44 ∨ c = 125)
    (hv : value n (txt ++ c :: t) = some (v, c :: t)) :
    members (n + 1) (member k ++ (txt ++ c :: t)) =
      if c = 125 then some ([(k, v)], t) else match members n t with
        | none => none
        | some (l, u) => some ((k, v) :: l, u) := by
  have e : member k ++ (txt ++ c :: t) = 34 :: (k ++ 34 :: (58 :: (txt ++ c :: t))) := by simp [member]
  rw [e, members, skip_cons (by decide)]
  dsimp only
  rw [if_neg (by simp), stringRest_plain k _ hk]
  dsimp only
  rw [skip_cons (by decide)]
  dsimp only
  rw [if_neg (by simp), hv]
  dsimp only
  have hsp : isSpace c = false := by rcases hc with rfl | rfl <;> decide
  rw [skip_cons hsp]
  dsimp only
  rcases hc with rfl | rfl
  · rw [if_neg (by decide), if_pos rfl, if_neg (by decide)]
    cases members n t <;> rfl
  · rw [if_pos rfl, if_pos rfl]

theorem items_length : ∀ l : List Bytes, l.length ≤ (items l).length
  | [] => by simp [items]
  | [x] => by simp [items]
  | x :: y :: l => by
    have := items_length (y :: l)
    simp only [items, List.length_append, List.length_cons] at this ⊢
    omega

theorem slice_length (isNil : Bool) (l : List Limbs) : l.length ≤ (sliceText isNil l).length := by
  rw [sliceText]
  split
  · rename_i h
    rw [h.2]; simp
  · have := items_length (l.map fieldText)
    rw [List.length_map] at this
    rw [array, List.length_cons]
    omega

theorem plain_pre : plain keyPre = true := by decide +kernel
theorem plain_suffix : plain keySuffix = true := by decide +kernel
theorem plain_iv : plain keyIV = true := by decide +kernel

/-- what `ToBytes` writes after the opening brace. -/
def body (nilP nilS : Bool) (m : MinaMessage) : Bytes :=
  member keyPre ++ (sliceText nilP m.pre ++ (44 :: (member keySuffix ++ (sliceText nilS m.suffix ++ (44 :: (member keyIV ++
    (array [fieldText m.iv.1, fieldText m.iv.2.1, fieldText m.iv.2.2] ++ [125])))))))

/-- the members of the object that `ToBytes` writes. -/
def bodyJson (nilP nilS : Bool) (m : MinaMessage) : List (Bytes × Json) :=
  [(keyPre, sliceJson nilP m.pre), (keySuffix, sliceJson nilS m.suffix), (keyIV, .arr [fieldJson m.iv.1, fieldJson m.iv.2.1, fieldJson m.iv.2.2])]

theorem body_length (nilP nilS : Bool) (m : MinaMessage) : m.pre.length + m.suffix.length + 30 ≤ (body nilP nilS m).length := by
  have h1 := slice_length nilP m.pre
  have h2 := slice_length nilS m.suffix
  have k1 : keyPre.length = 17 := by decide +kernel
  have k2 : keySuffix.length = 17 := by decide +kernel
  simp only [body, member, List.length_append, List.length_cons, k1, k2]
  omega

theorem members_body (nilP nilS : Bool) (m : MinaMessage) (u : Bytes) (n : ℕ) (hn : m.pre.length + m.suffix.length + 10 ≤ n) :
    members (n + 3) (body nilP nilS m ++ u) = some (bodyJson nilP nilS m, u) := by
  have step3 : members (n + 1) (member keyIV ++ (array [fieldText m.iv.1, fieldText m.iv.2.1, fieldText m.iv.2.2] ++ 125 :: u)) =
      some ([(keyIV, .arr [fieldJson m.iv.1, fieldJson m.iv.2.1, fieldJson m.iv.2.2])], u) :=
    members_step keyIV plain_iv _ n _ u 125 (.inr rfl)
      (value_fields [m.iv.1, m.iv.2.1, m.iv.2.2] n (125 :: u) (by simp only [List.length_cons, List.length_nil]; omega))
  have step2 := members_step keySuffix plain_suffix (sliceJson nilS m.suffix) (n + 1) (sliceText nilS m.suffix)
    (member keyIV ++ (array [fieldText m.iv.1, fieldText m.iv.2.1, fieldText m.iv.2.2] ++ 125 :: u)) 44 (.inl rfl)
    (value_slice _ _ _ _ (by omega))
  rw [if_neg (by decide), step3] at step2
  have step1 := members_step keyPre plain_pre (sliceJson nilP m.pre) (n + 2) (sliceText nilP m.pre) _ 44 (.inl rfl)
    (value_slice _ _ _ (44 :: (member keySuffix ++ (sliceText nilS m.suffix ++ 44 :: (member keyIV ++
      (array [fieldText m.iv.1, fieldText m.iv.2.1, fieldText m.iv.2.2] ++ 125 :: u))))) (by omega))
  rw [if_neg (by decide), step2] at step1
  have e : body nilP nilS m ++ u = member keyPre ++ (sliceText nilP m.pre ++ 44 :: (member keySuffix ++ (sliceText nilS m.suffix ++ 44 ::
      (member keyIV ++ (array [fieldText m.iv.1, fieldText m.iv.2.1, fieldText m.iv.2.2] ++ 125 :: u))))) := by
    simp only [body, List.append_assoc, List.cons_append, List.nil_append]
  rw [e]
  exact step1

/-- an object whose members are read. -/
theorem value_obj (n : ℕ) (s t : Bytes) (hs : s = 34 :: t) (l : List (Bytes × Json)) (u : Bytes) (h : members n s = some (l, u)) :
    value (n + 1) (123 :: s) = some (.obj l, u) := by
  subst hs
  rw [value, skip_cons (by decide)]
  dsimp only
  rw [if_pos rfl, skip_cons (by decide)]
  dsimp only
  rw [if_neg (by decide), h]

theorem skip_all {u : Bytes} (h : u.all isSpace = true) : skip u = [] := dropWhile_all (by rw [List.all_eq_true] at h; exact h)

/-- the text of a message with white space after it. -/
theorem jsonText_toBytes (nilP nilS : Bool) (m : MinaMessage) (u : Bytes) (hu : u.all isSpace = true) :
    jsonText (m.toBytes nilP nilS ++ u) = some (.obj (bodyJson nilP nilS m)) := by
  have hlen := body_length nilP nilS m
  have e : m.toBytes nilP nilS ++ u = 123 :: (body nilP nilS m ++ u) := rfl
  rw [jsonText, e]
  generalize hN : 2 * (123 :: (body nilP nilS m ++ u)).length + 2 = N
  simp only [List.length_cons, List.length_append] at hN
  obtain ⟨n, rfl⟩ : ∃ n, N = n + 3 + 1 := ⟨N - 4, by omega⟩
  rw [value_obj (n + 3) (body nilP nilS m ++ u) _ rfl _ u (members_body nilP nilS m u n (by omega))]
  dsimp only
  rw [if_pos (skip_all hu)]

/-- the text of a message with a further member, a number, at its start. -/
def withMember (k : Bytes) (w : UInt64) (nilP nilS : Bool) (m : MinaMessage) : Bytes :=
  123 :: (member k ++ (dec w ++ 44 :: body nilP nilS m))

theorem jsonText_withMember (k : Bytes) (hk : plain k = true) (w : UInt64) (nilP nilS : Bool) (m : MinaMessage) :
    jsonText (withMember k w nilP nilS m) = some (.obj ((k, .num (dec w)) :: bodyJson nilP nilS m)) := by
  have hlen := body_length nilP nilS m
  rw [jsonText]
  generalize hN : 2 * (withMember k w nilP nilS m).length + 2 = N
  simp only [withMember, List.length_cons, List.length_append] at hN
  obtain ⟨n, rfl⟩ : ∃ n, N = n + 4 + 1 := ⟨N - 5, by omega⟩
  have h := members_step k hk (.num (dec w)) (n + 3) (dec w) (body nilP nilS m) 44 (.inl rfl)
    (value_dec w _ (by omega) _ ⟨44, _, rfl, .inl rfl⟩)
  have h2 := members_body nilP nilS m [] n (by omega)
  rw [List.append_nil] at h2
  rw [if_neg (by decide), h2] at h
  rw [withMember, value_obj (n + 4) (member k ++ (dec w ++ 44 :: body nilP nilS m)) _ rfl _ [] h]
  rfl

/-! ## the assignment -/

theorem readWord_dec (o w : UInt64) : readWord o (.num (dec w)) = some w := by
  obtain ⟨d, ds, e, h1, -, h3⟩ := dec_spec w
  have hw : w.toNat < 2 ^ 64 := w.toNat_lt
  rw [e, readWord, if_pos ⟨by rw [List.all_eq_true]; exact h1, by rw [h3]; exact hw⟩, h3, UInt64.ofNat_toNat]

theorem readField_json (o a : Limbs) : readField o (fieldJson a) = some a := by
  simp only [fieldJson, words, List.map_cons, List.map_nil, readField, readWords, readWord_dec]

theorem readFields_json : ∀ (olds l : List Limbs), readFields olds (l.map fieldJson) = some l
  | _, [] => rfl
  | olds, a :: l => by
    rw [List.map_cons, readFields, readField_json, readFields_json]

theorem readSlice_json (old : List Limbs) (isNil : Bool) (l : List Limbs) : readSlice old (sliceJson isNil l) = some l := by
  rw [sliceJson]
  split
  · rename_i h
    rw [h.2]; rfl
  · exact readFields_json old l

theorem assigns_body (nilP nilS : Bool) (m : MinaMessage) : assigns .zero (bodyJson nilP nilS m) = some m := by
  have n1 : ¬ lower keySuffix = lower keyPre := by decide +kernel
  have n2 : ¬ lower keyIV = lower keyPre := by decide +kernel
  have n3 : ¬ lower keyIV = lower keySuffix := by decide +kernel
  simp only [bodyJson, assigns, assign, if_true, if_neg n1, if_neg n2, if_neg n3, readSlice_json, Option.map_some, readIV, List.getD_cons_zero,
    List.getD_cons_succ, readField_json]

end Verif.Pasta
