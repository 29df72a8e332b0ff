import Verif.Props.PastaJson
import Verif.Pasta.JsonGrammar

/-!
# C121: which texts are messages

Partial: for encoding/json as modelled, that is without escapes and bytes outside ASCII in strings and without the limit on nesting.
-/

namespace Verif.Props

open Verif.ECDSA Verif.Pasta Verif.Pasta.JsonSpec Verif.Api

variable {E : Env} {draws : List Bytes}

theorem decVal_number (s : Bytes) : decVal s = number s := by
  rw [decVal, number]
  congr 1
  funext a c
  rw [Nat.mul_comm]

theorem readWord_iff (old : UInt64) (v : Json) : (readWord old v).isSome ↔ WordOk v := by
  cases v with
  | null => simp [readWord, WordOk]
  | num s =>
    simp only [readWord, WordOk, List.all_eq_true, isDigit_iff, decVal_number]
    by_cases h : (∀ c ∈ s, 48 ≤ c ∧ c ≤ 57) ∧ number s < 2 ^ 64
    · rw [if_pos h]
      exact ⟨fun _ => .inr ⟨s, rfl, h⟩, fun _ => rfl⟩
    · rw [if_neg h]
      refine ⟨fun h' => (by cases h'), ?_⟩
      rintro (h' | ⟨s', h', h''⟩)
      · cases h'
      · cases h'
        exact absurd h'' h
  | _ => simp [readWord, WordOk]

theorem readWords_iff : ∀ (olds : List UInt64) (vs : List Json), ((readWords olds vs).isSome ↔ ∀ x ∈ vs.take olds.length, WordOk x) ∧
    ∀ l, readWords olds vs = some l → l.length = olds.length
  | [], vs => by rw [readWords]; simp
  | o :: olds, [] => by rw [readWords]; simp
  | o :: olds, v :: vs => by
    obtain ⟨i1, i2⟩ := readWords_iff olds vs
    have hw := readWord_iff o v
    rw [readWords]
    simp only [List.length_cons, List.take_succ_cons, List.forall_mem_cons]
    rw [← hw, ← i1]
    cases readWord o v with
    | none => simp
    | some x => cases h : readWords olds vs with
      | none => simp
      | some xs => simpa using i2 xs h

theorem readField_iff (old : Limbs) (v : Json) : (readField old v).isSome ↔ FieldOk v := by
  cases v with
  | null => simp [readField, FieldOk]
  | arr l =>
    obtain ⟨i1, i2⟩ := readWords_iff [old.l0, old.l1, old.l2, old.l3] l
    have e : FieldOk (.arr l) ↔ ∀ x ∈ l.take 4, WordOk x := by
      constructor
      · rintro (h | ⟨l', h, h'⟩)
        · cases h
        · cases h; exact h'
      · exact fun h => .inr ⟨l, rfl, h⟩
    rw [e, readField]
    rw [show [old.l0, old.l1, old.l2, old.l3].length = 4 from rfl] at i1 i2
    rw [← i1]
    cases h : readWords [old.l0, old.l1, old.l2, old.l3] l with
    | none => simp
    | some xs =>
      have hl := i2 xs h
      match xs, hl with
      | [a, b, c, d], _ => simp
  | _ => simp [readField, FieldOk]

theorem readFields_iff : ∀ (olds : List Limbs) (vs : List Json), (readFields olds vs).isSome ↔ ∀ x ∈ vs, FieldOk x
  | olds, [] => by rw [readFields]; simp
  | olds, v :: vs => by
    have i := readFields_iff olds.tail vs
    have hw := readField_iff (olds.headD ⟨0, 0, 0, 0⟩) v
    rw [readFields, List.forall_mem_cons, ← hw, ← i]
    cases readField (olds.headD ⟨0, 0, 0, 0⟩) v with
    | none => simp
    | some x => cases readFields olds.tail vs <;> simp

theorem readSlice_iff (old : List Limbs) (v : Json) : (readSlice old v).isSome ↔ FieldsOk v := by
  cases v with
  | null => simp [readSlice, FieldsOk]
  | arr l => simp [readSlice, FieldsOk, readFields_iff]
  | _ => simp [readSlice, FieldsOk]

theorem readIV_iff (old : Limbs × Limbs × Limbs) (v : Json) : (readIV old v).isSome ↔ StateOk v := by
  cases v with
  | null => simp [readIV, StateOk]
  | arr l =>
    have e : StateOk (.arr l) ↔ ∀ x ∈ l.take 3, FieldOk x := by simp [StateOk]
    have z : FieldOk (.arr []) := .inr ⟨[], rfl, by simp⟩
    have h0 := readField_iff old.1 (l.getD 0 (.arr []))
    have h1 := readField_iff old.2.1 (l.getD 1 (.arr []))
    have h2 := readField_iff old.2.2 (l.getD 2 (.arr []))
    have main : (readIV old (.arr l)).isSome ↔ FieldOk (l.getD 0 (.arr [])) ∧ FieldOk (l.getD 1 (.arr [])) ∧ FieldOk (l.getD 2 (.arr [])) := by
      rw [← h0, ← h1, ← h2, readIV]
      cases readField old.1 (l.getD 0 (.arr [])) <;> cases readField old.2.1 (l.getD 1 (.arr [])) <;>
        cases readField old.2.2 (l.getD 2 (.arr [])) <;> simp
    rw [main, e]
    match l with
    | [] => simp [z]
    | [a] => simp [z]
    | [a, b] => simp [z]
    | a :: b :: c :: l => simp
  | _ => simp [readIV, StateOk]

instance (a b : Bytes) : Decidable (SameKey a b) := inferInstanceAs (Decidable (_ = _))

theorem assign_iff (m : MinaMessage) (k : Bytes) (v : Json) : (assign m k v).isSome ↔ MemberOk k v := by
  have d1 : ¬ SameKey keyPre keySuffix := by unfold SameKey; decide +kernel
  have d2 : ¬ SameKey keyPre keyIV := by unfold SameKey; decide +kernel
  have d3 : ¬ SameKey keySuffix keyIV := by unfold SameKey; decide +kernel
  have tr : ∀ {a b : Bytes}, SameKey k a → SameKey k b → SameKey a b := fun ha hb => Eq.trans (Eq.symm ha) hb
  show (if SameKey k keyPre then (readSlice m.pre v).map fun l => { m with pre := l }
    else if SameKey k keySuffix then (readSlice m.suffix v).map fun l => { m with suffix := l }
    else if SameKey k keyIV then (readIV m.iv v).map fun x => { m with iv := x }
    else some m : Option MinaMessage).isSome ↔ (SameKey k keyPre → FieldsOk v) ∧ (SameKey k keySuffix → FieldsOk v) ∧ (SameKey k keyIV → StateOk v)
  by_cases h1 : SameKey k keyPre
  · have n1 : ¬ SameKey k keySuffix := fun h => d1 (tr h1 h)
    have n2 : ¬ SameKey k keyIV := fun h => d2 (tr h1 h)
    simp [h1, n1, n2, readSlice_iff]
  · by_cases h2 : SameKey k keySuffix
    · have n2 : ¬ SameKey k keyIV := fun h => d3 (tr h2 h)
      simp [h1, h2, n2, readSlice_iff]
    · by_cases h3 : SameKey k keyIV
      · simp [h1, h2, h3, readIV_iff]
      · simp [h1, h2, h3]

theorem assigns_iff : ∀ (m : MinaMessage) (l : List (Bytes × Json)), (assigns m l).isSome ↔ ∀ k v, (k, v) ∈ l → MemberOk k v
  | m, [] => by rw [assigns]; simp
  | m, (k, v) :: l => by
    have h := assign_iff m k v
    rw [assigns]
    cases e : assign m k v with
    | none =>
      rw [e] at h
      refine ⟨fun h' => (by cases h'), fun h' => ?_⟩
      exact h.mpr (h' k v (by simp))
    | some m' =>
      rw [e] at h
      have i := assigns_iff m' l
      dsimp only
      rw [i]
      constructor
      · intro hi k' v' hm
        rcases List.mem_cons.mp hm with e' | hm
        · cases e'; exact h.mp rfl
        · exact hi k' v' hm
      · exact fun hi k' v' hm => hi k' v' (by simp [hm])

/-- C121, the reader: `NewMinaMessage` accepts a text exactly if the text is JSON and is `null` or an object whose members of the three names fit the
structure; a text has at most one value. -/
theorem C121_reader_partial (t : Bytes) : ((∃ m, newMinaMessage t = some m) ↔ MessageText t) ∧ (∀ v v', Text t v → Text t v' → v = v') := by
  have uniq : ∀ v v', Text t v → Text t v' → v = v' := fun v v' h h' =>
    Option.some_inj.mp ((jsonText_iff.mpr h).symm.trans (jsonText_iff.mpr h'))
  refine ⟨?_, uniq⟩
  rw [← Option.isSome_iff_exists, newMinaMessage]
  constructor
  · intro h
    cases e : jsonText t with
    | none => rw [e] at h; cases h
    | some v =>
      rw [e] at h
      cases v with
      | null => exact .inl (jsonText_iff.mp e)
      | obj l => exact .inr ⟨l, jsonText_iff.mp e, (assigns_iff _ l).mp h⟩
      | _ => cases h
  · rintro (h | ⟨l, h, hl⟩)
    · rw [jsonText_iff.mpr h]; rfl
    · rw [jsonText_iff.mpr h]
      exact (assigns_iff _ l).mpr hl

/-! ### the message read -/

theorem readWord_is {v : Json} {w : UInt64} (h : IsWord v w) (o : UInt64) : readWord o v = some w := by
  obtain ⟨s, rfl, h1, h2⟩ := h
  rw [readWord, decVal_number, h2, if_pos ⟨by rw [List.all_eq_true]; exact fun c hc => isDigit_iff.mpr (h1 c hc), w.toNat_lt⟩, UInt64.ofNat_toNat]

theorem readField_is {v : Json} {a : Limbs} (h : JsonSpec.IsField v a) (o : Limbs) : readField o v = some a := by
  obtain ⟨l, rfl, h0, h1, h2, h3⟩ := h
  obtain ⟨a0, a1, a2, a3⟩ := a
  match l with
  | [] => simp_all [WordAt, readField, readWords]
  | [v0] =>
    simp only [WordAt, List.getElem?_cons_zero, List.getElem?_cons_succ, List.getElem?_nil, Option.some.injEq, reduceCtorEq, false_and, exists_false,
      false_or, or_false, exists_eq_left', true_and] at h0 h1 h2 h3
    subst h1 h2 h3
    simp [readField, readWords, readWord_is h0]
  | [v0, v1] =>
    simp only [WordAt, List.getElem?_cons_zero, List.getElem?_cons_succ, List.getElem?_nil, Option.some.injEq, reduceCtorEq, false_and, exists_false,
      false_or, or_false, exists_eq_left', true_and] at h0 h1 h2 h3
    subst h2 h3
    simp [readField, readWords, readWord_is h0, readWord_is h1]
  | [v0, v1, v2] =>
    simp only [WordAt, List.getElem?_cons_zero, List.getElem?_cons_succ, List.getElem?_nil, Option.some.injEq, reduceCtorEq, false_and, exists_false,
      false_or, or_false, exists_eq_left', true_and] at h0 h1 h2 h3
    subst h3
    simp [readField, readWords, readWord_is h0, readWord_is h1, readWord_is h2]
  | v0 :: v1 :: v2 :: v3 :: l =>
    simp only [WordAt, List.getElem?_cons_zero, List.getElem?_cons_succ, Option.some.injEq, reduceCtorEq, false_and, or_false, exists_eq_left'] at h0 h1 h2 h3
    simp only [readField, readWords, readWord_is h0, readWord_is h1, readWord_is h2, readWord_is h3]

theorem readField_at {l : List Json} {i : ℕ} {a : Limbs} (h : FieldAt l i a) (o : Limbs) : readField o (l.getD i (.arr [])) = some a := by
  rw [List.getD_eq_getElem?_getD]
  rcases h with ⟨v, e, h⟩ | ⟨e, rfl⟩
  · rw [e]; exact readField_is h o
  · rw [e]; rfl

theorem readFields_is {vs : List Json} {l : List Limbs} (h : List.Forall₂ JsonSpec.IsField vs l) : ∀ o, readFields o vs = some l := by
  induction h with
  | nil => intro o; rw [readFields]
  | cons h _ ih => intro o; rw [readFields, readField_is h, ih]

theorem readSlice_is {v : Json} {l : List Limbs} (h : IsFields v l) (o : List Limbs) : readSlice o v = some l := by
  rcases h with ⟨rfl, rfl⟩ | ⟨vs, rfl, h⟩
  · rfl
  · exact readFields_is h o

theorem readIV_is {v : Json} {iv : Limbs × Limbs × Limbs} (h : IsState v iv) (o : Limbs × Limbs × Limbs) : readIV o v = some iv := by
  obtain ⟨l, rfl, h0, h1, h2⟩ := h
  simp only [readIV, readField_at h0, readField_at h1, readField_at h2]

theorem key_ne : ¬ SameKey keyPre keySuffix ∧ ¬ SameKey keyPre keyIV ∧ ¬ SameKey keySuffix keyIV := by decide +kernel

theorem same_trans {k a b : Bytes} (ha : SameKey k a) (hb : SameKey k b) : SameKey a b := Eq.trans (Eq.symm ha) hb

theorem assign_eq (st : MinaMessage) (k : Bytes) (v : Json) :
    assign st k v = (if SameKey k keyPre then (readSlice st.pre v).map fun l => { st with pre := l }
      else if SameKey k keySuffix then (readSlice st.suffix v).map fun l => { st with suffix := l }
      else if SameKey k keyIV then (readIV st.iv v).map fun x => { st with iv := x }
      else some st) := rfl

/-- a member of another name leaves a part alone. -/
theorem assign_other {st r : MinaMessage} {k : Bytes} {v : Json} (h : assign st k v = some r) :
    (¬ SameKey k keyPre → r.pre = st.pre) ∧ (¬ SameKey k keySuffix → r.suffix = st.suffix) ∧ (¬ SameKey k keyIV → r.iv = st.iv) := by
  rw [assign_eq] at h
  by_cases k1 : SameKey k keyPre
  · rw [if_pos k1, Option.map_eq_some_iff] at h
    obtain ⟨x, -, rfl⟩ := h
    exact ⟨fun n => absurd k1 n, fun _ => rfl, fun _ => rfl⟩
  · rw [if_neg k1] at h
    by_cases k2 : SameKey k keySuffix
    · rw [if_pos k2, Option.map_eq_some_iff] at h
      obtain ⟨x, -, rfl⟩ := h
      exact ⟨fun _ => rfl, fun n => absurd k2 n, fun _ => rfl⟩
    · rw [if_neg k2] at h
      by_cases k3 : SameKey k keyIV
      · rw [if_pos k3, Option.map_eq_some_iff] at h
        obtain ⟨x, -, rfl⟩ := h
        exact ⟨fun _ => rfl, fun _ => rfl, fun n => absurd k3 n⟩
      · rw [if_neg k3] at h
        cases h
        exact ⟨fun _ => rfl, fun _ => rfl, fun _ => rfl⟩

theorem assigns_other : ∀ {l : List (Bytes × Json)} {st r : MinaMessage}, assigns st l = some r →
    ((∀ k v, (k, v) ∈ l → ¬ SameKey k keyPre) → r.pre = st.pre) ∧ ((∀ k v, (k, v) ∈ l → ¬ SameKey k keySuffix) → r.suffix = st.suffix) ∧
      ((∀ k v, (k, v) ∈ l → ¬ SameKey k keyIV) → r.iv = st.iv)
  | [], st, r, h => by
    rw [assigns] at h
    cases h
    exact ⟨fun _ => rfl, fun _ => rfl, fun _ => rfl⟩
  | (k, v) :: l, st, r, h => by
    rw [assigns] at h
    cases e : assign st k v with
    | none => rw [e] at h; cases h
    | some s =>
      rw [e] at h
      obtain ⟨a1, a2, a3⟩ := assign_other e
      obtain ⟨b1, b2, b3⟩ := assigns_other h
      exact ⟨fun n => (b1 fun k v hk => n k v (by simp [hk])).trans (a1 (n k v (by simp))),
        fun n => (b2 fun k v hk => n k v (by simp [hk])).trans (a2 (n k v (by simp))),
        fun n => (b3 fun k v hk => n k v (by simp [hk])).trans (a3 (n k v (by simp)))⟩

theorem assigns_append : ∀ (a b : List (Bytes × Json)) (st : MinaMessage), assigns st (a ++ b) = (assigns st a).bind fun s => assigns s b
  | [], b, st => by rw [assigns]; rfl
  | (k, v) :: a, b, st => by
    rw [List.cons_append, assigns, assigns]
    cases assign st k v with
    | none => rfl
    | some s => exact assigns_append a b s

theorem assigns_split {l1 l2 : List (Bytes × Json)} {k : Bytes} {v : Json} {st r : MinaMessage} (h : assigns st (l1 ++ (k, v) :: l2) = some r) :
    ∃ s s', assign s k v = some s' ∧ assigns s' l2 = some r := by
  rw [assigns_append, Option.bind_eq_some_iff] at h
  obtain ⟨s, -, h⟩ := h
  rw [assigns] at h
  cases e : assign s k v with
  | none => rw [e] at h; cases h
  | some s' =>
    rw [e] at h
    exact ⟨s, s', e, h⟩

theorem assigns_is {m r : MinaMessage} {l : List (Bytes × Json)} {st : MinaMessage} (h : assigns st l = some r) (hl : Describes l m) : r = m := by
  obtain ⟨-, ⟨v1, ⟨a1, k1, b1, e1, s1, n1⟩, i1⟩, ⟨v2, ⟨a2, k2, b2, e2, s2, n2⟩, i2⟩, ⟨v3, ⟨a3, k3, b3, e3, s3, n3⟩, i3⟩⟩ := hl
  change SameKey k1 keyPre at s1
  change SameKey k2 keySuffix at s2
  change SameKey k3 keyIV at s3
  have p1 : r.pre = m.pre := by
    rw [e1] at h
    obtain ⟨s, s', c, d⟩ := assigns_split h
    rw [(assigns_other d).1 n1]
    rw [assign_eq, if_pos s1, readSlice_is i1] at c
    cases c; rfl
  have p2 : r.suffix = m.suffix := by
    rw [e2] at h
    obtain ⟨s, s', c, d⟩ := assigns_split h
    rw [(assigns_other d).2.1 n2]
    rw [assign_eq, if_neg (fun x => key_ne.1 (same_trans x s2)), if_pos s2, readSlice_is i2] at c
    cases c; rfl
  have p3 : r.iv = m.iv := by
    rw [e3] at h
    obtain ⟨s, s', c, d⟩ := assigns_split h
    rw [(assigns_other d).2.2 n3]
    rw [assign_eq, if_neg (fun x => key_ne.2.1 (same_trans x s3)), if_neg (fun x => key_ne.2.2 (same_trans x s3)), if_pos s3, readIV_is i3] at c
    cases c; rfl
  obtain ⟨p, s, iv⟩ := r
  dsimp only at p1 p2 p3
  rw [p1, p2, p3]

/-- C121, the message: a JSON text of an object that stands for `m` is read as `m`, whatever its white space, the order of its members and the
members of other names; of a name that occurs twice the last member counts, missing words and fields are 0. -/
theorem C121_message_partial (t : Bytes) (l : List (Bytes × Json)) (m : MinaMessage) (ht : Text t (.obj l)) (hl : Describes l m) :
    newMinaMessage t = some m := by
  obtain ⟨r, hr⟩ := Option.isSome_iff_exists.mp ((assigns_iff .zero l).mpr hl.1)
  rw [newMinaMessage, jsonText_iff.mpr ht]
  dsimp only
  rw [hr, assigns_is hr hl]

/-- C121, the API: signing a text succeeds exactly if the key is acceptable and the text is a message; a text that is not a message is never verified. -/
theorem C121_api_partial (hE : PastaEnv E newMinaMessage draws) (hex : ∃ b ∈ draws, beNat b % 2 ^ 250 ≠ 0) (d t : Bytes) (ID : Option Bytes) (rnd : List Bytes) :
    (d.length = 32 ∧ beNat d < 2 ^ 254 ∧ MessageText t → ∃ sig, signature E d ID t PST rnd = some (.ret (sig, 0, SUCCESS)) ∧ sig.length = 64) ∧
      (¬ (d.length = 32 ∧ beNat d < 2 ^ 254 ∧ MessageText t) → signature E d ID t PST rnd = some (.ret ([], 0, FAILURE))) ∧
      (¬ MessageText t → ∀ pub sig, Api.verify E pub ID t sig PST = .ret FAILURE) := by
  have h := C55_signature hE hex d t ID rnd
  have hr := (C121_reader_partial t).1
  rw [← Option.isSome_iff_exists] at hr
  rw [hr] at h
  refine ⟨h.1, h.2, fun hn pub sig => C70_reject hE pub t sig ID (.inl ?_)⟩
  rw [← hr, Option.not_isSome_iff_eq_none] at hn
  exact hn

/-- what the grammar says on concrete texts: white space, an upper-case name and members of other names are accepted; a negative word, a word of 2^64,
a leading zero, a trailing comma, bytes after the object and a bare array are refused. -/
example : MessageText "{ \"SpongeIV\": [[1,0,0,0],[ ],null], \"fee\": -1.5e+3 }\n".toUTF8.toList ∧
    ¬ MessageText "{\"spongeIV\":[[-1]]}".toUTF8.toList ∧ ¬ MessageText "{\"spongeIV\":[[18446744073709551616]]}".toUTF8.toList ∧
    ¬ MessageText "{\"spongeIV\":[[01]]}".toUTF8.toList ∧ ¬ MessageText "{\"spongeIV\":[],}".toUTF8.toList ∧
    ¬ MessageText "{}{}".toUTF8.toList ∧ ¬ MessageText "[]".toUTF8.toList ∧ ¬ MessageText [] := by
  have h : ∀ t, MessageText t ↔ (newMinaMessage t).isSome = true := fun t => by rw [← (C121_reader_partial t).1, Option.isSome_iff_exists]
  simp only [h]
  decide +kernel

theorem isWord_dec (w : UInt64) : IsWord (.num (dec w)) w := by
  obtain ⟨d, ds, e, h1, -, h3⟩ := dec_spec w
  exact ⟨_, rfl, fun c hc => isDigit_iff.mp (h1 c (e ▸ hc)), by rw [← decVal_number, e, h3]⟩

theorem isField_json (a : Limbs) : JsonSpec.IsField (fieldJson a) a :=
  ⟨_, rfl, .inl ⟨_, rfl, isWord_dec _⟩, .inl ⟨_, rfl, isWord_dec _⟩, .inl ⟨_, rfl, isWord_dec _⟩, .inl ⟨_, rfl, isWord_dec _⟩⟩

theorem isFields_json (b : Bool) (l : List Limbs) : IsFields (sliceJson b l) l := by
  rw [sliceJson]
  split
  · rename_i h
    exact .inl ⟨rfl, h.2⟩
  · clear * -
    refine .inr ⟨_, rfl, ?_⟩
    induction l with
    | nil => exact .nil
    | cons a l ih => exact .cons (isField_json a) ih

/-- the hypotheses of `C121_message_partial` are met, for every message: its text with the member `"fee":7` added. -/
example (m : MinaMessage) (a b : Bool) : ∃ l, Text (withMember [102, 101, 101] 7 a b m) (.obj l) ∧ Describes l m := by
  have hj := jsonText_withMember [102, 101, 101] (by decide) 7 a b m
  refine ⟨_, jsonText_iff.mp hj, ?_⟩
  have a4 : ¬ SameKey keySuffix keyPre := by decide +kernel
  have a5 : ¬ SameKey keyIV keyPre := by decide +kernel
  have a6 : ¬ SameKey keyIV keySuffix := by decide +kernel
  have a7 : ¬ SameKey [102, 101, 101] keyPre := by decide +kernel
  have a8 : ¬ SameKey [102, 101, 101] keySuffix := by decide +kernel
  have a9 : ¬ SameKey [102, 101, 101] keyIV := by decide +kernel
  refine ⟨(assigns_iff .zero _).mp ?_, ⟨sliceJson a m.pre, ⟨[([102, 101, 101], .num (dec 7))], keyPre, _, rfl, rfl, ?_⟩, isFields_json a _⟩,
    ⟨sliceJson b m.suffix, ⟨[([102, 101, 101], .num (dec 7)), (keyPre, sliceJson a m.pre)], keySuffix, _, rfl, rfl, ?_⟩, isFields_json b _⟩,
    ⟨_, ⟨[([102, 101, 101], .num (dec 7)), (keyPre, sliceJson a m.pre), (keySuffix, sliceJson b m.suffix)], keyIV, [], rfl, rfl, by simp⟩,
      ⟨_, rfl, .inl ⟨_, rfl, isField_json _⟩, .inl ⟨_, rfl, isField_json _⟩, .inl ⟨_, rfl, isField_json _⟩⟩⟩⟩
  · rw [assigns, assign_eq, if_neg a7, if_neg a8, if_neg a9]
    dsimp only
    rw [assigns_body]; rfl
  · intro k v h
    simp only [List.mem_cons, Prod.mk.injEq, List.not_mem_nil, or_false] at h
    rcases h with ⟨rfl, rfl⟩ | ⟨rfl, rfl⟩
    · exact a4
    · exact a5
  · intro k v h
    simp only [List.mem_cons, Prod.mk.injEq, List.not_mem_nil, or_false] at h
    rcases h with ⟨rfl, rfl⟩
    exact a6

end Verif.Props
