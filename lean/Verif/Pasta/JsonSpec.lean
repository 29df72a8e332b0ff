import Verif.Pasta.Json

/-!
# The grammar of JSON texts

RFC 8259, sections 2 to 7, without escapes and without bytes outside ASCII in strings: which bytes are the text of which value.  Nothing here
mentions the reader of `Verif.Pasta.Json`.
-/

namespace Verif.Pasta.JsonSpec

/-- white space. -/
def Ws (u : Bytes) : Prop := ∀ c ∈ u, c = 32 ∨ c = 9 ∨ c = 10 ∨ c = 13

/-- one digit or more. -/
def Digits (s : Bytes) : Prop := s ≠ [] ∧ ∀ c ∈ s, 48 ≤ c ∧ c ≤ 57

/-- `int`: 0, or digits that do not begin with 0. -/
def Int (s : Bytes) : Prop := s = [48] ∨ (Digits s ∧ s.head? ≠ some 48)

/-- an optional fraction. -/
def Frac (s : Bytes) : Prop := s = [] ∨ ∃ d, Digits d ∧ s = 46 :: d

/-- an optional exponent. -/
def Exp (s : Bytes) : Prop :=
  s = [] ∨ ∃ e sg d, (e = 101 ∨ e = 69) ∧ (sg = [] ∨ sg = [43] ∨ sg = [45]) ∧ Digits d ∧ s = e :: (sg ++ d)

/-- a number. -/
def Number (s : Bytes) : Prop :=
  ∃ sg i f e, (sg = [] ∨ sg = [45]) ∧ Int i ∧ Frac f ∧ Exp e ∧ s = sg ++ (i ++ (f ++ e))

/-- the inside of a string. -/
def Plain (s : Bytes) : Prop := ∀ c ∈ s, 32 ≤ c ∧ c ≠ 34 ∧ c ≠ 92 ∧ c < 128

mutual
/-- a value, without white space around it. -/
inductive Val : Bytes → Json → Prop
  | null : Val [110, 117, 108, 108] .null
  | tru : Val [116, 114, 117, 101] (.bool true)
  | fls : Val [102, 97, 108, 115, 101] (.bool false)
  | num (s : Bytes) (h : Number s) : Val s (.num s)
  | str (s : Bytes) (h : Plain s) : Val (34 :: (s ++ [34])) (.str s)
  | arr0 (u : Bytes) (h : Ws u) : Val (91 :: (u ++ [93])) (.arr [])
  | arr (s : Bytes) (l : List Json) (h : Elems s l) : Val (91 :: (s ++ [93])) (.arr l)
  | obj0 (u : Bytes) (h : Ws u) : Val (123 :: (u ++ [125])) (.obj [])
  | obj (s : Bytes) (l : List (Bytes × Json)) (h : Members s l) : Val (123 :: (s ++ [125])) (.obj l)

/-- values separated by commas. -/
inductive Elems : Bytes → List Json → Prop
  | one (u s w : Bytes) (v : Json) (hu : Ws u) (hv : Val s v) (hw : Ws w) : Elems (u ++ (s ++ w)) [v]
  | cons (u s w t : Bytes) (v : Json) (l : List Json) (hu : Ws u) (hv : Val s v) (hw : Ws w) (h : Elems t l) :
      Elems (u ++ (s ++ (w ++ 44 :: t))) (v :: l)

/-- members separated by commas; a member is a string, a colon and a value. -/
inductive Members : Bytes → List (Bytes × Json) → Prop
  | one (u k w u' s w' : Bytes) (v : Json) (hu : Ws u) (hk : Plain k) (hw : Ws w) (hu' : Ws u') (hv : Val s v) (hw' : Ws w') :
      Members (u ++ 34 :: (k ++ 34 :: (w ++ 58 :: (u' ++ (s ++ w'))))) [(k, v)]
  | cons (u k w u' s w' t : Bytes) (v : Json) (l : List (Bytes × Json)) (hu : Ws u) (hk : Plain k) (hw : Ws w) (hu' : Ws u') (hv : Val s v)
      (hw' : Ws w') (h : Members t l) :
      Members (u ++ 34 :: (k ++ 34 :: (w ++ 58 :: (u' ++ (s ++ (w' ++ 44 :: t)))))) ((k, v) :: l)
end

/-- a JSON text: one value with white space around it. -/
def Text (t : Bytes) (v : Json) : Prop := ∃ u s w, Ws u ∧ Val s v ∧ Ws w ∧ t = u ++ (s ++ w)

/-! ## values of the type of a message -/

/-- the number written by decimal digits. -/
def number (s : Bytes) : Nat := s.foldl (fun a c => 10 * a + (c.toNat - 48)) 0

/-- a value for a 64-bit word. -/
def WordOk (v : Json) : Prop := v = .null ∨ ∃ s, v = .num s ∧ (∀ c ∈ s, 48 ≤ c ∧ c ≤ 57) ∧ number s < 2 ^ 64

/-- a value for a field element: only the first four entries of an array count. -/
def FieldOk (v : Json) : Prop := v = .null ∨ ∃ l, v = .arr l ∧ ∀ x ∈ l.take 4, WordOk x

/-- a value for a list of field elements. -/
def FieldsOk (v : Json) : Prop := v = .null ∨ ∃ l, v = .arr l ∧ ∀ x ∈ l, FieldOk x

/-- a value for the initial state: only the first three entries count. -/
def StateOk (v : Json) : Prop := v = .null ∨ ∃ l, v = .arr l ∧ ∀ x ∈ l.take 3, FieldOk x

/-- two keys are the same but for the case of letters. -/
def SameKey (k k' : Bytes) : Prop := k.map (fun c => if 65 ≤ c ∧ c ≤ 90 then c + 32 else c) = k'.map (fun c => if 65 ≤ c ∧ c ≤ 90 then c + 32 else c)

/-- a member that fits the structure `MinaMessage`; other members are free. -/
def MemberOk (k : Bytes) (v : Json) : Prop :=
  (SameKey k "transactionPrefix".toUTF8.toList → FieldsOk v) ∧ (SameKey k "transactionSuffix".toUTF8.toList → FieldsOk v) ∧
    (SameKey k "spongeIV".toUTF8.toList → StateOk v)

/-- the texts that are messages: `null`, or an object whose members fit. -/
def MessageText (t : Bytes) : Prop := Text t .null ∨ ∃ l, Text t (.obj l) ∧ ∀ k v, (k, v) ∈ l → MemberOk k v

/-! ## which value stands for which message -/

/-- a value that stands for a word. -/
def IsWord (v : Json) (w : UInt64) : Prop := ∃ s, v = .num s ∧ (∀ c ∈ s, 48 ≤ c ∧ c ≤ 57) ∧ number s = w.toNat

/-- entry `i` of an array stands for the word `w`; a missing entry stands for 0. -/
def WordAt (l : List Json) (i : Nat) (w : UInt64) : Prop := (∃ v, l[i]? = some v ∧ IsWord v w) ∨ (l[i]? = none ∧ w = 0)

/-- a value that stands for a field element: an array of words, of which only the first four count. -/
def IsField (v : Json) (a : Limbs) : Prop := ∃ l, v = .arr l ∧ WordAt l 0 a.l0 ∧ WordAt l 1 a.l1 ∧ WordAt l 2 a.l2 ∧ WordAt l 3 a.l3

/-- entry `i` of an array stands for the field element `a`; a missing entry stands for 0. -/
def FieldAt (l : List Json) (i : Nat) (a : Limbs) : Prop := (∃ v, l[i]? = some v ∧ IsField v a) ∨ (l[i]? = none ∧ a = ⟨0, 0, 0, 0⟩)

/-- a value that stands for a list of field elements. -/
def IsFields (v : Json) (l : List Limbs) : Prop := (v = .null ∧ l = []) ∨ ∃ vs, v = .arr vs ∧ List.Forall₂ IsField vs l

/-- a value that stands for the initial state. -/
def IsState (v : Json) (iv : Limbs × Limbs × Limbs) : Prop := ∃ l, v = .arr l ∧ FieldAt l 0 iv.1 ∧ FieldAt l 1 iv.2.1 ∧ FieldAt l 2 iv.2.2

/-- the last member of the name `name` has the value `v`. -/
def Last (l : List (Bytes × Json)) (name : Bytes) (v : Json) : Prop :=
  ∃ l1 k l2, l = l1 ++ (k, v) :: l2 ∧ SameKey k name ∧ ∀ k' v', (k', v') ∈ l2 → ¬ SameKey k' name

/-- an object that stands for a message: its members fit, and the last member of each of the three names has the value of the message; the order
of the members, and members of other names, are free. -/
def Describes (l : List (Bytes × Json)) (m : MinaMessage) : Prop :=
  (∀ k v, (k, v) ∈ l → MemberOk k v) ∧ (∃ v, Last l "transactionPrefix".toUTF8.toList v ∧ IsFields v m.pre) ∧
    (∃ v, Last l "transactionSuffix".toUTF8.toList v ∧ IsFields v m.suffix) ∧ (∃ v, Last l "spongeIV".toUTF8.toList v ∧ IsState v m.iv)

end Verif.Pasta.JsonSpec
