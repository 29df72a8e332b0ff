import Verif.Pasta.Api

/-!
# pasta/mina.go: `MinaMessage.ToBytes` and `NewMinaMessage`

encoding/json for the type `MinaMessage`: `Marshal` in full, `Unmarshal` as a parser of JSON texts followed by the assignment of the value
to the structure.  Simplifications: a text with a backslash or a byte outside ASCII inside a string is rejected here (Go unquotes it);
the limit of 10000 nested values is left out; of a key that occurs three times or more, array entries that are `null` may see older words in Go.
-/

namespace Verif.Pasta

/-! ## `Marshal` -/

/-- strconv.AppendUint in base 10. -/
def decAux : Nat → Nat → Bytes → Bytes
  | 0, _, acc => acc
  | f + 1, n, acc => if n < 10 then UInt8.ofNat (48 + n) :: acc else decAux f (n / 10) (UInt8.ofNat (48 + n % 10) :: acc)

/-- a word in decimal; a word has at most 20 digits. -/
def dec (w : UInt64) : Bytes := decAux 20 w.toNat []

/-- the elements of an array, separated by commas, and the closing bracket. -/
def items : List Bytes → Bytes
  | [] => [93]
  | [x] => x ++ [93]
  | x :: y :: l => x ++ 44 :: items (y :: l)

/-- an array. -/
def array (l : List Bytes) : Bytes := 91 :: items l

/-- crypto.go:12 `Field` is an array of four words. -/
def fieldText (a : Limbs) : Bytes := array [dec a.l0, dec a.l1, dec a.l2, dec a.l3]

/-- a slice of `Field`; a nil slice is `null`. -/
def sliceText (isNil : Bool) (l : List Limbs) : Bytes :=
  if isNil ∧ l = [] then "null".toUTF8.toList else array (l.map fieldText)

def keyPre : Bytes := "transactionPrefix".toUTF8.toList
def keySuffix : Bytes := "transactionSuffix".toUTF8.toList
def keyIV : Bytes := "spongeIV".toUTF8.toList

/-- a key with its quotes and the colon. -/
def member (k : Bytes) : Bytes := 34 :: (k ++ [34, 58])

/-- mina.go:11-17 `ToBytes`; `nilP` and `nilS` say whether an empty slice is nil (`Marshal` has no error for this type). -/
def MinaMessage.toBytes (nilP nilS : Bool) (m : MinaMessage) : Bytes :=
  123 :: (member keyPre ++ (sliceText nilP m.pre ++ (44 :: (member keySuffix ++ (sliceText nilS m.suffix ++ (44 :: (member keyIV ++
    (array [fieldText m.iv.1, fieldText m.iv.2.1, fieldText m.iv.2.2] ++ [125]))))))))

/-! ## `Unmarshal`: the text -/

/-- a JSON value; a number is its literal. -/
inductive Json where
  | null
  | bool (b : Bool)
  | num (lit : Bytes)
  | str (s : Bytes)
  | arr (l : List Json)
  | obj (l : List (Bytes × Json))

/-- encoding/json `isSpace`. -/
def isSpace (c : UInt8) : Bool := c == 32 || c == 9 || c == 13 || c == 10

def skip (s : Bytes) : Bytes := s.dropWhile isSpace

def isDigit (c : UInt8) : Bool := 48 ≤ c && c ≤ 57

/-- a byte that can occur in a number. -/
def isNumByte (c : UInt8) : Bool := isDigit c || c == 43 || c == 45 || c == 46 || c == 101 || c == 69

/-- one digit or more, and nothing else. -/
def digits1 (s : Bytes) : Bool := !s.isEmpty && s.all isDigit

/-- the exponent of a number, if any. -/
def expOk : Bytes → Bool
  | [] => true
  | c :: r => (c == 101 || c == 69) && (match r with
    | d :: r' => if d == 43 || d == 45 then digits1 r' else digits1 (d :: r')
    | [] => false)

/-- the fraction and exponent of a number, if any. -/
def fracOk : Bytes → Bool
  | 46 :: r => let p := r.span isDigit; !p.1.isEmpty && expOk p.2
  | s => expOk s

/-- a number without its sign. -/
def unsignedOk : Bytes → Bool
  | 48 :: r => fracOk r
  | c :: r => isDigit c && fracOk (r.dropWhile isDigit)
  | [] => false

/-- the grammar of numbers. -/
def numberOk : Bytes → Bool
  | 45 :: r => unsignedOk r
  | s => unsignedOk s

/-- the rest of a string after the opening quote, and what follows. -/
def stringRest : Bytes → Option (Bytes × Bytes)
  | [] => none
  | c :: r =>
    if c = 34 then some ([], r)
    else if c < 32 ∨ c = 92 ∨ 128 ≤ c then none
    else match stringRest r with
      | none => none
      | some (s, t) => some (c :: s, t)

mutual
/-- one value and what follows it; the fuel bounds the steps. -/
def value : Nat → Bytes → Option (Json × Bytes)
  | 0, _ => none
  | n + 1, s =>
    match skip s with
    | [] => none
    | c :: r =>
      if c = 123 then match skip r with
        | [] => none
        | d :: r' => if d = 125 then some (.obj [], r') else match members n (d :: r') with
          | none => none
          | some (l, t) => some (.obj l, t)
      else if c = 91 then match skip r with
        | [] => none
        | d :: r' => if d = 93 then some (.arr [], r') else match elems n (d :: r') with
          | none => none
          | some (l, t) => some (.arr l, t)
      else if c = 34 then match stringRest r with
        | none => none
        | some (x, t) => some (.str x, t)
      else if c = 110 then if r.take 3 = [117, 108, 108] then some (.null, r.drop 3) else none
      else if c = 116 then if r.take 3 = [114, 117, 101] then some (.bool true, r.drop 3) else none
      else if c = 102 then if r.take 4 = [97, 108, 115, 101] then some (.bool false, r.drop 4) else none
      else
        let p := (c :: r).span isNumByte
        if numberOk p.1 then some (.num p.1, p.2) else none

/-- the elements of an array up to its closing bracket. -/
def elems : Nat → Bytes → Option (List Json × Bytes)
  | 0, _ => none
  | n + 1, s =>
    match value n s with
    | none => none
    | some (v, t) => match skip t with
      | [] => none
      | c :: r =>
        if c = 93 then some ([v], r)
        else if c = 44 then match elems n r with
          | none => none
          | some (l, t') => some (v :: l, t')
        else none

/-- the members of an object up to its closing brace. -/
def members : Nat → Bytes → Option (List (Bytes × Json) × Bytes)
  | 0, _ => none
  | n + 1, s =>
    match skip s with
    | [] => none
    | q :: r =>
      if q ≠ 34 then none
      else match stringRest r with
        | none => none
        | some (k, t) => match skip t with
          | [] => none
          | c :: r' =>
            if c ≠ 58 then none
            else match value n r' with
              | none => none
              | some (v, t') => match skip t' with
                | [] => none
                | d :: r'' =>
                  if d = 125 then some ([(k, v)], r'')
                  else if d = 44 then match members n r'' with
                    | none => none
                    | some (l, u) => some ((k, v) :: l, u)
                  else none
end

/-- a whole text: one value, then white space only. -/
def jsonText (s : Bytes) : Option Json :=
  match value (2 * s.length + 2) s with
  | none => none
  | some (v, t) => if skip t = [] then some v else none

/-! ## `Unmarshal`: the assignment.  `none` for an error. -/

/-- the number of decimal digits. -/
def decVal (s : Bytes) : Nat := s.foldl (fun acc c => acc * 10 + (c.toNat - 48)) 0

/-- a `uint64`: strconv.ParseUint of the literal; `null` leaves the old word. -/
def readWord (old : UInt64) : Json → Option UInt64
  | .null => some old
  | .num lit => if lit.all isDigit ∧ decVal lit < 2 ^ 64 then some (UInt64.ofNat (decVal lit)) else none
  | _ => none

/-- an array of fixed length: missing elements are zeroed, further elements ignored, `null` leaves the old ones. -/
def readWords : List UInt64 → List Json → Option (List UInt64)
  | [], _ => some []
  | _ :: olds, [] => some (0 :: olds.map fun _ => 0)
  | o :: olds, v :: vs => match readWord o v, readWords olds vs with
    | some x, some xs => some (x :: xs)
    | _, _ => none

/-- a `Field`. -/
def readField (old : Limbs) : Json → Option Limbs
  | .null => some old
  | .arr vs => match readWords [old.l0, old.l1, old.l2, old.l3] vs with
    | some [a, b, c, d] => some ⟨a, b, c, d⟩
    | _ => none
  | _ => none

/-- the elements of a slice of `Field`, over the elements it had. -/
def readFields : List Limbs → List Json → Option (List Limbs)
  | _, [] => some []
  | olds, v :: vs => match readField (olds.headD ⟨0, 0, 0, 0⟩) v, readFields olds.tail vs with
    | some x, some xs => some (x :: xs)
    | _, _ => none

/-- a slice of `Field`; `null` makes it nil. -/
def readSlice (old : List Limbs) : Json → Option (List Limbs)
  | .null => some []
  | .arr vs => readFields old vs
  | _ => none

/-- an array of three `Field`s. -/
def readIV (old : Limbs × Limbs × Limbs) : Json → Option (Limbs × Limbs × Limbs)
  | .null => some old
  | .arr vs => match readField old.1 (vs.getD 0 (.arr [])), readField old.2.1 (vs.getD 1 (.arr [])), readField old.2.2 (vs.getD 2 (.arr [])) with
    | some a, some b, some c => some (a, b, c)
    | _, _, _ => none
  | _ => none

/-- keys are compared without regard to case. -/
def lower (s : Bytes) : Bytes := s.map fun c => if 65 ≤ c ∧ c ≤ 90 then c + 32 else c

/-- one member of the object; unknown keys are ignored. -/
def assign (m : MinaMessage) (k : Bytes) (v : Json) : Option MinaMessage :=
  if lower k = lower keyPre then (readSlice m.pre v).map fun l => { m with pre := l }
  else if lower k = lower keySuffix then (readSlice m.suffix v).map fun l => { m with suffix := l }
  else if lower k = lower keyIV then (readIV m.iv v).map fun x => { m with iv := x }
  else some m

/-- all members in order. -/
def assigns : MinaMessage → List (Bytes × Json) → Option MinaMessage
  | m, [] => some m
  | m, (k, v) :: l => match assign m k v with
    | none => none
    | some m' => assigns m' l

/-- `MinaMessage{}`. -/
def MinaMessage.zero : MinaMessage := ⟨[], [], ⟨0, 0, 0, 0⟩, ⟨0, 0, 0, 0⟩, ⟨0, 0, 0, 0⟩⟩

/-- mina.go:19-26 `NewMinaMessage`: `none` for an error. -/
def newMinaMessage (input : Bytes) : Option MinaMessage :=
  match jsonText input with
  | some .null => some .zero
  | some (.obj l) => assigns .zero l
  | _ => none

end Verif.Pasta
