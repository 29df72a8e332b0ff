import Verif.Bls.GT
import Verif.Bls.Kyber
import Verif.Bls.Pairing

/-!
# The pairing on point objects: model of bls/pairing.go with pointers, group.go and gt.go

`Verif.Bls.Pairing` models the engine on values.  Here the engine holds references to the caller's points, as in the code: `AddPair`
brings both points into affine form in place and `AddPairInv` also negates the first one in place.  A point object is an entry of a table
(`Verif.Bls.Kyber`); an entry `none` is a nil pointer.

Type assertions (`p1.(*OwcryptG1)`) are assumed to succeed.
-/

namespace Verif.Bls.Suite

open Verif Verif.Bls.Kyber

/-- pairing.go:3-6 `pair`: the positions of the two points in their tables. -/
abbrev Ref := Nat × Nat

/-- the memory an engine works on, and its field `pairs` (pairing.go:13-20). -/
structure Eng where
  h1 : Heap Fe
  h2 : Heap Fe2
  pairs : List Ref

/-- pairing.go:54-61 `AddPair` with `isZero` (76-78), which does not look at the second point when the first is infinity, and `affine`
(80-83). -/
def addPair (bd : Build) (e : Eng) (i j : Nat) : Go Eng :=
  obj e.h1 i >>= fun p =>
    if (g1 bd).isInf p then .ret e
    else obj e.h2 j >>= fun q =>
      if (g2 bd).isInf q then .ret e
      else .ret ⟨e.h1.set i (some ((g1 bd).affine p)), e.h2.set j (some ((g2 bd).affine q)), e.pairs ++ [(i, j)]⟩

/-- pairing.go:64-68 `AddPairInv`. -/
def addPairInv (bd : Build) (e : Eng) (i j : Nat) : Go Eng :=
  obj e.h1 i >>= fun p => addPair bd { e with h1 := e.h1.set i (some ((g1 bd).negPt p)) } i j

/-- pairing.go:71-74 `Reset`. -/
def reset (e : Eng) : Eng := { e with pairs := [] }

/-- the points the engine refers to. -/
def deref (e : Eng) : List Ref → Go (List (P3 Fe × P3 Fe2))
  | [] => .ret []
  | (i, j) :: ps => obj e.h1 i >>= fun p => obj e.h2 j >>= fun q => deref e ps >>= fun r => .ret ((p, q) :: r)

/-- pairing.go:243-251 `calculate`; it does not change the points (`preCompute` works on a copy, line 156). -/
def calculate (bd : Build) (e : Eng) : Go Fe12 := deref e e.pairs >>= fun ps => .ret (Bls.calculate bd ps)

/-- pairing.go:254-256 `Check`; the pairs stay in the engine. -/
def check (bd : Build) (e : Eng) : Go Bool := calculate bd e >>= fun f => .ret (Fe12.equal Fe12.one f)

/-- pairing.go:259-263 `Result`. -/
def result (bd : Build) (e : Eng) : Go (Fe12 × Eng) := calculate bd e >>= fun f => .ret (f, reset e)

/-- one call on an engine. -/
inductive EngOp where
  | addPair (i j : Nat)
  | addPairInv (i j : Nat)
  | reset
  | check
  | result

/-- one call on an engine and what the caller sees; the element returned by `Result` is shown as its encoding (bls/gt.go:62-64 `ToBytes`). -/
def engStep (bd : Build) (e : Eng) : EngOp → Go (Eng × Obs)
  | .addPair i j => addPair bd e i j >>= fun e' => .ret (e', .unit)
  | .addPairInv i j => addPairInv bd e i j >>= fun e' => .ret (e', .unit)
  | .reset => .ret (reset e, .unit)
  | .check => check bd e >>= fun b => .ret (e, .bool b)
  | .result => result bd e >>= fun r => .ret (r.2, .bytes (Fe12.toBytes r.1))

/-- a sequence of calls on an engine. -/
def engRun (bd : Build) (e : Eng) : List EngOp → Go (Eng × List Obs)
  | [] => .ret (e, [])
  | o :: os => engStep bd e o >>= fun r => engRun bd r.1 os >>= fun r' => .ret (r'.1, r.2 :: r'.2)

/-! ## the suite -/

/-- one call on an object of the target group. -/
inductive GtOp where
  | point
  | null (k : Nat)
  | clone (k : Nat)
  | set (k q : Nat)
  | add (k a b : Nat)
  | sub (k a b : Nat)
  | equal (k q : Nat)
  | marshal (k : Nat)
  | unmarshal (k : Nat) (s : Bytes)
  | unmarshalFrom (k : Nat) (stream : Bytes)
  | unsupported (k : Nat)

/-- storing a value in `*k.f`; the pointer must not be nil. -/
def gtStore (h : List (Option Fe12)) (k : Nat) (v : Fe12) : Go (List (Option Fe12) × Obs) :=
  obj h k >>= fun _ => .ret (h.set k (some v), .unit)

/-- one call on an object of the target group.  The functions of fp12.go read both operands before they write the result
(fp12.go:123-128, 181-193), so a receiver may be an operand. -/
def gtStep (h : List (Option Fe12)) : GtOp → Go (List (Option Fe12) × Obs)
  /- group.go:81-87, gt.go:16-23 -/
  | .point => .ret (h ++ [some OwGT.new], .unit)
  /- gt.go:31-35 `Null`: the pointer is replaced -/
  | .null k => if k < h.length then .ret (h.set k OwGT.null, .unit) else .panic
  /- gt.go:50-54 `Clone` -/
  | .clone k => obj h k >>= fun a => .ret (h ++ [some a], .unit)
  /- gt.go:45-48 `Set` -/
  | .set k q => obj h q >>= fun a => gtStore h k a
  /- gt.go:56-61 `Add` -/
  | .add k a b => obj h a >>= fun x => obj h b >>= fun y => gtStore h k (OwGT.add x y)
  /- gt.go:63-68 `Sub` -/
  | .sub k a b => obj h a >>= fun x => obj h b >>= fun y => gtStore h k (OwGT.sub x y)
  /- gt.go:25-27 `Equal` -/
  | .equal k q => obj h k >>= fun x => obj h q >>= fun y => .ret (h, .bool (OwGT.equal x y))
  /- gt.go:78-80 `MarshalBinary`, 82-88 `MarshalTo` -/
  | .marshal k => obj h k >>= fun x => .ret (h, .bytes (OwGT.marshal x))
  /- gt.go:90-94 `UnmarshalBinary` -/
  | .unmarshal k s => if k < h.length then .ret (h.set k (OwGT.unmarshal s).1, .err (OwGT.unmarshal s).2) else .panic
  /- gt.go:96-107 `UnmarshalFrom`, `MarshalSize` -/
  | .unmarshalFrom k s =>
    if k < h.length then
      if s.length < 576 then .ret (h, .read s.length true)
      else .ret (h.set k (OwGT.unmarshal (s.take 576)).1, .read 576 (OwGT.unmarshal (s.take 576)).2)
    else .panic
  /- gt.go:37-43, 70-76, 114-124 `Base`, `Pick`, `Neg`, `Mul`, `EmbedLen`, `Embed`, `Data` -/
  | .unsupported _ => .panic

/-- the objects of the three groups. -/
structure St where
  h1 : Heap Fe
  h2 : Heap Fe2
  ht : List (Option Fe12)

/-- one call of a program that uses the suite. -/
inductive Op where
  | g1 (o : Kyber.Op)
  | g2 (o : Kyber.Op)
  | gt (o : GtOp)
  | validate (p1 p2 p3 p4 : Nat)
  | pair (p1 p2 : Nat)

/-- one call.  Every call of `ValidatePairing` (group.go:106-111) and of `Pair` (group.go:113-118) makes its own engine
(pairing.go:23-37). -/
def step (bd : Build) (s : St) : Op → Go (St × Obs)
  | .g1 o => Kyber.step (Bls.g1 bd) s.h1 o >>= fun r => .ret ({ s with h1 := r.1 }, r.2)
  | .g2 o => Kyber.step (Bls.g2 bd) s.h2 o >>= fun r => .ret ({ s with h2 := r.1 }, r.2)
  | .gt o => gtStep s.ht o >>= fun r => .ret ({ s with ht := r.1 }, r.2)
  | .validate p1 p2 p3 p4 =>
    addPair bd ⟨s.h1, s.h2, []⟩ p1 p2 >>= fun e =>
    addPairInv bd e p3 p4 >>= fun e =>
    check bd e >>= fun b => .ret (⟨e.h1, e.h2, s.ht⟩, .bool b)
  | .pair p1 p2 =>
    addPair bd ⟨s.h1, s.h2, []⟩ p1 p2 >>= fun e =>
    result bd e >>= fun r => .ret (⟨e.h1, e.h2, s.ht ++ [some r.1]⟩, .unit)

/-- a sequence of calls. -/
def run (bd : Build) (s : St) : List Op → Go (St × List Obs)
  | [] => .ret (s, [])
  | o :: os => step bd s o >>= fun r => run bd r.1 os >>= fun r' => .ret (r'.1, r.2 :: r'.2)

/-- what the caller sees of a program that starts with no objects. -/
def observe (bd : Build) (prog : List Op) : Go (List Obs) := run bd ⟨[], [], []⟩ prog >>= fun r => .ret r.2

end Verif.Bls.Suite
