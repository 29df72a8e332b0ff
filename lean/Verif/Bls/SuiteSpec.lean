import Verif.Bls.KyberSpec
import Verif.Bls.GTSpec
import Verif.Bls.Suite

/-!
# Specification: a pairing engine and a suite over group elements

The machines share with the model only the syntax of programs, the observations and `obj`.  They follow the code in two respects that a
caller has to know: the engine keeps references, so a pair is evaluated with the value its object has when the engine is asked; and
adding an inverted pair negates the object itself.
-/

namespace Verif.Bls.Suite.Spec

open Verif Verif.Bls.Kyber Verif.Bls.Spec

/-- the objects and the pairs of an engine. -/
structure Eng where
  h1 : List (Option E1.Point)
  h2 : List (Option E2.Point)
  pairs : List Ref

open Classical in
/-- add a pair; a pair with infinity contributes nothing and is not kept. -/
noncomputable def addPair (e : Eng) (i j : ℕ) : Go Eng :=
  obj e.h1 i >>= fun P =>
    if P = 0 then .ret e
    else obj e.h2 j >>= fun T => if T = 0 then .ret e else .ret { e with pairs := e.pairs ++ [(i, j)] }

/-- negate the first object, then add the pair. -/
noncomputable def addPairInv (e : Eng) (i j : ℕ) : Go Eng :=
  obj e.h1 i >>= fun P => addPair { e with h1 := e.h1.set i (some (-P)) } i j

/-- the value of an object. -/
def val {G : Type} [Zero G] (h : List (Option G)) (k : ℕ) : G :=
  match h[k]? with
  | some (some P) => P
  | _ => 0

/-- the product of the pairings of the objects, as they are now. -/
noncomputable def product (e : Eng) : Fq12 := (e.pairs.map fun p => pairing (val e.h1 p.1) (val e.h2 p.2)).prod

/-- the encoding of an element of the target field: twelve numbers of 48 bytes. -/
noncomputable def encGT (z : Fq12) : Bytes := open Classical in if h : ∃ s, EncodesGT s z then h.choose else []

open Classical in
/-- one call on an engine. -/
noncomputable def engStep (e : Eng) : EngOp → Go (Eng × Obs)
  | .addPair i j => addPair e i j >>= fun e' => .ret (e', .unit)
  | .addPairInv i j => addPairInv e i j >>= fun e' => .ret (e', .unit)
  | .reset => .ret ({ e with pairs := [] }, .unit)
  | .check => .ret (e, .bool (decide (product e = 1)))
  | .result => .ret ({ e with pairs := [] }, .bytes (encGT (product e ^ 3)))

/-- a sequence of calls on an engine. -/
noncomputable def engRun (e : Eng) : List EngOp → Go (Eng × List Obs)
  | [] => .ret (e, [])
  | o :: os => engStep e o >>= fun r => engRun r.1 os >>= fun r' => .ret (r'.1, r.2 :: r'.2)

/-! ## what one expects of an engine -/

open Classical in
/-- one call on the engine one expects: it holds the product of the pairings added so far, each with the values its points had when it
was added, and never changes a point. -/
noncomputable def idealStep (H1 : List (Option E1.Point)) (H2 : List (Option E2.Point)) (z : Fq12) : EngOp → Go (Fq12 × Obs)
  | .addPair i j => obj H1 i >>= fun P => if P = 0 then .ret (z, .unit) else obj H2 j >>= fun T => .ret (z * pairing P T, .unit)
  | .addPairInv i j => obj H1 i >>= fun P => if P = 0 then .ret (z, .unit) else obj H2 j >>= fun T => .ret (z * (pairing P T)⁻¹, .unit)
  | .reset => .ret (1, .unit)
  | .check => .ret (z, .bool (decide (z = 1)))
  | .result => .ret (1, .bytes (encGT (z ^ 3)))

/-- a sequence of calls. -/
noncomputable def idealRun (H1 : List (Option E1.Point)) (H2 : List (Option E2.Point)) (z : Fq12) : List EngOp → Go (Fq12 × List Obs)
  | [] => .ret (z, [])
  | o :: os => idealStep H1 H2 z o >>= fun r => idealRun H1 H2 r.1 os >>= fun r' => .ret (r'.1, r.2 :: r'.2)

/-- the G1 object an operation hands to the engine. -/
def first : EngOp → Option ℕ
  | .addPair i _ => some i
  | .addPairInv i _ => some i
  | _ => none

/-! ## the suite -/

/-- the element with a given encoding. -/
noncomputable def decGT (s : Bytes) : Option Fq12 := open Classical in if h : ∃ z, EncodesGT s z then some h.choose else none

/-- overwrite a usable object. -/
def gtAssign (h : List (Option Fq12)) (k : ℕ) (v : Fq12) : Go (List (Option Fq12) × Obs) := obj h k >>= fun _ => .ret (h.set k (some v), .unit)

open Classical in
/-- decoding fails unless the bytes encode an element of order dividing `r`. -/
noncomputable def badGT (s : Bytes) : Bool := decide (¬ ∃ z, EncodesGT s z ∧ z ^ r = 1)

open Classical in
/-- one call on an object of the target group: `Add` multiplies, `Sub` subtracts in the field, `Null` stores 0, decoding a field element
outside the group is an error and stores the element. -/
noncomputable def gtStep (h : List (Option Fq12)) : GtOp → Go (List (Option Fq12) × Obs)
  | .point => .ret (h ++ [some 1], .unit)
  | .null k => if k < h.length then .ret (h.set k (some 0), .unit) else .panic
  | .clone k => obj h k >>= fun x => .ret (h ++ [some x], .unit)
  | .set k q => obj h q >>= fun x => gtAssign h k x
  | .add k a b => obj h a >>= fun x => obj h b >>= fun y => gtAssign h k (x * y)
  | .sub k a b => obj h a >>= fun x => obj h b >>= fun y => gtAssign h k (x - y)
  | .equal k q => obj h k >>= fun x => obj h q >>= fun y => .ret (h, .bool (decide (x = y)))
  | .marshal k => obj h k >>= fun x => .ret (h, .bytes (encGT x))
  | .unmarshal k s => if k < h.length then .ret (h.set k (decGT s), .err (badGT s)) else .panic
  | .unmarshalFrom k s =>
    if k < h.length then
      if s.length < 576 then .ret (h, .read s.length true) else .ret (h.set k (decGT (s.take 576)), .read 576 (badGT (s.take 576)))
    else .panic
  | .unsupported _ => .panic

/-- the objects of the three groups. -/
structure St where
  h1 : List (Option E1.Point)
  h2 : List (Option E2.Point)
  ht : List (Option Fq12)

variable (K1 : Kyber.Spec.Grp E1.Point) (K2 : Kyber.Spec.Grp E2.Point)

open Classical in
/-- one call of a program that uses the suite.  `ValidatePairing` leaves its third argument negated. -/
noncomputable def step (s : St) : Op → Go (St × Obs)
  | .g1 o => Kyber.Spec.step K1 s.h1 o >>= fun r => .ret ({ s with h1 := r.1 }, r.2)
  | .g2 o => Kyber.Spec.step K2 s.h2 o >>= fun r => .ret ({ s with h2 := r.1 }, r.2)
  | .gt o => gtStep s.ht o >>= fun r => .ret ({ s with ht := r.1 }, r.2)
  | .validate p1 p2 p3 p4 =>
    addPair ⟨s.h1, s.h2, []⟩ p1 p2 >>= fun e =>
    addPairInv e p3 p4 >>= fun e => .ret (⟨e.h1, e.h2, s.ht⟩, .bool (decide (product e = 1)))
  | .pair p1 p2 =>
    addPair ⟨s.h1, s.h2, []⟩ p1 p2 >>= fun e => .ret (⟨e.h1, e.h2, s.ht ++ [some (product e ^ 3)]⟩, .unit)

/-- a sequence of calls. -/
noncomputable def run (s : St) : List Op → Go (St × List Obs)
  | [] => .ret (s, [])
  | o :: os => step K1 K2 s o >>= fun r => run r.1 os >>= fun r' => .ret (r'.1, r.2 :: r'.2)

/-- what the caller sees. -/
noncomputable def observe (prog : List Op) : Go (List Obs) := run K1 K2 ⟨[], [], []⟩ prog >>= fun r => .ret r.2

end Verif.Bls.Suite.Spec
