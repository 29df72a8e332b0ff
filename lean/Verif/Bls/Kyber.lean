import Verif.Bls.Group
import Verif.Go

/-!
# Point objects: model of bls12_381/g1.go and bls12_381/g2.go

`OwcryptG1` and `OwcryptG2` are mutable objects (`kyber.Point`).  A state is the table of the objects created so far; the entry of an
object is its field `p`, `none` when it is nil.  No two objects share a `bls.PointG1`: every method that stores a pointer stores a fresh
one (g1.go:18-33, 49-53, 101; g2.go:23-39, 55-59, 107).  The functions of bls/g1.go and bls/g2.go read their arguments before they write
the corresponding coordinate of the result (bls/g1.go:328-439, bls/g2.go:336-447), so a receiver that is also an argument is covered by
storing the value of the pure function.

Not modelled here: `Pick`, `Hash` (Verif.Bls.HashG2), `String`, and `Embed`, `EmbedLen`, `Data`, which panic.
-/

namespace Verif.Bls.Kyber

open Verif

/-- one call; objects are named by their position in the table. -/
inductive Op where
  | point
  | null (k : Nat)
  | base (k : Nat)
  | clone (k : Nat)
  | set (k q : Nat)
  | add (k a b : Nat)
  | sub (k a b : Nat)
  | neg (k a : Nat)
  | mul (k s : Nat) (q : Option Nat)
  | equal (k q : Nat)
  | marshal (k : Nat)
  | unmarshal (k : Nat) (s : Bytes)
  | unmarshalFrom (k : Nat) (stream : Bytes)
  | inGroup (k : Nat)
  deriving Repr

/-- what the caller sees of a call. -/
inductive Obs where
  | unit
  | bool (b : Bool)
  | bytes (s : Bytes)
  | err (b : Bool)
  | read (n : Nat) (b : Bool)
  deriving Repr, DecidableEq

section Model

variable {α : Type} (g : Ops α)

/-- the table of objects. -/
abbrev Heap (α : Type) := List (Option (P3 α))

/-- reading `k.p`: nil dereferences panic. -/
def obj {β : Type} (h : List (Option β)) (k : Nat) : Go β :=
  match h[k]? with
  | some (some p) => .ret p
  | _ => .panic

/-- storing the value `v` in `*k.p`; the pointer must not be nil. -/
def store (h : Heap α) (k : Nat) (v : P3 α) : Go (Heap α × Obs) := (obj h k) >>= fun _ => .ret (h.set k (some v), .unit)

/-- g1.go:99-103, g2.go:105-109 `UnmarshalBinary` without the error value: `k.p` is nil after an error. -/
def setUnmarshal (h : Heap α) (k : Nat) (s : Bytes) : Heap α := h.set k (g.fromCompressed s)

/-- one call. -/
def step (h : Heap α) : Op → Go (Heap α × Obs)
  /- group.go:66, 74 (`Point`), g1.go:18-21, g2.go:23-26 -/
  | .point => .ret (h ++ [some g.blank], .unit)
  /- g1.go:30-32, g2.go:36-38 `Null`: a new object, the receiver is not used -/
  | .null _ => .ret (h ++ [some g.infinity], .unit)
  /- g1.go:34-36, g2.go:40-42 `Base`: a new object, the receiver is not used -/
  | .base _ => .ret (h ++ [some g.gen], .unit)
  /- g1.go:49-53, g2.go:55-59 `Clone` -/
  | .clone k => (obj h k) >>= fun p => .ret (h ++ [some p], .unit)
  /- g1.go:44-47, g2.go:50-53 `Set` -/
  | .set k q => (obj h q) >>= fun p => store h k p
  /- g1.go:67-72, g2.go:73-78 `Add` -/
  | .add k a b => (obj h a) >>= fun p => (obj h b) >>= fun q => store h k (g.addPt p q)
  /- g1.go:74-79, g2.go:80-85 `Sub` -/
  | .sub k a b => (obj h a) >>= fun p => (obj h b) >>= fun q => store h k (g.subPt p q)
  /- g1.go:81-85, g2.go:87-91 `Neg` -/
  | .neg k a => (obj h a) >>= fun p => store h k (g.negPt p)
  /- g1.go:87-93, g2.go:93-99 `Mul`: a nil point stands for the base point -/
  | .mul k s q =>
    ((match q with
      | none => Go.ret g.gen
      | some q => obj h q : Go (P3 α))) >>= fun p => store h k (g.mulScalar p s)
  /- g1.go:26-28, g2.go:32-34 `Equal` -/
  | .equal k q => (obj h k) >>= fun p => (obj h q) >>= fun p' => .ret (h, .bool (g.eqPt p p'))
  /- g1.go:95-97, g2.go:101-103 `MarshalBinary`: `ToCompressed` leaves the point in affine form (bls/g1.go:161-174, bls/g2.go:169-182);
     also `MarshalTo` (g1.go:105-111, g2.go:111-117) -/
  | .marshal k => (obj h k) >>= fun p => .ret (h.set k (some (g.affine p)), .bytes (g.toCompressed p))
  | .unmarshal k s => if k < h.length then .ret (setUnmarshal g h k s, .err (g.fromCompressed s).isNone) else .panic
  /- g1.go:113-124, g2.go:119-130 `UnmarshalFrom`, `MarshalSize`; `stream` is what the reader delivers.  A short read leaves `k` alone. -/
  | .unmarshalFrom k s =>
    if k < h.length then
      if s.length < g.size then .ret (h, .read s.length true)
      else .ret (setUnmarshal g h k (s.take g.size), .read g.size (g.fromCompressed (s.take g.size)).isNone)
    else .panic
  /- g1.go:138-140, g2.go:160-162 `IsInCorrectGroup` -/
  | .inGroup k => (obj h k) >>= fun p => .ret (h, .bool (g.inSubgroup p))

/-- a sequence of calls: the final table and everything the caller saw. -/
def run (h : Heap α) : List Op → Go (Heap α × List Obs)
  | [] => .ret (h, [])
  | o :: os => (step g h o) >>= fun r => (run r.1 os) >>= fun r' => .ret (r'.1, r.2 :: r'.2)

/-- what the caller sees of a program that starts with no objects. -/
def observe (prog : List Op) : Go (List Obs) := (run g [] prog) >>= fun r => .ret r.2

end Model

end Verif.Bls.Kyber
