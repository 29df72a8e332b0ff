import Verif.Bls.GroupSpec
import Verif.Bls.Kyber

/-!
# Specification: objects that hold group elements

The machine a user has in mind: an object holds an element of the group, or is unusable because decoding into it failed.  It shares with the
model only the syntax of programs (`Op`), the observations (`Obs`) and `obj`.
-/

namespace Verif.Bls.Kyber.Spec

open Verif

/-- a group with a byte format. -/
structure Grp (G : Type) where
  zero : G
  gen : G
  add : G → G → G
  neg : G → G
  smul : ℕ → G → G
  /-- the group the points are meant to lie in -/
  mem : G → Prop
  enc : G → Bytes
  size : ℕ

variable {G : Type} (K : Grp G)

/-- the member of the group whose encoding starts `s`, if there is one. -/
noncomputable def Grp.dec (s : Bytes) : Option G :=
  open Classical in if h : ∃ P, K.mem P ∧ ∃ tail, s = K.enc P ++ tail then some h.choose else none

/-- overwrite a usable object. -/
def assign (h : List (Option G)) (k : ℕ) (v : G) : Go (List (Option G) × Obs) := (obj h k) >>= fun _ => .ret (h.set k (some v), .unit)

open Classical in
/-- one call. -/
noncomputable def step (h : List (Option G)) : Op → Go (List (Option G) × Obs)
  | .point => .ret (h ++ [some K.zero], .unit)
  | .null _ => .ret (h ++ [some K.zero], .unit)
  | .base _ => .ret (h ++ [some K.gen], .unit)
  | .clone k => (obj h k) >>= fun P => .ret (h ++ [some P], .unit)
  | .set k q => (obj h q) >>= fun P => assign h k P
  | .add k a b => (obj h a) >>= fun P => (obj h b) >>= fun Q => assign h k (K.add P Q)
  | .sub k a b => (obj h a) >>= fun P => (obj h b) >>= fun Q => assign h k (K.add P (K.neg Q))
  | .neg k a => (obj h a) >>= fun P => assign h k (K.neg P)
  | .mul k s none => assign h k (K.smul s K.gen)
  | .mul k s (some q) => (obj h q) >>= fun P => assign h k (K.smul s P)
  | .equal k q => (obj h k) >>= fun P => (obj h q) >>= fun Q => .ret (h, .bool (decide (P = Q)))
  | .marshal k => (obj h k) >>= fun P => .ret (h, .bytes (K.enc P))
  | .unmarshal k s => if k < h.length then .ret (h.set k (K.dec s), .err (K.dec s).isNone) else .panic
  | .unmarshalFrom k s =>
    if k < h.length then
      if s.length < K.size then .ret (h, .read s.length true)
      else .ret (h.set k (K.dec (s.take K.size)), .read K.size (K.dec (s.take K.size)).isNone)
    else .panic
  | .inGroup k => (obj h k) >>= fun P => .ret (h, .bool (decide (K.mem P)))

/-- a sequence of calls. -/
noncomputable def run (h : List (Option G)) : List Op → Go (List (Option G) × List Obs)
  | [] => .ret (h, [])
  | o :: os => (step K h o) >>= fun r => (run r.1 os) >>= fun r' => .ret (r'.1, r.2 :: r'.2)

/-- what the caller sees. -/
noncomputable def observe (prog : List Op) : Go (List Obs) := (run K [] prog) >>= fun r => .ret r.2

end Verif.Bls.Kyber.Spec
