import Verif.Bls.Group
import Verif.Go

/-!
# Model of `MultiExp`

bls12_381/bls/g1.go:454-506 and g2.go:458-510 (the two bodies differ only in the point type).

The window width `c` is 3 for fewer than 32 scalars and `⌈log10 n⌉`, computed in floating point, otherwise (g1.go:458-461, g2.go:462-465).
The model takes `c` as an argument, so that nothing depends on the rounding of `math.Log10`.  Scalars are `big.Int`s that are never
negative, so natural numbers.
-/

namespace Verif.Bls

open Verif

namespace Ops

variable {α : Type} (g : Ops α)

/-- g1.go:479-480, g2.go:483-484: `powers[i].Uint64() & mask`. -/
def digit (c e : Nat) : Nat := (e % 2 ^ 64) &&& (2 ^ c - 1)

/-- g1.go:478-485, g2.go:482-489, the loop over the scalars: add every point to the bucket of its digit.  A digit beyond the buckets is
an index out of range (`none`). -/
def scatter (c : Nat) : List (P3 α × Nat) → List (P3 α) → Option (List (P3 α))
  | [], b => some b
  | (p, e) :: t, b =>
    let i := digit c e
    if i = 0 then scatter c t b
    else if h : i - 1 < b.length then scatter c t (b.set (i - 1) (g.addPt b[i - 1] p))
    else none

/-- g1.go:487-491, g2.go:491-495: the running sum over the buckets, from the last one; the pair is `(sum, acc)`. -/
def collect (b : List (P3 α)) : P3 α × P3 α :=
  b.foldr (fun x s => (g.addPt s.1 x, g.addPt s.2 (g.addPt s.1 x))) (g.infinity, g.infinity)

/-- g1.go:472-496, g2.go:476-500: the loop over the windows; returns the windows and what is left in `powers`.  `fuel` bounds the number
of iterations (`numBits + 1` is enough because `c` is positive). -/
def windowLoop (c : Nat) (points : List (P3 α)) : Nat → Nat → List Nat → Option (List (P3 α) × List Nat)
  | 0, _, powers => some ([], powers)
  | fuel + 1, cur, powers =>
    if cur ≤ 255 then
      match g.scatter c (points.zip powers) (List.replicate (2 ^ c - 1) g.infinity) with
      | none => none
      | some b =>
        match windowLoop c points fuel (cur + c) (powers.map (· >>> c)) with
        | none => none
        | some (ws, powers') => some ((g.collect b).2 :: ws, powers')
    else some ([], powers)

/-- `c` doublings (g1.go:499-501, g2.go:503-505). -/
def dblN : Nat → P3 α → P3 α
  | 0, p => p
  | n + 1, p => dblN n (g.dbl p)

/-- g1.go:497-503, g2.go:501-507: combine the windows, from the last one. -/
def horner (c : Nat) (ws : List (P3 α)) : P3 α := ws.foldr (fun w acc => g.addPt (g.dblN c acc) w) g.infinity

/-- g1.go:454-506, g2.go:458-510 `MultiExp`: the result (`none`: an error is returned) and the contents of the caller's `powers` slice
afterwards.  `windows` has `255 / c + 1` entries (`numBits` is 255): writing more of them, or leaving one nil, panics; so does `c = 0`. -/
def multiExp (c : Nat) (points : List (P3 α)) (powers : List Nat) : Go (Option (P3 α) × List Nat) :=
  if points.length ≠ powers.length then .ret (none, powers)
  else if c = 0 then .panic
  else
    match g.windowLoop c points 256 0 powers with
    | none => .panic
    | some (ws, powers') => if ws.length = 255 / c + 1 then .ret (some (g.horner c ws), powers') else .panic

end Ops

end Verif.Bls
