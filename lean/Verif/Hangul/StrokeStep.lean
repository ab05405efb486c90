import Verif.Hangul.Stroke
/-
stroke.go:35-53 step by step, for programs in which other goroutines run between the steps.
-/
namespace Hangul
open Go

/-- A running call of `Stroke` (stroke.go:35-53). The counts that the recursive calls return are added up in one
counter, so their frames are a list of runes still to be counted. -/
structure StrokeCall where
  /-- runes whose count is still to be added: stroke.go:38-40, :44 -/
  todo : List Rune
  /-- inside the loop stroke.go:46-48: the key of the slice in `multiElements` and the next index -/
  cur : Option (Rune × Nat)
  /-- `c` -/
  acc : Int
  deriving DecidableEq

/-- stroke.go:35 -/
def StrokeCall.start (r : Rune) : StrokeCall := ⟨[r], none, 0⟩

/-- The call has nothing more to do and returns `acc`: stroke.go:41, :52. -/
def StrokeCall.finished (c : StrokeCall) : Bool := c.todo.isEmpty && c.cur.isNone

/-- The element at index `i` of the slice that `multiElements` (jamo.go:55-83) holds for `k`: stroke.go:46. -/
def elementAt (tbl : List (Rune × List Rune)) (k : Rune) (i : Nat) : Option Rune :=
  (mapGet tbl k).bind (·[i]?)

/-- One step, with the element of a slice of `multiElements` that it loads, if any. `tbl` is what
`multiElements` holds at the moment. Each step loads at most one element: the loop stroke.go:46-48
takes a step for every element and one to end (the slices are never replaced, so the length is that
when the loop began); a syllable (stroke.go:36-42) and the lookup stroke.go:44-45 take one step each.
The maps themselves are never assigned to, so looking up is not counted as an access. -/
def StrokeCall.step (tbl : List (Rune × List Rune)) (c : StrokeCall) :
    StrokeCall × Option (Rune × Nat) :=
  match c.cur with
  | some (k, i) =>
    match elementAt tbl k i with
    | some e => (⟨c.todo, some (k, i + 1), c.acc + strokesAt e⟩, some (k, i))
    | none => (⟨c.todo, none, c.acc⟩, none)
  | none =>
    match c.todo with
    | [] => (c, none)
    | r :: rest =>
      if 0xAC00 ≤ r && r ≤ 0xD7A3 then
        let (i, m, f) := Split r
        (⟨i :: m :: f :: rest, none, c.acc⟩, none)
      else
        let jm := CompatJamo r
        match SplitMultiElementT tbl jm with
        | some _ => (⟨rest, some (CompatJamo jm, 0), c.acc⟩, none)
        | none => (⟨rest, none, c.acc + strokesAt jm⟩, none)

end Hangul
