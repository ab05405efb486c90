import Verif.Hangul.Stroke
/-
jamo.go:86-90 returns the slice stored in the package variable `multiElements` itself, not a copy.
This file models a program that calls `SplitMultiElement` and `Stroke` in any order and uses the
slices it got. The map's set of keys never changes (no code of /repo assigns to it); what can change
is the contents of the slices.
-/
namespace Hangul
open Go

/-- State of the package (the variable of jamo.go:55-83) plus the slices the caller holds: `handles` lists, oldest first, the map
keys whose slice was returned by a successful `SplitMultiElement` call. -/
structure Pkg where
  tbl : List (Rune × List Rune)
  handles : List Rune

/-- Program start: jamo.go:55-83. -/
def Pkg.init : Pkg := { tbl := multiElements, handles := [] }

/-- What a program can do: call `SplitMultiElement` (jamo.go:86-90) or `Stroke` (stroke.go:35-53), and use the slices
it got from jamo.go:89. -/
inductive Op where
  /-- call `SplitMultiElement(r)` -/
  | split (r : Rune)
  /-- call `Stroke(r)` -/
  | stroke (r : Rune)
  /-- `es[i] = v` on the slice obtained from the `h`-th successful `split` -/
  | write (h : Nat) (i : Nat) (v : Rune)
  /-- `append(es, v)` on that slice, result not written to; each slice literal has
  `len = cap`, so Go copies it to a new array and the table is untouched -/
  | append (h : Nat) (v : Rune)

/-- What the program observes: the results of jamo.go:89 and stroke.go:52. -/
inductive Out where
  | elements (es : Option (List Rune))
  | count (c : Int)
  | unit
  deriving DecidableEq

/-- Store `v` at index `i` of the slice of key `k` of jamo.go:55-83. Out-of-range `i` panics in Go and changes
nothing (`List.set` does nothing either). -/
def writeElem : List (Rune × List Rune) → Rune → Nat → Rune → List (Rune × List Rune)
  | [], _, _, _ => []
  | (k', es) :: t, k, i, v =>
    if k' = k then (k', es.set i v) :: t else (k', es) :: writeElem t k i v

/-- One step. jamo.go:86-90 and stroke.go:35-53 read the current contents of the table. -/
def Pkg.step (s : Pkg) : Op → Pkg × Out
  | .split r =>
    match SplitMultiElementT s.tbl r with
    | some es => ({ s with handles := s.handles ++ [CompatJamo r] }, .elements (some es))
    | none => (s, .elements none)
  | .stroke r => (s, .count (StrokeT s.tbl 2 r))
  | .write h i v =>
    match s.handles[h]? with
    | some k => ({ s with tbl := writeElem s.tbl k i v }, .unit)
    | none => (s, .unit)
  | .append _ _ => (s, .unit)

/-- State of the variable of jamo.go:55-83 after a history. -/
def Pkg.run (s : Pkg) : List Op → Pkg
  | [] => s
  | op :: ops => (s.step op).1.run ops

end Hangul
