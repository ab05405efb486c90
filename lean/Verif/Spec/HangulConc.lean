import Verif.Hangul.StrokeStep
import Verif.Hangul.Heap
import Verif.Spec.Hangul
/-! Vocabulary for statements about goroutines that use `SplitMultiElement` and `Stroke`. -/
namespace Spec
open Go Hangul

/-- A goroutine. -/
structure Gor where
  /-- runes for which a call of `SplitMultiElement` has returned a slice to it, oldest first -/
  handles : List Rune
  /-- the call of `Stroke` it is in: of which rune, how many steps so far, and its state -/
  call : Option (Rune × Nat × StrokeCall)
  /-- what calls of `Stroke` returned -/
  counts : List (Rune × Int)
  /-- elements it has looked at in its results: for which rune, index, value seen -/
  loads : List (Rune × Nat × Rune)
  deriving DecidableEq

/-- An access to an element of a slice of `multiElements`. -/
structure HAccess where
  who : Nat
  key : Rune
  idx : Nat
  store : Bool
  deriving DecidableEq

/-- A program: the contents of `multiElements`, its goroutines, and all accesses so far. -/
structure HWorld where
  tbl : List (Rune × List Rune)
  gs : List Gor
  log : List HAccess
  deriving DecidableEq

/-- Program start. -/
def HWorld.init : HWorld := ⟨multiElements, [], []⟩

/-- What happens. -/
inductive HAct where
  /-- a goroutine is started -/
  | go
  /-- goroutine `i` calls `SplitMultiElement(r)` with success -/
  | split (i : Nat) (r : Rune)
  /-- goroutine `i` looks at element `j` of the result of its `h`-th successful call -/
  | load (i h j : Nat)
  /-- goroutine `i` stores `v` there; `k` is the letter that the result is of -/
  | store (i h j : Nat) (k v : Rune)
  /-- goroutine `i` calls `Stroke(r)` -/
  | stroke (i : Nat) (r : Rune)
  /-- that call takes a step -/
  | step (i : Nat)
  /-- that call returns -/
  | ret (i : Nat)
  deriving DecidableEq

/-- Goroutine `i`, while not inside a call, or inside one for `step` and `ret`, does something. -/
inductive HDoes : HWorld → HAct → HWorld → Prop
  | go {w} : HDoes w .go { w with gs := w.gs ++ [⟨[], none, [], []⟩] }
  | split {w i g r es} : w.gs[i]? = some g → g.call = none → SplitMultiElementT w.tbl r = some es →
      HDoes w (.split i r) { w with gs := w.gs.set i { g with handles := g.handles ++ [r] } }
  | load {w i g h j r v} : w.gs[i]? = some g → g.call = none → g.handles[h]? = some r →
      elementAt w.tbl (CompatJamo r) j = some v →
      HDoes w (.load i h j) { w with
        gs := w.gs.set i { g with loads := g.loads ++ [(r, j, v)] },
        log := w.log ++ [⟨i, CompatJamo r, j, false⟩] }
  | store {w i g h j r old v} : w.gs[i]? = some g → g.call = none → g.handles[h]? = some r →
      elementAt w.tbl (CompatJamo r) j = some old →
      HDoes w (.store i h j (CompatJamo r) v) { w with
        tbl := writeElem w.tbl (CompatJamo r) j v, log := w.log ++ [⟨i, CompatJamo r, j, true⟩] }
  | stroke {w i g r} : w.gs[i]? = some g → g.call = none →
      HDoes w (.stroke i r) { w with gs := w.gs.set i { g with call := some (r, 0, .start r) } }
  | step {w i g r n c} : w.gs[i]? = some g → g.call = some (r, n, c) → c.finished = false →
      HDoes w (.step i) { w with
        gs := w.gs.set i { g with call := some (r, n + 1, (c.step w.tbl).1) },
        log := w.log ++ ((c.step w.tbl).2.map fun a => (⟨i, a.1, a.2, false⟩ : HAccess)).toList }
  | ret {w i g r n c} : w.gs[i]? = some g → g.call = some (r, n, c) → c.finished = true →
      HDoes w (.ret i) { w with
        gs := w.gs.set i { g with call := none, counts := g.counts ++ [(r, c.acc)] } }

/-- Any finite sequence of such, in any order. -/
inductive HRuns : HWorld → List HAct → HWorld → Prop
  | nil {w} : HRuns w [] w
  | snoc {w as w' a w''} : HRuns w as w' → HDoes w' a w'' → HRuns w (as ++ [a]) w''

/-- A data race: two goroutines have accessed the same element, one of them to store, and nothing
orders the two (the goroutines of these programs share no channel and no lock). -/
def HRace (w : HWorld) : Prop :=
  ∃ a ∈ w.log, ∃ b ∈ w.log, a.who ≠ b.who ∧ a.key = b.key ∧ a.idx = b.idx ∧ a.store = true

/-- The letters whose strokes make up those of `r`. -/
def lettersIn (r : Rune) : List Rune :=
  if IsSyllable r then [(SplitCompat r).1, (SplitCompat r).2.1, (SplitCompat r).2.2] else [CompatJamo r]

/-- No goroutine stores into a result. -/
def NoStores (as : List HAct) : Prop := ∀ i h j k v, HAct.store i h j k v ∉ as

/-- No goroutine stores into a result for letter `k`. -/
def NoStoresTo (k : Rune) (as : List HAct) : Prop := ∀ i h j v, HAct.store i h j k v ∉ as

end Spec
