import Verif.Hangul.Heap
/-! What a program has stored into slices that it got from `SplitMultiElement`, told from its operations alone, for C14. -/
namespace Hangul
open Go

/-- The letter whose slice a call hands out, if it does. -/
def handsOut : Op → List Rune
  | .split r => if (SplitMultiElement r).isSome then [CompatJamo r] else []
  | _ => []

/-- What an operation stores at place `i` of the slice of the letter `k`, if it does; `hs` are the letters of the slices handed
out before it. -/
def stores (hs : List Rune) (k : Rune) (i : Nat) : Op → Option Rune
  | .write h j v => if hs[h]? = some k ∧ j = i then some v else none
  | _ => none

/-- What the operations have stored last at place `i` of the slice of `k`, if anything. -/
def lastStored (k : Rune) (i : Nat) : (hs : List Rune) → List Op → Option Rune
  | _, [] => none
  | hs, op :: ops => (lastStored k i (hs ++ handsOut op) ops).or (stores hs k i op)

end Hangul
